import Verif.Proofs.ClipChain

/-!
# The clipped mesh and the boundary polygons bound a body (C75)
-/

namespace MM
namespace Clipper

set_option linter.unusedSectionVars false
set_option linter.unusedSimpArgs false
set_option linter.unusedVariables false

variable {K : Type*} [Field K] [LinearOrder K] [IsStrictOrderedRing K]

lemma onSegment_cutPt {p : Plane K} {a b x : V3 K} (h : OnSegment a b x) (hx : p.dist x = 0) (hab : p.dist a * p.dist b < 0) :
    x = p.cutPt a b := by
  apply IsCut.eq_cutPt
  refine ⟨hab, ?_⟩
  obtain ⟨t, h0, h1, rfl⟩ := h
  have hd : p.dist ((1 - t) • a + t • b) = (1 - t) * p.dist a + t * p.dist b := by
    simp only [Plane.dist, V3.dot, V3.add_x, V3.add_y, V3.add_z, V3.smul_x, V3.smul_y, V3.smul_z]; ring
  rw [hd] at hx
  have ht : p.dist a = t * (p.dist a - p.dist b) := by linarith
  have ht' : p.dist b = (t - 1) * (p.dist a - p.dist b) := by linarith
  generalize p.dist a - p.dist b = δ at *
  rw [ht, ht']
  ext <;> simp <;> ring

lemma cutPt_crosses {p : Plane K} {V : ℕ → V3 K} {e : ℕ × ℕ} (h1 : 0 < p.dist (V e.1)) (h2 : p.dist (V e.2) < 0) :
    CrossesDown p V e (p.cutPt (V e.1) (V e.2)) := by
  have hne : p.dist (V e.1) - p.dist (V e.2) ≠ 0 := by linarith
  have : IsCut p (V e.1) (V e.2) (p.cutPt (V e.1) (V e.2)) := by
    refine ⟨mul_neg_of_pos_of_neg h1 h2, ?_⟩
    rw [Plane.cutPt, smul_smul, mul_inv_cancel₀ hne, one_smul]
  exact ⟨h1, h2, isCut_onSegment this⟩

lemma CrossesDown.eq_cutPt {p : Plane K} {V : ℕ → V3 K} {e : ℕ × ℕ} {x : V3 K} (h : CrossesDown p V e x) :
    x = p.cutPt (V e.1) (V e.2) :=
  onSegment_cutPt h.2.2.1 h.2.2.2 (mul_neg_of_pos_of_neg h.1 h.2.1)

lemma reversed_dist (p : Plane K) (v : V3 K) : p.reversed.dist v = -p.dist v := by
  simp only [Plane.reversed, Plane.dist, V3.dot, V3.neg_x, V3.neg_y, V3.neg_z]; ring

lemma up_unique {p : Plane K} {m : Mesh K} (hq : QuadsCross m) {f : Face} (hf : f ∈ m.faces) {e e' : ℕ × ℕ}
    (he : e ∈ f.directedEdges) (he' : e' ∈ f.directedEdges) (h1 : p.dist (m.vert e.1) < 0) (h2 : 0 < p.dist (m.vert e.2))
    (h3 : p.dist (m.vert e'.1) < 0) (h4 : 0 < p.dist (m.vert e'.2)) : e = e' := by
  apply down_unique (p := p.reversed) hq hf he he' <;> rw [reversed_dist] <;> linarith

/-- The section of a face is given by its edges that go down and up. -/
lemma sectionEdge_eq {p : Plane K} {m : Mesh K} (hq : QuadsCross m) {f : Face} (hf : f ∈ m.faces) {x y : V3 K}
    (h : FaceCrosses p m.vert f x y) : f.sectionEdge p m.vert = some (x, y) := by
  obtain ⟨⟨e, he, c1⟩, ⟨e', he', c2⟩⟩ := h
  unfold Face.sectionEdge
  cases hf1 : f.directedEdges.find? (fun e => decide (0 < p.dist (m.vert e.1)) && decide (p.dist (m.vert e.2) < 0)) with
  | none =>
    rw [List.find?_eq_none] at hf1
    exact absurd (by simp only [Bool.and_eq_true, decide_eq_true_eq]; exact ⟨c1.1, c1.2.1⟩) (hf1 _ he)
  | some d =>
    cases hf2 : f.directedEdges.find? (fun e => decide (p.dist (m.vert e.1) < 0) && decide (0 < p.dist (m.vert e.2))) with
    | none =>
      rw [List.find?_eq_none] at hf2
      exact absurd (by simp only [Bool.and_eq_true, decide_eq_true_eq]; exact ⟨c2.2.1, c2.1⟩) (hf2 _ he')
    | some d' =>
      have m1 := List.mem_of_find?_eq_some hf1
      have m2 := List.mem_of_find?_eq_some hf2
      have e1 := List.find?_some hf1
      have e2 := List.find?_some hf2
      simp only [Bool.and_eq_true, decide_eq_true_eq] at e1 e2
      have u1 := down_unique hq hf m1 he e1.1 e1.2 c1.1 c1.2.1
      have u2 := up_unique hq hf m2 he' e2.1 e2.2 c2.2.1 c2.1
      subst u1 u2
      have k2 := CrossesDown.eq_cutPt c2
      rw [cutPt_symm] at k2
      simp only [Prod.fst_swap, Prod.snd_swap] at k2
      simp only [Option.some.injEq, Prod.mk.injEq]
      exact ⟨(CrossesDown.eq_cutPt c1).symm, k2.symm⟩

/-- A face with corners on both sides has a section. -/
lemma sectionEdge_none {p : Plane K} {m : Mesh K} {f : Face} (h : ¬ FaceOnBothSides p m.vert f) :
    f.sectionEdge p m.vert = none := by
  unfold Face.sectionEdge
  cases hf1 : f.directedEdges.find? (fun e => decide (0 < p.dist (m.vert e.1)) && decide (p.dist (m.vert e.2) < 0)) with
  | none => rfl
  | some d =>
    have m1 := List.mem_of_find?_eq_some hf1
    have e1 := List.find?_some hf1
    simp only [Bool.and_eq_true, decide_eq_true_eq] at e1
    exact absurd ⟨⟨_, (edges_mem_toList m1).1, e1.1⟩, ⟨_, (edges_mem_toList m1).2, e1.2⟩⟩ h

lemma filterMap_filter' {α β : Type*} {g : α → Option β} {q : α → Bool} : ∀ {l : List α},
    (∀ a ∈ l, q a = false → g a = none) → l.filterMap g = (l.filter q).filterMap g := by
  intro l
  induction l with
  | nil => simp
  | cons a l ih =>
    intro h
    have ih := ih (fun x hx => h x (List.mem_cons_of_mem _ hx))
    by_cases hq : q a = true
    · rw [List.filter_cons_of_pos hq, List.filterMap_cons, List.filterMap_cons, ih]
    · rw [List.filter_cons_of_neg hq, List.filterMap_cons, h a (by simp) (by simpa using hq), ih]

/-! ## C75 -/

/-- **C75** (partial: general position, crossing diagonals, distinct points apart). For a watertight mesh, the clipped mesh
and the section of the mesh by the plane make a closed surface: between any two points, they have as many edges in one
direction as in the other. -/
theorem C75_section_closes_partial (srt : (ℕ → K) → List ℕ → List ℕ) (hsrt : IsArgsort srt) (p : Plane K) (tol : K)
    (htol : 0 ≤ tol) (b : Bool) (m : Mesh K) (hwf : m.WF) (hcl : m.ClosedOriented)
    (hpos : ∀ f ∈ m.faces, ∀ i ∈ f.toList, tol < |p.dist (m.vert i)|) (hq : QuadsCross m) (hsep : m.WellSeparated p)
    (c : Clipped K) (hc : clip srt p tol b m = .ok c) (u v : V3 K) :
    c.clipped.pointEdges.count (u, v) + (m.sectionEdges p).count (u, v) =
      c.clipped.pointEdges.count (v, u) + (m.sectionEdges p).count (v, u) := by
  have key := clip_closed hsrt htol hwf hcl hpos hq hsep hc (φ := fun x y =>
    (if (x, y) = (u, v) then (1 : K) else 0) - (if (x, y) = (v, u) then (1 : K) else 0)) (by
      intro x y
      simp only [Prod.mk.injEq]
      by_cases h1 : x = u ∧ y = v <;> by_cases h2 : x = v ∧ y = u
      · rw [if_pos h1, if_pos h2, if_pos ⟨h2.2, h2.1⟩, if_pos ⟨h1.2, h1.1⟩]; ring
      · rw [if_pos h1, if_neg h2, if_neg (fun h => h2 ⟨h.2, h.1⟩), if_pos ⟨h1.2, h1.1⟩]; ring
      · rw [if_neg h1, if_pos h2, if_pos ⟨h2.2, h2.1⟩, if_neg (fun h => h1 ⟨h.2, h.1⟩)]; ring
      · rw [if_neg h1, if_neg h2, if_neg (fun h => h2 ⟨h.2, h.1⟩), if_neg (fun h => h1 ⟨h.2, h.1⟩)]; ring)
  simp only [Prod.mk.eta] at key
  rw [count_antisymm, count_antisymm] at key
  have : ((c.clipped.pointEdges.count (u, v) + (m.sectionEdges p).count (u, v) : ℕ) : K) =
      ((c.clipped.pointEdges.count (v, u) + (m.sectionEdges p).count (v, u) : ℕ) : K) := by
    push_cast; linarith
  exact_mod_cast this

lemma crossesOnce_sep {p : Plane K} {m : Mesh K} (hsep : m.WellSeparated p) (hone : m.CrossesOnce p) :
    ∀ e ∈ m.directedEdges, ∀ e' ∈ m.directedEdges, ∀ x x', CrossesDown p m.vert e x →
      CrossesDown p m.vert e' x' → V3.Close (1 / 100000) x x' → e = e' := by
  intro e he e' he' x x' h1 h2 h3
  have : x = x' := hsep x x' (.inr ⟨e, he, mul_neg_of_pos_of_neg h1.1 h1.2.1, CrossesDown.eq_cutPt h1⟩)
    (.inr ⟨e', he', mul_neg_of_pos_of_neg h2.1 h2.2.1, CrossesDown.eq_cutPt h2⟩) h3
  subst this
  exact hone e he e' he' x h1 h2

/-- **C75** (partial: general position, crossing diagonals, distinct points apart, no two edges crossing the plane at the
same point). For a watertight mesh, the boundary polygons returned by the clipper are the section of the mesh by the plane:
their edges are, each exactly once, the segments in which the faces meet the plane. -/
theorem C75_polygons_are_the_section_partial (srt : (ℕ → K) → List ℕ → List ℕ) (hsrt : IsArgsort srt) (p : Plane K) (tol : K)
    (htol : 0 ≤ tol) (b : Bool) (m : Mesh K) (hwf : m.WF)
    (hnd : m.directedEdges.Nodup) (hrev : ∀ e ∈ m.directedEdges, e.swap ∈ m.directedEdges)
    (hpos : ∀ f ∈ m.faces, ∀ i ∈ f.toList, tol < |p.dist (m.vert i)|) (hq : QuadsCross m) (hsep : m.WellSeparated p)
    (hone : m.CrossesOnce p) (c : Clipped K) (hc : clip srt p tol b m = .ok c) :
    c.polygonEdges.Perm (m.sectionEdges p) := by
  obtain ⟨hopen, _⟩ := C45_watertight_partial srt hsrt p tol htol m hwf hnd hrev hpos hq (crossesOnce_sep hsep hone)
  have hopen := hopen b c hc
  have hcf : clip srt p tol false m = .ok c := by
    cases b with
    | false => exact hc
    | true =>
      cases hf : clip srt p tol false m with
      | ok c' =>
        have h1 := ((C44_polygons_partial srt hsrt p tol htol m hwf hpos hq c' hf).2.2.2.2)
        have h2 := (C44_polygons_partial srt hsrt p tol htol m hwf hpos hq c' hf).2.2.2.1
        by_cases ho : c'.openLines = []
        · have := h1.2 ho
          rw [hc] at this
          rw [← this]
        · have := h2.2 ho
          rw [hc] at this; cases this
      | error e =>
        exfalso
        unfold clip at hf hc
        cases h1 : vertexDists p tol m with
        | error e => simp [h1] at hc
        | ok d =>
          simp only [h1] at hf hc
          cases h2 : partition tol d m with
          | error e => simp [h2] at hc
          | ok part =>
            simp only [h2] at hf hc
            cases h3 : clipCrown srt p tol part.crown part.crownDists with
            | error e => simp [h3] at hc
            | ok t =>
              obtain ⟨cm, direct, inv⟩ := t
              simp only [h3] at hf hc
              cases h4 : Mesh.add srt part.lower cm with
              | ok w => simp [h4] at hf
              | error e =>
                rw [h4] at hc
                simp only at hc
                split_ifs at hc
  obtain ⟨⟨crossing, hcr, edges, hall, hperm⟩, _⟩ := C44_polygons_partial srt hsrt p tol htol m hwf hpos hq c hcf
  obtain ⟨_, _, _, _, _, _, _, _, hcp, _⟩ := clip_planned hsrt htol hwf hpos hq hsep hc
  have hclip : ∀ f ∈ m.faces, ∀ e ∈ f.directedEdges, ∀ x, CrossesDown p m.vert e x → m.ClipPoint p x := by
    intro f hf e he x h
    exact .inr ⟨e, List.mem_flatMap.2 ⟨f, hf, he⟩, mul_neg_of_pos_of_neg h.1 h.2.1, CrossesDown.eq_cutPt h⟩
  have hclip' : ∀ f ∈ m.faces, ∀ e ∈ f.directedEdges, ∀ x, CrossesDown p m.vert e.swap x → m.ClipPoint p x := by
    intro f hf e he x h
    refine .inr ⟨e, List.mem_flatMap.2 ⟨f, hf, he⟩, ?_, ?_⟩
    · rw [mul_comm]; exact mul_neg_of_pos_of_neg h.1 h.2.1
    · rw [cutPt_symm]; exact CrossesDown.eq_cutPt h
  -- the edges, exactly
  have hall' : List.Forall₂ (fun f e => f ∈ m.faces ∧
      FaceCrosses p m.vert f (c.clippedCrown.vert e.1) (c.clippedCrown.vert e.2)) (m.faces.filter crossing) edges := by
    rw [List.forall₂_iff_get] at hall ⊢
    refine ⟨hall.1, fun k h1 h2 => ?_⟩
    obtain ⟨x, y, u, v, hfc, g1, g2, g3, g4⟩ := hall.2 k h1 h2
    have hf : (m.faces.filter crossing).get ⟨k, h1⟩ ∈ m.faces := List.mem_of_mem_filter (List.get_mem _ _)
    have hu : c.clippedCrown.vert (edges.get ⟨k, h2⟩).1 = u := by
      rw [Mesh.vert, List.getD_eq_getElem?_getD, g1]; rfl
    have hv : c.clippedCrown.vert (edges.get ⟨k, h2⟩).2 = v := by
      rw [Mesh.vert, List.getD_eq_getElem?_getD, g3]; rfl
    have cu := hcp u (List.mem_of_getElem? g1)
    have cv := hcp v (List.mem_of_getElem? g3)
    obtain ⟨⟨e, he, c1⟩, ⟨e', he', c2⟩⟩ := id hfc
    have eu := hsep x u (hclip _ hf e he x c1) cu g2
    have ev := hsep y v (hclip' _ hf e' he' y c2) cv g4
    rw [hu, hv, ← eu, ← ev]
    exact ⟨hf, hfc⟩
  have hnodup : (edges.map Prod.fst).Nodup := by
    have hpw : (m.faces.filter crossing).Pairwise (fun f g => List.Disjoint f.directedEdges g.directedEdges) :=
      ((List.nodup_flatMap.1 hnd).2).sublist List.filter_sublist
    rw [List.Nodup, List.pairwise_map]
    rw [List.forall₂_iff_get] at hall'
    rw [List.pairwise_iff_getElem] at hpw ⊢
    intro i j hi hj hij heq
    have hi' : i < (m.faces.filter crossing).length := by rw [hall'.1]; exact hi
    have hj' : j < (m.faces.filter crossing).length := by rw [hall'.1]; exact hj
    obtain ⟨f1, ⟨e, he, c1⟩, _⟩ := hall'.2 i hi' hi
    obtain ⟨f2, ⟨e', he', c2⟩, _⟩ := hall'.2 j hj' hj
    simp only [List.get_eq_getElem] at *
    rw [← heq] at c2
    have := hone e (List.mem_flatMap.2 ⟨_, f1, he⟩) e' (List.mem_flatMap.2 ⟨_, f2, he'⟩) _ c1 c2
    subst this
    exact hpw i j hi' hj' hij he he'
  have hp := (hperm hnodup).1
  rw [hopen, List.append_nil] at hp
  unfold Clipped.polygonEdges
  refine (hp.map _).trans ?_
  apply List.Perm.of_eq
  rw [Mesh.sectionEdges, filterMap_filter' (q := crossing) (fun f hf hcf => sectionEdge_none (fun hb => by
    rw [(hcr f hf).2 hb] at hcf; cases hcf))]
  clear hp hperm hnodup hall
  generalize m.faces.filter crossing = L at hall'
  induction hall' with
  | nil => rfl
  | @cons f e L E h _ ih =>
    rw [List.map_cons, List.filterMap_cons, sectionEdge_eq hq h.1 h.2, ih]

/-- Watertight: each directed edge once, with its reverse. -/
lemma closedOriented_of_manifold {m : Mesh K} (hnd : m.directedEdges.Nodup)
    (hrev : ∀ e ∈ m.directedEdges, e.swap ∈ m.directedEdges) : m.ClosedOriented := by
  intro i j
  rw [List.Nodup.count hnd, List.Nodup.count hnd]
  have : (i, j) ∈ m.directedEdges ↔ (j, i) ∈ m.directedEdges := ⟨fun h => hrev _ h, fun h => hrev _ h⟩
  simp only [this]

/-- **C75** (partial: same hypotheses). The clipped mesh, together with lids along the boundary polygons the clipper returns,
is closed: between any two points there are as many edges in one direction as in the other. -/
theorem C75_wetted_body_closed_partial (srt : (ℕ → K) → List ℕ → List ℕ) (hsrt : IsArgsort srt) (p : Plane K) (tol : K)
    (htol : 0 ≤ tol) (b : Bool) (m : Mesh K) (hwf : m.WF)
    (hnd : m.directedEdges.Nodup) (hrev : ∀ e ∈ m.directedEdges, e.swap ∈ m.directedEdges)
    (hpos : ∀ f ∈ m.faces, ∀ i ∈ f.toList, tol < |p.dist (m.vert i)|) (hq : QuadsCross m) (hsep : m.WellSeparated p)
    (hone : m.CrossesOnce p) (c : Clipped K) (hc : clip srt p tol b m = .ok c) (u v : V3 K) :
    c.clipped.pointEdges.count (u, v) + c.polygonEdges.count (u, v) =
      c.clipped.pointEdges.count (v, u) + c.polygonEdges.count (v, u) := by
  have hp := C75_polygons_are_the_section_partial srt hsrt p tol htol b m hwf hnd hrev hpos hq hsep hone c hc
  rw [hp.count_eq, hp.count_eq]
  exact C75_section_closes_partial srt hsrt p tol htol b m hwf (closedOriented_of_manifold hnd hrev) hpos hq hsep c hc u v

/-- The points of `ClipPoint`, as a list. -/
def clipPoints (p : Plane K) (m : Mesh K) : List (V3 K) :=
  m.vertices ++ (m.directedEdges.filter (fun e => decide (p.dist (m.vert e.1) * p.dist (m.vert e.2) < 0))).map
    (fun e => p.cutPt (m.vert e.1) (m.vert e.2))

lemma wellSeparated_of_list {p : Plane K} {m : Mesh K}
    (h : ∀ X ∈ clipPoints p m, ∀ Y ∈ clipPoints p m, V3.Close (1 / 100000) X Y → X = Y) : m.WellSeparated p := by
  have hm : ∀ X, m.ClipPoint p X → X ∈ clipPoints p m := by
    rintro X (hX | ⟨e, he, h1, rfl⟩)
    · exact List.mem_append_left _ hX
    · refine List.mem_append_right _ (List.mem_map.2 ⟨e, List.mem_filter.2 ⟨he, by simpa using h1⟩, rfl⟩)
  exact fun X Y hX hY => h X (hm X hX) Y (hm Y hY)

lemma crossesOnce_of_list {p : Plane K} {m : Mesh K}
    (h : ∀ e ∈ m.directedEdges, ∀ e' ∈ m.directedEdges, 0 < p.dist (m.vert e.1) → p.dist (m.vert e.2) < 0 →
      0 < p.dist (m.vert e'.1) → p.dist (m.vert e'.2) < 0 →
      p.cutPt (m.vert e.1) (m.vert e.2) = p.cutPt (m.vert e'.1) (m.vert e'.2) → e = e') : m.CrossesOnce p :=
  fun e he e' he' x h1 h2 => h e he e' he' h1.1 h1.2.1 h2.1 h2.2.1
    ((CrossesDown.eq_cutPt h1).symm.trans (CrossesDown.eq_cutPt h2))

instance (tol : K) (u v : V3 K) : Decidable (V3.Close tol u v) := by unfold V3.Close; infer_instance

/-- The cube cut at mid-height meets the hypotheses of C75; the section and the polygons have four edges. -/
theorem cube_meets_C75 : (cubeMesh ℚ).WellSeparated ⟨⟨0, 0, 1⟩, 1 / 2⟩ ∧ (cubeMesh ℚ).CrossesOnce ⟨⟨0, 0, 1⟩, 1 / 2⟩ ∧
    (cubeMesh ℚ).ClosedOriented ∧ ((cubeMesh ℚ).sectionEdges ⟨⟨0, 0, 1⟩, 1 / 2⟩).length = 4 ∧
    (match clip insArgsort (⟨⟨0, 0, 1⟩, 1 / 2⟩ : Plane ℚ) (1 / 100) false (cubeMesh ℚ) with
      | .ok c => c.polygonEdges.length == 4
      | .error _ => false) = true :=
  ⟨wellSeparated_of_list (by decide +kernel), crossesOnce_of_list (by decide +kernel),
    closedOriented_of_manifold (by decide +kernel) (by decide +kernel), by decide +kernel, by decide +kernel⟩

/-- An octahedron with two vertices `5e-6` apart. -/
def nearOctahedron : Mesh ℚ :=
  ⟨[⟨0, 0, 1⟩, ⟨1, 0, -1 / 2⟩, ⟨0, 1, -1 / 2⟩, ⟨-1, 0, -1 / 2⟩, ⟨-1, -1 / 200000, -1 / 2⟩, ⟨0, 0, -1⟩],
    [⟨0, 1, 2, 0⟩, ⟨0, 2, 3, 0⟩, ⟨0, 3, 4, 0⟩, ⟨0, 4, 1, 0⟩, ⟨5, 2, 1, 5⟩, ⟨5, 3, 2, 5⟩, ⟨5, 4, 3, 5⟩, ⟨5, 1, 4, 5⟩]⟩

/-- **C75 fails** when two vertices are within `1e-5` of each other (here `5e-6`, along one axis): they are merged in the
faces that cross the plane and not in the others, and the clipped mesh has a gap. -/
theorem C75_fails_on_close_vertices : nearOctahedron.WF ∧ nearOctahedron.directedEdges.Nodup ∧
    (∀ e ∈ nearOctahedron.directedEdges, e.swap ∈ nearOctahedron.directedEdges) ∧
    (∀ f ∈ nearOctahedron.faces, ∀ i ∈ f.toList, 1 / 1000 < |(⟨⟨0, 0, 1⟩, 0⟩ : Plane ℚ).dist (nearOctahedron.vert i)|) ∧
    (∀ f ∈ nearOctahedron.faces, f.a = f.d) ∧ ∃ c u v,
    clip insArgsort ⟨⟨0, 0, 1⟩, 0⟩ (1 / 1000) false nearOctahedron = .ok c ∧
    c.clipped.pointEdges.count (u, v) + c.polygonEdges.count (u, v) ≠
      c.clipped.pointEdges.count (v, u) + c.polygonEdges.count (v, u) := by
  refine ⟨by decide +kernel, by decide +kernel, by decide +kernel, by decide +kernel, by decide +kernel, ?_⟩
  have h : (match clip insArgsort (⟨⟨0, 0, 1⟩, 0⟩ : Plane ℚ) (1 / 1000) false nearOctahedron with
      | .ok c => c.clipped.pointEdges.any (fun e =>
        c.clipped.pointEdges.count e + c.polygonEdges.count e !=
          c.clipped.pointEdges.count e.swap + c.polygonEdges.count e.swap)
      | .error _ => false) = true := by decide +kernel
  cases hc : clip insArgsort (⟨⟨0, 0, 1⟩, 0⟩ : Plane ℚ) (1 / 1000) false nearOctahedron with
  | error e => rw [hc] at h; simp at h
  | ok c =>
    rw [hc] at h
    simp only [List.any_eq_true, bne_iff_ne] at h
    obtain ⟨e, _, he⟩ := h
    exact ⟨c, e.1, e.2, rfl, he⟩

end Clipper
end MM
