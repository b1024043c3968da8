import Verif.Props.Returns
import Verif.Props.ClipBand

/-!
# C96, with corners within the tolerance of the free surface
-/

namespace MM
namespace Clipper

set_option linter.unusedSectionVars false
set_option linter.unusedSimpArgs false
set_option linter.unusedVariables false

section
variable {K : Type*} [Field K] [LinearOrder K] [IsStrictOrderedRing K]

/-- Two opposite corners below: not both other corners in the slab or above. -/
lemma opposite_below_tol {p : Plane K} {tol : K} {a b c d : V3 K} (h : DiagonalsCross a b c d) (ha : -tol ≤ p.dist a)
    (hc : -tol ≤ p.dist c) (hb : p.dist b < -tol) (hd : p.dist d < -tol) : False := by
  have e : ∀ v, (⟨p.normal, p.c - tol⟩ : Plane K).dist v = p.dist v + tol := by intro v; simp only [Plane.dist]; ring
  exact opposite_below (p := ⟨p.normal, p.c - tol⟩) h (by rw [e]; linarith) (by rw [e]; linarith) (by rw [e]; linarith)
    (by rw [e]; linarith)

/-- The face has an edge in the boundary, along the plane, of its part below, exactly when it has a corner below the slab and
either a corner above it or two corners in it. -/
lemma tolSectionEdge_isSome {p : Plane K} {tol : K} (htol : 0 ≤ tol) {V : ℕ → V3 K} {f : Face}
    (hpos : ∀ i ∈ f.toList, |p.dist (V i)| ≠ tol) (hnd : f.corners.Nodup)
    (hq : f.a ≠ f.d → DiagonalsCross (V f.a) (V f.b) (V f.c) (V f.d)) :
    f.tolSectionEdge p tol V ≠ none ↔ (∃ i ∈ f.toList, p.dist (V i) < -tol) ∧
      ((∃ i ∈ f.toList, tol < p.dist (V i)) ∨
        ∃ i ∈ f.toList, ∃ j ∈ f.toList, i ≠ j ∧ |p.dist (V i)| < tol ∧ |p.dist (V j)| < tol) := by
  constructor
  · intro h
    unfold Face.tolSectionEdge at h
    split at h
    · rename_i e e' h1 h2
      have c1 := List.find?_some h1
      have c2 := List.find?_some h2
      have m1 := edges_mem_toList (List.mem_of_find?_eq_some h1)
      have m2 := edges_mem_toList (List.mem_of_find?_eq_some h2)
      simp only [Bool.and_eq_true, decide_eq_true_eq] at c1 c2
      refine ⟨⟨_, m1.2, c1.2⟩, ?_⟩
      split_ifs at h with hh
      · exact absurd rfl h
      · rcases (notAt_or htol (hpos _ m1.1)).2 c1.1 with k | k
        · exact .inl ⟨_, m1.1, k⟩
        · rcases (notAt_or htol (hpos _ m2.2)).2 c2.2 with k' | k'
          · exact .inl ⟨_, m2.2, k'⟩
          · exact .inr ⟨_, m1.1, _, m2.2, fun he => hh ⟨he, (abs_lt.1 k).2.le⟩, k, k'⟩
    · exact absurd rfl h
  · rintro ⟨⟨b, hbm, hb⟩, hu⟩
    simp only [abs_lt] at hu
    have hu' : ∃ i ∈ f.toList, -tol ≤ p.dist (V i) := by
      rcases hu with ⟨i, hi, h⟩ | ⟨i, hi, _, _, _, h, _⟩
      · exact ⟨i, hi, by linarith⟩
      · exact ⟨i, hi, h.1.le⟩
    obtain ⟨⟨e1, he1, k1⟩, e2, he2, k2⟩ := changes (P := fun i => decide (-tol ≤ p.dist (V i))) (f := f)
      (by simpa using hu') ⟨b, hbm, by simpa using hb⟩
    simp only [decide_eq_true_eq, decide_eq_false_iff_not, not_le] at k1 k2
    unfold Face.tolSectionEdge
    cases h1 : f.directedEdges.find? (fun e => decide (-tol ≤ p.dist (V e.1)) && decide (p.dist (V e.2) < -tol)) with
    | none =>
      exfalso
      rw [List.find?_eq_none] at h1
      have := h1 e1 he1
      simp only [Bool.and_eq_true, decide_eq_true_eq] at this
      exact this k1
    | some e =>
      cases h2 : f.directedEdges.find? (fun e => decide (p.dist (V e.1) < -tol) && decide (-tol ≤ p.dist (V e.2))) with
      | none =>
        exfalso
        rw [List.find?_eq_none] at h2
        have := h2 e2 he2
        simp only [Bool.and_eq_true, decide_eq_true_eq] at this
        exact this k2
      | some e' =>
        simp only
        rw [if_neg]
        · simp
        rintro ⟨hee, h0⟩
        have c1 := List.find?_some h1
        have c2 := List.find?_some h2
        have m1 := List.mem_of_find?_eq_some h1
        have m2 := List.mem_of_find?_eq_some h2
        simp only [Bool.and_eq_true, decide_eq_true_eq] at c1 c2
        clear h1 h2 e1 he1 k1 e2 he2 k2 hu' hbm hb b
        have hl := c1.1
        have c1 := c1.2
        have c2 := c2.1
        unfold Face.directedEdges at m1 m2
        by_cases ht : f.a = f.d
        · have hc : f.corners = [f.a, f.b, f.c] := by unfold Face.corners Face.isTri; simp [ht, Face.toList]
          rw [hc] at hnd
          simp only [List.nodup_cons, List.mem_cons, List.not_mem_nil, or_false, not_or, not_false_eq_true, List.nodup_nil,
            and_true] at hnd
          obtain ⟨⟨n1, n2⟩, n3⟩ := hnd
          rw [if_pos ht] at m1 m2
          simp only [List.mem_cons, List.not_mem_nil, or_false] at m1 m2
          simp only [Face.toList, ← ht, List.mem_cons, List.not_mem_nil, or_false] at hu
          rcases m1 with rfl | rfl | rfl <;> rcases m2 with rfl | rfl | rfl <;>
            first
            | exact absurd hee (by first | exact n1 | exact n2 | exact n3 | exact Ne.symm n1 | exact Ne.symm n2 | exact Ne.symm n3)
            | (rcases hu with ⟨i, rfl | rfl | rfl | rfl, h⟩ | ⟨i, rfl | rfl | rfl | rfl, j, rfl | rfl | rfl | rfl, hij, h, h'⟩ <;>
                first
                | exact hij rfl
                | linarith)
        · have hc : f.corners = [f.a, f.b, f.c, f.d] := by unfold Face.corners Face.isTri; simp [ht, Face.toList]
          rw [hc] at hnd
          simp only [List.nodup_cons, List.mem_cons, List.not_mem_nil, or_false, not_or, not_false_eq_true, List.nodup_nil,
            and_true] at hnd
          obtain ⟨⟨n1, n2, n3⟩, ⟨n4, n5⟩, n6⟩ := hnd
          have hx := hq ht
          rw [if_neg ht] at m1 m2
          simp only [List.mem_cons, List.not_mem_nil, or_false] at m1 m2
          simp only [Face.toList, List.mem_cons, List.not_mem_nil, or_false] at hu
          have opp : ∀ {x k y w : ℕ}, (∀ i, i = f.a ∨ i = f.b ∨ i = f.c ∨ i = f.d → i = x ∨ i = k ∨ i = y ∨ i = w) →
              p.dist (V x) < -tol → p.dist (V k) ≤ tol → p.dist (V y) < -tol → -tol ≤ p.dist (V w) := by
            intro x k y w hall dx dk dy
            rcases hu with ⟨i, hi, h⟩ | ⟨i, hi, j, hj, hij, h, h'⟩
            · rcases hall i hi with rfl | rfl | rfl | rfl <;> linarith
            · rcases hall i hi with rfl | rfl | rfl | rfl <;> rcases hall j hj with rfl | rfl | rfl | rfl <;>
                first
                | exact absurd rfl hij
                | linarith
          have o1 := opp (x := f.d) (k := f.a) (y := f.b) (w := f.c) (by intro i h; rcases h with h | h | h | h <;> simp [h])
          have o2 := opp (x := f.a) (k := f.b) (y := f.c) (w := f.d) (by intro i h; rcases h with h | h | h | h <;> simp [h])
          have o3 := opp (x := f.b) (k := f.c) (y := f.d) (w := f.a) (by intro i h; rcases h with h | h | h | h <;> simp [h])
          have o4 := opp (x := f.c) (k := f.d) (y := f.a) (w := f.b) (by intro i h; rcases h with h | h | h | h <;> simp [h])
          clear opp hu hq
          rcases m1 with rfl | rfl | rfl | rfl
          · rcases m2 with rfl | rfl | rfl | rfl
            · exact n1 hee
            · exact n2 hee
            · exact n3 hee
            · exact opposite_below_tol hx hl (o1 c2 h0 c1) c1 c2
          · rcases m2 with rfl | rfl | rfl | rfl
            · exact opposite_below_tol hx.rot hl (o2 c2 h0 c1) c1 c2
            · exact n4 hee
            · exact n5 hee
            · exact n1 hee.symm
          · rcases m2 with rfl | rfl | rfl | rfl
            · exact n4 hee.symm
            · exact opposite_below_tol hx.rot.rot hl (o3 c2 h0 c1) c1 c2
            · exact n6 hee
            · exact n2 hee.symm
          · rcases m2 with rfl | rfl | rfl | rfl
            · exact n5 hee.symm
            · exact n6 hee.symm
            · exact opposite_below_tol hx.rot.rot.rot hl (o4 c2 h0 c1) c1 c2
            · exact n3 hee.symm

end

end Clipper

/-! Transfer to the reals of facts about rational meshes. -/

lemma Mesh.TolClipPoint.of_real {p : Plane ℚ} {tol : ℚ} {m : Mesh ℚ} {X : V3 ℝ} (h : m.real.TolClipPoint p.real (tol : ℝ) X) :
    ∃ x, m.TolClipPoint p tol x ∧ X = x.real := by
  rcases h with hX | ⟨e, he, h1, rfl⟩
  · rw [Mesh.real_vertices, List.mem_map] at hX
    obtain ⟨x, hx, rfl⟩ := hX
    exact ⟨x, Or.inl hx, rfl⟩
  · rw [Mesh.real_vert, Mesh.real_vert, Plane.real_dist, Plane.real_dist] at h1
    refine ⟨_, Or.inr ⟨e, he, ?_, rfl⟩, ?_⟩
    · exact_mod_cast h1
    · rw [Mesh.real_vert, Mesh.real_vert, Plane.real_cutPt]

lemma Mesh.TolSeparated.real {p : Plane ℚ} {tol : ℚ} {m : Mesh ℚ} (h : m.TolSeparated p tol) :
    m.real.TolSeparated p.real (tol : ℝ) := by
  intro X Y hX hY hXY
  obtain ⟨x, hx, rfl⟩ := hX.of_real
  obtain ⟨y, hy, rfl⟩ := hY.of_real
  rw [h x y hx hy]
  have c : ∀ a b : ℚ, |(a : ℝ) - b| ≤ 1 / 100000 → |a - b| ≤ 1 / 100000 := by
    intro a b hab
    have : ((|a - b| : ℚ) : ℝ) ≤ ((1 / 100000 : ℚ) : ℝ) := by push_cast; exact hab
    exact_mod_cast this
  exact ⟨c _ _ hXY.1, c _ _ hXY.2.1, c _ _ hXY.2.2⟩

lemma Mesh.NoSlabSide.real {p : Plane ℚ} {tol : ℚ} {m : Mesh ℚ} (h : m.NoSlabSide p tol) :
    m.real.NoSlabSide p.real (tol : ℝ) := by
  intro f hf e he h1 h2
  simp only [Mesh.real_vert, Plane.real_dist] at h1 h2 ⊢
  exact_mod_cast h f hf e he (by exact_mod_cast h1) (by exact_mod_cast h2)

lemma tolSectionEdges_real (p : Plane ℚ) (tol : ℚ) (m : Mesh ℚ) : m.real.tolSectionEdges p.real (tol : ℝ) =
    (m.tolSectionEdges p tol).map (fun e => (e.1.real, e.2.real)) := by
  unfold Mesh.tolSectionEdges
  rw [List.map_filterMap]
  apply List.filterMap_congr
  intro f _
  have hc : ∀ a b : V3 ℚ, p.real.tolCutPt (tol : ℝ) a.real b.real = (p.tolCutPt tol a b).real := by
    intro a b
    unfold Plane.tolCutPt
    rw [Plane.real_dist, Plane.real_cutPt]
    by_cases h : tol < p.dist a
    · rw [if_pos h, if_pos (by exact_mod_cast h)]
    · rw [if_neg h, if_neg (by exact_mod_cast h)]
  unfold Face.tolSectionEdge
  simp only [Mesh.real_vert, Plane.real_dist, ← Rat.cast_neg, Rat.cast_le, Rat.cast_lt, hc]
  split <;> simp_all
  split_ifs <;> rfl

lemma tolSection_nodup_real {p : Plane ℚ} {tol : ℚ} {m : Mesh ℚ} (h : ((m.tolSectionEdges p tol).map Prod.fst).Nodup) :
    ((m.real.tolSectionEdges p.real (tol : ℝ)).map Prod.fst).Nodup := by
  rw [tolSectionEdges_real, List.map_map]
  have : Prod.fst ∘ (fun e : V3 ℚ × V3 ℚ => (e.1.real, e.2.real)) = V3.real ∘ Prod.fst := rfl
  rw [this, ← List.map_map]
  exact h.map (fun a b h => V3.real_inj.1 h)

lemma slabPrism_error : Clipper.clip insArgsort ⟨⟨0, 0, 1⟩, 0⟩ (1 / 1000) true slabPrism.real = .error .openCurve := by
  have h1 := Clipper.clip_map (φ := ratReal) (t := 0) insArgsort_compat insArgsort_isArgsort ⟨⟨0, 0, 1⟩, 0⟩ (1 / 1000) true
    slabPrism (by decide +kernel)
  rw [Clipper.C45_fails_in_slab.1] at h1
  have hp : (⟨⟨0, 0, 1⟩, 0⟩ : Plane ℚ).aff ratReal 0 = ⟨⟨0, 0, 1⟩, 0⟩ := by
    simp [Plane.aff, V3.dot]
  have ht : ratReal (1 / 1000) = 1 / 1000 := by simp only [map_div₀, map_one, map_ofNat]
  rw [hp, ht] at h1
  exact h1

namespace Hydro

open Clipper

/-- **C96** (partial: no corner at exactly the tolerance of the clipper, no face with a side in the slab of the tolerance has corners
on both sides of it, no quadrangle has exactly three corners in the slab). For a watertight hull, `compute_hydrostatics` returns
exactly when a face of the hull (in its working position) has a corner under the slab and either a corner above it or two corners
in it; otherwise it raises an exception. -/
theorem C96_returns_in_slab_partial (srt : (ℕ → ℝ) → List ℕ → List ℕ) (hsrt : IsArgsort srt) (m : Mesh ℝ) (cog : V3 ℝ)
    (rho grav : ℝ) (rot : M3 ℝ) (z : ℝ) (atCog : Bool) (lpp : Option ℝ) (ap : Bool)
    (hwf : (workingMesh m rot z).WF) (hcl : (workingMesh m rot z).ClosedOriented)
    (hq : QuadsCross (workingMesh m rot z)) (hnd : ∀ f ∈ (workingMesh m rot z).faces, f.corners.Nodup)
    (hfl : (workingMesh m rot z).NoSlabSide ⟨⟨0, 0, 1⟩, 0⟩ (1 / 1000))
    (hpos : ∀ f ∈ (workingMesh m rot z).faces, ∀ i ∈ f.toList, |((workingMesh m rot z).vert i).z| ≠ 1 / 1000)
    (hsep : (workingMesh m rot z).TolSeparated ⟨⟨0, 0, 1⟩, 0⟩ (1 / 1000))
    (hone : (((workingMesh m rot z).tolSectionEdges ⟨⟨0, 0, 1⟩, 0⟩ (1 / 1000)).map Prod.fst).Nodup)
    (h3 : ∀ f ∈ (workingMesh m rot z).faces, f.a ≠ f.d →
      (f.corners.filter (fun i => |((workingMesh m rot z).vert i).z| < 1 / 1000)).length ≠ 3) :
    (∃ h, compute srt m cog rho grav rot z atCog lpp ap = .ok h) ↔
    ∃ f ∈ (workingMesh m rot z).faces, (∃ i ∈ f.toList, ((workingMesh m rot z).vert i).z < -(1 / 1000)) ∧
      ((∃ i ∈ f.toList, 1 / 1000 < ((workingMesh m rot z).vert i).z) ∨
        ∃ i ∈ f.toList, ∃ j ∈ f.toList, i ≠ j ∧ |((workingMesh m rot z).vert i).z| < 1 / 1000 ∧
          |((workingMesh m rot z).vert j).z| < 1 / 1000) := by
  set M := workingMesh m rot z with hM
  have htol : (0 : ℝ) ≤ 1 / 1000 := by norm_num
  have hpos' : ∀ f ∈ M.faces, ∀ i ∈ f.toList, |waterplane.dist (M.vert i)| ≠ 1 / 1000 := fun f hf i hi => by
    rw [waterplane_dist]; exact hpos f hf i hi
  have h3' : ∀ f ∈ M.faces, f.a ≠ f.d → (f.corners.filter (fun i => |waterplane.dist (M.vert i)| < 1 / 1000)).length ≠ 3 := by
    simp only [waterplane_dist]; exact h3
  have hsome : ∀ f ∈ M.faces, (f.tolSectionEdge waterplane (1 / 1000) M.vert ≠ none ↔
      (∃ i ∈ f.toList, (M.vert i).z < -(1 / 1000)) ∧ ((∃ i ∈ f.toList, 1 / 1000 < (M.vert i).z) ∨
        ∃ i ∈ f.toList, ∃ j ∈ f.toList, i ≠ j ∧ |(M.vert i).z| < 1 / 1000 ∧ |(M.vert j).z| < 1 / 1000)) := by
    intro f hf
    rw [tolSectionEdge_isSome htol (hpos' f hf) (hnd f hf) (hq f hf)]
    simp only [waterplane_dist]
  constructor
  · rintro ⟨h, hh⟩
    obtain ⟨c, hc, hne, -⟩ := compute_ok hh
    have hperm := (C75_polygons_in_slab_partial srt hsrt waterplane (1 / 1000) htol true M hwf hcl hq hnd hfl hpos' hsep
      hone c hc).2
    by_contra hno
    have hs : M.tolSectionEdges waterplane (1 / 1000) = [] := by
      unfold Mesh.tolSectionEdges
      rw [List.filterMap_eq_nil_iff]
      intro f hf
      by_contra hb
      exact hno ⟨f, hf, (hsome f hf).1 hb⟩
    rw [hs] at hperm
    have h0 := hperm.eq_nil
    obtain ⟨l, L, hl⟩ := List.exists_cons_of_ne_nil hne
    have hlen := closedPolygons_two hc l (by rw [hl]; simp)
    unfold Clipped.polygonEdges at h0
    rw [hl, List.map_eq_nil_iff, List.flatMap_cons, List.append_eq_nil_iff] at h0
    obtain ⟨h1, -⟩ := h0
    rcases l with _ | ⟨a, _ | ⟨b, l⟩⟩
    · simp at hlen
    · simp at hlen
    · simp [chainPairs] at h1
  · rintro ⟨f, hf, hb⟩
    obtain ⟨-, hret⟩ := C45_in_slab_partial srt hsrt waterplane (1 / 1000) htol M hwf hcl hq hnd hfl hpos' hsep hone h3'
    obtain ⟨c, hc⟩ := hret ⟨f, hf, by simpa only [waterplane_dist] using hb.1, by
      simp only [waterplane_dist]
      rcases hb.2 with ⟨i, hi, h⟩ | ⟨i, hi, _, _, _, h, _⟩
      · exact ⟨i, hi, by linarith⟩
      · exact ⟨i, hi, (abs_lt.1 h).1.le⟩⟩ true
    have hperm := (C75_polygons_in_slab_partial srt hsrt waterplane (1 / 1000) htol true M hwf hcl hq hnd hfl hpos' hsep
      hone c hc).2
    obtain ⟨e, he⟩ := Option.ne_none_iff_exists'.1 ((hsome f hf).2 hb)
    have hpe := hperm.mem_iff.2 (List.mem_filterMap.2 ⟨f, hf, he⟩)
    refine ⟨ofClipped m cog rho grav rot z atCog lpp ap c, ?_⟩
    unfold compute
    have hc2 : clip srt ⟨⟨0, 0, 1⟩, 0⟩ (1 / 1000) true (workingMesh m rot z) = .ok c := hc
    rw [hc2]
    simp only
    rw [if_neg]
    intro h0
    unfold Clipped.polygonEdges at hpe
    rw [h0] at hpe
    simp at hpe

/-- The hypotheses of the theorem above are met by `slabOcta`, for which `compute_hydrostatics` returns. -/
theorem slabOcta_meets_C96 (cog : V3 ℝ) (grav : ℝ) :
    let M := workingMesh slabOcta.real M3.one 0
    M.WF ∧ M.ClosedOriented ∧ QuadsCross M ∧ (∀ f ∈ M.faces, f.corners.Nodup) ∧ M.NoSlabSide ⟨⟨0, 0, 1⟩, 0⟩ (1 / 1000) ∧
    (∀ f ∈ M.faces, ∀ i ∈ f.toList, |(M.vert i).z| ≠ 1 / 1000) ∧ M.TolSeparated ⟨⟨0, 0, 1⟩, 0⟩ (1 / 1000) ∧
    ((M.tolSectionEdges ⟨⟨0, 0, 1⟩, 0⟩ (1 / 1000)).map Prod.fst).Nodup ∧
    (∀ f ∈ M.faces, f.a ≠ f.d → (f.corners.filter (fun i => |(M.vert i).z| < 1 / 1000)).length ≠ 3) ∧
    ∃ h, compute insArgsort slabOcta.real cog 1000 grav M3.one 0 false none false = .ok h := by
  intro M
  have hM : M = slabOcta.real := workingMesh_self _
  obtain ⟨c, hc, h1, h2, h3, h4, h5, h6, h7, h8, h9, h10, -⟩ := slabOcta_meets_C75
  have ht : (1 / 1000 : ℝ) = ((1 / 1000 : ℚ) : ℝ) := by push_cast; norm_num
  have tri : ∀ f ∈ slabOcta.faces, f.a = f.d := by decide +kernel
  have g1 : M.WF := by rw [hM]; exact h1.real
  have g2 : M.ClosedOriented := by rw [hM]; exact h2.real
  have g3 : QuadsCross M := by rw [hM]; exact fun f hf hn => absurd (tri f hf) hn
  have g4 : ∀ f ∈ M.faces, f.corners.Nodup := by rw [hM]; exact h4
  have g5 : M.NoSlabSide ⟨⟨0, 0, 1⟩, 0⟩ (1 / 1000) := by rw [hM, ← Plane.real_z, ht]; exact h5.real
  have g6 : ∀ f ∈ M.faces, ∀ i ∈ f.toList, |(M.vert i).z| ≠ 1 / 1000 := by
    rw [hM]
    have : ∀ f ∈ slabOcta.faces, ∀ i ∈ f.toList, |(slabOcta.vert i).z| ≠ 1 / 1000 := by decide +kernel
    intro f hf i hi
    rw [Mesh.real_vert, ht]
    show |(((slabOcta.vert i).z : ℚ) : ℝ)| ≠ _
    exact_mod_cast this f hf i hi
  have g7 : M.TolSeparated ⟨⟨0, 0, 1⟩, 0⟩ (1 / 1000) := by rw [hM, ← Plane.real_z, ht]; exact h7.real
  have g8 : ((M.tolSectionEdges ⟨⟨0, 0, 1⟩, 0⟩ (1 / 1000)).map Prod.fst).Nodup := by
    rw [hM, ← Plane.real_z, ht]; exact tolSection_nodup_real h8
  have g9 : ∀ f ∈ M.faces, f.a ≠ f.d → (f.corners.filter (fun i => |(M.vert i).z| < 1 / 1000)).length ≠ 3 := by
    rw [hM]; exact fun f hf hn => absurd (tri f hf) hn
  refine ⟨g1, g2, g3, g4, g5, g6, g7, g8, g9, ?_⟩
  rw [C96_returns_in_slab_partial insArgsort insArgsort_isArgsort _ cog 1000 grav M3.one 0 false none false g1 g2 g3 g4 g5 g6 g7
    g8 g9]
  have : ∃ f ∈ slabOcta.faces, (∃ i ∈ f.toList, (slabOcta.vert i).z < -(1 / 1000)) ∧
      ∃ i ∈ f.toList, 1 / 1000 < (slabOcta.vert i).z := by decide +kernel
  obtain ⟨f, hf, ⟨i, hi, hz⟩, j, hj, hz'⟩ := this
  change ∃ f ∈ M.faces, (∃ i ∈ f.toList, (M.vert i).z < -(1 / 1000)) ∧ ((∃ i ∈ f.toList, 1 / 1000 < (M.vert i).z) ∨ _)
  rw [hM]
  refine ⟨f, hf, ⟨i, hi, ?_⟩, .inl ⟨j, hj, ?_⟩⟩
  · rw [Mesh.real_vert, ht]
    show (((slabOcta.vert i).z : ℚ) : ℝ) < _
    exact_mod_cast hz
  · rw [Mesh.real_vert, ht]
    show _ < (((slabOcta.vert j).z : ℚ) : ℝ)
    exact_mod_cast hz'

/-- **C96 fails** within the tolerance: `compute_hydrostatics` raises an exception for a convex watertight prism which goes through
the free surface, because two of its faces have a vertical side of length `1e-3` across it. -/
theorem C96_fails_in_slab (cog : V3 ℝ) (rho grav : ℝ) (atCog : Bool) (lpp : Option ℝ) (ap : Bool) :
    (∀ h, compute insArgsort slabPrism.real cog rho grav M3.one 0 atCog lpp ap ≠ .ok h) ∧
    (workingMesh slabPrism.real M3.one 0).WF ∧ (workingMesh slabPrism.real M3.one 0).ClosedOriented ∧
    (workingMesh slabPrism.real M3.one 0).StrictlyConvexFaces ∧
    ∃ f ∈ (workingMesh slabPrism.real M3.one 0).faces,
      (∃ i ∈ f.toList, ((workingMesh slabPrism.real M3.one 0).vert i).z < -(1 / 1000)) ∧
      ∃ i ∈ f.toList, 1 / 1000 < ((workingMesh slabPrism.real M3.one 0).vert i).z := by
  have hM : workingMesh slabPrism.real M3.one 0 = slabPrism.real := workingMesh_self _
  obtain ⟨-, h1, h2, h3, -⟩ := C45_fails_in_slab
  refine ⟨?_, by rw [hM]; exact h1.real, by rw [hM]; exact h2.real, by rw [hM]; exact h3.real, ?_⟩
  · intro h hh
    unfold compute at hh
    rw [hM, slabPrism_error] at hh
    simp at hh
  · rw [hM]
    have ht : (1 / 1000 : ℝ) = ((1 / 1000 : ℚ) : ℝ) := by push_cast; norm_num
    have : ∃ f ∈ slabPrism.faces, (∃ i ∈ f.toList, (slabPrism.vert i).z < -(1 / 1000)) ∧
        ∃ i ∈ f.toList, 1 / 1000 < (slabPrism.vert i).z := by decide +kernel
    obtain ⟨f, hf, ⟨i, hi, hz⟩, j, hj, hz'⟩ := this
    refine ⟨f, hf, ⟨i, hi, ?_⟩, j, hj, ?_⟩
    · rw [Mesh.real_vert, ht]
      show (((slabPrism.vert i).z : ℚ) : ℝ) < _
      exact_mod_cast hz
    · rw [Mesh.real_vert, ht]
      show _ < (((slabPrism.vert j).z : ℚ) : ℝ)
      exact_mod_cast hz'

end Hydro
end MM
