import Verif.Proofs.ClipLines

/-!
# The intersection polygons (C44, C45)
-/

namespace MM
namespace Clipper

set_option linter.unusedSectionVars false
set_option linter.unusedSimpArgs false

variable {K : Type*} [Field K] [LinearOrder K] [IsStrictOrderedRing K]

/-! ## The edges recorded by the loop -/

/-- `(i, j)` or `(j, i)` is the edge from corner `k` to the next one, from above to below. -/
def crossDown (c : List Cls) (i j : ℕ) : Bool :=
  decide (i < c.length) && j == (i + 1) % c.length && (c.getD i .P).isA && (c.getD j .P).isB

def crossUp (c : List Cls) (i j : ℕ) : Bool :=
  decide (i < c.length) && j == (i + 1) % c.length && (c.getD i .P).isB && (c.getD j .P).isA

def okEdge (c : List Cls) (q : Plan) : Bool :=
  match q.cuts, q.edge with
  | [u, v], some (.new 0, .new 1) => (crossDown c u.1 u.2 || crossDown c u.2 u.1) && (crossUp c v.1 v.2 || crossUp c v.2 v.1)
  | _, _ => false

theorem table_edge : ∀ c ∈ lists3 ++ lists4, c.all (fun x => x.isA || x.isB) = true → c.any Cls.isA = true →
    c.any Cls.isB = true → altern c = false → (plan c).check (okEdge c) = true := by decide +kernel

lemma corner_edge (f : Face) {k : ℕ} (hk : k < f.corners.length) :
    (f.corners.getD k 0, f.corners.getD ((k + 1) % f.corners.length) 0) ∈ f.directedEdges := by
  unfold Face.corners Face.directedEdges at *
  simp only [Face.isTri, beq_iff_eq] at *
  split_ifs at * with h
  · simp only [List.length_cons, List.length_nil] at hk ⊢
    match k, hk with
    | 0, _ => simp
    | 1, _ => simp
    | 2, _ => simp
  · simp only [List.length_cons, List.length_nil] at hk ⊢
    match k, hk with
    | 0, _ => simp
    | 1, _ => simp
    | 2, _ => simp
    | 3, _ => simp

lemma toList_corners (f : Face) : ∀ i ∈ f.toList, i ∈ f.corners := by
  intro i hi
  unfold Face.corners
  simp only [Face.isTri, beq_iff_eq]
  unfold Face.toList at hi
  split_ifs with h <;> simp at hi ⊢ <;> grind

lemma edges_mem_toList {f : Face} {e : ℕ × ℕ} (h : e ∈ f.directedEdges) : e.1 ∈ f.toList ∧ e.2 ∈ f.toList := by
  unfold Face.directedEdges at h
  unfold Face.toList
  split_ifs at h <;> simp at h ⊢ <;> grind

lemma isCut_onSegment {p : Plane K} {a b x : V3 K} (h : IsCut p a b x) : OnSegment a b x ∧ p.dist x = 0 := by
  obtain ⟨t, h0, h1, h2⟩ := h.coef'
  exact ⟨⟨t, h0.le, h1.le, h2⟩, h.dist⟩

/-- What the loop does with a face that crosses the plane. -/
lemma run_edge {p : Plane K} {tol : K} (htol : 0 ≤ tol) {m : Mesh K} (hwf : m.WF)
    (hpos : ∀ f ∈ m.faces, ∀ i ∈ f.toList, tol < |p.dist (m.vert i)|) (hq : QuadsCross m)
    (hboth : ∀ f ∈ m.faces, FaceOnBothSides p m.vert f)
    {st' : LoopState K} {l : List (ℕ × Face × FaceClip K)}
    (h : Run p tol m.vertices (m.vertices.map p.dist) m.faces ⟨[], [], [], [], m.nv⟩ l st') {raw : Mesh K}
    (hraw : raw.vertices = m.vertices ++ st'.pts) {t : ℕ × Face × FaceClip K} (ht : t ∈ l) :
    t.2.2.edge = some (t.1, t.1 + 1) ∧ t.1 + 1 < raw.nv ∧
    (∃ e ∈ t.2.1.directedEdges, 0 < p.dist (m.vert e.1) ∧ p.dist (m.vert e.2) < 0 ∧
      IsCut p (m.vert e.1) (m.vert e.2) (raw.vert t.1)) ∧
    (∃ e ∈ t.2.1.directedEdges, p.dist (m.vert e.1) < 0 ∧ 0 < p.dist (m.vert e.2) ∧
      IsCut p (m.vert e.1) (m.vert e.2) (raw.vert (t.1 + 1))) := by
  have hf : t.2.1 ∈ m.faces := by rw [← h.faces_eq]; exact List.mem_map_of_mem ht
  have hok := h.ok t ht
  rw [clipFace_plan htol] at hok
  obtain ⟨q, hpl, h1, h2, h3, h4, h5⟩ := evalPlan_ok hok
  obtain ⟨g1, g2, g3⟩ := h.point htol (by simp [Mesh.nv]) t ht
  obtain ⟨index, f, r⟩ := t
  simp only at *
  have hcs : ∀ i ∈ f.corners, tol < |p.dist (m.vert i)| := fun i hi => hpos f hf i (Face.corners_sub f i hi)
  have hcl := clsList_eq p tol m hwf hf
  have hAB : (clsList tol (m.vertices.map p.dist) f.corners).all (fun x => x.isA || x.isB) = true := by
    rw [hcl, List.all_map, List.all_eq_true]
    intro i hi
    exact (side_of htol (hcs i hi)).2
  have hA : (clsList tol (m.vertices.map p.dist) f.corners).any Cls.isA = true := by
    obtain ⟨⟨i, hi, hd⟩, _⟩ := hboth f hf
    rw [hcl, List.any_map, List.any_eq_true]
    refine ⟨i, toList_corners f i hi, ?_⟩
    have := hpos f hf i hi
    rw [abs_of_pos hd] at this
    exact isA_iff.2 this
  have hB : (clsList tol (m.vertices.map p.dist) f.corners).any Cls.isB = true := by
    obtain ⟨_, ⟨i, hi, hd⟩⟩ := hboth f hf
    rw [hcl, List.any_map, List.any_eq_true]
    refine ⟨i, toList_corners f i hi, ?_⟩
    have := hpos f hf i hi
    rw [abs_of_neg hd] at this
    exact (isB_iff htol).2 (by linarith)
  have htab := PlanRes.check_ok (table_edge _ (clsList_mem f) hAB hA hB (corners_not_altern htol hwf hq hf)) hpl
  unfold okEdge at htab
  split at htab
  · rename_i u v hcuts hedge
    have hlen : q.cuts.length = 2 := by rw [hcuts]; rfl
    have hstep : r.step = 2 := by omega
    have hnv : raw.nv = m.vertices.length + st'.pts.length := by simp [Mesh.nv, hraw]
    refine ⟨by rw [h5, hedge]; rfl, by omega, ?_⟩
    rw [hcuts] at h2
    obtain ⟨x, pts1, hx, h2', hp1⟩ : ∃ x pts1, cut p m.vertices (f.corners.getD u.1 0) (f.corners.getD u.2 0) = .ok x ∧
        List.Forall₂ (fun ij x => cut p m.vertices (f.corners.getD ij.1 0) (f.corners.getD ij.2 0) = .ok x) [v] pts1 ∧
        r.pts = x :: pts1 := by
      cases hr : r.pts with
      | nil => rw [hr] at h2; cases h2
      | cons x xs => rw [hr] at h2; cases h2 with | cons a b => exact ⟨x, xs, a, b, rfl⟩
    obtain ⟨y, hy, hp2⟩ : ∃ y, cut p m.vertices (f.corners.getD v.1 0) (f.corners.getD v.2 0) = .ok y ∧ pts1 = [y] := by
      cases h2' with | cons a b => cases b; exact ⟨_, a, rfl⟩
    have hx' : raw.vert index = x := by
      have := g3 0 (by omega)
      simp only [Nat.add_zero] at this
      simp [Mesh.vert, hraw, List.getD_eq_getElem?_getD, this, hp1]
    have hy' : raw.vert (index + 1) = y := by
      have := g3 1 (by omega)
      simp [Mesh.vert, hraw, List.getD_eq_getElem?_getD, this, hp1, hp2]
    have conv : ∀ {i j : ℕ} {x : V3 K}, i < f.corners.length → j < f.corners.length →
        cut p m.vertices (f.corners.getD i 0) (f.corners.getD j 0) = .ok x →
        IsCut p (m.vert (f.corners.getD i 0)) (m.vert (f.corners.getD j 0)) x := by
      intro i j x hi hj hc
      obtain ⟨c1, c2, c3, c4⟩ := cut_ok hc
      have e1 : m.vertices.getD (f.corners.getD i 0) 0 = m.vert (f.corners.getD i 0) := rfl
      have e2 : m.vertices.getD (f.corners.getD j 0) 0 = m.vert (f.corners.getD j 0) := rfl
      rw [e1, e2] at c2 c3 c4
      have n : ∀ k, k < f.corners.length → p.dist (m.vert (f.corners.getD k 0)) ≠ 0 := by
        intro k hk h0
        have := hcs _ (corners_getD_mem hk)
        rw [h0] at this; simp at this; linarith
      refine ⟨lt_of_le_of_ne c2 (mul_ne_zero (n i hi) (n j hj)), ?_⟩
      have hne := sub_ne_zero.2 c3
      rw [c4]
      generalize m.vert (f.corners.getD i 0) = A at *
      generalize m.vert (f.corners.getD j 0) = B at *
      ext <;> simp <;> field_simp <;> ring
    have hlt : 0 < f.corners.length := by rcases corners_length f with h | h <;> omega
    have cls : ∀ k, k < f.corners.length → (clsList tol (m.vertices.map p.dist) f.corners).getD k .P =
        classOf tol (p.dist (m.vert (f.corners.getD k 0))) := fun k hk => cls_corner p tol m hwf hf hk _
    have down : ∀ {i j : ℕ} {x : V3 K}, crossDown (clsList tol (m.vertices.map p.dist) f.corners) i j = true →
        cut p m.vertices (f.corners.getD i 0) (f.corners.getD j 0) = .ok x →
        ∃ e ∈ f.directedEdges, 0 < p.dist (m.vert e.1) ∧ p.dist (m.vert e.2) < 0 ∧ IsCut p (m.vert e.1) (m.vert e.2) x := by
      intro i j x hcd hc
      simp only [crossDown, Bool.and_eq_true, decide_eq_true_eq, beq_iff_eq, clsList_length] at hcd
      obtain ⟨⟨⟨h1, h2⟩, h3⟩, h4⟩ := hcd
      have hj : j < f.corners.length := by rw [h2]; exact Nat.mod_lt _ hlt
      rw [cls i h1, isA_iff] at h3
      rw [cls j hj, isB_iff htol] at h4
      refine ⟨_, corner_edge f h1, by simp only; linarith, by simp only; rw [← h2]; linarith, ?_⟩
      simp only
      rw [← h2]
      exact conv h1 hj hc
    have up : ∀ {i j : ℕ} {x : V3 K}, crossUp (clsList tol (m.vertices.map p.dist) f.corners) i j = true →
        cut p m.vertices (f.corners.getD i 0) (f.corners.getD j 0) = .ok x →
        ∃ e ∈ f.directedEdges, p.dist (m.vert e.1) < 0 ∧ 0 < p.dist (m.vert e.2) ∧ IsCut p (m.vert e.1) (m.vert e.2) x := by
      intro i j x hcd hc
      simp only [crossUp, Bool.and_eq_true, decide_eq_true_eq, beq_iff_eq, clsList_length] at hcd
      obtain ⟨⟨⟨h1, h2⟩, h3⟩, h4⟩ := hcd
      have hj : j < f.corners.length := by rw [h2]; exact Nat.mod_lt _ hlt
      rw [cls i h1, isB_iff htol] at h3
      rw [cls j hj, isA_iff] at h4
      refine ⟨_, corner_edge f h1, by simp only; linarith, by simp only; rw [← h2]; linarith, ?_⟩
      simp only
      rw [← h2]
      exact conv h1 hj hc
    rw [hx', hy']
    rw [Bool.and_eq_true, Bool.or_eq_true, Bool.or_eq_true] at htab
    exact ⟨htab.1.elim (fun h => down h hx) (fun h => down h (cut_symm hx)),
      htab.2.elim (fun h => up h hy) (fun h => up h (cut_symm hy))⟩
  · simp at htab

/-! ## Renumbering -/

lemma merge_ids {srt : (ℕ → K) → List ℕ → List ℕ} (hsrt : IsArgsort srt) {atol : K} (h0 : 0 ≤ atol) {m m' : Mesh K}
    {newId : List ℕ} (hwf : m.WF) (hne : m.vertices ≠ []) (h : m.mergeDuplicates srt atol = .ok (m', newId)) :
    (∀ i j, i < m.nv → j < m.nv → m.vert i = m.vert j → newId.getD i 0 = newId.getD j 0) ∧
    (∀ i j, i < m.nv → j < m.nv → newId.getD i 0 = newId.getD j 0 → V3.Close atol (m.vert i) (m.vert j)) ∧
    (∀ i, i < m.nv → ∃ u, m'.vertices[newId.getD i 0]? = some u ∧ V3.Close atol (m.vert i) u) := by
  have hne' : m.vertices.map V3.coord ≠ [] := by simpa using hne
  obtain ⟨r, hr, hlen, hrange, _, _⟩ :=
    (C03_renumbering_total_in_range_onto srt hsrt atol h0 (m.vertices.map V3.coord)).2 hne'
  obtain ⟨_, _, hm, _, _, _, _, hid, _⟩ := C05_merge_duplicates_moves_corners_within_tol srt hsrt atol h0 m hwf hne
  rw [h] at hm
  cases hm
  have hnew : newId = r.newID := by
    unfold Mesh.mergeDuplicates at h
    rw [hr] at h
    simp only at h
    split_ifs at h
    simp only [Except.ok.injEq, Prod.mk.injEq] at h
    exact h.2.symm
  subst hnew
  have hget : ∀ i, i < m.nv → (m.vertices.map V3.coord)[i]? = some (m.vert i).coord := by
    intro i hi
    have : i < m.vertices.length := hi
    simp [Mesh.vert, List.getD_eq_getElem?_getD, this]
  have hidg : ∀ i, i < m.nv → r.newID[i]? = some (r.newID.getD i 0) := by
    intro i hi
    obtain ⟨id, h1, _⟩ := hrange i (by simpa [Mesh.nv] using hi)
    simp [List.getD_eq_getElem?_getD, h1]
  refine ⟨?_, ?_, ?_⟩
  · intro i j hi hj he
    have := (C02_exact_duplicates_merged srt hsrt atol h0 _ r hr).1 i j _ (hget i hi) (by rw [he]; exact hget j hj)
    simp only [List.getD_eq_getElem?_getD, this]
  · intro i j hi hj he
    have := (C01_merged_rows_within_tolerance srt hsrt atol h0 _ r hr).1 i j _ _ _ (hget i hi) (hget j hj) (hidg i hi)
      (by rw [he]; exact hidg j hj)
    exact ⟨by simpa using this 0, by simpa using this 1, by simpa using this 2⟩
  · intro i hi
    obtain ⟨id, h1, h2⟩ := hid i hi
    have hi' : i < m.vertices.length := hi
    have : r.newID.getD i 0 = id := by simp [List.getD_eq_getElem?_getD, h1]
    rw [this]
    rw [List.getElem?_eq_getElem hi'] at h2
    cases hu : m'.vertices[id]? with
    | none => rw [hu] at h2; exact h2.elim
    | some u =>
      rw [hu] at h2
      refine ⟨u, rfl, ?_⟩
      have hv : m.vert i = m.vertices[i] := by simp [Mesh.vert, List.getD_eq_getElem?_getD, hi']
      rw [hv]; exact h2

/-! ## The edges of a clipped mesh -/

lemma filterMap_some_map {α β : Type*} {g : α → Option β} {h : α → β} : ∀ {l : List α}, (∀ a ∈ l, g a = some (h a)) →
    l.filterMap g = l.map h := by
  intro l
  induction l with
  | nil => simp
  | cons a l ih =>
    intro hl
    rw [List.filterMap_cons, hl a (by simp)]
    simp [ih (fun x hx => hl x (List.mem_cons_of_mem _ hx))]

/-- In general position: the faces that cross the plane, with the numbers given to the ends of their intersections,
and the properties of the renumbering. -/
lemma crown_data {srt : (ℕ → K) → List ℕ → List ℕ} (hsrt : IsArgsort srt) {p : Plane K} {tol : K}
    (htol : 0 ≤ tol) {m : Mesh K} (hwf : m.WF)
    (hpos : ∀ f ∈ m.faces, ∀ i ∈ f.toList, tol < |p.dist (m.vert i)|) (hq : QuadsCross m)
    {part : Partition K} (hp : partition tol (m.vertices.map p.dist) m = .ok part)
    {cm : Mesh K} {direct inv : List (ℕ × ℕ)}
    (hcc : clipCrown srt p tol part.crown part.crownDists = .ok (cm, direct, inv)) :
    ∃ (fc : List Face) (pos : List ℕ) (W : ℕ → V3 K) (N : ℕ) (newId : List ℕ),
      (∃ q : Face → Bool, fc = m.faces.filter q ∧ ∀ f ∈ m.faces, (q f = true ↔ FaceOnBothSides p m.vert f)) ∧
      List.Forall₂ (fun f k => k + 1 < N ∧
        (∃ e ∈ f.directedEdges, 0 < p.dist (m.vert e.1) ∧ p.dist (m.vert e.2) < 0 ∧
          IsCut p (m.vert e.1) (m.vert e.2) (W k)) ∧
        (∃ e ∈ f.directedEdges, p.dist (m.vert e.1) < 0 ∧ 0 < p.dist (m.vert e.2) ∧
          IsCut p (m.vert e.1) (m.vert e.2) (W (k + 1)))) fc pos ∧
      direct = remap newId ((pos.map (fun k => (k, k + 1))).foldl (fun d e => dictSet d e.1 e.2) []) ∧
      inv = remap newId ((pos.map (fun k => (k, k + 1))).foldl (fun d e => dictSet d e.2 e.1) []) ∧
      (∀ i j, i < N → j < N → W i = W j → newId.getD i 0 = newId.getD j 0) ∧
      (∀ i j, i < N → j < N → newId.getD i 0 = newId.getD j 0 → V3.Close (1 / 100000) (W i) (W j)) ∧
      (∀ i, i < N → ∃ u, cm.vertices[newId.getD i 0]? = some u ∧ V3.Close (1 / 100000) (W i) u) := by
  obtain ⟨part', gu, gc, gl, hp', su, sc, sl, hcd⟩ := partition_spec p tol m hwf
  rw [hp] at hp'
  cases hp'
  obtain ⟨st, raw, newId, e1, e2, e3, e4, e5⟩ := clipCrown_ok hcc
  rw [hcd] at e1
  obtain ⟨l, hrun⟩ := clipLoop_ok e1
  obtain ⟨hw, hv⟩ := raw_wf htol sc.wf hrun e2
  obtain ⟨g0, g1, g2⟩ := mkMesh_ok e2
  set qc := fun f => !allFour (isAbove tol) (m.vertices.map p.dist) f &&
        !allFour (isBelow tol) (m.vertices.map p.dist) f with hqc
  have hboth : ∀ f ∈ m.faces, (qc f = true ↔ FaceOnBothSides p m.vert f) := by
    intro f hf
    rw [hqc]
    simp only [Bool.and_eq_true, Bool.not_eq_true', ← Bool.not_eq_true]
    rw [allFour_above p tol m hwf hf, allFour_below p tol m hwf hf, decide_eq_true_iff, decide_eq_true_iff]
    push Not
    constructor
    · rintro ⟨⟨i, hi, h1⟩, ⟨j, hj, h2⟩⟩
      refine ⟨⟨j, hj, ?_⟩, ⟨i, hi, ?_⟩⟩
      · have := hpos f hf j hj
        rcases lt_abs.1 this with h | h <;> linarith
      · have := hpos f hf i hi
        rcases lt_abs.1 this with h | h <;> linarith
    · rintro ⟨⟨j, hj, h2⟩, ⟨i, hi, h1⟩⟩
      exact ⟨⟨i, hi, by linarith⟩, ⟨j, hj, by linarith⟩⟩
  have cpos : ∀ f ∈ part.crown.faces, ∀ i ∈ f.toList, tol < |p.dist (part.crown.vert i)| := by
    intro f' hf' i hi
    obtain ⟨f, hf, _, rfl, _, hvv⟩ := sc.face hf'
    rw [Face.toList_map] at hi
    obtain ⟨j, hj, rfl⟩ := List.mem_map.1 hi
    rw [hvv j hj]; exact hpos f hf j hj
  have cboth : ∀ f ∈ part.crown.faces, FaceOnBothSides p part.crown.vert f := by
    intro f' hf'
    obtain ⟨f, hf, hqf, rfl, _, hvv⟩ := sc.face hf'
    obtain ⟨⟨i, hi, h1⟩, ⟨j, hj, h2⟩⟩ := (hboth f hf).1 hqf
    rw [FaceOnBothSides, Face.toList_map]
    exact ⟨⟨gc i, List.mem_map_of_mem hi, by rw [hvv i hi]; exact h1⟩,
      ⟨gc j, List.mem_map_of_mem hj, by rw [hvv j hj]; exact h2⟩⟩
  have ccross : QuadsCross part.crown := by
    intro f' hf' h
    obtain ⟨f, hf, _, rfl, _, hvv⟩ := sc.face hf'
    simp only [Face.map] at h ⊢
    rw [hvv f.a (by simp [Face.toList]), hvv f.b (by simp [Face.toList]), hvv f.c (by simp [Face.toList]),
      hvv f.d (by simp [Face.toList])]
    exact hq f hf (fun h' => h (by rw [h']))
  have hedge : ∀ t ∈ l, _ := fun t ht => run_edge htol sc.wf cpos ccross cboth hrun g1 ht
  obtain ⟨m1, m2, m3⟩ := merge_ids hsrt (by positivity) hw hv e3
  have hfm : l.filterMap (fun t => t.2.2.edge) = (l.map Prod.fst).map (fun k => (k, k + 1)) := by
    rw [List.map_map]
    exact filterMap_some_map (fun t ht => (hedge t ht).1)
  refine ⟨m.faces.filter qc, l.map Prod.fst, raw.vert, raw.nv, newId, ⟨qc, rfl, hboth⟩, ?_, ?_, ?_, m1, m2, m3⟩
  · have hl1 : (m.faces.filter qc).map (Face.map gc) = l.map (fun t => t.2.1) := by rw [hrun.faces_eq, sc.faces]
    rw [List.forall₂_map_right_iff, List.forall₂_iff_get]
    have hlen : (m.faces.filter qc).length = l.length := by simpa using congrArg List.length hl1
    refine ⟨hlen, ?_⟩
    intro k k1 k2
    simp only [List.get_eq_getElem]
    have hk : (m.faces.filter qc)[k].map gc = l[k].2.1 := by
      have := congrArg (fun x => x[k]?) hl1
      simpa only [List.getElem?_map, List.getElem?_eq_getElem k1, List.getElem?_eq_getElem k2, Option.map_some,
        Option.some.injEq] using this
    obtain ⟨_, b1, ⟨e, he, b2⟩, ⟨e', he', b3⟩⟩ := hedge l[k] (List.getElem_mem k2)
    have hf := List.getElem_mem k1
    set f := (m.faces.filter qc)[k] with hf'
    have hde : (f.map gc).directedEdges = f.directedEdges.map (fun e => (gc e.1, gc e.2)) := by
      unfold Face.directedEdges Face.map
      by_cases h0 : f.a = f.d
      · simp [h0]
      · have : ¬ gc f.a = gc f.d :=
          fun he => h0 (sc.inj f hf f.a (by simp [Face.toList]) f hf f.d (by simp [Face.toList]) he)
        simp [h0, this]
    rw [← hk, hde] at he he'
    obtain ⟨e, hem, rfl⟩ := List.mem_map.1 he
    obtain ⟨e', hem', rfl⟩ := List.mem_map.1 he'
    have v1 := sc.vert_eq hf (edges_mem_toList hem).1
    have v2 := sc.vert_eq hf (edges_mem_toList hem).2
    have v3 := sc.vert_eq hf (edges_mem_toList hem').1
    have v4 := sc.vert_eq hf (edges_mem_toList hem').2
    simp only [v1, v2] at b2
    simp only [v3, v4] at b3
    exact ⟨b1, ⟨e, hem, b2⟩, ⟨e', hem', b3⟩⟩
  · rw [e4, hrun.direct, hfm]
  · rw [e5, hrun.inv, hfm]

/-! ## The shape of the lines -/

lemma queueBack_keys : ∀ (fuel : ℕ) (d inv : List (ℕ × ℕ)) (v0 : ℕ), (d.map Prod.fst).Nodup →
    ((queueBack fuel d inv v0).2.map Prod.fst).Nodup ∧ ∀ y ∈ (queueBack fuel d inv v0).1, y ∈ d.map Prod.fst := by
  intro fuel
  induction fuel with
  | zero => intro d inv v0 h; simpa [queueBack] using h
  | succ n ih =>
    intro d inv v0 hd
    unfold queueBack
    cases he : inv.find? (fun e => e.1 == v0) with
    | none => simpa using hd
    | some e =>
      simp only
      cases hp : dictPop d e.2 with
      | none => simpa using hd
      | some r =>
        obtain ⟨w, d'⟩ := r
        simp only
        obtain ⟨hperm, hnot⟩ := dictPop_some hd hp
        have hnd := (hperm.map Prod.fst).nodup_iff.1 hd
        simp only [List.map_cons, List.nodup_cons] at hnd
        obtain ⟨i1, i2⟩ := ih d' inv e.2 hnd.2
        refine ⟨i1, ?_⟩
        intro y hy
        rcases List.mem_cons.1 hy with rfl | hy
        · exact List.mem_map.2 ⟨_, hperm.mem_iff.2 (List.mem_cons_self ..), rfl⟩
        · obtain ⟨z, hz, rfl⟩ := List.mem_map.1 (i2 y hy)
          exact List.mem_map.2 ⟨z, hperm.mem_iff.2 (List.mem_cons_of_mem _ hz), rfl⟩

lemma extractLines_shape (inv : List (ℕ × ℕ)) : ∀ (fuel : ℕ) (d : List (ℕ × ℕ)), (d.map Prod.fst).Nodup →
    (∀ b ∈ (extractLines inv fuel d).1, 2 ≤ b.length ∧ b.head? = b.getLast?) ∧
    (∀ b ∈ (extractLines inv fuel d).2, 2 ≤ b.length ∧ b.head? ≠ b.getLast?) := by
  intro fuel
  induction fuel with
  | zero => intro d _; simp [extractLines]
  | succ n ih =>
    intro d hd
    unfold extractLines
    cases h : d.getLast? with
    | none => simp
    | some e =>
      obtain ⟨v0, v1⟩ := e
      have hsplit := getLast?_perm h
      have hperm : d.Perm ((v0, v1) :: d.dropLast) := by
        conv_lhs => rw [hsplit]
        exact List.perm_append_singleton _ _
      have hnd := (hperm.map Prod.fst).nodup_iff.1 hd
      simp only [List.map_cons, List.nodup_cons] at hnd
      have hf := follow_perm d.length d.dropLast v1 hnd.2
      have hfuel := follow_fuel d.length d.dropLast v1 hnd.2 (by simp)
      set r := follow d.length d.dropLast v1 with hr
      have hnr : (r.2.map Prod.fst).Nodup := by
        have := (hf.map Prod.fst).nodup_iff.1 hnd.2
        rw [List.map_append] at this
        exact (List.nodup_append.1 this).2.1
      have hlast : (v0 :: v1 :: r.1).getLastD v0 = (v1 :: r.1).getLast (by simp) := by
        rw [List.getLastD_eq_getLast?, List.getLast?_cons_cons, List.getLast?_eq_some_getLast (by simp)]
        rfl
      simp only
      split_ifs with hc
      · obtain ⟨q1, q2⟩ := queueBack_keys r.2.length r.2 inv v0 hnr
        set q := queueBack r.2.length r.2 inv v0 with hq
        obtain ⟨i2, i3⟩ := ih q.2 q1
        refine ⟨i2, ?_⟩
        intro b hb
        rcases List.mem_cons.1 hb with rfl | hb
        · refine ⟨by simp; omega, ?_⟩
          have hl2 : (q.1.reverse ++ v0 :: v1 :: r.1).getLast? = some ((v1 :: r.1).getLast (by simp)) := by
            rw [List.getLast?_append_of_ne_nil _ (by simp), List.getLast?_cons_cons,
              List.getLast?_eq_some_getLast (by simp)]
          rw [hl2]
          rw [hlast] at hc
          cases hrev : q.1.reverse with
          | nil => simp only [List.nil_append, List.head?_cons, ne_eq, Option.some.injEq]; exact fun h => hc h.symm
          | cons y ys =>
            simp only [List.cons_append, List.head?_cons, ne_eq, Option.some.injEq]
            intro hy
            have hyq : y ∈ q.1 := by
              have : y ∈ q.1.reverse := by rw [hrev]; simp
              simpa using this
            have := q2 y hyq
            rw [hy] at this
            exact (dictPop_none.1 hfuel) this
        · exact i3 b hb
      · rw [not_not] at hc
        obtain ⟨i2, i3⟩ := ih r.2 hnr
        refine ⟨?_, i3⟩
        intro b hb
        rcases List.mem_cons.1 hb with rfl | hb
        · refine ⟨by simp, ?_⟩
          rw [hlast] at hc
          rw [List.getLast?_cons_cons, List.getLast?_eq_some_getLast (by simp), hc]
          rfl
        · exact i2 b hb

lemma clip_ok_iff {srt : (ℕ → K) → List ℕ → List ℕ} {p : Plane K} {tol : K} {m : Mesh K} {c : Clipped K}
    (h : clip srt p tol false m = .ok c) :
    (clip srt p tol true m = .error .openCurve ↔ c.openLines ≠ []) ∧
    (clip srt p tol true m = .ok c ↔ c.openLines = []) := by
  unfold clip at *
  cases h1 : vertexDists p tol m with
  | error e => rw [h1] at h; simp at h
  | ok d =>
    rw [h1] at h
    simp only at h ⊢
    cases h2 : partition tol d m with
    | error e => rw [h2] at h; simp at h
    | ok part =>
      rw [h2] at h
      simp only at h ⊢
      cases h3 : clipCrown srt p tol part.crown part.crownDists with
      | error e => rw [h3] at h; simp at h
      | ok r =>
        rw [h3] at h
        simp only at h ⊢
        cases h4 : Mesh.add srt part.lower r.1 with
        | error e => rw [h4] at h; simp at h
        | ok w =>
          rw [h4] at h
          simp only [Bool.false_and, Bool.false_eq_true, if_false, Except.ok.injEq] at h
          subst h
          simp only [Bool.true_and]
          cases h5 : (extractLines r.2.2 r.2.1.length r.2.1).2 with
          | nil => simp
          | cons a l => simp

lemma clip_false_of_clipCrown_error {srt : (ℕ → K) → List ℕ → List ℕ} {p : Plane K} {tol : K} {m : Mesh K} {d : List K}
    {part : Partition K} {e : ClipErr} {b : Bool} (h1 : vertexDists p tol m = .ok d) (h2 : partition tol d m = .ok part)
    (h3 : clipCrown srt p tol part.crown part.crownDists = .error e) : clip srt p tol b m = .error e := by
  unfold clip
  rw [h1]
  simp only [h2, h3]

lemma forall₂_map_right' {α β γ : Type*} {R : α → β → Prop} {S : α → γ → Prop} {g : β → γ} {l : List α} {l' : List β}
    (h : List.Forall₂ R l l') (hRS : ∀ a b, R a b → S a (g b)) : List.Forall₂ S l (l'.map g) := by
  rw [List.forall₂_map_right_iff]
  exact h.imp hRS

/-! ## C44 -/

/-- **C44** (partial: in general position, with quadrilaterals whose diagonals cross). Each face on both sides of the plane
has one intersection edge `e`, oriented from the point where the boundary of the face goes below the plane to the point
where it comes back above; its two ends are vertices of the clipped crown within `1e-5` of these points. A closed
polygon ends at the vertex where it starts, an open line does not, both have at least one edge. When no two intersection
edges start at the same vertex the polygons and the lines use each of them exactly once, and there is no open line
exactly when the ends of the edges are, with multiplicity, their starts. Asserting that the boundaries are closed
changes the result into an error exactly when there is an open line. -/
theorem C44_polygons_partial (srt : (ℕ → K) → List ℕ → List ℕ) (hsrt : IsArgsort srt) (p : Plane K) (tol : K)
    (htol : 0 ≤ tol) (m : Mesh K) (hwf : m.WF)
    (hpos : ∀ f ∈ m.faces, ∀ i ∈ f.toList, tol < |p.dist (m.vert i)|) (hq : QuadsCross m)
    (c : Clipped K) (hc : clip srt p tol false m = .ok c) :
    (∃ crossing : Face → Bool, (∀ f ∈ m.faces, (crossing f = true ↔ FaceOnBothSides p m.vert f)) ∧
      ∃ edges : List (ℕ × ℕ),
        List.Forall₂ (fun f e => ∃ x y u v, FaceCrosses p m.vert f x y ∧
          c.clippedCrown.vertices[e.1]? = some u ∧ V3.Close (1 / 100000) x u ∧
          c.clippedCrown.vertices[e.2]? = some v ∧ V3.Close (1 / 100000) y v) (m.faces.filter crossing) edges ∧
        ((edges.map Prod.fst).Nodup →
          ((c.closedPolygons ++ c.openLines).flatMap chainPairs).Perm edges ∧
          (c.openLines = [] ↔ (edges.map Prod.snd).Perm (edges.map Prod.fst)))) ∧
    (∀ l ∈ c.closedPolygons, 2 ≤ l.length ∧ l.head? = l.getLast?) ∧
    (∀ l ∈ c.openLines, 2 ≤ l.length ∧ l.head? ≠ l.getLast?) ∧
    (clip srt p tol true m = .error .openCurve ↔ c.openLines ≠ []) ∧
    (clip srt p tol true m = .ok c ↔ c.openLines = []) := by
  obtain ⟨part, cm, direct, inv, hp, hcc, _, _, _, _, hcm, hlines, _⟩ := clip_ok hc
  have hcl : c.closedPolygons = (extractLines inv direct.length direct).1 := congrArg Prod.fst hlines
  have hop : c.openLines = (extractLines inv direct.length direct).2 := congrArg Prod.snd hlines
  subst hcm
  obtain ⟨fc, pos, W, N, newId, ⟨q, rfl, hqb⟩, hall, hdir, hinv, w1, w2, w3⟩ :=
    crown_data hsrt htol hwf hpos hq hp hcc
  have hkeys : (direct.map Prod.fst).Nodup := by
    rw [hdir]; exact foldl_dictSet_keys _ _ (by simp)
  obtain ⟨s1, s2⟩ := extractLines_shape inv direct.length direct hkeys
  refine ⟨⟨q, hqb, (pos.map (fun k => (k, k + 1))).map (renEdge newId), ?_, ?_⟩, ?_, ?_, clip_ok_iff hc⟩
  · rw [List.map_map]
    refine forall₂_map_right' hall ?_
    rintro f k ⟨hk, ⟨e, he, b1, b2, b3⟩, ⟨e', he', b4, b5, b6⟩⟩
    obtain ⟨u, u1, u2⟩ := w3 k (by omega)
    obtain ⟨v, v1, v2⟩ := w3 (k + 1) hk
    obtain ⟨t1, t2⟩ := isCut_onSegment b3
    obtain ⟨t3, t4⟩ := isCut_onSegment b6.symm
    exact ⟨W k, W (k + 1), u, v, ⟨⟨e, he, b1, b2, t1, t2⟩, ⟨e', he', b5, b4, t3, t4⟩⟩, u1, u2, v1, v2⟩
  · intro hnd
    obtain ⟨_, l2, l3⟩ := lines_of_edges newId _ hnd hdir hinv
    rw [hcl, hop]
    exact ⟨l2, l3⟩
  · rw [hcl]; exact s1
  · rw [hop]; exact s2

/-- On two triangles that share the vertical edge `0 1` in the same direction, the two intersection edges start at the
same vertex: only one of them is in the lines. The hypothesis on the starts of the edges is needed. -/
theorem C44_branching_loses_an_edge :
    (match clip insArgsort (⟨⟨0, 0, 1⟩, 0⟩ : Plane ℚ) (1 / 100) false
        ⟨[⟨0, 0, 1⟩, ⟨0, 0, -1⟩, ⟨1, 0, -1⟩, ⟨-1, 0, -1⟩], [⟨0, 1, 2, 0⟩, ⟨0, 1, 3, 0⟩]⟩ with
      | .ok c => ((c.closedPolygons ++ c.openLines).flatMap chainPairs).length == 1
      | .error _ => false) = true := by decide +kernel

/-- The hypotheses of C44 hold for the cube cut at mid-height; there is one closed polygon, with four edges. -/
example : (cubeMesh ℚ).WF ∧ QuadsCross (cubeMesh ℚ) ∧
    (∀ f ∈ (cubeMesh ℚ).faces, ∀ i ∈ f.toList, 1 / 100 < |(⟨⟨0, 0, 1⟩, 1 / 2⟩ : Plane ℚ).dist ((cubeMesh ℚ).vert i)|) ∧
    (match clip insArgsort (⟨⟨0, 0, 1⟩, 1 / 2⟩ : Plane ℚ) (1 / 100) false (cubeMesh ℚ) with
      | .ok c => c.closedPolygons.map List.length == [5] && c.openLines == []
      | .error _ => false) = true :=
  ⟨cubeMesh_wf ℚ, cubeMesh_quadsCross, by decide +kernel, by decide +kernel⟩

/-! ## C45 -/

lemma IsCut.unique {p : Plane K} {a b x y : V3 K} (hx : IsCut p a b x) (hy : IsCut p a b y) : x = y := by
  obtain ⟨h1, h2⟩ := hx
  obtain ⟨_, h3⟩ := hy
  have hne : p.dist a - p.dist b ≠ 0 := by
    intro h
    have : p.dist a = p.dist b := by linarith
    rw [this] at h1
    nlinarith [mul_self_nonneg (p.dist b)]
  rw [← h2] at h3
  have e1 := congrArg V3.x h3
  have e2 := congrArg V3.y h3
  have e3 := congrArg V3.z h3
  simp only [V3.smul_x, V3.smul_y, V3.smul_z] at e1 e2 e3
  ext
  · exact (mul_left_cancel₀ hne e1).symm
  · exact (mul_left_cancel₀ hne e2).symm
  · exact (mul_left_cancel₀ hne e3).symm

/-- At most one edge of a face goes down through the plane, when the diagonals of the quadrilaterals cross. -/
lemma down_unique {p : Plane K} {m : Mesh K} (hq : QuadsCross m) {f : Face} (hf : f ∈ m.faces) {e e' : ℕ × ℕ}
    (he : e ∈ f.directedEdges) (he' : e' ∈ f.directedEdges) (h1 : 0 < p.dist (m.vert e.1)) (h2 : p.dist (m.vert e.2) < 0)
    (h3 : 0 < p.dist (m.vert e'.1)) (h4 : p.dist (m.vert e'.2) < 0) : e = e' := by
  have halt : f.a ≠ f.d → ¬ (0 < p.dist (m.vert f.a) ∧ p.dist (m.vert f.b) < 0 ∧ 0 < p.dist (m.vert f.c) ∧
      p.dist (m.vert f.d) < 0) ∧ ¬ (p.dist (m.vert f.a) < 0 ∧ 0 < p.dist (m.vert f.b) ∧ p.dist (m.vert f.c) < 0 ∧
      0 < p.dist (m.vert f.d)) := by
    intro hne
    obtain ⟨s, t, hs0, hs1, ht0, ht1, hst⟩ := hq f hf hne
    have hd := congrArg p.dist hst
    rw [dist_comb (h := by ring), dist_comb (h := by ring)] at hd
    constructor
    · rintro ⟨a1, a2, a3, a4⟩
      have : 0 < (1 - s) * p.dist (m.vert f.a) + s * p.dist (m.vert f.c) := by
        rcases hs0.lt_or_eq with h | h
        · nlinarith [mul_nonneg (sub_nonneg.2 hs1) a1.le, mul_pos h a3]
        · rw [← h]; simpa using a1
      have : (1 - t) * p.dist (m.vert f.b) + t * p.dist (m.vert f.d) < 0 := by
        rcases ht0.lt_or_eq with h | h
        · nlinarith [mul_nonneg (sub_nonneg.2 ht1) (neg_pos.2 a2).le, mul_pos h (neg_pos.2 a4)]
        · rw [← h]; simpa using a2
      linarith
    · rintro ⟨a1, a2, a3, a4⟩
      have : (1 - s) * p.dist (m.vert f.a) + s * p.dist (m.vert f.c) < 0 := by
        rcases hs0.lt_or_eq with h | h
        · nlinarith [mul_nonneg (sub_nonneg.2 hs1) (neg_pos.2 a1).le, mul_pos h (neg_pos.2 a3)]
        · rw [← h]; simpa using a1
      have : 0 < (1 - t) * p.dist (m.vert f.b) + t * p.dist (m.vert f.d) := by
        rcases ht0.lt_or_eq with h | h
        · nlinarith [mul_nonneg (sub_nonneg.2 ht1) a2.le, mul_pos h a4]
        · rw [← h]; simpa using a2
      linarith
  unfold Face.directedEdges at he he'
  split_ifs at he he' with h
  · simp only [List.mem_cons, List.not_mem_nil, or_false] at he he'
    rcases he with rfl | rfl | rfl <;> rcases he' with rfl | rfl | rfl <;> first | rfl | (simp only at *; linarith)
  · have h' : f.a ≠ f.d := by simpa [Face.isTri] using h
    obtain ⟨n1, n2⟩ := halt h'
    simp only [List.mem_cons, List.not_mem_nil, or_false] at he he'
    rcases he with rfl | rfl | rfl | rfl <;> rcases he' with rfl | rfl | rfl | rfl <;>
      first
      | rfl
      | (simp only at *; linarith)
      | (simp only at *; exact absurd (And.intro h1 (And.intro h2 (And.intro h3 h4))) n1)
      | (simp only at *; exact absurd (And.intro h3 (And.intro h4 (And.intro h1 h2))) n1)
      | (simp only at *; exact absurd (And.intro h4 (And.intro h1 (And.intro h2 h3))) n2)
      | (simp only at *; exact absurd (And.intro h2 (And.intro h3 (And.intro h4 h1))) n2)

/-- The lines obtained from a watertight mesh in general position are closed. -/
lemma watertight_no_open {srt : (ℕ → K) → List ℕ → List ℕ} (hsrt : IsArgsort srt) {p : Plane K} {tol : K}
    (htol : 0 ≤ tol) {m : Mesh K} (hwf : m.WF)
    (hnd : m.directedEdges.Nodup) (hrev : ∀ e ∈ m.directedEdges, e.swap ∈ m.directedEdges)
    (hpos : ∀ f ∈ m.faces, ∀ i ∈ f.toList, tol < |p.dist (m.vert i)|) (hq : QuadsCross m)
    (hsep : ∀ e ∈ m.directedEdges, ∀ e' ∈ m.directedEdges, ∀ x x', CrossesDown p m.vert e x →
      CrossesDown p m.vert e' x' → V3.Close (1 / 100000) x x' → e = e')
    {part : Partition K} (hp : partition tol (m.vertices.map p.dist) m = .ok part)
    {cm : Mesh K} {direct inv : List (ℕ × ℕ)}
    (hcc : clipCrown srt p tol part.crown part.crownDists = .ok (cm, direct, inv)) :
    (extractLines inv direct.length direct).2 = [] := by
  obtain ⟨fc, pos, W, N, newId, ⟨q, rfl, hqb⟩, hall, hdir, hinv, w1, w2, w3⟩ :=
    crown_data hsrt htol hwf hpos hq hp hcc
  set fc := m.faces.filter q with hfc
  have hmemd : ∀ f ∈ m.faces, ∀ e ∈ f.directedEdges, e ∈ m.directedEdges := fun f hf e he =>
    List.mem_flatMap.2 ⟨f, hf, he⟩
  have hlen : fc.length = pos.length := hall.length_eq
  -- pairs of a face and its number
  have hz : ∀ z ∈ fc.zip pos, z.1 ∈ m.faces ∧ z.2 + 1 < N ∧
      (∃ e ∈ z.1.directedEdges, CrossesDown p m.vert e (W z.2) ∧ IsCut p (m.vert e.1) (m.vert e.2) (W z.2)) ∧
      (∃ e ∈ z.1.directedEdges, CrossesDown p m.vert e.swap (W (z.2 + 1)) ∧
        IsCut p (m.vert e.1) (m.vert e.2) (W (z.2 + 1))) := by
    intro z hz
    obtain ⟨h1, ⟨e, he, b1, b2, b3⟩, ⟨e', he', b4, b5, b6⟩⟩ := List.forall₂_zip hall hz
    refine ⟨List.mem_of_mem_filter (List.of_mem_zip hz).1, h1, ⟨e, he, ⟨b1, b2, isCut_onSegment b3⟩, b3⟩,
      ⟨e', he', ⟨b5, b4, isCut_onSegment b6.symm⟩, b6⟩⟩
  have hpw : fc.Pairwise (fun f g => List.Disjoint f.directedEdges g.directedEdges) :=
    ((List.nodup_flatMap.1 hnd).2).sublist List.filter_sublist
  have hpz : (fc.zip pos).Pairwise (fun y z => List.Disjoint y.1.directedEdges z.1.directedEdges) := by
    have : (fc.zip pos).map Prod.fst = fc := List.map_fst_zip (by omega)
    rw [← this, List.pairwise_map] at hpw
    exact hpw
  have hpos2 : (fc.zip pos).map Prod.snd = pos := List.map_snd_zip (by omega)
  have hstarts : (((pos.map (fun k => (k, k + 1))).map (renEdge newId)).map Prod.fst) =
      (fc.zip pos).map (fun z => newId.getD z.2 0) := by
    conv_lhs => rw [← hpos2]
    simp only [List.map_map]; rfl
  have hends : (((pos.map (fun k => (k, k + 1))).map (renEdge newId)).map Prod.snd) =
      (fc.zip pos).map (fun z => newId.getD (z.2 + 1) 0) := by
    conv_lhs => rw [← hpos2]
    simp only [List.map_map]; rfl
  have n1 : ((fc.zip pos).map (fun z => newId.getD z.2 0)).Nodup := by
    rw [List.Nodup, List.pairwise_map]
    refine hpz.imp_of_mem ?_
    intro y z hy hz' hdis heq
    obtain ⟨y1, y2, ⟨e, he, c1, _⟩, _⟩ := hz y hy
    obtain ⟨z1, z2, ⟨e', he', c2, _⟩, _⟩ := hz z hz'
    have := hsep e (hmemd _ y1 e he) e' (hmemd _ z1 e' he') _ _ c1 c2 (w2 _ _ (by omega) (by omega) heq)
    subst this
    exact hdis he he'
  have n2 : ((fc.zip pos).map (fun z => newId.getD (z.2 + 1) 0)).Nodup := by
    rw [List.Nodup, List.pairwise_map]
    refine hpz.imp_of_mem ?_
    intro y z hy hz' hdis heq
    obtain ⟨y1, y2, _, ⟨e, he, c1, _⟩⟩ := hz y hy
    obtain ⟨z1, z2, _, ⟨e', he', c2, _⟩⟩ := hz z hz'
    have := hsep e.swap (hrev _ (hmemd _ y1 e he)) e'.swap (hrev _ (hmemd _ z1 e' he')) _ _ c1 c2
      (w2 _ _ y2 z2 heq)
    rw [Prod.swap_inj] at this
    subst this
    exact hdis he he'
  have hsub : ∀ z ∈ fc.zip pos, ∃ y ∈ fc.zip pos, newId.getD (z.2 + 1) 0 = newId.getD y.2 0 := by
    intro z hz'
    obtain ⟨z1, z2, _, ⟨e, he, c1, c2⟩⟩ := hz z hz'
    obtain ⟨f, hf, hef⟩ := List.mem_flatMap.1 (hrev _ (hmemd _ z1 e he))
    have hboth : FaceOnBothSides p m.vert f :=
      ⟨⟨_, (edges_mem_toList hef).1, c1.1⟩, ⟨_, (edges_mem_toList hef).2, c1.2.1⟩⟩
    have hffc : f ∈ fc := List.mem_filter.2 ⟨hf, (hqb f hf).2 hboth⟩
    have : f ∈ (fc.zip pos).map Prod.fst := by rw [List.map_fst_zip (by omega)]; exact hffc
    obtain ⟨y, hy, hyf⟩ := List.mem_map.1 this
    subst hyf
    obtain ⟨y1, y2, ⟨e', he', d1, d2⟩, _⟩ := hz y hy
    have hee := down_unique hq y1 hef he' c1.1 c1.2.1 d1.1 d1.2.1
    subst hee
    exact ⟨y, hy, w1 _ _ z2 (by omega) (IsCut.unique c2.symm d2)⟩
  obtain ⟨_, _, l3⟩ := lines_of_edges newId (pos.map (fun k => (k, k + 1))) (by rw [hstarts]; exact n1) hdir hinv
  rw [l3, hstarts, hends]
  have hss : ((fc.zip pos).map (fun z => newId.getD (z.2 + 1) 0)) ⊆ ((fc.zip pos).map (fun z => newId.getD z.2 0)) := by
    intro k hk
    obtain ⟨z, hz', rfl⟩ := List.mem_map.1 hk
    obtain ⟨y, hy, he⟩ := hsub z hz'
    exact List.mem_map.2 ⟨y, hy, he.symm⟩
  exact (List.subperm_of_subset n2 hss).perm_of_length_le (by simp)

/-- **C45** (partial: see `hsep`). A watertight mesh (each directed edge once, with its reverse) in general position, whose
quadrilaterals have crossing diagonals, is cut along closed polygons only, whether this is asserted or not; when a face
crosses the plane the clipper returns. `hsep`: two different edges do not cross the plane within `1e-5` of each other. -/
theorem C45_watertight_partial (srt : (ℕ → K) → List ℕ → List ℕ) (hsrt : IsArgsort srt) (p : Plane K) (tol : K)
    (htol : 0 ≤ tol) (m : Mesh K) (hwf : m.WF)
    (hnd : m.directedEdges.Nodup) (hrev : ∀ e ∈ m.directedEdges, e.swap ∈ m.directedEdges)
    (hpos : ∀ f ∈ m.faces, ∀ i ∈ f.toList, tol < |p.dist (m.vert i)|) (hq : QuadsCross m)
    (hsep : ∀ e ∈ m.directedEdges, ∀ e' ∈ m.directedEdges, ∀ x x', CrossesDown p m.vert e x →
      CrossesDown p m.vert e' x' → V3.Close (1 / 100000) x x' → e = e') :
    (∀ b c, clip srt p tol b m = .ok c → c.openLines = []) ∧
    ((∃ f ∈ m.faces, FaceOnBothSides p m.vert f) → ∀ b, ∃ c, clip srt p tol b m = .ok c) := by
  refine ⟨?_, ?_⟩
  · intro b c hc
    obtain ⟨part, cm, direct, inv, hp, hcc, _, _, _, _, hcm, hlines, _⟩ := clip_ok hc
    have hop : c.openLines = (extractLines inv direct.length direct).2 := congrArg Prod.snd hlines
    rw [hop]
    exact watertight_no_open hsrt htol hwf hnd hrev hpos hq hsep hp hcc
  · rintro ⟨f, hf, ⟨i, hi, hdi⟩, ⟨j, hj, hdj⟩⟩ b
    have hiv : m.vert i ∈ m.vertices := by
      have : i < m.vertices.length := hwf f hf i hi
      simp [Mesh.vert, List.getD_eq_getElem?_getD, this]
    have hjv : m.vert j ∈ m.vertices := by
      have : j < m.vertices.length := hwf f hf j hj
      simp [Mesh.vert, List.getD_eq_getElem?_getD, this]
    cases hb : clip srt p tol b m with
    | ok c => exact ⟨c, rfl⟩
    | error e =>
      exfalso
      have hpos' : ∀ f ∈ m.faces, ∀ i ∈ f.corners, tol < |p.dist (m.vert i)| :=
        fun f hf i hi => hpos f hf i (Face.corners_sub f i hi)
      rcases C42_known_cases_partial srt hsrt p tol htol b m hwf (fun f hf i hi => (hpos' f hf i hi).ne')
        (fun f hf _ => by
          rw [List.filter_eq_nil_iff.2]
          · simp
          · intro k hk; have := hpos' f hf k hk; simpa using this.le) e hb with ⟨_, h⟩ | ⟨_, h⟩ | ⟨he, h⟩ | ⟨_, h⟩
      · linarith [h _ hjv]
      · linarith [h _ hiv]
      · subst he
        unfold clip at hb
        cases h1 : vertexDists p tol m with
        | error e =>
          rw [h1] at hb
          simp only [Except.error.injEq] at hb
          subst hb
          unfold vertexDists at h1
          simp only at h1
          split_ifs at h1 <;> cases h1
        | ok d =>
          have := vertexDists_ok h1
          subst this
          simp only [h1] at hb
          cases h2 : partition tol (m.vertices.map p.dist) m with
          | error e => rw [h2] at hb; simp at hb
          | ok part =>
            simp only [h2] at hb
            cases h3 : clipCrown srt p tol part.crown part.crownDists with
            | error e =>
              have he : e = .openCurve := by simpa [h3] using hb
              subst he
              have hf2 := clip_false_of_clipCrown_error (b := false) h1 h2 h3
              rcases C42_known_cases_partial srt hsrt p tol htol false m hwf (fun f hf i hi => (hpos' f hf i hi).ne')
                (fun f hf _ => by
                  rw [List.filter_eq_nil_iff.2]
                  · simp
                  · intro k hk; have := hpos' f hf k hk; simpa using this.le) _ hf2 with ⟨h, _⟩ | ⟨h, _⟩ | ⟨_, h⟩ | ⟨h, _⟩
              all_goals cases h
            | ok t =>
              obtain ⟨cm, direct, inv⟩ := t
              have hno := watertight_no_open hsrt htol hwf hnd hrev hpos hq hsep h2 h3
              rw [h3] at hb
              simp only [hno, List.isEmpty_nil, Bool.not_true, Bool.and_false, Bool.false_eq_true, if_false] at hb
              cases h4 : Mesh.add srt part.lower cm with
              | error e => rw [h4] at hb; simp at hb
              | ok w => rw [h4] at hb; simp at hb
      · rcases h f hf with h | h
        · linarith [h _ (toList_corners f i hi)]
        · have h1 := h _ (toList_corners f j hj)
          have h2 := hpos f hf j hj
          rw [abs_of_neg hdj] at h2
          linarith

/-- Without `hsep` it is false: two watertight tetrahedra that touch along an edge that crosses the plane. -/
theorem C45_fails_on_touching_parts : ∃ m : Mesh ℚ, m.WF ∧ m.directedEdges.Nodup ∧
    (∀ e ∈ m.directedEdges, e.swap ∈ m.directedEdges) ∧ (∀ f ∈ m.faces, f.a = f.d) ∧
    (∀ f ∈ m.faces, ∀ i ∈ f.toList, 1 / 100 < |(⟨⟨0, 0, 1⟩, 0⟩ : Plane ℚ).dist (m.vert i)|) ∧
    clip insArgsort ⟨⟨0, 0, 1⟩, 0⟩ (1 / 100) true m = .error .openCurve :=
  ⟨⟨[⟨0, 0, 1⟩, ⟨0, 0, -1⟩, ⟨1, 0, -1⟩, ⟨0, 1, -1⟩, ⟨0, 0, 1⟩, ⟨0, 0, -1⟩, ⟨-1, 0, -1⟩, ⟨0, -1, -1⟩],
    [⟨0, 1, 2, 0⟩, ⟨0, 2, 3, 0⟩, ⟨0, 3, 1, 0⟩, ⟨1, 3, 2, 1⟩, ⟨4, 5, 6, 4⟩, ⟨4, 6, 7, 4⟩, ⟨4, 7, 5, 4⟩, ⟨5, 7, 6, 5⟩]⟩,
    by decide +kernel, by decide +kernel, by decide +kernel, by decide +kernel, by decide +kernel, by decide +kernel⟩

/-- The hypotheses of C45 hold for the cube cut at mid-height. -/
example : (cubeMesh ℚ).directedEdges.Nodup ∧ (∀ e ∈ (cubeMesh ℚ).directedEdges, e.swap ∈ (cubeMesh ℚ).directedEdges) ∧
    (∀ e ∈ (cubeMesh ℚ).directedEdges, ∀ e' ∈ (cubeMesh ℚ).directedEdges, ∀ x x',
      CrossesDown ⟨⟨0, 0, 1⟩, 1 / 2⟩ (cubeMesh ℚ).vert e x → CrossesDown ⟨⟨0, 0, 1⟩, 1 / 2⟩ (cubeMesh ℚ).vert e' x' →
      V3.Close (1 / 100000) x x' → e = e') ∧
    (∃ f ∈ (cubeMesh ℚ).faces, FaceOnBothSides ⟨⟨0, 0, 1⟩, 1 / 2⟩ (cubeMesh ℚ).vert f) := by
  refine ⟨by decide +kernel, by decide +kernel, ?_, ⟨⟨0, 1, 5, 4⟩, by decide +kernel, by
    unfold FaceOnBothSides; decide +kernel⟩⟩
  have key : ∀ e ∈ (cubeMesh ℚ).directedEdges, 0 < (⟨⟨0, 0, 1⟩, 1 / 2⟩ : Plane ℚ).dist ((cubeMesh ℚ).vert e.1) →
      (⟨⟨0, 0, 1⟩, 1 / 2⟩ : Plane ℚ).dist ((cubeMesh ℚ).vert e.2) < 0 →
      ((cubeMesh ℚ).vert e.1).x = ((cubeMesh ℚ).vert e.2).x ∧ ((cubeMesh ℚ).vert e.1).y = ((cubeMesh ℚ).vert e.2).y := by
    decide +kernel
  have key2 : ∀ e ∈ (cubeMesh ℚ).directedEdges, 0 < (⟨⟨0, 0, 1⟩, 1 / 2⟩ : Plane ℚ).dist ((cubeMesh ℚ).vert e.1) →
      (⟨⟨0, 0, 1⟩, 1 / 2⟩ : Plane ℚ).dist ((cubeMesh ℚ).vert e.2) < 0 →
      ∀ e' ∈ (cubeMesh ℚ).directedEdges, 0 < (⟨⟨0, 0, 1⟩, 1 / 2⟩ : Plane ℚ).dist ((cubeMesh ℚ).vert e'.1) →
      (⟨⟨0, 0, 1⟩, 1 / 2⟩ : Plane ℚ).dist ((cubeMesh ℚ).vert e'.2) < 0 →
      e = e' ∨ 1 / 100000 < |((cubeMesh ℚ).vert e.1).x - ((cubeMesh ℚ).vert e'.1).x| ∨
        1 / 100000 < |((cubeMesh ℚ).vert e.1).y - ((cubeMesh ℚ).vert e'.1).y| := by
    decide +kernel
  have pt : ∀ e ∈ (cubeMesh ℚ).directedEdges, ∀ x, CrossesDown ⟨⟨0, 0, 1⟩, 1 / 2⟩ (cubeMesh ℚ).vert e x →
      x.x = ((cubeMesh ℚ).vert e.1).x ∧ x.y = ((cubeMesh ℚ).vert e.1).y := by
    rintro e he x ⟨h1, h2, ⟨t, _, _, rfl⟩, _⟩
    obtain ⟨k1, k2⟩ := key e he h1 h2
    constructor
    · simp only [V3.add_x, V3.smul_x, ← k1]; ring
    · simp only [V3.add_y, V3.smul_y, ← k2]; ring
  intro e he e' he' x x' hx hx' hcl
  obtain ⟨a1, a2⟩ := pt e he x hx
  obtain ⟨b1, b2⟩ := pt e' he' x' hx'
  rcases key2 e he hx.1 hx.2.1 e' he' hx'.1 hx'.2.1 with h | h | h
  · exact h
  · rw [← a1, ← b1] at h; exact absurd hcl.1 (not_le.2 h)
  · rw [← a2, ← b2] at h; exact absurd hcl.2.1 (not_le.2 h)

end Clipper
end MM
