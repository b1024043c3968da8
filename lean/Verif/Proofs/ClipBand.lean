import Verif.Proofs.ClipSection

/-!
# The edges of the clipped faces along the plane, when vertices may be in the slab of the tolerance
-/

namespace MM
namespace Clipper

set_option linter.unusedSectionVars false
set_option linter.unusedSimpArgs false
set_option linter.unusedVariables false

variable {K : Type*} [Field K] [LinearOrder K] [IsStrictOrderedRing K]

lemma notAt_or {tol d : K} (htol : 0 ≤ tol) (h : |d| ≠ tol) : (tol < d ∨ |d| < tol) ↔ -tol ≤ d := by
  constructor
  · rintro (h | h)
    · linarith
    · exact (abs_lt.1 h).1.le
  · intro h1
    by_cases h2 : tol < d
    · exact .inl h2
    · exact .inr (lt_of_le_of_ne (abs_le.2 ⟨h1, not_lt.1 h2⟩) h)

/-- The part below the slab of an edge. -/
def belowTol (p : Plane K) (tol : K) (φ : V3 K → V3 K → K) (a b : V3 K) : K :=
  if p.dist a < -tol then
    if p.dist b < -tol then φ a b else φ a (p.tolCutPt tol b a)
  else if p.dist b < -tol then φ (p.tolCutPt tol a b) b else 0

lemma belowTol_anti {p : Plane K} {tol : K} {φ : V3 K → V3 K → K} (hφ : ∀ x y, φ x y = -φ y x) (a b : V3 K) :
    belowTol p tol φ a b = -belowTol p tol φ b a := by
  unfold belowTol
  split_ifs
  · exact hφ _ _
  · exact hφ _ _
  · exact hφ _ _
  · simp

/-- No side of the face in the slab: no flat crossing. -/
lemma slab_flatOn {p : Plane K} {tol : K} (htol : 0 ≤ tol) {V : ℕ → V3 K} {f : Face}
    (h : ∀ e ∈ f.directedEdges, |p.dist (V e.1)| < tol → |p.dist (V e.2)| < tol →
      (∀ i ∈ f.toList, p.dist (V i) ≤ tol) ∨ (∀ i ∈ f.toList, -tol ≤ p.dist (V i))) :
    flatOn (cornerCls p tol V f) = false := by
  unfold cornerCls
  by_cases ht : f.a = f.d
  · have hc : f.corners = [f.a, f.b, f.c] := by unfold Face.corners Face.isTri; simp [ht, Face.toList]
    rw [hc]; rfl
  · have hc : f.corners = [f.a, f.b, f.c, f.d] := by unfold Face.corners Face.isTri; simp [ht, Face.toList]
    rw [hc]
    by_contra hh
    rw [Bool.not_eq_false] at hh
    simp only [List.map_cons, List.map_nil, flatOn, crossing, List.any_cons, List.any_nil, Bool.or_false,
      Bool.and_eq_true, Bool.or_eq_true, isA_iff, isB_iff htol, isO_iff htol] at hh
    obtain ⟨⟨hA, hB⟩, hs⟩ := hh
    have hA' : ∃ i ∈ f.toList, tol < p.dist (V i) := by simpa [Face.toList] using hA
    have hB' : ∃ i ∈ f.toList, p.dist (V i) < -tol := by simpa [Face.toList] using hB
    have key : ¬ ((∀ i ∈ f.toList, p.dist (V i) ≤ tol) ∨ (∀ i ∈ f.toList, -tol ≤ p.dist (V i))) := by
      rintro (k | k)
      · obtain ⟨i, hi, h'⟩ := hA'; exact absurd (k i hi) (not_le.2 h')
      · obtain ⟨i, hi, h'⟩ := hB'; exact absurd (k i hi) (not_le.2 h')
    have hde : f.directedEdges = [(f.a, f.b), (f.b, f.c), (f.c, f.d), (f.d, f.a)] := by simp [Face.directedEdges, ht]
    rw [hde] at h
    rcases hs with ((hs | hs) | hs) | hs
    · exact key (h (f.a, f.b) (by simp) hs.1 hs.2)
    · exact key (h (f.b, f.c) (by simp) hs.1 hs.2)
    · exact key (h (f.c, f.d) (by simp) hs.1 hs.2)
    · exact key (h (f.d, f.a) (by simp) hs.1 hs.2)

/-- The edge recorded for a face is the side along the plane of the part of the face below it. -/
lemma plan_tol {p : Plane K} {tol : K} (htol : 0 ≤ tol) {V : ℕ → V3 K} {f : Face}
    (hpos : ∀ i ∈ f.toList, |p.dist (V i)| ≠ tol) (halt : altern (cornerCls p tol V f) = false)
    (hflat : flatOn (cornerCls p tol V f) = false) (hnd : f.corners.Nodup) {q : Plan} {N : ℕ → V3 K}
    (h1 : plan (cornerCls p tol V f) = .ok q) (h2 : CutsOk p (cornerPt V f) N q) :
    f.tolSectionEdge p tol V = q.edge.map (fun e => (pt (cornerPt V f) N e.1, pt (cornerPt V f) N e.2)) := by
  set c := cornerCls p tol V f with hc
  set n := f.corners.length with hn
  have hlen : c.length = n := cornerCls_length p tol V f
  set P := cornerPt V f with hP
  have hbad : c.any Cls.isBad = false := by
    rw [hc, cornerCls, List.any_map, List.any_eq_false]
    intro i hi
    simp [(notAt_cls htol (hpos i (Face.corners_sub f i hi))).1]
  have hchk := PlanRes.check_ok (table_section c (cornerCls_mem p tol V f) hbad halt hflat) h1
  rw [Bool.and_eq_true] at hchk
  have hchk := hchk.1
  have hcls : ∀ k, k < n → c.getD k .P = classOf tol (p.dist (P k)) := by
    intro k hk
    rw [hc, cornerCls, getD_map _ f.corners k 0 hk]; rfl
  have hclr : ∀ k, k < n → |p.dist (P k)| ≠ tol := fun k hk => hpos _ (Face.corners_sub f _ (corners_getD_mem hk))
  have hA : ∀ k, k < n → ((c.getD k .P).isA = true ↔ tol < p.dist (P k)) := fun k hk => by
    rw [hcls k hk]; exact isA_iff
  have hB : ∀ k, k < n → ((c.getD k .P).isB = true ↔ p.dist (P k) < -tol) := fun k hk => by
    rw [hcls k hk]; exact isB_iff htol
  have hO : ∀ k, k < n → ((c.getD k .P).isO = true ↔ |p.dist (P k)| < tol) := fun k hk => by
    rw [hcls k hk]; exact isO_iff htol
  have hAO : ∀ k, k < n → (((c.getD k .P).isA || (c.getD k .P).isO) = true ↔ -tol ≤ p.dist (P k)) := fun k hk => by
    rw [Bool.or_eq_true, hA k hk, hO k hk]; exact notAt_or htol (hclr k hk)
  have hn3 : 0 < n := by have := corners_length f; omega
  have hnext : ∀ k, (k + 1) % n < n := fun k => Nat.mod_lt _ hn3
  have hd : (List.range n).filter (fun k => decide (-tol ≤ p.dist (P k)) && decide (p.dist (P ((k + 1) % n)) < -tol)) = downs c := by
    rw [downs, hlen]
    apply List.filter_congr
    intro k hk
    rw [List.mem_range] at hk
    rw [Bool.eq_iff_iff, Bool.and_eq_true, Bool.and_eq_true, decide_eq_true_iff, decide_eq_true_iff, hAO k hk, hB _ (hnext k)]
  have hu : (List.range n).filter (fun k => decide (p.dist (P k) < -tol) && decide (-tol ≤ p.dist (P ((k + 1) % n)))) = ups c := by
    rw [ups, hlen]
    apply List.filter_congr
    intro k hk
    rw [List.mem_range] at hk
    rw [Bool.eq_iff_iff, Bool.and_eq_true, Bool.and_eq_true, decide_eq_true_iff, decide_eq_true_iff, hAO _ (hnext k), hB k hk]
  have hfd : f.directedEdges.find? (fun e => decide (-tol ≤ p.dist (V e.1)) && decide (p.dist (V e.2) < -tol)) =
      (downs c).head?.map (fun k => (f.corners.getD k 0, f.corners.getD ((k + 1) % n) 0)) := by
    rw [find_range, ← hd]; rfl
  have hfu : f.directedEdges.find? (fun e => decide (p.dist (V e.1) < -tol) && decide (-tol ≤ p.dist (V e.2))) =
      (ups c).head?.map (fun k => (f.corners.getD k 0, f.corners.getD ((k + 1) % n) 0)) := by
    rw [find_range, ← hu]; rfl
  have hmd : ∀ i ∈ downs c, i < n ∧ -tol ≤ p.dist (P i) := by
    intro i hi
    rw [← hd, List.mem_filter, List.mem_range, Bool.and_eq_true, decide_eq_true_iff, decide_eq_true_iff] at hi
    exact ⟨hi.1, hi.2.1⟩
  have hmu : ∀ i ∈ ups c, i < n := by
    intro i hi
    rw [← hu, List.mem_filter, List.mem_range] at hi
    exact hi.1
  have hnew : ∀ i j k l r, atRef q c i j k r = true → k < n → (k = i ∧ l = j) ∨ (k = j ∧ l = i) →
      pt P N r = p.tolCutPt tol (P k) (P l) := by
    intro i j k l r hr hkn hk
    unfold Plane.tolCutPt
    cases r with
    | old o =>
      simp only [atRef, Bool.and_eq_true, beq_iff_eq] at hr
      obtain ⟨rfl, ho⟩ := hr
      rw [hO _ hkn] at ho
      rw [if_neg (not_lt.2 (abs_lt.1 ho).2.le)]; rfl
    | new o =>
      simp only [atRef, Bool.and_eq_true] at hr
      rw [if_pos ((hA k hkn).1 hr.1)]
      have hr := hr.2
      cases hl : q.cuts[o]? with
      | none => simp [hl] at hr
      | some e =>
        simp only [hl, Bool.or_eq_true, beq_iff_eq] at hr
        have h5 := h2 o e hl
        have h6 : pt P N (.new o) = p.cutPt (P i) (P j) := by
          rcases hr with rfl | rfl
          · exact IsCut.eq_cutPt (p := p) h5
          · rw [cutPt_symm]; exact IsCut.eq_cutPt (p := p) h5
        rw [h6]
        rcases hk with ⟨rfl, rfl⟩ | ⟨rfl, rfl⟩
        · rfl
        · rw [cutPt_symm]
  unfold Face.tolSectionEdge
  rw [hfd, hfu]
  unfold okSection at hchk
  split at hchk
  · rename_i he h3 h4
    rw [he, h3, h4]; rfl
  · rename_i i j he h3 h4
    rw [he, h3, h4]
    rw [Bool.and_eq_true, beq_iff_eq, hlen] at hchk
    obtain ⟨e1, e2⟩ := hchk
    have hi := (hmd i (by rw [h3]; simp)).1
    rw [hO i hi] at e2
    simp only [List.head?_cons, Option.map_some, Option.map_none]
    rw [if_pos ⟨by rw [← e1], (abs_lt.1 e2).2.le⟩]
  · rename_i e i j he h3 h4
    rw [he, h3, h4]
    simp only [hlen, Bool.and_eq_true, Bool.not_eq_true', ← Bool.not_eq_true, beq_iff_eq] at hchk
    obtain ⟨⟨e1, e2⟩, e3⟩ := hchk
    have hi := hmd i (by rw [h3]; simp)
    rw [hO i hi.1] at e3
    simp only [List.head?_cons, Option.map_some]
    rw [if_neg, hnew _ _ _ _ _ e1 hi.1 (.inl ⟨rfl, rfl⟩), hnew _ _ _ _ _ e2 (hnext j) (.inr ⟨rfl, rfl⟩)]
    · rfl
    · rintro ⟨h, h'⟩
      refine e3 ⟨?_, lt_of_le_of_ne (abs_le.2 ⟨hi.2, h'⟩) (hclr i hi.1)⟩
      have hh := hnext j
      rw [List.getD_eq_getElem?_getD, List.getD_eq_getElem?_getD, List.getElem?_eq_getElem hi.1,
        List.getElem?_eq_getElem hh, Option.getD_some, Option.getD_some] at h
      exact (List.Nodup.getElem_inj_iff hnd).1 h
  · simp at hchk

/-- The value of a function on the side of the face in the plane, reversed. -/
def tolSum (p : Plane K) (tol : K) (φ : V3 K → V3 K → K) (V : ℕ → V3 K) (f : Face) : K :=
  match f.tolSectionEdge p tol V with
  | some e => φ e.2 e.1
  | none => 0

/-- An antisymmetric quantity summed over the sides of the pieces of a face is the sum over the parts below the slab of the
sides of the face, and over the side in the plane. -/
lemma planned_chain_tol {p : Plane K} {tol : K} (htol : 0 ≤ tol) {V W : ℕ → V3 K} {f : Face} {gs : List Face}
    (hpos : ∀ i ∈ f.toList, |p.dist (V i)| ≠ tol) (halt : altern (cornerCls p tol V f) = false)
    (hflat : flatOn (cornerCls p tol V f) = false) (hnd : f.corners.Nodup)
    (h : Planned p tol V W f gs) {φ : V3 K → V3 K → K} (hφ : ∀ x y, φ x y = -φ y x) :
    (gs.map (edgeSum φ W)).sum =
      (f.directedEdges.map (fun e => belowTol p tol φ (V e.1) (V e.2))).sum + tolSum p tol φ V f := by
  obtain ⟨q, N, h1, h2, h3⟩ := h
  have hsec := plan_tol htol hpos halt hflat hnd h1 h2
  set c := cornerCls p tol V f with hc
  set n := f.corners.length with hn
  have hlen : c.length = n := cornerCls_length p tol V f
  set P := cornerPt V f with hP
  have hbad : c.any Cls.isBad = false := by
    rw [hc, cornerCls, List.any_map, List.any_eq_false]
    intro i hi
    simp [(notAt_cls htol (hpos i (Face.corners_sub f i hi))).1]
  have hchk := PlanRes.check_ok (table_touch c (cornerCls_mem p tol V f) hbad halt hflat) h1
  have hsum := PlanRes.check_ok (table_section c (cornerCls_mem p tol V f) hbad halt hflat) h1
  rw [Bool.and_eq_true] at hsum
  have hsum := hsum.2
  simp only [touchCheck, Bool.and_eq_true, List.all_eq_true, List.mem_range, hlen] at hchk
  simp only [okSum, hlen] at hsum
  obtain ⟨_, hcut⟩ := hchk
  have hcls : ∀ k, k < n → c.getD k .P = classOf tol (p.dist (P k)) := by
    intro k hk
    rw [hc, cornerCls, getD_map _ f.corners k 0 hk]; rfl
  have hclr : ∀ k, k < n → |p.dist (P k)| ≠ tol := fun k hk => hpos _ (Face.corners_sub f _ (corners_getD_mem hk))
  have hA : ∀ k, k < n → ((c.getD k .P).isA = true ↔ tol < p.dist (P k)) := fun k hk => by
    rw [hcls k hk]; exact isA_iff
  have hB : ∀ k, k < n → ((c.getD k .P).isB = true ↔ p.dist (P k) < -tol) := fun k hk => by
    rw [hcls k hk]; exact isB_iff htol
  have hn3 : 0 < n := by have := corners_length f; omega
  have hnext : ∀ k, (k + 1) % n < n := fun k => Nat.mod_lt _ hn3
  have hnew : ∀ k, k < n → (tol < p.dist (P k) ∧ p.dist (P ((k + 1) % n)) < -tol) ∨
      (p.dist (P k) < -tol ∧ tol < p.dist (P ((k + 1) % n))) →
      pt P N (newOf q k ((k + 1) % n)) = p.cutPt (P k) (P ((k + 1) % n)) := by
    intro k hk hs
    have hh := hcut k hk
    have hs' : (((c.getD k .P).isA && (c.getD ((k + 1) % n) .P).isB) ||
        ((c.getD k .P).isB && (c.getD ((k + 1) % n) .P).isA)) = true := by
      rw [Bool.or_eq_true, Bool.and_eq_true, Bool.and_eq_true, hA k hk, hB k hk, hA _ (hnext k), hB _ (hnext k)]
      exact hs
    rw [hs', Bool.not_true, Bool.false_or] at hh
    have hlt : q.cuts.findIdx (fun e => e == (k, (k + 1) % n) || e == ((k + 1) % n, k)) < q.cuts.length := by
      rw [List.findIdx_lt_length]
      exact List.any_eq_true.1 hh
    have hg := List.findIdx_getElem (w := hlt)
    simp only [Bool.or_eq_true, beq_iff_eq] at hg
    simp only [newOf, pt]
    have hget := List.getElem?_eq_getElem hlt
    rcases hg with hg | hg
    · rw [hg] at hget
      have h5 : IsCut p (P k) (P ((k + 1) % n)) (N _) := h2 _ (k, (k + 1) % n) hget
      exact IsCut.eq_cutPt h5
    · rw [hg] at hget
      rw [cutPt_symm]
      have h5 : IsCut p (P ((k + 1) % n)) (P k) (N _) := h2 _ ((k + 1) % n, k) hget
      exact IsCut.eq_cutPt h5
  set ψ : Ref × Ref → K := fun e => φ (pt P N e.1) (pt P N e.2) with hψ
  have hψs : ∀ e, ψ e.swap = -ψ e := fun e => hφ _ _
  have s1 : (gs.map (edgeSum φ W)).sum = ((q.faces.flatMap refEdges).map ψ).sum := by
    clear hsum
    generalize q.faces = L at h3
    induction h3 with
    | nil => rfl
    | @cons l g L G h4 _ ih =>
      obtain ⟨x, y, z, w, rfl, e1, e2, e3, e4, _⟩ := h4
      simp only [List.map_cons, List.sum_cons, List.flatMap_cons, List.map_append, List.sum_append, ih, refEdges, edgeSum,
        List.map_nil, List.sum_nil, hψ, e1, e2, e3, e4]
      ring
  have s3 : ((q.faces.flatMap refEdges).map ψ).sum = (((List.range n).flatMap (stepRef' c q)).map ψ).sum +
      (((q.edge.map Prod.swap).toList).map ψ).sum := by
    have hp := ((List.isPerm_iff.1 hsum).map ψ).sum_eq
    simp only [List.map_append, List.sum_append, sum_swap hψs] at hp
    linarith
  rw [s1, s3]
  congr 1
  · rw [directed_range, List.map_map, List.map_flatMap, sum_flatMap']
    congr 1
    apply List.map_congr_left
    intro k hk
    rw [List.mem_range] at hk
    have e1 : V (f.corners.getD k 0) = P k := rfl
    have e2 : V (f.corners.getD ((k + 1) % n) 0) = P ((k + 1) % n) := rfl
    simp only [Function.comp, belowTol]
    rw [← hn, e1, e2]
    unfold stepRef'
    simp only [hlen]
    by_cases b1 : p.dist (P k) < -tol
    · rw [if_pos ((hB k hk).2 b1), if_pos b1]
      by_cases b2 : tol < p.dist (P ((k + 1) % n))
      · rw [if_pos ((hA _ (hnext k)).2 b2), if_neg (by linarith), Plane.tolCutPt, if_pos b2, cutPt_symm]
        simp [hψ, hnew k hk (.inr ⟨b1, b2⟩)]
        rfl
      · rw [if_neg (fun h => b2 ((hA _ (hnext k)).1 h)), Plane.tolCutPt, if_neg b2]
        split_ifs <;> simp [hψ, pt]
    · rw [if_neg (fun h => b1 ((hB _ hk).1 h)), if_neg b1]
      by_cases b2 : p.dist (P ((k + 1) % n)) < -tol
      · rw [if_pos ((hB _ (hnext k)).2 b2), if_pos b2]
        by_cases b3 : tol < p.dist (P k)
        · rw [if_pos ((hA k hk).2 b3), Plane.tolCutPt, if_pos b3]
          simp [hψ, hnew k hk (.inl ⟨b3, b2⟩)]
          rfl
        · rw [if_neg (fun h => b3 ((hA k hk).1 h)), Plane.tolCutPt, if_neg b3]
          simp [hψ, pt]
      · rw [if_neg (fun h => b2 ((hB _ (hnext k)).1 h)), if_neg b2]; rfl
  · unfold tolSum
    rw [hsec]
    cases q.edge with
    | none => rfl
    | some e => simp [hψ]

/-- For a closed surface, the clipped mesh and the section in the plane together are closed. -/
lemma clip_closed_tol {srt : (ℕ → K) → List ℕ → List ℕ} (hsrt : IsArgsort srt) {p : Plane K} {tol : K}
    (htol : 0 ≤ tol) {b : Bool} {m : Mesh K} (hwf : m.WF) (hcl : m.ClosedOriented)
    (hpos : ∀ f ∈ m.faces, ∀ i ∈ f.toList, |p.dist (m.vert i)| ≠ tol) (hq : QuadsCross m) (hsep : m.TolSeparated p tol)
    (hnd : ∀ f ∈ m.faces, f.corners.Nodup) (hfl : m.NoSlabSide p tol) {c : Clipped K} (h : clip srt p tol b m = .ok c) {φ : V3 K → V3 K → K}
    (hφ : ∀ x y, φ x y = -φ y x) :
    (c.clipped.pointEdges.map (fun e => φ e.1 e.2)).sum + ((m.tolSectionEdges p tol).map (fun e => φ e.1 e.2)).sum = 0 := by
  obtain ⟨exact, parts, _, _, hg, hperm, hfaces, hpl, _, _⟩ :=
    clip_planned_tol hsrt htol hwf hpos (fun f hf => .inr (hnd f hf)) hsep h
  have s0 : (c.clipped.pointEdges.map (fun e => φ e.1 e.2)).sum = (c.clipped.faces.map (edgeSum φ c.clipped.vert)).sum := by
    unfold Mesh.pointEdges Mesh.directedEdges
    rw [List.map_map, List.map_flatMap, sum_flatMap']
    congr 1
    apply List.map_congr_left
    intro f _
    rw [edgeSum_directed hφ]; rfl
  have s1 : c.clipped.faces.map (edgeSum φ c.clipped.vert) = exact.faces.map (edgeSum φ exact.vert) :=
    geometry_congr (fun u v w t => φ u v + φ v w + φ w t + φ t u) hg
  have s2 : (exact.faces.map (edgeSum φ exact.vert)).sum =
      (parts.map (fun t => (t.1.directedEdges.map (fun e => belowTol p tol φ (m.vert e.1) (m.vert e.2))).sum +
        tolSum p tol φ m.vert t.1)).sum := by
    rw [hfaces, List.map_flatMap, sum_flatMap']
    congr 1
    apply List.map_congr_left
    intro t ht
    have hf : t.1 ∈ m.faces := hperm.subset (List.mem_map_of_mem ht)
    exact planned_chain_tol htol (hpos _ hf) (cls_not_altern htol hwf hq hf)
      (slab_flatOn htol (hfl _ hf)) (hnd _ hf) (hpl t ht) hφ
  have s3 : (parts.map (fun t => (t.1.directedEdges.map (fun e => belowTol p tol φ (m.vert e.1) (m.vert e.2))).sum +
        tolSum p tol φ m.vert t.1)).sum = (m.faces.map (fun f =>
          (f.directedEdges.map (fun e => belowTol p tol φ (m.vert e.1) (m.vert e.2))).sum + tolSum p tol φ m.vert f)).sum := by
    rw [← (hperm.map _).sum_eq, List.map_map]; rfl
  have s4 : (m.faces.map (fun f => (f.directedEdges.map (fun e => belowTol p tol φ (m.vert e.1) (m.vert e.2))).sum)).sum = 0 := by
    have := closed_sum hcl (fun i j => belowTol p tol φ (m.vert i) (m.vert j)) (fun i j => belowTol_anti hφ _ _)
    unfold Mesh.directedEdges at this
    rw [List.map_flatMap, sum_flatMap'] at this
    exact this
  rw [s0, s1, s2, s3, sum_map_add', s4, zero_add]
  unfold Mesh.tolSectionEdges
  rw [List.map_filterMap]
  generalize m.faces = L
  induction L with
  | nil => simp
  | cons f L ih =>
    rw [List.map_cons, List.sum_cons, List.filterMap_cons, tolSum]
    cases f.tolSectionEdge p tol m.vert with
    | none => simpa using ih
    | some e =>
      simp only [Option.map_some, List.sum_cons]
      rw [hφ e.2 e.1]; linarith

/-- The section in the plane has as many edges from a point as to it. -/
lemma tol_balanced {srt : (ℕ → K) → List ℕ → List ℕ} (hsrt : IsArgsort srt) {p : Plane K} {tol : K}
    (htol : 0 ≤ tol) {b : Bool} {m : Mesh K} (hwf : m.WF) (hcl : m.ClosedOriented)
    (hpos : ∀ f ∈ m.faces, ∀ i ∈ f.toList, |p.dist (m.vert i)| ≠ tol) (hq : QuadsCross m) (hsep : m.TolSeparated p tol)
    (hnd : ∀ f ∈ m.faces, f.corners.Nodup) (hfl : m.NoSlabSide p tol) {c : Clipped K} (h : clip srt p tol b m = .ok c) :
    ((m.tolSectionEdges p tol).map Prod.snd).Perm ((m.tolSectionEdges p tol).map Prod.fst) := by
  rw [List.perm_iff_count]
  intro X
  have key := clip_closed_tol hsrt htol hwf hcl hpos hq hsep hnd hfl h
    (φ := fun x y => (if x = X then (1 : K) else 0) - (if y = X then 1 else 0)) (fun x y => by ring)
  have hz : (c.clipped.pointEdges.map (fun e => (if e.1 = X then (1 : K) else 0) - (if e.2 = X then 1 else 0))).sum = 0 := by
    unfold Mesh.pointEdges Mesh.directedEdges
    rw [List.map_map, List.map_flatMap, sum_flatMap']
    apply List.sum_eq_zero
    intro x hx
    obtain ⟨f, _, rfl⟩ := List.mem_map.1 hx
    unfold Face.directedEdges
    split_ifs <;> simp
  rw [hz, zero_add] at key
  have : ∀ L : List (V3 K × V3 K), (L.map (fun e => (if e.1 = X then (1 : K) else 0) - (if e.2 = X then 1 else 0))).sum =
      ((L.map Prod.fst).count X : K) - ((L.map Prod.snd).count X : K) := by
    intro L
    induction L with
    | nil => simp
    | cons a L ih =>
      rw [List.map_cons, List.sum_cons, ih, List.map_cons, List.map_cons, List.count_cons, List.count_cons]
      by_cases h1 : a.1 = X <;> by_cases h2 : a.2 = X <;> simp [h1, h2] <;> ring
  rw [this] at key
  have : ((m.tolSectionEdges p tol).map Prod.snd).count X = (((m.tolSectionEdges p tol).map Prod.fst).count X) := by
    have : (((m.tolSectionEdges p tol).map Prod.snd).count X : K) = (((m.tolSectionEdges p tol).map Prod.fst).count X : K) := by
      linarith
    exact_mod_cast this
  exact this

end Clipper
end MM
