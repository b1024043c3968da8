import Verif.Proofs.ClipAdditive

/-!
# The edges of the clipped faces in the plane, when vertices may be on the plane
-/

namespace MM
namespace Clipper

set_option linter.unusedSectionVars false
set_option linter.unusedSimpArgs false
set_option linter.unusedVariables false

variable {K : Type*} [Field K] [LinearOrder K] [IsStrictOrderedRing K]

/-- Sides of the face that go below the plane, by their first corner. -/
def downs (c : List Cls) : List ℕ := (List.range c.length).filter fun i =>
  ((c.getD i .P).isA || (c.getD i .P).isO) && (c.getD ((i + 1) % c.length) .P).isB

/-- Sides of the face that come from below the plane, by their first corner. -/
def ups (c : List Cls) : List ℕ := (List.range c.length).filter fun i =>
  (c.getD i .P).isB && ((c.getD ((i + 1) % c.length) .P).isA || (c.getD ((i + 1) % c.length) .P).isO)

/-- The point of the plane on the side from corner `i` to corner `j`, whose end which is not below is `k`. -/
def atRef (q : Plan) (c : List Cls) (i j : ℕ) (k : ℕ) : Ref → Bool
  | .old n => n == k && (c.getD k .P).isO
  | .new n => (c.getD k .P).isA && (match q.cuts[n]? with | some e => e == (i, j) || e == (j, i) | none => false)

def okSection (c : List Cls) (q : Plan) : Bool :=
  match q.edge, downs c, ups c with
  | none, [], [] => true
  | none, [i], [j] => i == (j + 1) % c.length && (c.getD i .P).isO
  | some e, [i], [j] => atRef q c i ((i + 1) % c.length) i e.1 &&
      atRef q c j ((j + 1) % c.length) ((j + 1) % c.length) e.2 && !(i == (j + 1) % c.length && (c.getD i .P).isO)
  | _, _, _ => false

def okSum (c : List Cls) (q : Plan) : Bool :=
  let E := q.faces.flatMap refEdges
  let E' := (List.range c.length).flatMap (stepRef' c q) ++ (q.edge.map Prod.swap).toList
  (E ++ E'.map Prod.swap).isPerm (E' ++ E.map Prod.swap)

theorem table_section : ∀ c ∈ lists3 ++ lists4, c.any Cls.isBad = false → altern c = false → flatOn c = false →
    (plan c).check (fun q => okSection c q && okSum c q) = true := by decide +kernel

lemma find_range (f : Face) (P : ℕ × ℕ → Bool) : f.directedEdges.find? P =
    (((List.range f.corners.length).filter (fun k =>
      P (f.corners.getD k 0, f.corners.getD ((k + 1) % f.corners.length) 0))).head?).map
      (fun k => (f.corners.getD k 0, f.corners.getD ((k + 1) % f.corners.length) 0)) := by
  rw [directed_range, List.find?_map, List.head?_filter]
  rfl

/-- The edge recorded for a face is the side in the plane of the part of the face below it. -/
lemma plan_section {p : Plane K} {tol : K} (htol : 0 ≤ tol) {V : ℕ → V3 K} {f : Face}
    (hpos : ∀ i ∈ f.toList, p.Clear tol (V i)) (halt : altern (cornerCls p tol V f) = false)
    (hflat : flatOn (cornerCls p tol V f) = false) (hnd : f.corners.Nodup) {q : Plan} {N : ℕ → V3 K}
    (h1 : plan (cornerCls p tol V f) = .ok q) (h2 : CutsOk p (cornerPt V f) N q) :
    f.lowerSectionEdge p V = q.edge.map (fun e => (pt (cornerPt V f) N e.1, pt (cornerPt V f) N e.2)) := by
  set c := cornerCls p tol V f with hc
  set n := f.corners.length with hn
  have hlen : c.length = n := cornerCls_length p tol V f
  set P := cornerPt V f with hP
  have hbad : c.any Cls.isBad = false := by
    rw [hc, cornerCls, List.any_map, List.any_eq_false]
    intro i hi
    simp [(notAt_cls htol (clear_notAt (hpos i (Face.corners_sub f i hi)))).1]
  have hchk := PlanRes.check_ok (table_section c (cornerCls_mem p tol V f) hbad halt hflat) h1
  rw [Bool.and_eq_true] at hchk
  have hchk := hchk.1
  have hcls : ∀ k, k < n → c.getD k .P = classOf tol (p.dist (P k)) := by
    intro k hk
    rw [hc, cornerCls, getD_map _ f.corners k 0 hk]; rfl
  have hclr : ∀ k, k < n → p.Clear tol (P k) := fun k hk => hpos _ (Face.corners_sub f _ (corners_getD_mem hk))
  have hA : ∀ k, k < n → ((c.getD k .P).isA = true ↔ 0 < p.dist (P k)) := fun k hk => by
    rw [hcls k hk]; exact (clear_cls htol (hclr k hk)).1
  have hB : ∀ k, k < n → ((c.getD k .P).isB = true ↔ p.dist (P k) < 0) := fun k hk => by
    rw [hcls k hk]; exact (clear_cls htol (hclr k hk)).2.1
  have hO : ∀ k, k < n → ((c.getD k .P).isO = true ↔ p.dist (P k) = 0) := fun k hk => by
    rw [hcls k hk]; exact (clear_cls htol (hclr k hk)).2.2
  have hAO : ∀ k, k < n → (((c.getD k .P).isA || (c.getD k .P).isO) = true ↔ 0 ≤ p.dist (P k)) := fun k hk => by
    rw [Bool.or_eq_true, hA k hk, hO k hk, le_iff_lt_or_eq, eq_comm (a := (0 : K))]
  have hn3 : 0 < n := by have := corners_length f; omega
  have hnext : ∀ k, (k + 1) % n < n := fun k => Nat.mod_lt _ hn3
  have hd : (List.range n).filter (fun k => decide (0 ≤ p.dist (P k)) && decide (p.dist (P ((k + 1) % n)) < 0)) = downs c := by
    rw [downs, hlen]
    apply List.filter_congr
    intro k hk
    rw [List.mem_range] at hk
    rw [Bool.eq_iff_iff, Bool.and_eq_true, Bool.and_eq_true, decide_eq_true_iff, decide_eq_true_iff, hAO k hk, hB _ (hnext k)]
  have hu : (List.range n).filter (fun k => decide (p.dist (P k) < 0) && decide (0 ≤ p.dist (P ((k + 1) % n)))) = ups c := by
    rw [ups, hlen]
    apply List.filter_congr
    intro k hk
    rw [List.mem_range] at hk
    rw [Bool.eq_iff_iff, Bool.and_eq_true, Bool.and_eq_true, decide_eq_true_iff, decide_eq_true_iff, hAO _ (hnext k), hB k hk]
  have hfd : f.directedEdges.find? (fun e => decide (0 ≤ p.dist (V e.1)) && decide (p.dist (V e.2) < 0)) =
      (downs c).head?.map (fun k => (f.corners.getD k 0, f.corners.getD ((k + 1) % n) 0)) := by
    rw [find_range, ← hd]; rfl
  have hfu : f.directedEdges.find? (fun e => decide (p.dist (V e.1) < 0) && decide (0 ≤ p.dist (V e.2))) =
      (ups c).head?.map (fun k => (f.corners.getD k 0, f.corners.getD ((k + 1) % n) 0)) := by
    rw [find_range, ← hu]; rfl
  have hmd : ∀ i ∈ downs c, i < n ∧ p.dist (P ((i + 1) % n)) < 0 := by
    intro i hi
    rw [← hd, List.mem_filter, List.mem_range, Bool.and_eq_true, decide_eq_true_iff, decide_eq_true_iff] at hi
    exact ⟨hi.1, hi.2.2⟩
  have hmu : ∀ i ∈ ups c, i < n ∧ p.dist (P i) < 0 := by
    intro i hi
    rw [← hu, List.mem_filter, List.mem_range, Bool.and_eq_true, decide_eq_true_iff, decide_eq_true_iff] at hi
    exact ⟨hi.1, hi.2.1⟩
  have hnew : ∀ i j k r, atRef q c i j k r = true → k < n →
      (k = i ∧ p.dist (P j) < 0) ∨ (k = j ∧ p.dist (P i) < 0) → pt P N r = p.cutPt (P i) (P j) := by
    intro i j k r hr hkn hk
    cases r with
    | old l =>
      simp only [atRef, Bool.and_eq_true, beq_iff_eq] at hr
      obtain ⟨rfl, ho⟩ := hr
      rw [hO _ hkn] at ho
      rcases hk with ⟨rfl, hk⟩ | ⟨rfl, hk⟩
      · rw [cutPt_left ho hk.ne]; rfl
      · rw [cutPt_symm, cutPt_left ho hk.ne]; rfl
    | new l =>
      simp only [atRef, Bool.and_eq_true] at hr
      have hr := hr.2
      cases hl : q.cuts[l]? with
      | none => simp [hl] at hr
      | some e =>
        simp only [hl, Bool.or_eq_true, beq_iff_eq] at hr
        have h5 := h2 l e hl
        rcases hr with rfl | rfl
        · exact IsCut.eq_cutPt (p := p) h5
        · rw [cutPt_symm]; exact IsCut.eq_cutPt (p := p) h5
  unfold Face.lowerSectionEdge
  rw [hfd, hfu]
  unfold okSection at hchk
  split at hchk
  · rename_i he h3 h4
    rw [he, h3, h4]; rfl
  · rename_i i j he h3 h4
    rw [he, h3, h4]
    rw [Bool.and_eq_true, beq_iff_eq, hlen] at hchk
    obtain ⟨e1, e2⟩ := hchk
    have hi := (hmd i (by rw [h3]; simp)).1
    rw [hO i hi] at e2
    simp only [List.head?_cons, Option.map_some, Option.map_none]
    rw [if_pos ⟨by rw [← e1], e2⟩]
  · rename_i e i j he h3 h4
    rw [he, h3, h4]
    simp only [hlen, Bool.and_eq_true, Bool.not_eq_true', ← Bool.not_eq_true, beq_iff_eq] at hchk
    obtain ⟨⟨e1, e2⟩, e3⟩ := hchk
    have hi := hmd i (by rw [h3]; simp)
    have hj := hmu j (by rw [h4]; simp)
    rw [hO i hi.1] at e3
    simp only [List.head?_cons, Option.map_some]
    rw [if_neg, hnew _ _ _ _ e1 hi.1 (.inl ⟨rfl, hi.2⟩), hnew _ _ _ _ e2 (hnext j) (.inr ⟨rfl, hj.2⟩)]
    · rfl
    · rintro ⟨h, h'⟩
      refine e3 ⟨?_, h'⟩
      have hh := hnext j
      rw [List.getD_eq_getElem?_getD, List.getD_eq_getElem?_getD, List.getElem?_eq_getElem hi.1,
        List.getElem?_eq_getElem hh, Option.getD_some, Option.getD_some] at h
      exact (List.Nodup.getElem_inj_iff hnd).1 h
  · simp at hchk

/-- The value of a function on the side of the face in the plane, reversed. -/
def lowerSum (p : Plane K) (φ : V3 K → V3 K → K) (V : ℕ → V3 K) (f : Face) : K :=
  match f.lowerSectionEdge p V with
  | some e => φ e.2 e.1
  | none => 0

/-- An antisymmetric quantity summed over the sides of the pieces of a face is the sum over the parts below the plane of the
sides of the face, and over the side in the plane. -/
lemma planned_chain_section {p : Plane K} {tol : K} (htol : 0 ≤ tol) {V W : ℕ → V3 K} {f : Face} {gs : List Face}
    (hpos : ∀ i ∈ f.toList, p.Clear tol (V i)) (halt : altern (cornerCls p tol V f) = false)
    (hflat : flatOn (cornerCls p tol V f) = false) (hnd : f.corners.Nodup)
    (h : Planned p tol V W f gs) {φ : V3 K → V3 K → K} (hφ : ∀ x y, φ x y = -φ y x) :
    (gs.map (edgeSum φ W)).sum =
      (f.directedEdges.map (fun e => belowEdge p φ (V e.1) (V e.2))).sum + lowerSum p φ V f := by
  obtain ⟨q, N, h1, h2, h3⟩ := h
  have hsec := plan_section htol hpos halt hflat hnd h1 h2
  set c := cornerCls p tol V f with hc
  set n := f.corners.length with hn
  have hlen : c.length = n := cornerCls_length p tol V f
  set P := cornerPt V f with hP
  have hbad : c.any Cls.isBad = false := by
    rw [hc, cornerCls, List.any_map, List.any_eq_false]
    intro i hi
    simp [(notAt_cls htol (clear_notAt (hpos i (Face.corners_sub f i hi)))).1]
  have hchk := PlanRes.check_ok (table_touch c (cornerCls_mem p tol V f) hbad halt hflat) h1
  have hsum := PlanRes.check_ok (table_section c (cornerCls_mem p tol V f) hbad halt hflat) h1
  rw [Bool.and_eq_true] at hsum
  have hsum := hsum.2
  simp only [touchCheck, Bool.and_eq_true, List.all_eq_true, List.mem_range, hlen] at hchk
  simp only [okSum, hlen] at hsum
  obtain ⟨_, hcut⟩ := hchk
  have hcls : ∀ k, k < n → c.getD k .P = classOf tol (p.dist (P k)) := by
    intro k hk
    rw [hc, cornerCls, getD_map _ f.corners k 0 hk]; rfl
  have hclr : ∀ k, k < n → p.Clear tol (P k) := fun k hk => hpos _ (Face.corners_sub f _ (corners_getD_mem hk))
  have hA : ∀ k, k < n → ((c.getD k .P).isA = true ↔ 0 < p.dist (P k)) := fun k hk => by
    rw [hcls k hk]; exact (clear_cls htol (hclr k hk)).1
  have hB : ∀ k, k < n → ((c.getD k .P).isB = true ↔ p.dist (P k) < 0) := fun k hk => by
    rw [hcls k hk]; exact (clear_cls htol (hclr k hk)).2.1
  have hn3 : 0 < n := by have := corners_length f; omega
  have hnext : ∀ k, (k + 1) % n < n := fun k => Nat.mod_lt _ hn3
  have hnew : ∀ k, k < n → (0 < p.dist (P k) ∧ p.dist (P ((k + 1) % n)) < 0) ∨
      (p.dist (P k) < 0 ∧ 0 < p.dist (P ((k + 1) % n))) →
      pt P N (newOf q k ((k + 1) % n)) = p.cutPt (P k) (P ((k + 1) % n)) := by
    intro k hk hs
    have hh := hcut k hk
    have hs' : (((c.getD k .P).isA && (c.getD ((k + 1) % n) .P).isB) ||
        ((c.getD k .P).isB && (c.getD ((k + 1) % n) .P).isA)) = true := by
      rw [Bool.or_eq_true, Bool.and_eq_true, Bool.and_eq_true, hA k hk, hB k hk, hA _ (hnext k), hB _ (hnext k)]
      exact hs
    rw [hs', Bool.not_true, Bool.false_or] at hh
    have hlt : q.cuts.findIdx (fun e => e == (k, (k + 1) % n) || e == ((k + 1) % n, k)) < q.cuts.length := by
      rw [List.findIdx_lt_length]
      exact List.any_eq_true.1 hh
    have hg := List.findIdx_getElem (w := hlt)
    simp only [Bool.or_eq_true, beq_iff_eq] at hg
    simp only [newOf, pt]
    have hget := List.getElem?_eq_getElem hlt
    rcases hg with hg | hg
    · rw [hg] at hget
      have h5 : IsCut p (P k) (P ((k + 1) % n)) (N _) := h2 _ (k, (k + 1) % n) hget
      exact IsCut.eq_cutPt h5
    · rw [hg] at hget
      rw [cutPt_symm]
      have h5 : IsCut p (P ((k + 1) % n)) (P k) (N _) := h2 _ ((k + 1) % n, k) hget
      exact IsCut.eq_cutPt h5
  set ψ : Ref × Ref → K := fun e => φ (pt P N e.1) (pt P N e.2) with hψ
  have hψs : ∀ e, ψ e.swap = -ψ e := fun e => hφ _ _
  have s1 : (gs.map (edgeSum φ W)).sum = ((q.faces.flatMap refEdges).map ψ).sum := by
    clear hsum
    generalize q.faces = L at h3
    induction h3 with
    | nil => rfl
    | @cons l g L G h4 _ ih =>
      obtain ⟨x, y, z, w, rfl, e1, e2, e3, e4, _⟩ := h4
      simp only [List.map_cons, List.sum_cons, List.flatMap_cons, List.map_append, List.sum_append, ih, refEdges, edgeSum,
        List.map_nil, List.sum_nil, hψ, e1, e2, e3, e4]
      ring
  have s3 : ((q.faces.flatMap refEdges).map ψ).sum = (((List.range n).flatMap (stepRef' c q)).map ψ).sum +
      (((q.edge.map Prod.swap).toList).map ψ).sum := by
    have hp := ((List.isPerm_iff.1 hsum).map ψ).sum_eq
    simp only [List.map_append, List.sum_append, sum_swap hψs] at hp
    linarith
  rw [s1, s3]
  congr 1
  · rw [directed_range, List.map_map, List.map_flatMap, sum_flatMap']
    congr 1
    apply List.map_congr_left
    intro k hk
    rw [List.mem_range] at hk
    have e1 : V (f.corners.getD k 0) = P k := rfl
    have e2 : V (f.corners.getD ((k + 1) % n) 0) = P ((k + 1) % n) := rfl
    simp only [Function.comp, belowEdge]
    rw [← hn, e1, e2]
    unfold stepRef'
    simp only [hlen]
    by_cases b1 : p.dist (P k) < 0
    · rw [if_pos ((hB k hk).2 b1), if_pos b1]
      by_cases b2 : 0 < p.dist (P ((k + 1) % n))
      · rw [if_pos ((hA _ (hnext k)).2 b2), if_neg b2.not_gt]
        simp [hψ, hnew k hk (.inr ⟨b1, b2⟩)]
        rfl
      · rw [if_neg (fun h => b2 ((hA _ (hnext k)).1 h))]
        by_cases b3 : p.dist (P ((k + 1) % n)) < 0
        · rw [if_pos b3]; simp [hψ, pt]
        · rw [if_neg b3, cutPt_symm, cutPt_left (le_antisymm (not_lt.1 b2) (not_lt.1 b3)) b1.ne]; simp [hψ, pt]
    · rw [if_neg (fun h => b1 ((hB _ hk).1 h)), if_neg b1]
      by_cases b2 : p.dist (P ((k + 1) % n)) < 0
      · rw [if_pos ((hB _ (hnext k)).2 b2), if_pos b2]
        by_cases b3 : 0 < p.dist (P k)
        · rw [if_pos ((hA k hk).2 b3)]
          simp [hψ, hnew k hk (.inl ⟨b3, b2⟩)]
          rfl
        · rw [if_neg (fun h => b3 ((hA k hk).1 h)), cutPt_left (le_antisymm (not_lt.1 b3) (not_lt.1 b1)) b2.ne]
          simp [hψ, pt]
      · rw [if_neg (fun h => b2 ((hB _ (hnext k)).1 h)), if_neg b2]; rfl
  · unfold lowerSum
    rw [hsec]
    cases q.edge with
    | none => rfl
    | some e => simp [hψ]

/-- For a closed surface, the clipped mesh and the section in the plane together are closed. -/
lemma clip_closed_section {srt : (ℕ → K) → List ℕ → List ℕ} (hsrt : IsArgsort srt) {p : Plane K} {tol : K}
    (htol : 0 ≤ tol) {b : Bool} {m : Mesh K} (hwf : m.WF) (hcl : m.ClosedOriented)
    (hpos : ∀ f ∈ m.faces, ∀ i ∈ f.toList, p.Clear tol (m.vert i)) (hq : QuadsCross m) (hsep : m.WellSeparated p)
    (hcv : m.StrictlyConvexFaces) {c : Clipped K} (h : clip srt p tol b m = .ok c) {φ : V3 K → V3 K → K}
    (hφ : ∀ x y, φ x y = -φ y x) :
    (c.clipped.pointEdges.map (fun e => φ e.1 e.2)).sum + ((m.lowerSectionEdges p).map (fun e => φ e.1 e.2)).sum = 0 := by
  obtain ⟨exact, parts, _, _, hg, hperm, hfaces, hpl, _, _⟩ :=
    clip_planned_notAt hsrt htol hwf (fun f hf i hi => clear_notAt (hpos f hf i hi))
      (fun f hf => .inr (corners_nodup (hcv f hf))) hsep h
  have s0 : (c.clipped.pointEdges.map (fun e => φ e.1 e.2)).sum = (c.clipped.faces.map (edgeSum φ c.clipped.vert)).sum := by
    unfold Mesh.pointEdges Mesh.directedEdges
    rw [List.map_map, List.map_flatMap, sum_flatMap']
    congr 1
    apply List.map_congr_left
    intro f _
    rw [edgeSum_directed hφ]; rfl
  have s1 : c.clipped.faces.map (edgeSum φ c.clipped.vert) = exact.faces.map (edgeSum φ exact.vert) :=
    geometry_congr (fun u v w t => φ u v + φ v w + φ w t + φ t u) hg
  have s2 : (exact.faces.map (edgeSum φ exact.vert)).sum =
      (parts.map (fun t => (t.1.directedEdges.map (fun e => belowEdge p φ (m.vert e.1) (m.vert e.2))).sum +
        lowerSum p φ m.vert t.1)).sum := by
    rw [hfaces, List.map_flatMap, sum_flatMap']
    congr 1
    apply List.map_congr_left
    intro t ht
    have hf : t.1 ∈ m.faces := hperm.subset (List.mem_map_of_mem ht)
    exact planned_chain_section htol (hpos _ hf) (cls_not_altern htol hwf hq hf)
      (not_flatOn htol (hpos _ hf) (hq _ hf) (hcv _ hf)) (corners_nodup (hcv _ hf)) (hpl t ht) hφ
  have s3 : (parts.map (fun t => (t.1.directedEdges.map (fun e => belowEdge p φ (m.vert e.1) (m.vert e.2))).sum +
        lowerSum p φ m.vert t.1)).sum = (m.faces.map (fun f =>
          (f.directedEdges.map (fun e => belowEdge p φ (m.vert e.1) (m.vert e.2))).sum + lowerSum p φ m.vert f)).sum := by
    rw [← (hperm.map _).sum_eq, List.map_map]; rfl
  have s4 : (m.faces.map (fun f => (f.directedEdges.map (fun e => belowEdge p φ (m.vert e.1) (m.vert e.2))).sum)).sum = 0 := by
    have := closed_sum hcl (fun i j => belowEdge p φ (m.vert i) (m.vert j)) (fun i j => belowEdge_anti hφ _ _)
    unfold Mesh.directedEdges at this
    rw [List.map_flatMap, sum_flatMap'] at this
    exact this
  rw [s0, s1, s2, s3, sum_map_add', s4, zero_add]
  unfold Mesh.lowerSectionEdges
  rw [List.map_filterMap]
  generalize m.faces = L
  induction L with
  | nil => simp
  | cons f L ih =>
    rw [List.map_cons, List.sum_cons, List.filterMap_cons, lowerSum]
    cases f.lowerSectionEdge p m.vert with
    | none => simpa using ih
    | some e =>
      simp only [Option.map_some, List.sum_cons]
      rw [hφ e.2 e.1]; linarith

/-- The section in the plane has as many edges from a point as to it. -/
lemma section_balanced {srt : (ℕ → K) → List ℕ → List ℕ} (hsrt : IsArgsort srt) {p : Plane K} {tol : K}
    (htol : 0 ≤ tol) {b : Bool} {m : Mesh K} (hwf : m.WF) (hcl : m.ClosedOriented)
    (hpos : ∀ f ∈ m.faces, ∀ i ∈ f.toList, p.Clear tol (m.vert i)) (hq : QuadsCross m) (hsep : m.WellSeparated p)
    (hcv : m.StrictlyConvexFaces) {c : Clipped K} (h : clip srt p tol b m = .ok c) :
    ((m.lowerSectionEdges p).map Prod.snd).Perm ((m.lowerSectionEdges p).map Prod.fst) := by
  rw [List.perm_iff_count]
  intro X
  have key := clip_closed_section hsrt htol hwf hcl hpos hq hsep hcv h
    (φ := fun x y => (if x = X then (1 : K) else 0) - (if y = X then 1 else 0)) (fun x y => by ring)
  have hz : (c.clipped.pointEdges.map (fun e => (if e.1 = X then (1 : K) else 0) - (if e.2 = X then 1 else 0))).sum = 0 := by
    unfold Mesh.pointEdges Mesh.directedEdges
    rw [List.map_map, List.map_flatMap, sum_flatMap']
    apply List.sum_eq_zero
    intro x hx
    obtain ⟨f, _, rfl⟩ := List.mem_map.1 hx
    unfold Face.directedEdges
    split_ifs <;> simp
  rw [hz, zero_add] at key
  have : ∀ L : List (V3 K × V3 K), (L.map (fun e => (if e.1 = X then (1 : K) else 0) - (if e.2 = X then 1 else 0))).sum =
      ((L.map Prod.fst).count X : K) - ((L.map Prod.snd).count X : K) := by
    intro L
    induction L with
    | nil => simp
    | cons a L ih =>
      rw [List.map_cons, List.sum_cons, ih, List.map_cons, List.map_cons, List.count_cons, List.count_cons]
      by_cases h1 : a.1 = X <;> by_cases h2 : a.2 = X <;> simp [h1, h2] <;> ring
  rw [this] at key
  have : ((m.lowerSectionEdges p).map Prod.snd).count X = (((m.lowerSectionEdges p).map Prod.fst).count X) := by
    have : (((m.lowerSectionEdges p).map Prod.snd).count X : K) = (((m.lowerSectionEdges p).map Prod.fst).count X : K) := by
      linarith
    exact_mod_cast this
  exact this

end Clipper
end MM
