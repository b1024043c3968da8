import Verif.Proofs.ClipPlanned

/-!
# The boundary of the clipped mesh

A sum of an antisymmetric function over the edges of the clipped faces is the same sum over the parts below the plane of the
edges of the input and over the edges of the section.
-/

namespace MM
namespace Clipper

set_option linter.unusedSectionVars false
set_option linter.unusedSimpArgs false
set_option linter.unusedVariables false

variable {K : Type*} [Field K] [LinearOrder K] [IsStrictOrderedRing K]

/-! ## The table -/

def refEdges : List Ref → List (Ref × Ref)
  | [a, b, c, d] => [(a, b), (b, c), (c, d), (d, a)]
  | _ => []

/-- The part below of the edge from corner `k` to the next one. -/
def stepRef (c : List Cls) (k : ℕ) : List (Ref × Ref) :=
  let j := (k + 1) % c.length
  if (c.getD k .P).isB then
    if (c.getD j .P).isB then [(.old k, .old j)] else [(.old k, .new 1)]
  else if (c.getD j .P).isB then [(.new 0, .old j)] else []

def crossing (c : List Cls) : Bool := c.any Cls.isA && c.any Cls.isB

def lidRef (c : List Cls) : List (Ref × Ref) := if crossing c then [(.new 1, .new 0)] else []

def chainCheck (c : List Cls) (q : Plan) : Bool :=
  let E := q.faces.flatMap refEdges
  let E' := (List.range c.length).flatMap (stepRef c) ++ lidRef c
  (E ++ E'.map Prod.swap).isPerm (E' ++ E.map Prod.swap) && q.faces.all (fun l => l.length == 4) &&
  (List.range c.length).all (fun k =>
    let j := (k + 1) % c.length
    (!((c.getD k .P).isA && (c.getD j .P).isB) || (crossing c && (q.cuts[0]? == some (k, j) || q.cuts[0]? == some (j, k)))) &&
    (!((c.getD k .P).isB && (c.getD j .P).isA) || (crossing c && (q.cuts[1]? == some (k, j) || q.cuts[1]? == some (j, k))))) &&
  (!crossing c ||
    ((List.range c.length).any (fun k => (c.getD k .P).isA && (c.getD ((k + 1) % c.length) .P).isB) &&
     (List.range c.length).any (fun k => (c.getD k .P).isB && (c.getD ((k + 1) % c.length) .P).isA)))

theorem table_chain : ∀ c ∈ lists3 ++ lists4, c.all (fun x => x.isA || x.isB) = true → altern c = false →
    (plan c).check (chainCheck c) = true := by decide +kernel

/-! ## Sums over edges -/

/-- Sum over the sides of a face. -/
def edgeSum (φ : V3 K → V3 K → K) (W : ℕ → V3 K) (g : Face) : K :=
  φ (W g.a) (W g.b) + φ (W g.b) (W g.c) + φ (W g.c) (W g.d) + φ (W g.d) (W g.a)

/-- The part below the plane of an edge. -/
def belowEdge (p : Plane K) (φ : V3 K → V3 K → K) (a b : V3 K) : K :=
  if p.dist a < 0 then
    if p.dist b < 0 then φ a b else φ a (p.cutPt a b)
  else if p.dist b < 0 then φ (p.cutPt a b) b else 0

lemma edgeSum_directed {φ : V3 K → V3 K → K} (hφ : ∀ x y, φ x y = -φ y x) (W : ℕ → V3 K) (g : Face) :
    edgeSum φ W g = (g.directedEdges.map (fun e => φ (W e.1) (W e.2))).sum := by
  unfold edgeSum Face.directedEdges
  split_ifs with h
  · have : φ (W g.d) (W g.d) = 0 := by have := hφ (W g.d) (W g.d); linarith
    simp [h, this, add_assoc]
  · simp [add_assoc]

lemma cutPt_symm (p : Plane K) (a b : V3 K) : p.cutPt a b = p.cutPt b a := by
  unfold Plane.cutPt
  rw [show p.dist b - p.dist a = -(p.dist a - p.dist b) by ring, inv_neg]
  ext <;> simp <;> ring

lemma belowEdge_anti {p : Plane K} {φ : V3 K → V3 K → K} (hφ : ∀ x y, φ x y = -φ y x) (a b : V3 K) :
    belowEdge p φ a b = -belowEdge p φ b a := by
  unfold belowEdge
  rw [cutPt_symm p b a]
  split_ifs
  · exact hφ _ _
  · exact hφ _ _
  · exact hφ _ _
  · simp

lemma sum_swap {φ : Ref × Ref → K} (hφ : ∀ e, φ e.swap = -φ e) (L : List (Ref × Ref)) :
    ((L.map Prod.swap).map φ).sum = -(L.map φ).sum := by
  induction L with
  | nil => simp
  | cons a L ih => simp only [List.map_cons, List.sum_cons, ih, hφ]; ring

lemma directed_range (f : Face) : f.directedEdges = (List.range f.corners.length).map (fun k =>
    (f.corners.getD k 0, f.corners.getD ((k + 1) % f.corners.length) 0)) := by
  unfold Face.directedEdges Face.corners
  simp only [Face.isTri, beq_iff_eq]
  split_ifs with h <;> simp [List.range_succ]

lemma sum_flatMap' {α : Type*} (L : List α) (g : α → List K) : (L.flatMap g).sum = (L.map (fun x => (g x).sum)).sum := by
  induction L with
  | nil => rfl
  | cons a L ih => simp [ih]

/-- The sum over the section edge of a face. -/
def sectionSum (p : Plane K) (φ : V3 K → V3 K → K) (V : ℕ → V3 K) (f : Face) : K :=
  match f.sectionEdge p V with
  | some e => φ e.2 e.1
  | none => 0

lemma planned_chain {p : Plane K} {tol : K} (htol : 0 ≤ tol) {V W : ℕ → V3 K} {f : Face} {gs : List Face}
    (hpos : ∀ i ∈ f.toList, tol < |p.dist (V i)|) (halt : altern (cornerCls p tol V f) = false)
    (h : Planned p tol V W f gs) {φ : V3 K → V3 K → K} (hφ : ∀ x y, φ x y = -φ y x) :
    (gs.map (edgeSum φ W)).sum =
      (f.directedEdges.map (fun e => belowEdge p φ (V e.1) (V e.2))).sum + sectionSum p φ V f := by
  obtain ⟨q, N, h1, h2, h3⟩ := h
  set c := cornerCls p tol V f with hc
  set n := f.corners.length with hn
  have hlen : c.length = n := cornerCls_length p tol V f
  set P := cornerPt V f with hP
  have hAB : c.all (fun x => x.isA || x.isB) = true := by
    rw [hc, cornerCls, List.all_map, List.all_eq_true]
    intro i hi
    exact (side_of htol (hpos i (Face.corners_sub f i hi))).2
  have hchk := PlanRes.check_ok (table_chain c (cornerCls_mem p tol V f) hAB halt) h1
  simp only [chainCheck, Bool.and_eq_true, List.all_eq_true, List.mem_range, hlen] at hchk
  obtain ⟨⟨⟨hperm, hfour⟩, hcut⟩, hcross⟩ := hchk
  -- classes and distances
  have hcls : ∀ k, k < n → c.getD k .P = classOf tol (p.dist (P k)) := by
    intro k hk
    rw [hc, cornerCls, getD_map _ f.corners k 0 hk]; rfl
  have hdist : ∀ k, k < n → tol < |p.dist (P k)| := by
    intro k hk
    exact hpos _ (Face.corners_sub f _ (corners_getD_mem hk))
  have hB : ∀ k, k < n → ((c.getD k .P).isB = true ↔ p.dist (P k) < 0) := by
    intro k hk
    rw [hcls k hk, isB_iff htol]
    have := hdist k hk
    constructor
    · intro h; linarith
    · intro h; rw [abs_of_neg h] at this; linarith
  have hA : ∀ k, k < n → ((c.getD k .P).isA = true ↔ 0 < p.dist (P k)) := by
    intro k hk
    rw [hcls k hk, isA_iff]
    have := hdist k hk
    constructor
    · intro h; linarith
    · intro h; rwa [abs_of_pos h] at this
  have hnz : ∀ k, k < n → ¬ p.dist (P k) < 0 → 0 < p.dist (P k) := by
    intro k hk h
    have := hdist k hk
    rw [abs_of_nonneg (not_lt.1 h)] at this
    linarith
  have hn3 : 0 < n := by
    have := corners_length f
    omega
  have hnext : ∀ k, (k + 1) % n < n := fun k => Nat.mod_lt _ hn3
  have hdown : ∀ k, k < n → 0 < p.dist (P k) → p.dist (P ((k + 1) % n)) < 0 →
      N 0 = p.cutPt (P k) (P ((k + 1) % n)) ∧ crossing c = true := by
    intro k hk ha hb
    have := (hcut k hk).1
    rw [(hA k hk).2 ha, (hB _ (hnext k)).2 hb] at this
    simp only [Bool.and_self, Bool.not_true, Bool.false_or, Bool.and_eq_true, Bool.or_eq_true, beq_iff_eq] at this
    refine ⟨?_, this.1⟩
    rcases this.2 with e | e
    · have h5 : IsCut p (P k) (P ((k + 1) % n)) (N 0) := h2 0 (k, (k + 1) % n) e
      exact IsCut.eq_cutPt h5
    · rw [cutPt_symm]
      have h5 : IsCut p (P ((k + 1) % n)) (P k) (N 0) := h2 0 ((k + 1) % n, k) e
      exact IsCut.eq_cutPt h5
  have hup : ∀ k, k < n → p.dist (P k) < 0 → 0 < p.dist (P ((k + 1) % n)) →
      N 1 = p.cutPt (P k) (P ((k + 1) % n)) ∧ crossing c = true := by
    intro k hk ha hb
    have := (hcut k hk).2
    rw [(hB k hk).2 ha, (hA _ (hnext k)).2 hb] at this
    simp only [Bool.and_self, Bool.not_true, Bool.false_or, Bool.and_eq_true, Bool.or_eq_true, beq_iff_eq] at this
    refine ⟨?_, this.1⟩
    rcases this.2 with e | e
    · have h5 : IsCut p (P k) (P ((k + 1) % n)) (N 1) := h2 1 (k, (k + 1) % n) e
      exact IsCut.eq_cutPt h5
    · rw [cutPt_symm]
      have h5 : IsCut p (P ((k + 1) % n)) (P k) (N 1) := h2 1 ((k + 1) % n, k) e
      exact IsCut.eq_cutPt h5
  -- the faces
  set ψ : Ref × Ref → K := fun e => φ (pt P N e.1) (pt P N e.2) with hψ
  have hψs : ∀ e, ψ e.swap = -ψ e := fun e => hφ _ _
  have s1 : (gs.map (edgeSum φ W)).sum = ((q.faces.flatMap refEdges).map ψ).sum := by
    clear hperm hfour
    generalize q.faces = L at h3
    induction h3 with
    | nil => rfl
    | @cons l g L G h4 _ ih =>
      obtain ⟨x, y, z, w, rfl, e1, e2, e3, e4, _⟩ := h4
      simp only [List.map_cons, List.sum_cons, List.flatMap_cons, List.map_append, List.sum_append, ih, refEdges, edgeSum,
        List.map_nil, List.sum_nil, hψ, e1, e2, e3, e4]
      ring
  have s2 : ((q.faces.flatMap refEdges).map ψ).sum =
      (((List.range n).flatMap (stepRef c) ++ lidRef c).map ψ).sum := by
    have hp := ((List.isPerm_iff.1 hperm).map ψ).sum_eq
    simp only [List.map_append, List.sum_append, sum_swap hψs] at hp
    simp only [List.map_append, List.sum_append]
    linarith
  rw [s1, s2, List.map_append, List.sum_append]
  congr 1
  · rw [directed_range, List.map_map, List.map_flatMap, sum_flatMap']
    congr 1
    apply List.map_congr_left
    intro k hk
    rw [List.mem_range] at hk
    have e1 : V (f.corners.getD k 0) = P k := rfl
    have e2 : V (f.corners.getD ((k + 1) % n) 0) = P ((k + 1) % n) := rfl
    simp only [Function.comp, belowEdge]
    rw [← hn, e1, e2]
    unfold stepRef
    simp only [hlen]
    by_cases b1 : p.dist (P k) < 0
    · rw [if_pos ((hB k hk).2 b1), if_pos b1]
      by_cases b2 : p.dist (P ((k + 1) % n)) < 0
      · rw [if_pos ((hB _ (hnext k)).2 b2), if_pos b2]; simp [hψ, pt]
      · rw [if_neg (fun h => b2 ((hB _ (hnext k)).1 h)), if_neg b2]
        simp [hψ, pt, (hup k hk b1 (hnz _ (hnext k) b2)).1]
    · rw [if_neg (fun h => b1 ((hB _ hk).1 h)), if_neg b1]
      by_cases b2 : p.dist (P ((k + 1) % n)) < 0
      · rw [if_pos ((hB _ (hnext k)).2 b2), if_pos b2]
        simp [hψ, pt, (hdown k hk (hnz _ hk b1) b2).1]
      · rw [if_neg (fun h => b2 ((hB _ (hnext k)).1 h)), if_neg b2]; rfl
  · unfold sectionSum Face.sectionEdge lidRef
    by_cases hcr : crossing c = true
    · rw [if_pos hcr]
      simp only [hcr, Bool.not_true, Bool.false_or, Bool.and_eq_true, List.any_eq_true, List.mem_range] at hcross
      obtain ⟨⟨k, hk, k1, k2⟩, ⟨j, hj, j1, j2⟩⟩ := hcross
      have ekd : (f.corners.getD k 0, f.corners.getD ((k + 1) % n) 0) ∈ f.directedEdges := corner_edge f hk
      have ejd : (f.corners.getD j 0, f.corners.getD ((j + 1) % n) 0) ∈ f.directedEdges := corner_edge f hj
      have hk1 := (hA k hk).1 k1
      have hk2 := (hB _ (hnext k)).1 k2
      have hj1 := (hB j hj).1 j1
      have hj2 := (hA _ (hnext j)).1 j2
      cases hf1 : f.directedEdges.find? (fun e => decide (0 < p.dist (V e.1)) && decide (p.dist (V e.2) < 0)) with
      | none =>
        rw [List.find?_eq_none] at hf1
        exact absurd (by simp only [Bool.and_eq_true, decide_eq_true_eq]; exact ⟨hk1, hk2⟩) (hf1 _ ekd)
      | some e =>
        cases hf2 : f.directedEdges.find? (fun e => decide (p.dist (V e.1) < 0) && decide (0 < p.dist (V e.2))) with
        | none =>
          rw [List.find?_eq_none] at hf2
          exact absurd (by simp only [Bool.and_eq_true, decide_eq_true_eq]; exact ⟨hj1, hj2⟩) (hf2 _ ejd)
        | some e' =>
          have m1 := List.mem_of_find?_eq_some hf1
          have m2 := List.mem_of_find?_eq_some hf2
          have c1 := List.find?_some hf1
          have c2 := List.find?_some hf2
          simp only [Bool.and_eq_true, decide_eq_true_eq] at c1 c2
          rw [directed_range, List.mem_map] at m1 m2
          obtain ⟨k', hk', rfl⟩ := m1
          obtain ⟨j', hj', rfl⟩ := m2
          rw [List.mem_range] at hk' hj'
          have d1 := (hdown k' hk' c1.1 c1.2).1
          have d2 := (hup j' hj' c2.1 c2.2).1
          simp only [List.map_cons, List.map_nil, List.sum_cons, List.sum_nil, add_zero, hψ, pt, d1, d2]
          rfl
    · rw [if_neg hcr]
      have hf1 : f.directedEdges.find? (fun e => decide (0 < p.dist (V e.1)) && decide (p.dist (V e.2) < 0)) = none := by
        rw [List.find?_eq_none]
        intro e he hh
        simp only [Bool.and_eq_true, decide_eq_true_eq] at hh
        rw [directed_range, List.mem_map] at he
        obtain ⟨k', hk', rfl⟩ := he
        rw [List.mem_range] at hk'
        exact hcr (hdown k' hk' hh.1 hh.2).2
      rw [hf1]
      rfl

/-! ## The mesh -/

lemma sum_map_add' {α : Type*} (L : List α) (f g : α → K) :
    (L.map (fun x => f x + g x)).sum = (L.map f).sum + (L.map g).sum := by
  induction L with
  | nil => simp
  | cons a L ih => simp only [List.map_cons, List.sum_cons, ih]; ring

/-- A function of the corners only depends on the geometry. -/
lemma geometry_map {β : Type*} (F : V3 K → V3 K → V3 K → V3 K → β) (m : Mesh K) :
    m.faces.map (fun f => F (m.vert f.a) (m.vert f.b) (m.vert f.c) (m.vert f.d)) =
      m.geometry.map (fun l => F ((l.getD 0 none).getD 0) ((l.getD 1 none).getD 0) ((l.getD 2 none).getD 0)
        ((l.getD 3 none).getD 0)) := by
  simp only [Mesh.geometry, List.map_map]
  rfl

lemma cls_not_altern {p : Plane K} {tol : K} (htol : 0 ≤ tol) {m : Mesh K} (hwf : m.WF) (hq : QuadsCross m)
    {f : Face} (hf : f ∈ m.faces) : altern (cornerCls p tol m.vert f) = false := by
  have := corners_not_altern (p := p) htol hwf hq hf
  rwa [clsList_eq p tol m hwf hf] at this

lemma geometry_congr {β : Type*} (F : V3 K → V3 K → V3 K → V3 K → β) {m m' : Mesh K} (h : m.geometry = m'.geometry) :
    m.faces.map (fun f => F (m.vert f.a) (m.vert f.b) (m.vert f.c) (m.vert f.d)) =
      m'.faces.map (fun f => F (m'.vert f.a) (m'.vert f.b) (m'.vert f.c) (m'.vert f.d)) := by
  rw [geometry_map F, h, geometry_map F]

/-- Sum of an antisymmetric function over the edges of the clipped mesh. -/
lemma clip_chain {srt : (ℕ → K) → List ℕ → List ℕ} (hsrt : IsArgsort srt) {p : Plane K} {tol : K}
    (htol : 0 ≤ tol) {b : Bool} {m : Mesh K} (hwf : m.WF)
    (hpos : ∀ f ∈ m.faces, ∀ i ∈ f.toList, tol < |p.dist (m.vert i)|) (hq : QuadsCross m) (hsep : m.WellSeparated p)
    {c : Clipped K} (h : clip srt p tol b m = .ok c) {φ : V3 K → V3 K → K} (hφ : ∀ x y, φ x y = -φ y x) :
    (c.clipped.pointEdges.map (fun e => φ e.1 e.2)).sum =
      (m.directedEdges.map (fun e => belowEdge p φ (m.vert e.1) (m.vert e.2))).sum +
      ((m.sectionEdges p).map (fun e => φ e.2 e.1)).sum := by
  obtain ⟨exact, parts, _, _, hg, hperm, hfaces, hpl, _, _⟩ := clip_planned hsrt htol hwf hpos hq hsep h
  have s0 : (c.clipped.pointEdges.map (fun e => φ e.1 e.2)).sum = (c.clipped.faces.map (edgeSum φ c.clipped.vert)).sum := by
    unfold Mesh.pointEdges Mesh.directedEdges
    rw [List.map_map, List.map_flatMap, sum_flatMap']
    congr 1
    apply List.map_congr_left
    intro f _
    rw [edgeSum_directed hφ]; rfl
  have s1 : c.clipped.faces.map (edgeSum φ c.clipped.vert) = exact.faces.map (edgeSum φ exact.vert) :=
    geometry_congr (fun u v w t => φ u v + φ v w + φ w t + φ t u) hg
  have s2 : (exact.faces.map (edgeSum φ exact.vert)).sum =
      (parts.map (fun t => (t.1.directedEdges.map (fun e => belowEdge p φ (m.vert e.1) (m.vert e.2))).sum +
        sectionSum p φ m.vert t.1)).sum := by
    rw [hfaces, List.map_flatMap, sum_flatMap']
    congr 1
    apply List.map_congr_left
    intro t ht
    have hf : t.1 ∈ m.faces := hperm.subset (List.mem_map_of_mem ht)
    exact planned_chain htol (hpos _ hf) (cls_not_altern htol hwf hq hf) (hpl t ht) hφ
  have s3 : (parts.map (fun t => (t.1.directedEdges.map (fun e => belowEdge p φ (m.vert e.1) (m.vert e.2))).sum +
        sectionSum p φ m.vert t.1)).sum = (m.faces.map (fun f =>
          (f.directedEdges.map (fun e => belowEdge p φ (m.vert e.1) (m.vert e.2))).sum + sectionSum p φ m.vert f)).sum := by
    rw [← (hperm.map _).sum_eq, List.map_map]; rfl
  rw [s0, s1, s2, s3, sum_map_add']
  congr 1
  · unfold Mesh.directedEdges
    rw [List.map_flatMap, sum_flatMap']
  · unfold Mesh.sectionEdges
    rw [List.map_filterMap]
    generalize m.faces = L
    induction L with
    | nil => rfl
    | cons f L ih =>
      rw [List.map_cons, List.sum_cons, ih, List.filterMap_cons, sectionSum]
      cases f.sectionEdge p m.vert with
      | none => simp
      | some e => simp

/-- An antisymmetric quantity summed over the directed edges of a closed oriented surface is zero. -/
lemma closed_sum {L : List (ℕ × ℕ)} (hL : ∀ i j : ℕ, L.count (i, j) = L.count (j, i))
    (φ : ℕ → ℕ → K) (hφ : ∀ i j, φ i j = - φ j i) : (L.map (fun e => φ e.1 e.2)).sum = 0 := by
  have hperm : (L.map Prod.swap).Perm L := by
    rw [List.perm_iff_count]
    rintro ⟨i, j⟩
    have := List.count_map_of_injective L Prod.swap Prod.swap_injective (j, i)
    simp only [Prod.swap_prod_mk] at this
    rw [this, hL]
  have h1 : ((L.map Prod.swap).map (fun e => φ e.1 e.2)).sum = (L.map (fun e => φ e.1 e.2)).sum :=
    (hperm.map _).sum_eq
  have h2 : ((L.map Prod.swap).map (fun e => φ e.1 e.2)).sum = - (L.map (fun e => φ e.1 e.2)).sum := by
    rw [List.map_map]
    clear hperm h1 hL
    induction L with
    | nil => simp
    | cons e l ih =>
      simp only [List.map_cons, List.sum_cons, ih, Function.comp, Prod.fst_swap, Prod.snd_swap]
      rw [hφ e.2 e.1]; ring
  linarith

/-- For a closed surface: the clipped mesh and the section have opposite boundaries. -/
lemma clip_closed {srt : (ℕ → K) → List ℕ → List ℕ} (hsrt : IsArgsort srt) {p : Plane K} {tol : K}
    (htol : 0 ≤ tol) {b : Bool} {m : Mesh K} (hwf : m.WF) (hcl : m.ClosedOriented)
    (hpos : ∀ f ∈ m.faces, ∀ i ∈ f.toList, tol < |p.dist (m.vert i)|) (hq : QuadsCross m) (hsep : m.WellSeparated p)
    {c : Clipped K} (h : clip srt p tol b m = .ok c) {φ : V3 K → V3 K → K} (hφ : ∀ x y, φ x y = -φ y x) :
    (c.clipped.pointEdges.map (fun e => φ e.1 e.2)).sum + ((m.sectionEdges p).map (fun e => φ e.1 e.2)).sum = 0 := by
  rw [clip_chain hsrt htol hwf hpos hq hsep h hφ,
    closed_sum hcl (fun i j => belowEdge p φ (m.vert i) (m.vert j)) (fun i j => belowEdge_anti hφ _ _), zero_add]
  generalize m.sectionEdges p = L
  induction L with
  | nil => simp
  | cons a L ih =>
    simp only [List.map_cons, List.sum_cons]
    rw [hφ a.2 a.1]; linarith

lemma count_antisymm (L : List (V3 K × V3 K)) (u v : V3 K) :
    (L.map (fun e => (if e = (u, v) then (1 : K) else 0) - (if e = (v, u) then (1 : K) else 0))).sum =
      (L.count (u, v) : K) - (L.count (v, u) : K) := by
  induction L with
  | nil => simp
  | cons a L ih =>
    rw [List.map_cons, List.sum_cons, ih, List.count_cons, List.count_cons]
    by_cases h1 : a = (u, v) <;> by_cases h2 : a = (v, u) <;> simp [h1, h2, beq_iff_eq] <;> grind

end Clipper
end MM
