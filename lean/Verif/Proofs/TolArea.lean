import Verif.Proofs.TolFlux
import Verif.Props.WettedArea

/-!
# Areas of the two parts of a face, with corners within the tolerance
-/

namespace MM
namespace Clipper

set_option linter.unusedSectionVars false
set_option linter.unusedSimpArgs false
set_option linter.unusedVariables false

/-! ## The table and the reversed plane -/

/-- Forget the sign of the corners in the slab. -/
def Cls.nrm : Cls → Cls
  | .Om => .Op | c => c

/-- The classes for the reversed plane. -/
def Cls.swp : Cls → Cls
  | .A => .B | .B => .A | c => c

theorem table_nrm : ∀ c ∈ lists3 ++ lists4, c.any Cls.isBad = false → plan c = plan (c.map Cls.nrm) := by decide +kernel

/-- A point of a plan: a corner, or the point of an edge. -/
def Plan.place (q : Plan) : Ref → ℕ × ℕ
  | .old k => (k, k)
  | .new j => let e := q.cuts.getD j (0, 0); (min e.1 e.2, max e.1 e.2)

/-- The sides in the slab. -/
def onSides (c : List Cls) : List ((ℕ × ℕ) × (ℕ × ℕ)) :=
  (List.range c.length).filterMap (fun k => let j := (k + 1) % c.length
    if (c.getD k .P).isO && (c.getD j .P).isO then some ((k, k), (j, j)) else none)

/-- The sides along the plane of the parts under and above it are the sides in the slab, or opposite. -/
def bothCheck (c : List Cls) (q q' : Plan) : Bool :=
  c.all Cls.isO ||
  match q.edge, q'.edge with
  | none, none => (onSides c).isEmpty
  | some e, some e' => (onSides c).isEmpty && q.place e.1 == q'.place e'.2 && q.place e.2 == q'.place e'.1
  | some e, none => onSides c == [(q.place e.2, q.place e.1)]
  | none, some e => onSides c == [(q'.place e.2, q'.place e.1)]

def PlanRes.both (c : List Cls) : PlanRes → PlanRes → Bool
  | .ok q, .ok q' => bothCheck c q q'
  | .ok _, _ => false
  | _, _ => true

theorem table_both : ∀ c ∈ lists3 ++ lists4, c.any Cls.isBad = false → altern c = false → flatOn c = false →
    (plan c).both c (plan ((c.map Cls.nrm).map Cls.swp)) = true := by decide +kernel

theorem table_swp : ∀ c ∈ lists3 ++ lists4, c.any Cls.isBad = false → altern c = false → flatOn c = false →
    altern ((c.map Cls.nrm).map Cls.swp) = false ∧ flatOn ((c.map Cls.nrm).map Cls.swp) = false := by decide +kernel

theorem table_nrm_alt : ∀ c ∈ lists3 ++ lists4, altern (c.map Cls.nrm) = altern c ∧ flatOn (c.map Cls.nrm) = flatOn c := by
  decide +kernel

lemma reversed_cls {tol d : ℝ} (htol : 0 ≤ tol) (h : |d| ≠ tol) : (classOf tol (-d)).nrm = ((classOf tol d).nrm).swp := by
  unfold classOf
  rw [abs_neg]
  rcases lt_or_gt_of_ne h with h1 | h1
  · have := abs_lt.1 h1
    have a1 : ¬ d > tol := by linarith
    have a2 : ¬ -d > tol := by linarith
    simp only [a1, a2, h1, if_true, if_false]
    split_ifs <;> rfl
  · have h3 : ¬ |d| < tol := not_lt.2 h1.le
    rcases lt_abs.1 h1 with h2 | h2
    · have a1 : d > tol := h2
      have a2 : ¬ -d > tol := by linarith
      have a3 : -d < -tol := by linarith
      simp only [a1, a2, a3, h3, if_true, if_false]; rfl
    · have a1 : ¬ d > tol := by linarith
      have a2 : -d > tol := h2
      have a3 : d < -tol := by linarith
      simp only [a1, a2, a3, h3, if_true, if_false]; rfl

section
variable {p : Plane ℝ} {tol : ℝ} (htol : 0 ≤ tol) {V : ℕ → V3 ℝ} {f : Face}
  (hpos : ∀ i ∈ f.toList, |p.dist (V i)| ≠ tol)
include htol hpos

lemma reversed_cornerCls : (cornerCls p.reversed tol V f).map Cls.nrm = ((cornerCls p tol V f).map Cls.nrm).map Cls.swp := by
  unfold cornerCls
  rw [List.map_map, List.map_map, List.map_map]
  apply List.map_congr_left
  intro i hi
  simp only [Function.comp]
  rw [reversed_dist]
  exact reversed_cls htol (hpos i (Face.corners_sub f i hi))

lemma notAt_reversed : ∀ i ∈ f.toList, |p.reversed.dist (V i)| ≠ tol := by
  intro i hi
  rw [reversed_dist, abs_neg]
  exact hpos i hi

lemma cornerCls_bad : (cornerCls p tol V f).any Cls.isBad = false := by
  rw [cornerCls, List.any_map, List.any_eq_false]
  intro i hi
  simp [(notAt_cls htol (hpos i (Face.corners_sub f i hi))).1]

variable (halt : altern (cornerCls p tol V f) = false) (hflat : flatOn (cornerCls p tol V f) = false)
include halt hflat

lemma reversed_alt : altern (cornerCls p.reversed tol V f) = false ∧ flatOn (cornerCls p.reversed tol V f) = false := by
  have h := table_swp _ (cornerCls_mem p tol V f) (cornerCls_bad htol hpos) halt hflat
  rw [← reversed_cornerCls htol hpos] at h
  have h' := table_nrm_alt _ (cornerCls_mem p.reversed tol V f)
  rw [← h'.1, ← h'.2]
  exact h

/-- When the part of a face under the plane is in the table, so is the part above it. -/
lemma plan_both {q : Plan} (h1 : plan (cornerCls p tol V f) = .ok q) :
    ∃ q', plan (cornerCls p.reversed tol V f) = .ok q' ∧ bothCheck (cornerCls p tol V f) q q' = true := by
  have h := table_both _ (cornerCls_mem p tol V f) (cornerCls_bad htol hpos) halt hflat
  rw [h1, ← reversed_cornerCls htol hpos,
    ← table_nrm _ (cornerCls_mem p.reversed tol V f) (cornerCls_bad htol (notAt_reversed htol hpos))] at h
  cases hq : plan (cornerCls p.reversed tol V f) with
  | ok q' => rw [hq] at h; exact ⟨q', rfl, h⟩
  | unknown => rw [hq] at h; simp [PlanRes.both] at h
  | unpack => rw [hq] at h; simp [PlanRes.both] at h

omit halt hflat in
/-- The points of a plan can be computed. -/
lemma plan_points {q : Plan} (h1 : plan (cornerCls p tol V f) = .ok q) :
    ∃ N : ℕ → V3 ℝ, CutsOk p (cornerPt V f) N q := by
  have hk := (table_known _ (cornerCls_mem p tol V f) (cornerCls_bad htol hpos)).2
  have hk := PlanRes.check_ok hk h1
  have hr := PlanRes.check_ok (table_range _ (cornerCls_mem p tol V f)) h1
  simp only [Bool.and_eq_true, Plan.cutsAB, Plan.inRange, List.all_eq_true, cornerCls_length, decide_eq_true_eq, Bool.or_eq_true] at hk hr
  refine ⟨fun j => p.cutPt (cornerPt V f (q.cuts.getD j (0, 0)).1) (cornerPt V f (q.cuts.getD j (0, 0)).2), ?_⟩
  intro j ij hij
  have hm : ij ∈ q.cuts := List.mem_of_getElem? hij
  have e : q.cuts.getD j (0, 0) = ij := by rw [List.getD_eq_getElem?_getD, hij]; rfl
  have hcls : ∀ k, k < f.corners.length → (cornerCls p tol V f).getD k .P = classOf tol (p.dist (cornerPt V f k)) := by
    intro k hk
    rw [cornerCls, getD_map _ f.corners k 0 hk]; rfl
  have hs : p.dist (cornerPt V f ij.1) * p.dist (cornerPt V f ij.2) < 0 := by
    have hc := hk.2 ij hm
    rw [hcls _ (hr.1.2 ij hm).1, hcls _ (hr.1.2 ij hm).2, isA_iff, isA_iff, isB_iff htol, isB_iff htol] at hc
    rcases hc with hc | hc
    · exact mul_neg_of_pos_of_neg (by linarith) (by linarith)
    · exact mul_neg_of_neg_of_pos (by linarith) (by linarith)
  refine ⟨hs, ?_⟩
  simp only [e]
  have hne : p.dist (cornerPt V f ij.1) - p.dist (cornerPt V f ij.2) ≠ 0 := by
    intro h0
    rw [show p.dist (cornerPt V f ij.1) = p.dist (cornerPt V f ij.2) by linarith] at hs
    nlinarith [mul_self_nonneg (p.dist (cornerPt V f ij.2))]
  rw [Plane.cutPt, smul_smul, mul_inv_cancel₀ hne, one_smul]

omit halt hflat in
/-- A face in the table has pieces. -/
lemma plan_planned {q : Plan} (h1 : plan (cornerCls p tol V f) = .ok q) :
    ∃ (W : ℕ → V3 ℝ) (gs : List Face), Planned p tol V W f gs := by
  obtain ⟨N, hN⟩ := plan_points htol hpos h1
  have hk := (table_known _ (cornerCls_mem p tol V f) (cornerCls_bad htol hpos)).2
  have hk := PlanRes.check_ok hk h1
  simp only [Bool.and_eq_true, List.all_eq_true, beq_iff_eq] at hk
  have hk := hk.1
  let num : Ref → ℕ := fun r => match r with | .old k => 2 * k | .new j => 2 * j + 1
  have hinj : ∀ r s, num r = num s → r = s := by
    intro r s h
    cases r <;> cases s <;> simp only [num] at h <;> first | omega | (congr 1; omega)
  let W : ℕ → V3 ℝ := fun i => if i % 2 = 0 then cornerPt V f (i / 2) else N (i / 2)
  have hW : ∀ r, W (num r) = pt (cornerPt V f) N r := by
    intro r
    cases r with
    | old k => simp [W, num, pt]
    | new j =>
      have h2 : (2 * j + 1) / 2 = j := by omega
      simp [W, num, pt, h2]
  refine ⟨W, q.faces.map (fun l => ⟨num (l.getD 0 (.old 0)), num (l.getD 1 (.old 0)), num (l.getD 2 (.old 0)), num (l.getD 3 (.old 0))⟩),
    q, N, h1, hN, ?_⟩
  generalize q.faces = L at hk
  induction L with
  | nil => exact .nil
  | cons l L ih =>
    refine .cons ?_ (ih (fun x hx => hk x (by simp [hx])))
    have hl := hk l (by simp)
    match l, hl with
    | [a, b, c, d], _ =>
      refine ⟨a, b, c, d, rfl, hW _, hW _, hW _, hW _, ?_⟩
      simp only [List.getD_cons_zero, List.getD_cons_succ]
      exact ⟨fun h => hinj _ _ h, fun h => by rw [h]⟩

/-- A quantity that is antisymmetric and additive along segments has on the sides of the parts of a face under and above the plane
together the value that it has on the sides of the face. -/
lemma both_sums {q q' : Plan} {N N' : ℕ → V3 ℝ} (hnd : f.corners.Nodup)
    (h1 : plan (cornerCls p tol V f) = .ok q) (h2 : CutsOk p (cornerPt V f) N q)
    (h1' : plan (cornerCls p.reversed tol V f) = .ok q') (h2' : CutsOk p.reversed (cornerPt V f) N' q')
    (hb : bothCheck (cornerCls p tol V f) q q' = true) (hoff : ¬ ∀ i ∈ f.toList, |p.dist (V i)| < tol)
    {φ : V3 ℝ → V3 ℝ → ℝ} (hφ : ∀ x y, φ x y = -φ y x)
    (hadd : ∀ a b : V3 ℝ, ∀ t : ℝ, φ a b = φ a (a + t • (b - a)) + φ (a + t • (b - a)) b) :
    ((f.directedEdges.map (fun e => belowTol p tol φ (V e.1) (V e.2))).sum + tolSum p tol φ V f) +
    ((f.directedEdges.map (fun e => belowTol p.reversed tol φ (V e.1) (V e.2))).sum + tolSum p.reversed tol φ V f) =
      (f.directedEdges.map (fun e => φ (V e.1) (V e.2))).sum := by
  have hsec := plan_tol htol hpos halt hflat hnd h1 h2
  have hsec' := plan_tol htol (notAt_reversed htol hpos) (reversed_alt htol hpos halt hflat).1
    (reversed_alt htol hpos halt hflat).2 hnd h1' h2'
  set c := cornerCls p tol V f with hc
  set n := f.corners.length with hn
  have hlen : c.length = n := cornerCls_length p tol V f
  set P := cornerPt V f with hP
  have hcls : ∀ k, k < n → c.getD k .P = classOf tol (p.dist (P k)) := by
    intro k hk
    rw [hc, cornerCls, getD_map _ f.corners k 0 hk]; rfl
  have hO : ∀ k, k < n → ((c.getD k .P).isO = true ↔ |p.dist (P k)| < tol) := fun k hk => by
    rw [hcls k hk]; exact isO_iff htol
  have hclr : ∀ k, k < n → |p.dist (P k)| ≠ tol := fun k hk => hpos _ (Face.corners_sub f _ (corners_getD_mem hk))
  have hn3 : 0 < n := by have := corners_length f; omega
  have hnext : ∀ k, (k + 1) % n < n := fun k => Nat.mod_lt _ hn3
  -- the points of the plans
  let at_ : ℕ × ℕ → V3 ℝ := fun x => if x.1 = x.2 then P x.1 else p.cutPt (P x.1) (P x.2)
  have hsym : ∀ k l, p.dist (P k) * p.dist (P l) < 0 → at_ (min k l, max k l) = p.cutPt (P k) (P l) := by
    intro k l h
    have hne : k ≠ l := by
      rintro rfl
      nlinarith [mul_self_nonneg (p.dist (P k))]
    simp only [at_]
    rcases lt_or_gt_of_ne hne with h | h
    · rw [min_eq_left h.le, max_eq_right h.le, if_neg hne]
    · rw [min_eq_right h.le, max_eq_left h.le, if_neg hne.symm, cutPt_symm]
  have hplace : ∀ r, Ref.inRange n q.cuts.length r = true → pt P N r = at_ (q.place r) := by
    intro r hr
    cases r with
    | old k => simp [pt, Plan.place, at_]
    | new j =>
      simp only [Ref.inRange, decide_eq_true_eq] at hr
      have hcut : IsCut p _ _ _ := h2 j _ (List.getElem?_eq_getElem hr)
      simp only [Plan.place, List.getD_eq_getElem?_getD, List.getElem?_eq_getElem hr, Option.getD_some]
      rw [hsym _ _ hcut.1]
      exact IsCut.eq_cutPt hcut
  have hplace' : ∀ r, Ref.inRange n q'.cuts.length r = true → pt P N' r = at_ (q'.place r) := by
    intro r hr
    cases r with
    | old k => simp [pt, Plan.place, at_]
    | new j =>
      simp only [Ref.inRange, decide_eq_true_eq] at hr
      have hcut : IsCut p.reversed _ _ _ := h2' j _ (List.getElem?_eq_getElem hr)
      have hs := hcut.1
      rw [reversed_dist, reversed_dist, neg_mul_neg] at hs
      simp only [Plan.place, List.getD_eq_getElem?_getD, List.getElem?_eq_getElem hr, Option.getD_some]
      rw [hsym _ _ hs, ← reversed_cutPt]
      exact IsCut.eq_cutPt hcut
  have hr := PlanRes.check_ok (table_range _ (cornerCls_mem p tol V f)) h1
  have hr' := PlanRes.check_ok (table_range _ (cornerCls_mem p.reversed tol V f)) h1'
  rw [cornerCls_length] at hr hr'
  simp only [Plan.inRange, Bool.and_eq_true] at hr hr'
  have hr := hr.2
  have hr' := hr'.2
  have e1 : tolSum p tol φ V f + tolSum p.reversed tol φ V f = ((onSides c).map (fun e => φ (at_ e.1) (at_ e.2))).sum := by
    have hall : c.all Cls.isO = false := by
      rw [← Bool.not_eq_true]
      intro h
      apply hoff
      rw [hc, cornerCls, List.all_map, List.all_eq_true] at h
      intro i hi
      exact (isO_iff htol).1 (h i (Face.mem_corners_iff.2 hi))
    unfold bothCheck at hb
    rw [hall, Bool.false_or] at hb
    unfold tolSum
    rw [hsec, hsec']
    cases hq : q.edge <;> cases hq' : q'.edge <;> simp only [hq, hq', Option.map_none, Option.map_some] at hb hr hr' ⊢
    · rw [List.isEmpty_iff] at hb
      rw [hb]; simp
    · rw [beq_iff_eq] at hb
      rw [Bool.and_eq_true] at hr'
      rw [hb, hplace' _ hr'.1, hplace' _ hr'.2]; simp
    · rw [beq_iff_eq] at hb
      rw [Bool.and_eq_true] at hr
      rw [hb, hplace _ hr.1, hplace _ hr.2]; simp
    · rw [Bool.and_eq_true] at hr hr'
      simp only [Bool.and_eq_true, List.isEmpty_iff, beq_iff_eq] at hb
      rw [hb.1.1, hplace _ hr.1, hplace _ hr.2, hplace' _ hr'.1, hplace' _ hr'.2, hb.1.2, hb.2, hφ]
      simp
  have e2 : ((onSides c).map (fun e => φ (at_ e.1) (at_ e.2))).sum = ((List.range n).map (fun k =>
      if |p.dist (P k)| < tol ∧ |p.dist (P ((k + 1) % n))| < tol then φ (P k) (P ((k + 1) % n)) else 0)).sum := by
    unfold onSides
    rw [hlen]
    have : ∀ L : List ℕ, (∀ k ∈ L, k < n) → ((L.filterMap (fun k => let j := (k + 1) % n
        if (c.getD k .P).isO && (c.getD j .P).isO then some ((k, k), (j, j)) else none)).map (fun e => φ (at_ e.1) (at_ e.2))).sum =
        (L.map (fun k => if |p.dist (P k)| < tol ∧ |p.dist (P ((k + 1) % n))| < tol then φ (P k) (P ((k + 1) % n)) else 0)).sum := by
      intro L
      induction L with
      | nil => intro; rfl
      | cons k L ih =>
        intro hL
        have ih := ih (fun x hx => hL x (by simp [hx]))
        have hk := hL k (by simp)
        by_cases h : |p.dist (P k)| < tol ∧ |p.dist (P ((k + 1) % n))| < tol
        · have h' : ((c.getD k .P).isO && (c.getD ((k + 1) % n) .P).isO) = true := by
            rw [Bool.and_eq_true, hO k hk, hO _ (hnext k)]; exact h
          rw [List.filterMap_cons_some (b := ((k, k), ((k + 1) % n, (k + 1) % n))) (by simp only [h', if_true])]
          rw [List.map_cons, List.sum_cons, List.map_cons, List.sum_cons, ih, if_pos h]
          simp [at_]
        · have h' : ((c.getD k .P).isO && (c.getD ((k + 1) % n) .P).isO) = false := by
            rw [← Bool.not_eq_true, Bool.and_eq_true, hO k hk, hO _ (hnext k)]; exact h
          rw [List.filterMap_cons_none (by simp only [h']; rfl)]
          rw [List.map_cons, List.sum_cons, ih, if_neg h, zero_add]
    exact this _ (fun k hk => List.mem_range.1 hk)
  have e3 : ∀ L : List ℕ, (∀ k ∈ L, k < n) →
      (L.map (fun k => belowTol p tol φ (P k) (P ((k + 1) % n)))).sum +
      (L.map (fun k => belowTol p.reversed tol φ (P k) (P ((k + 1) % n)))).sum +
      (L.map (fun k => if |p.dist (P k)| < tol ∧ |p.dist (P ((k + 1) % n))| < tol then φ (P k) (P ((k + 1) % n)) else 0)).sum =
      (L.map (fun k => φ (P k) (P ((k + 1) % n)))).sum := by
    intro L
    induction L with
    | nil => intro; simp
    | cons k L ih =>
      intro hL
      have ih := ih (fun x hx => hL x (by simp [hx]))
      have hk := hL k (by simp)
      simp only [List.map_cons, List.sum_cons]
      have key : ∀ a b, |p.dist a| ≠ tol → |p.dist b| ≠ tol → belowTol p tol φ a b + belowTol p.reversed tol φ a b +
          (if |p.dist a| < tol ∧ |p.dist b| < tol then φ a b else 0) = φ a b := by
        intro a b na nb
        have cutb : p.dist a ≠ p.dist b → φ a b = φ a (p.cutPt a b) + φ (p.cutPt a b) b := by
          intro h
          rw [cutPt_param h]
          exact hadd _ _ _
        have tri : ∀ d : ℝ, |d| ≠ tol → (|d| < tol ∧ ¬ d < -tol ∧ ¬ -d < -tol ∧ ¬ tol < d ∧ ¬ tol < -d) ∨
            (¬ |d| < tol ∧ d < -tol ∧ ¬ -d < -tol ∧ ¬ tol < d ∧ tol < -d) ∨
            (¬ |d| < tol ∧ ¬ d < -tol ∧ -d < -tol ∧ tol < d ∧ ¬ tol < -d) := by
          intro d hd
          rcases lt_or_gt_of_ne hd with h | h
          · have := abs_lt.1 h
            exact .inl ⟨h, by linarith, by linarith, by linarith, by linarith⟩
          · rcases lt_abs.1 h with h' | h'
            · exact .inr (.inr ⟨not_lt.2 h.le, by linarith, by linarith, by linarith, by linarith⟩)
            · exact .inr (.inl ⟨not_lt.2 h.le, by linarith, by linarith, by linarith, by linarith⟩)
        unfold belowTol Plane.tolCutPt
        rw [reversed_dist, reversed_dist, reversed_cutPt, reversed_cutPt, cutPt_symm p b a]
        rcases tri _ na with ⟨a1, a2, a3, a4, a5⟩ | ⟨a1, a2, a3, a4, a5⟩ | ⟨a1, a2, a3, a4, a5⟩ <;>
          rcases tri _ nb with ⟨b1, b2, b3, b4, b5⟩ | ⟨b1, b2, b3, b4, b5⟩ | ⟨b1, b2, b3, b4, b5⟩ <;>
          simp only [a1, a2, a3, a4, a5, b1, b2, b3, b4, b5, if_true, if_false, and_true, and_false, and_self, add_zero, zero_add]
        · rw [cutb (by linarith)]
        · rw [cutb (by linarith), add_comm]
      have := key (P k) (P ((k + 1) % n)) (hclr k hk) (hclr _ (hnext k))
      linarith
  have e4 : ∀ F : V3 ℝ → V3 ℝ → ℝ, (f.directedEdges.map (fun e => F (V e.1) (V e.2))).sum =
      ((List.range n).map (fun k => F (P k) (P ((k + 1) % n)))).sum := by
    intro F
    rw [directed_range, List.map_map]
    rfl
  rw [e4, e4, e4, ← e3 _ (fun k hk => List.mem_range.1 hk), ← e2, ← e1]
  ring

end

/-! ## Bounds of the integral over the part of a face -/

theorem table_allOn : ∀ c ∈ lists3 ++ lists4, c.any Cls.isBad = false → c.all Cls.isO = true →
    (plan c).check (fun q => q.faces.isEmpty) = true := by decide +kernel

lemma refInt_nonneg {g : V3 ℝ → ℝ} {a b c : V3 ℝ}
    (h : ∀ u v : ℝ, 0 ≤ u → 0 ≤ v → u + v ≤ 1 → 0 ≤ g (a + u • (b - a) + v • (c - a))) : 0 ≤ refInt g a b c := by
  unfold refInt
  apply intervalIntegral.integral_nonneg zero_le_one
  intro u hu
  apply intervalIntegral.integral_nonneg (by linarith [hu.2])
  intro v hv
  exact h u v hu.1 hv.1 (by linarith [hv.2])

lemma triangleIntegral_nonneg {g : V3 ℝ → ℝ} (h : ∀ X, 0 ≤ g X) (a b c : V3 ℝ) : 0 ≤ triangleIntegral g a b c := by
  rw [triangleIntegral_refInt]
  exact mul_nonneg (Real.sqrt_nonneg _) (refInt_nonneg (fun u v _ _ _ => h _))

lemma triangleIntegral_below_le (p : Plane ℝ) {g : V3 ℝ → ℝ} (hg : PlaneCont g) (h : ∀ X, 0 ≤ g X) (a b c : V3 ℝ) :
    triangleIntegral (p.below g) a b c ≤ triangleIntegral g a b c := by
  rw [triangleIntegral_refInt, triangleIntegral_refInt]
  apply mul_le_mul_of_nonneg_left _ (Real.sqrt_nonneg _)
  have := refInt_sub hg.int (planeInt_below p hg) a b c
  have h2 : 0 ≤ refInt (fun X => g X - p.below g X) a b c := refInt_nonneg (fun u v _ _ _ => by
    show 0 ≤ g _ - p.below g _
    rw [below_dist]
    split_ifs
    · simp
    · simpa using h _)
  linarith

lemma triangleIntegral_sub_below (p : Plane ℝ) {g : V3 ℝ → ℝ} (hg : PlaneCont g) (a b c : V3 ℝ) :
    triangleIntegral g a b c - triangleIntegral (p.below g) a b c = triangleIntegral (fun X => g X - p.below g X) a b c := by
  rw [triangleIntegral_refInt, triangleIntegral_refInt, triangleIntegral_refInt, refInt_sub hg.int (planeInt_below p hg)]
  ring

/-- The two triangles of a face. -/
noncomputable def twoTri (T : V3 ℝ → V3 ℝ → V3 ℝ → ℝ) (W : ℕ → V3 ℝ) (g : Face) : ℝ := T (W g.a) (W g.b) (W g.c) + T (W g.a) (W g.c) (W g.d)

lemma twoTri_flat (g : V3 ℝ → ℝ) (k : V3 ℝ) {n : V3 ℝ} (hn : n ≠ 0) (hk : k = (Real.sqrt n.normSq)⁻¹ • n) {W : ℕ → V3 ℝ} {f : Face}
    (h : if f.a = f.d then ∃ α : ℝ, 0 < α ∧ areaVec (W f.a) (W f.b) (W f.c) = α • n
      else ∃ α β γ δ : ℝ, 0 < α ∧ 0 < β ∧ 0 < γ ∧ 0 < δ ∧ areaVec (W f.a) (W f.b) (W f.c) = α • n ∧
        areaVec (W f.a) (W f.c) (W f.d) = β • n ∧ areaVec (W f.a) (W f.b) (W f.d) = γ • n ∧
        areaVec (W f.b) (W f.c) (W f.d) = δ • n) :
    twoTri (triangleIntegral g) W f = twoTri (kFlux k g) W f := by
  unfold twoTri kFlux
  split_ifs at h with hd
  · obtain ⟨α, h1, e⟩ := h
    have z : areaVec (W f.a) (W f.c) (W f.a) = 0 := by ext <;> simp [areaVec, V3.cross]
    have z0 : (0 : V3 ℝ).dot k = 0 := by simp [V3.dot]
    rw [triangleIntegral_along hn g h1.le e, ← hd, triangleIntegral_degenerate g z, z, z0, zero_mul, hk]
  · obtain ⟨α, β, _, _, h1, h2, _, _, e1, e2, _, _⟩ := h
    rw [triangleIntegral_along hn g h1.le e1, triangleIntegral_along hn g h2.le e2, hk]

lemma face_flat {V : ℕ → V3 ℝ} {f : Face} {n : V3 ℝ} (hor : Oriented (cornerPt V f) f.corners.length n) (k : V3 ℝ) (hn : n ≠ 0)
    (hk : k = (Real.sqrt n.normSq)⁻¹ • n) (g : V3 ℝ → ℝ) : twoTri (triangleIntegral g) V f = twoTri (kFlux k g) V f := by
  apply twoTri_flat g k hn hk
  by_cases ht' : f.a = f.d
  · rw [if_pos ht']
    have hcs : f.corners = [f.a, f.b, f.c] := by unfold Face.corners Face.isTri; simp [ht', Face.toList]
    obtain ⟨s, hs, e⟩ := hor 0 1 2 (by norm_num) (by norm_num) (by rw [hcs]; simp)
    exact ⟨s, hs, by simpa [cornerPt, hcs] using e⟩
  · rw [if_neg ht']
    have hcs : f.corners = [f.a, f.b, f.c, f.d] := by unfold Face.corners Face.isTri; simp [ht', Face.toList]
    obtain ⟨s, hs, e⟩ := hor 0 1 2 (by norm_num) (by norm_num) (by rw [hcs]; simp)
    obtain ⟨s2, hs2, e2⟩ := hor 0 2 3 (by norm_num) (by norm_num) (by rw [hcs]; simp)
    obtain ⟨s3, hs3, e3⟩ := hor 0 1 3 (by norm_num) (by norm_num) (by rw [hcs]; simp)
    obtain ⟨s4, hs4, e4⟩ := hor 1 2 3 (by norm_num) (by norm_num) (by rw [hcs]; simp)
    exact ⟨s, s2, s3, s4, hs, hs2, hs3, hs4, by simpa [cornerPt, hcs] using e, by simpa [cornerPt, hcs] using e2,
      by simpa [cornerPt, hcs] using e3, by simpa [cornerPt, hcs] using e4⟩

/-- A flux through the triangles of a plane face is a sum over its sides. -/
lemma twoTri_edge {Φ : V3 ℝ → V3 ℝ → V3 ℝ → ℝ} (hΦ : PlaneAdditive Φ) {n A o : V3 ℝ} (hn : n ≠ 0) (ho : InPlane n A o) {W : ℕ → V3 ℝ}
    {f : Face} (hP : ∀ i ∈ f.toList, InPlane n A (W i)) : twoTri Φ W f = edgeSum (Φ o) W f := by
  have ma := hP f.a (by simp [Face.toList])
  have mb := hP f.b (by simp [Face.toList])
  have mc := hP f.c (by simp [Face.toList])
  have md := hP f.d (by simp [Face.toList])
  unfold twoTri edgeSum
  rw [hΦ.fan o _ _ _ (coplanar_det hn ho ma mb mc), hΦ.fan o _ _ _ (coplanar_det hn ho ma mc md), hΦ.anti o (W f.c) (W f.a)]
  ring

/-- The integral of a nonnegative polynomial of degree at most two over the part of a face that the table gives is between the
integrals over the part of the face under the slab and over the part not above it. -/
lemma planned_between {p : Plane ℝ} {tol : ℝ} (htol : 0 ≤ tol) {V W : ℕ → V3 ℝ} {f : Face} {gs : List Face}
    (hpos : ∀ i ∈ f.toList, |p.dist (V i)| ≠ tol) (halt : altern (cornerCls p tol V f) = false)
    (hflat : flatOn (cornerCls p tol V f) = false)
    (hf : if f.a = f.d then areaVec (V f.a) (V f.b) (V f.c) ≠ 0
      else StrictlyConvexQuad (V f.a) (V f.b) (V f.c) (V f.d)) (h : Planned p tol V W f gs)
    {g : V3 ℝ → ℝ} (hg : Quadratic g) (hg0 : ∀ X, 0 ≤ g X) :
    twoTri (triangleIntegral (fun X => if p.dist X < -tol then g X else 0)) V f ≤ (gs.map (twoTri (triangleIntegral g) W)).sum ∧
    (gs.map (twoTri (triangleIntegral g) W)).sum ≤ twoTri (triangleIntegral (fun X => if p.dist X ≤ tol then g X else 0)) V f := by
  obtain ⟨n, hn, hor⟩ := face_oriented hf
  obtain ⟨n', hn', hP⟩ := face_plane hf
  set k := (Real.sqrt n.normSq)⁻¹ • n with hk
  obtain ⟨hcont, hadd⟩ := quadratic_flux hg k
  have hadd' : PlaneAdditive (kFlux k g) := hadd
  have hnd := corners_nodup hf
  have hpos' := notAt_reversed htol hpos
  obtain ⟨halt', hflat'⟩ := reversed_alt htol hpos halt hflat
  have ho : InPlane n' (V f.a) (V f.a) := hP f.a (by simp [Face.toList])
  -- the part under the slab is kept
  have lower : ∀ (p : Plane ℝ) (W : ℕ → V3 ℝ) (gs : List Face), (∀ i ∈ f.toList, |p.dist (V i)| ≠ tol) →
      altern (cornerCls p tol V f) = false → flatOn (cornerCls p tol V f) = false → Planned p tol V W f gs →
      twoTri (triangleIntegral ((p.lowered tol).below g)) V f ≤ (gs.map (twoTri (triangleIntegral g) W)).sum := by
    intro p W gs hpos halt hflat h
    have key := planned_lowered htol hpos halt hflat hf h (below_cutsOff (p.lowered tol) (areaVec_areaLike k) hcont) hadd
    have hor' := planned_oriented htol hpos halt hor h
    have e : (gs.map (twoTri (kFlux k ((p.lowered tol).below g)) W)).sum = twoTri (kFlux k ((p.lowered tol).below g)) V f := by
      refine Eq.trans key ?_
      unfold twoTri
      split_ifs with hd
      · have z : areaVec (V f.a) (V f.c) (V f.a) = 0 := by ext <;> simp [areaVec, V3.cross]
        have z0 : (0 : V3 ℝ).dot k = 0 := by simp [V3.dot]
        rw [← hd]
        unfold kFlux
        rw [z, z0, zero_mul, add_zero]
      · rfl
    rw [face_flat hor k hn hk, ← e]
    apply List.sum_le_sum
    intro f' hf'
    rw [← twoTri_flat _ k hn hk (hor' f' hf')]
    exact add_le_add (triangleIntegral_below_le _ hcont hg0 _ _ _) (triangleIntegral_below_le _ hcont hg0 _ _ _)
  have hlow : (p.lowered tol).below g = fun X => if p.dist X < -tol then g X else 0 := by
    funext X
    rw [below_dist, lowered_dist]
    congr 1
    rw [eq_iff_iff]
    constructor <;> intro h <;> linarith
  have hup : (fun X => g X - (p.reversed.lowered tol).below g X) = fun X => if p.dist X ≤ tol then g X else 0 := by
    funext X
    rw [below_dist, lowered_dist, reversed_dist]
    by_cases hd : p.dist X ≤ tol
    · rw [if_pos hd, if_neg (by linarith), sub_zero]
    · rw [if_neg hd, if_pos (by linarith), sub_self]
  refine ⟨by rw [← hlow]; exact lower p W gs hpos halt hflat h, ?_⟩
  by_cases hoff : ∀ i ∈ f.toList, |p.dist (V i)| < tol
  · -- nothing is kept of a face in the slab
    obtain ⟨q, N, h1, h2, h3⟩ := h
    have hall : (cornerCls p tol V f).all Cls.isO = true := by
      rw [cornerCls, List.all_map, List.all_eq_true]
      intro i hi
      exact (isO_iff htol).2 (hoff i (Face.corners_sub f i hi))
    have := PlanRes.check_ok (table_allOn _ (cornerCls_mem p tol V f) (cornerCls_bad htol hpos) hall) h1
    rw [List.isEmpty_iff] at this
    rw [this, List.forall₂_nil_left_iff] at h3
    rw [h3]
    simp only [List.map_nil, List.sum_nil]
    have : ∀ X, 0 ≤ (if p.dist X ≤ tol then g X else 0) := fun X => by split_ifs; exacts [hg0 X, le_refl 0]
    exact add_nonneg (triangleIntegral_nonneg this _ _ _) (triangleIntegral_nonneg this _ _ _)
  · obtain ⟨q, N, h1, h2, h3⟩ := h
    have h : Planned p tol V W f gs := ⟨q, N, h1, h2, h3⟩
    obtain ⟨q', h1', hb⟩ := plan_both htol hpos halt hflat h1
    obtain ⟨W', gs', h'⟩ := plan_planned htol hpos' h1'
    obtain ⟨q'', N', h1'', h2', h3'⟩ := h'
    have h' : Planned p.reversed tol V W' f gs' := ⟨q'', N', h1'', h2', h3'⟩
    have hqq : q'' = q' := by rw [h1''] at h1'; simpa using h1'
    subst hqq
    have hl := lower p.reversed W' gs' hpos' halt' hflat' h'
    have two := both_sums htol hpos halt hflat hnd h1 h2 h1'' h2' hb hoff (φ := kFlux k g (V f.a)) (hadd'.anti _) (by
      intro a b t
      have := hadd'.fan (V f.a) a b (a + t • (b - a)) (by
        simp only [areaVec, V3.dot, V3.cross, V3.sub_x, V3.sub_y, V3.sub_z, V3.add_x, V3.add_y, V3.add_z, V3.smul_x,
          V3.smul_y, V3.smul_z]
        ring)
      rw [hadd'.degenerate a b _ (by
        ext <;> simp only [areaVec, V3.cross, V3.sub_x, V3.sub_y, V3.sub_z, V3.add_x, V3.add_y, V3.add_z, V3.smul_x,
          V3.smul_y, V3.smul_z, V3.zero_x, V3.zero_y, V3.zero_z] <;> ring)] at this
      have k1 := hadd'.anti (V f.a) a (a + t • (b - a))
      have k2 := hadd'.anti (V f.a) (a + t • (b - a)) b
      linarith)
    rw [← planned_chain_tol htol hpos halt hflat hnd h (hadd'.anti _),
      ← planned_chain_tol htol hpos' halt' hflat' hnd h' (hadd'.anti _), ← edgeSum_directed (hadd'.anti _),
      ← twoTri_edge hadd' hn' ho hP] at two
    have es : ∀ (p : Plane ℝ) (W : ℕ → V3 ℝ) (gs : List Face), (∀ i ∈ f.toList, |p.dist (V i)| ≠ tol) →
        altern (cornerCls p tol V f) = false → Planned p tol V W f gs →
        gs.map (edgeSum (kFlux k g (V f.a)) W) = gs.map (twoTri (triangleIntegral g) W) := by
      intro p W gs hpos halt h
      apply List.map_congr_left
      intro f' hf'
      rw [twoTri_flat _ k hn hk (planned_oriented htol hpos halt hor h f' hf'),
        twoTri_edge hadd' hn' ho (planned_inPlane hP h f' hf')]
    rw [es p W gs hpos halt h, es p.reversed W' gs' hpos' halt' h', ← face_flat hor k hn hk] at two
    have e : twoTri (triangleIntegral (fun X => if p.dist X ≤ tol then g X else 0)) V f =
        twoTri (triangleIntegral g) V f - twoTri (triangleIntegral ((p.reversed.lowered tol).below g)) V f := by
      unfold twoTri
      rw [← hup, ← triangleIntegral_sub_below _ hcont, ← triangleIntegral_sub_below _ hcont]
      ring
    rw [e]
    linarith

/-- The integral over the clipped mesh is between the integrals over the parts of the mesh under the slab and not above it. -/
theorem shell_between {srt : (ℕ → ℝ) → List ℕ → List ℕ} (hsrt : IsArgsort srt) {p : Plane ℝ} {tol : ℝ}
    (htol : 0 ≤ tol) {b : Bool} {m : Mesh ℝ} (hwf : m.WF)
    (hpos : ∀ f ∈ m.faces, ∀ i ∈ f.toList, |p.dist (m.vert i)| ≠ tol) (hsep : m.TolSeparated p tol)
    (hcv : m.StrictlyConvexFaces) (hfl : m.NoSlabSide p tol) {c : Clipped ℝ} (hc : clip srt p tol b m = .ok c)
    {g : V3 ℝ → ℝ} (hg : Quadratic g) (hg0 : ∀ X, 0 ≤ g X) :
    m.shellIntegral (fun X => if p.dist X < -tol then g X else 0) ≤ c.clipped.shellIntegral g ∧
    c.clipped.shellIntegral g ≤ m.shellIntegral (fun X => if p.dist X ≤ tol then g X else 0) := by
  have hq := strictlyConvex_cross hcv
  obtain ⟨exact, parts, w1, w2, hgeo, hperm, hfaces, hpl, _, htri⟩ :=
    clip_planned_tol hsrt htol hwf hpos (fun f hf => .inr (corners_nodup (hcv f hf))) hsep hc
  have hdeg : ∀ (g : V3 ℝ → ℝ) x y, triangleIntegral g x y x = 0 := fun g x y =>
    triangleIntegral_degenerate g (by ext <;> simp [areaVec, V3.cross])
  unfold Mesh.shellIntegral
  rw [surfaceSum_halves c.clipped (hdeg g), surfaceSum_halves m (hdeg _), surfaceSum_halves m (hdeg _),
    geometry_congr (fun u v w t => triangleIntegral g u v w + triangleIntegral g u w t) hgeo, hfaces, List.map_flatMap,
    sum_flatMap', ← (hperm.map _).sum_eq, ← (hperm.map _).sum_eq, List.map_map, List.map_map]
  have key : ∀ t ∈ parts, _ := fun t ht =>
    have hf : t.1 ∈ m.faces := hperm.mem_iff.1 (List.mem_map_of_mem ht)
    planned_between htol (hpos _ hf) (cls_not_altern htol hwf hq hf) (slab_flatOn htol (hfl _ hf)) (hcv _ hf) (hpl t ht) hg hg0
  exact ⟨List.sum_le_sum (fun t ht => (key t ht).1), List.sum_le_sum (fun t ht => (key t ht).2)⟩

end Clipper
end MM
