import Verif.Spec.Pressure
import Mathlib.MeasureTheory.Integral.Prod
import Mathlib.MeasureTheory.Integral.IntervalIntegral.Basic
import Mathlib.Topology.Algebra.Ring.Real

/-!
# Integrals over triangles: permutation of the corners, subdivision
-/

namespace MM

open MeasureTheory Set

set_option linter.unusedSectionVars false

/-- `f` is measurable along planes, and bounded on triangles. -/
def PlaneInt (f : V3 ℝ → ℝ) : Prop :=
  ∀ p q r : V3 ℝ, Measurable (fun w : ℝ × ℝ => f (p + w.1 • (q - p) + w.2 • (r - p))) ∧
    ∃ C : ℝ, ∀ u v : ℝ, 0 ≤ u → u ≤ 1 → 0 ≤ v → v ≤ 1 → |f (p + u • (q - p) + v • (r - p))| ≤ C

/-- `f` is continuous along planes. -/
def PlaneCont (f : V3 ℝ → ℝ) : Prop :=
  ∀ p q r : V3 ℝ, Continuous (fun w : ℝ × ℝ => f (p + w.1 • (q - p) + w.2 • (r - p)))

lemma PlaneCont.int {f : V3 ℝ → ℝ} (h : PlaneCont f) : PlaneInt f := by
  intro p q r
  refine ⟨(h p q r).measurable, ?_⟩
  have hcpt : IsCompact (Icc (0 : ℝ) 1 ×ˢ Icc (0 : ℝ) 1) := isCompact_Icc.prod isCompact_Icc
  obtain ⟨C, hC⟩ := hcpt.exists_bound_of_continuousOn (h p q r).continuousOn
  exact ⟨C, fun u v h1 h2 h3 h4 => hC (u, v) ⟨⟨h1, h2⟩, ⟨h3, h4⟩⟩⟩

lemma PlaneInt.inner {f : V3 ℝ → ℝ} (h : PlaneInt f) (p q r : V3 ℝ) (u : ℝ) :
    Measurable (fun v : ℝ => f (p + u • (q - p) + v • (r - p))) :=
  (h p q r).1.comp (by fun_prop : Measurable (fun v : ℝ => ((u, v) : ℝ × ℝ)))

lemma bdd_integrable {g : ℝ → ℝ} (hg : Measurable g) {a b C : ℝ} (hab : a ≤ b) (h : ∀ v, a ≤ v → v ≤ b → |g v| ≤ C) :
    IntervalIntegrable g volume a b := by
  rw [intervalIntegrable_iff_integrableOn_Ioc_of_le hab]
  refine Measure.integrableOn_of_bounded (M := C) (by simp) hg.aestronglyMeasurable ?_
  rw [ae_restrict_iff' measurableSet_Ioc]
  exact Filter.Eventually.of_forall fun v hv => h v hv.1.le hv.2

lemma refInt_swap13 (f : V3 ℝ → ℝ) (p q r : V3 ℝ) : refInt f p q r = refInt f r q p := by
  unfold refInt
  congr 1
  funext u
  have := intervalIntegral.integral_comp_sub_left (a := 0) (b := 1 - u)
    (fun v => f (p + u • (q - p) + v • (r - p))) (1 - u)
  simp only [sub_self, sub_zero] at this
  rw [← this]
  congr 1
  funext v
  congr 1
  ext <;> simp <;> ring

/-- The integral over `0 ≤ v ≤ 1 - u`, over the whole interval. -/
lemma inner_eq {F : ℝ → ℝ} (hF : Measurable F) {u C : ℝ} (hu : u ∈ Icc (0 : ℝ) 1) (hC : ∀ v, 0 ≤ v → v ≤ 1 → |F v| ≤ C) :
    ∫ v in (0 : ℝ)..(1 - u), F v = ∫ v in (0 : ℝ)..1, if u + v ≤ 1 then F v else 0 := by
  have e1 : ∫ v in (0 : ℝ)..(1 - u), (if u + v ≤ 1 then F v else 0) = ∫ v in (0 : ℝ)..(1 - u), F v := by
    apply intervalIntegral.integral_congr
    intro v hv
    rw [uIcc_of_le (by linarith [hu.2])] at hv
    simp only
    rw [if_pos (by linarith [hv.2])]
  have e2 : ∫ v in (1 - u)..1, (if u + v ≤ 1 then F v else 0) = 0 := by
    rw [intervalIntegral.integral_of_le (by linarith [hu.1])]
    apply integral_eq_zero_of_ae
    rw [Filter.EventuallyEq, ae_restrict_iff' measurableSet_Ioc]
    refine Filter.Eventually.of_forall fun v hv => ?_
    simp only [Pi.zero_apply]
    rw [if_neg (by linarith [hv.1])]
  have hm : Measurable (fun v => if u + v ≤ 1 then F v else 0) :=
    Measurable.ite (measurableSet_le (by fun_prop) measurable_const) hF measurable_const
  have hi : ∀ a b : ℝ, 0 ≤ a → a ≤ b → b ≤ 1 → IntervalIntegrable (fun v => if u + v ≤ 1 then F v else 0) volume a b := by
    intro a b ha hab hb
    refine bdd_integrable hm (C := C) hab fun v h1 h2 => ?_
    have := hC v (by linarith) (by linarith)
    split_ifs
    · exact this
    · rw [abs_zero]; exact le_trans (abs_nonneg _) this
  rw [← e1, ← intervalIntegral.integral_add_adjacent_intervals (hi 0 (1 - u) le_rfl (by linarith [hu.2]) (by linarith [hu.1]))
    (hi (1 - u) 1 (by linarith [hu.2]) (by linarith [hu.1]) le_rfl), e2, add_zero]

/-- The function on the square, zero out of the triangle. -/
noncomputable def refFun (f : V3 ℝ → ℝ) (p q r : V3 ℝ) (w : ℝ × ℝ) : ℝ :=
  if w.1 + w.2 ≤ 1 then f (p + w.1 • (q - p) + w.2 • (r - p)) else 0

lemma refFun_measurable {f : V3 ℝ → ℝ} (h : PlaneInt f) (p q r : V3 ℝ) : Measurable (refFun f p q r) :=
  Measurable.ite (measurableSet_le (by fun_prop) measurable_const) (h p q r).1 measurable_const

lemma refFun_integrable {f : V3 ℝ → ℝ} (h : PlaneInt f) (p q r : V3 ℝ) :
    IntegrableOn (refFun f p q r) (Ioc (0 : ℝ) 1 ×ˢ Ioc (0 : ℝ) 1) := by
  obtain ⟨C, hC⟩ := (h p q r).2
  refine Measure.integrableOn_of_bounded (M := C) ?_ (refFun_measurable h p q r).aestronglyMeasurable ?_
  · rw [Measure.volume_eq_prod, Measure.prod_prod]; simp
  · rw [ae_restrict_iff' (measurableSet_Ioc.prod measurableSet_Ioc)]
    refine Filter.Eventually.of_forall fun w hw => ?_
    have := hC w.1 w.2 hw.1.1.le hw.1.2 hw.2.1.le hw.2.2
    unfold refFun
    split_ifs
    · exact this
    · rw [norm_zero]; exact le_trans (abs_nonneg _) this

lemma refInt_square {f : V3 ℝ → ℝ} (h : PlaneInt f) (p q r : V3 ℝ) :
    refInt f p q r = ∫ u in (0 : ℝ)..1, ∫ v in (0 : ℝ)..1, refFun f p q r (u, v) := by
  obtain ⟨C, hC⟩ := (h p q r).2
  unfold refInt
  apply intervalIntegral.integral_congr
  intro u hu
  rw [uIcc_of_le zero_le_one] at hu
  exact inner_eq (h.inner p q r u) hu (fun v h1 h2 => hC u v hu.1 hu.2 h1 h2)

/-- The integral over the triangle as an integral over the square. -/
lemma refInt_set {f : V3 ℝ → ℝ} (h : PlaneInt f) (p q r : V3 ℝ) :
    refInt f p q r = ∫ w in Ioc (0 : ℝ) 1 ×ˢ Ioc (0 : ℝ) 1, refFun f p q r w := by
  rw [refInt_square h, Measure.volume_eq_prod, setIntegral_prod _ (by
    have := refFun_integrable h p q r
    rwa [Measure.volume_eq_prod] at this), intervalIntegral.integral_of_le zero_le_one]
  congr 1
  funext u
  rw [intervalIntegral.integral_of_le zero_le_one]

lemma refInt_swap23 {f : V3 ℝ → ℝ} (h : PlaneInt f) (p q r : V3 ℝ) : refInt f p q r = refInt f p r q := by
  rw [refInt_square h, refInt_square h p r q]
  have : ∀ u v : ℝ, refFun f p r q (u, v) = refFun f p q r (v, u) := by
    intro u v
    unfold refFun
    simp only
    rw [add_comm u v]
    congr 2
    ext <;> simp <;> ring
  simp only [this]
  apply intervalIntegral_intervalIntegral_swap (F := fun u v => refFun f p q r (u, v))
  rw [uIoc_of_le zero_le_one]
  exact refFun_integrable h p q r

lemma refInt_cycle {f : V3 ℝ → ℝ} (h : PlaneInt f) (p q r : V3 ℝ) : refInt f p q r = refInt f q r p := by
  rw [refInt_swap13 f p q r, refInt_swap23 h r q p, refInt_swap13 f r p q, refInt_swap23 h q p r]

/-- Subdivision of a triangle from its second corner. -/
lemma refInt_split {f : V3 ℝ → ℝ} (h : PlaneInt f) (p q r : V3 ℝ) {t : ℝ} (t0 : 0 ≤ t) (t1 : t ≤ 1) :
    refInt f p q r = t * refInt f p q (p + t • (r - p)) + (1 - t) * refInt f (p + t • (r - p)) q r := by
  have hi : ∀ p q r : V3 ℝ, IntervalIntegrable (fun u => ∫ v in (0 : ℝ)..1, refFun f p q r (u, v)) volume 0 1 := by
    intro p q r
    rw [intervalIntegrable_iff_integrableOn_Ioc_of_le zero_le_one]
    have := refFun_integrable h p q r
    rw [Measure.volume_eq_prod, IntegrableOn, ← Measure.prod_restrict] at this
    have := this.integral_prod_left
    refine this.congr (Filter.Eventually.of_forall fun u => ?_)
    simp only
    rw [intervalIntegral.integral_of_le zero_le_one]
  rw [refInt_square h p q (p + t • (r - p)), refInt_square h (p + t • (r - p)) q r]
  unfold refInt
  rw [← intervalIntegral.integral_const_mul, ← intervalIntegral.integral_const_mul, ← intervalIntegral.integral_add
    ((hi _ _ _).const_mul _) ((hi _ _ _).const_mul _)]
  apply intervalIntegral.integral_congr
  intro u hu
  rw [uIcc_of_le zero_le_one] at hu
  simp only
  obtain ⟨C, hC⟩ := (h p q r).2
  obtain ⟨C1, hC1⟩ := (h p q (p + t • (r - p))).2
  obtain ⟨C2, hC2⟩ := (h (p + t • (r - p)) q r).2
  have i1 : ∫ v in (0 : ℝ)..1, refFun f p q (p + t • (r - p)) (u, v) = _ :=
    (inner_eq (h.inner p q (p + t • (r - p)) u) hu (fun v h1 h2 => hC1 u v hu.1 hu.2 h1 h2)).symm
  have i2 : ∫ v in (0 : ℝ)..1, refFun f (p + t • (r - p)) q r (u, v) = _ :=
    (inner_eq (h.inner (p + t • (r - p)) q r u) hu (fun v h1 h2 => hC2 u v hu.1 hu.2 h1 h2)).symm
  rw [i1, i2]
  have u1 : 0 ≤ 1 - u := by linarith [hu.2]
  have tu : 0 ≤ t * (1 - u) := mul_nonneg t0 u1
  have tu' : t * (1 - u) ≤ 1 - u := by nlinarith
  have c := h.inner p q r u
  have a1 := intervalIntegral.integral_add_adjacent_intervals (bdd_integrable c (a := 0) (b := t * (1 - u)) (C := C) tu
      (fun v h1 h2 => hC u v hu.1 hu.2 h1 (by linarith [hu.1])))
    (bdd_integrable c (a := t * (1 - u)) (b := 1 - u) (C := C) tu'
      (fun v h1 h2 => hC u v hu.1 hu.2 (by linarith) (by linarith [hu.1])))
  have a2 := intervalIntegral.smul_integral_comp_mul_left (a := 0) (b := 1 - u)
        (fun v => f (p + u • (q - p) + v • (r - p))) t
  have a3 := intervalIntegral.smul_integral_comp_mul_add (a := 0) (b := 1 - u)
        (fun v => f (p + u • (q - p) + v • (r - p))) (1 - t) (t * (1 - u))
  simp only [mul_zero, zero_add, smul_eq_mul] at a2 a3
  rw [show (1 - t) * (1 - u) + t * (1 - u) = 1 - u by ring] at a3
  rw [← a1, ← a2, ← a3]
  congr 1
  · congr 1; congr 1; funext v; congr 1; ext <;> simp <;> ring
  · congr 1; congr 1; funext v; congr 1; ext <;> simp <;> ring

end MM
