import Verif.Proofs.WetDeriv
import Mathlib.MeasureTheory.Group.Integral

/-!
# The integral over a tetrahedron, as the integral of the sections parallel to a face
-/

namespace MM
namespace Clipper

open MeasureTheory Set

set_option linter.unusedSectionVars false
set_option linter.unusedSimpArgs false
set_option linter.unusedVariables false

lemma full_Ioc {a : ℝ} (ha : 0 ≤ a) {f g : ℝ → ℝ} (h1 : ∀ x, 0 < x → x ≤ a → g x = f x)
    (h2 : ∀ x, ¬(0 < x ∧ x ≤ a) → g x = 0) : ∫ x, g x = ∫ x in (0 : ℝ)..a, f x := by
  have : g = (Ioc 0 a).indicator f := by
    funext x
    by_cases hx : x ∈ Ioc 0 a
    · rw [indicator_of_mem hx, h1 x hx.1 hx.2]
    · rw [indicator_of_notMem hx, h2 x hx]
  rw [this, integral_indicator measurableSet_Ioc, intervalIntegral.integral_of_le ha]

lemma full_Icc {a : ℝ} (ha : 0 ≤ a) {f g : ℝ → ℝ} (h1 : ∀ x, 0 ≤ x → x ≤ a → g x = f x)
    (h2 : ∀ x, ¬(0 ≤ x ∧ x ≤ a) → g x = 0) : ∫ x, g x = ∫ x in (0 : ℝ)..a, f x := by
  have : g = (Icc 0 a).indicator f := by
    funext x
    by_cases hx : x ∈ Icc 0 a
    · rw [indicator_of_mem hx, h1 x hx.1 hx.2]
    · rw [indicator_of_notMem hx, h2 x hx]
  rw [this, integral_indicator measurableSet_Icc, intervalIntegral.integral_of_le ha, integral_Icc_eq_integral_Ioc]

lemma bdd_supp {f : ℝ × ℝ → ℝ} (hf : Measurable f) {C : ℝ} (hC : ∀ w, |f w| ≤ C)
    (h0 : ∀ w, w ∉ Ioc (0 : ℝ) 1 ×ˢ Ioc (0 : ℝ) 1 → f w = 0) : Integrable f (volume.prod volume) := by
  have h : IntegrableOn f (Ioc (0 : ℝ) 1 ×ˢ Ioc (0 : ℝ) 1) (volume.prod volume) := by
    refine Measure.integrableOn_of_bounded (M := C) ?_ hf.aestronglyMeasurable ?_
    · rw [Measure.prod_prod]; simp
    · exact Filter.Eventually.of_forall fun w => hC w
  exact h.integrable_of_forall_notMem_eq_zero h0

section
variable (F : ℝ × ℝ × ℝ → ℝ)

/-- The function on the tetrahedron, zero outside. -/
noncomputable def tetFun (u v w : ℝ) : ℝ := if 0 < u ∧ 0 < v ∧ 0 ≤ w ∧ u + v + w ≤ 1 then F (u, v, w) else 0

lemma tetFun_full : ∫ u in (0 : ℝ)..1, ∫ v in (0 : ℝ)..(1 - u), ∫ w in (0 : ℝ)..(1 - u - v), F (u, v, w) =
    ∫ u, ∫ v, ∫ w, tetFun F u v w := by
  symm
  apply full_Ioc zero_le_one
  · intro u u0 u1
    apply full_Ioc (by linarith)
    · intro v v0 v1
      apply full_Icc (by linarith)
      · intro w w0 w1
        rw [tetFun, if_pos ⟨u0, v0, w0, by linarith⟩]
      · intro w hw
        rw [tetFun, if_neg]
        rintro ⟨_, _, h1, h2⟩
        exact hw ⟨h1, by linarith⟩
    · intro v hv
      have : ∀ w, tetFun F u v w = 0 := by
        intro w
        rw [tetFun, if_neg]
        rintro ⟨_, h0, h1, h2⟩
        exact hv ⟨h0, by linarith⟩
      simp [this]
  · intro u hu
    have : ∀ v w, tetFun F u v w = 0 := by
      intro v w
      rw [tetFun, if_neg]
      rintro ⟨h, h0, h1, h2⟩
      exact hu ⟨h, by linarith⟩
    simp [this]

lemma tetFun_slices : ∫ s, ∫ u, ∫ v, tetFun F u v (s - (u + v)) =
    ∫ s in (0 : ℝ)..1, s ^ 2 * ∫ a in (0 : ℝ)..1, ∫ b in (0 : ℝ)..(1 - a), F (s * a, s * b, s * (1 - a - b)) := by
  apply full_Ioc zero_le_one
  · intro s s0 s1
    have e1 : ∫ u, ∫ v, tetFun F u v (s - (u + v)) = ∫ u in (0 : ℝ)..s, ∫ v in (0 : ℝ)..(s - u), F (u, v, s - (u + v)) := by
      apply full_Ioc s0.le
      · intro u u0 u1
        apply full_Ioc (by linarith)
        · intro v v0 v1
          rw [tetFun, if_pos ⟨u0, v0, by linarith, by linarith⟩]
        · intro v hv
          rw [tetFun, if_neg]
          rintro ⟨_, h0, h1, h2⟩
          exact hv ⟨h0, by linarith⟩
      · intro u hu
        have : ∀ v, tetFun F u v (s - (u + v)) = 0 := by
          intro v
          rw [tetFun, if_neg]
          rintro ⟨h, h0, h1, h2⟩
          exact hu ⟨h, by linarith⟩
        simp [this]
    rw [e1]
    have e2 := intervalIntegral.mul_integral_comp_mul_left (a := 0) (b := 1)
      (f := fun u => ∫ v in (0 : ℝ)..(s - u), F (u, v, s - (u + v))) (c := s)
    rw [mul_zero, mul_one] at e2
    rw [← e2, pow_two, mul_assoc]
    congr 1
    rw [← intervalIntegral.integral_const_mul]
    congr 1
    funext a
    have e3 := intervalIntegral.mul_integral_comp_mul_left (a := 0) (b := 1 - a)
      (f := fun v => F (s * a, v, s - (s * a + v))) (c := s)
    rw [mul_zero, mul_sub, mul_one] at e3
    rw [← e3]
    congr 1
    congr 1
    funext b
    congr 3
    ring
  · intro s hs
    have : ∀ u v, tetFun F u v (s - (u + v)) = 0 := by
      intro u v
      rw [tetFun, if_neg]
      rintro ⟨h, h0, h1, h2⟩
      exact hs ⟨by linarith, by linarith⟩
    simp [this]

variable {F} (hF : Measurable F) {C : ℝ}
  (hC : ∀ u v w : ℝ, 0 ≤ u → u ≤ 1 → 0 ≤ v → v ≤ 1 → 0 ≤ w → w ≤ 1 → |F (u, v, w)| ≤ C)
include hF hC

lemma tetFun_swap : ∫ u, ∫ v, ∫ w, tetFun F u v w = ∫ s, ∫ u, ∫ v, tetFun F u v (s - (u + v)) := by
  have C0 : 0 ≤ C := le_trans (abs_nonneg _) (hC 0 0 0 le_rfl zero_le_one le_rfl zero_le_one le_rfl zero_le_one)
  have hb : ∀ u v w, |tetFun F u v w| ≤ C := by
    intro u v w
    rw [tetFun]
    split_ifs with h
    · obtain ⟨h1, h2, h3, h4⟩ := h
      exact hC u v w h1.le (by linarith) h2.le (by linarith) h3 (by linarith)
    · simpa using C0
  have hm : Measurable (fun x : ℝ × ℝ × ℝ => tetFun F x.1 x.2.1 x.2.2) := by
    unfold tetFun
    refine Measurable.ite ?_ hF measurable_const
    have m1 : MeasurableSet {x : ℝ × ℝ × ℝ | 0 < x.1} := measurableSet_lt measurable_const (by fun_prop)
    have m2 : MeasurableSet {x : ℝ × ℝ × ℝ | 0 < x.2.1} := measurableSet_lt measurable_const (by fun_prop)
    have m3 : MeasurableSet {x : ℝ × ℝ × ℝ | 0 ≤ x.2.2} := measurableSet_le measurable_const (by fun_prop)
    have m4 : MeasurableSet {x : ℝ × ℝ × ℝ | x.1 + x.2.1 + x.2.2 ≤ 1} := measurableSet_le (by fun_prop) measurable_const
    exact m1.inter (m2.inter (m3.inter m4))
  have h1 : ∀ u v, ∫ w, tetFun F u v w = ∫ s, tetFun F u v (s - (u + v)) := by
    intro u v
    rw [integral_sub_right_eq_self (fun w => tetFun F u v w)]
  have z : ∀ u v s, ¬(0 < u ∧ u ≤ 1 ∧ 0 < v ∧ v ≤ 1 ∧ 0 < s ∧ s ≤ 1) → tetFun F u v (s - (u + v)) = 0 := by
    intro u v s h
    rw [tetFun, if_neg]
    rintro ⟨a, b, c, d⟩
    exact h ⟨a, by linarith, b, by linarith, by linarith, by linarith⟩
  simp only [h1]
  have h2 : ∀ u, ∫ v, ∫ s, tetFun F u v (s - (u + v)) = ∫ s, ∫ v, tetFun F u v (s - (u + v)) := by
    intro u
    apply integral_integral_swap
    refine bdd_supp (C := C) ?_ (fun w => hb _ _ _) ?_
    · exact hm.comp (by fun_prop : Measurable (fun x : ℝ × ℝ => ((u, x.1, x.2 - (u + x.1)) : ℝ × ℝ × ℝ)))
    · rintro ⟨v, s⟩ hw
      apply z
      rintro ⟨a, b, c, d, e, f⟩
      exact hw ⟨⟨c, d⟩, ⟨e, f⟩⟩
  simp only [h2]
  apply integral_integral_swap
  refine bdd_supp (C := C) ?_ ?_ ?_
  · have : StronglyMeasurable (Function.uncurry fun (x : ℝ × ℝ) (v : ℝ) => tetFun F x.1 v (x.2 - (x.1 + v))) :=
      (hm.comp (by fun_prop : Measurable
        (fun x : (ℝ × ℝ) × ℝ => ((x.1.1, x.2, x.1.2 - (x.1.1 + x.2)) : ℝ × ℝ × ℝ)))).stronglyMeasurable
    exact this.integral_prod_right.measurable
  · rintro ⟨u, s⟩
    have : ∫ v, tetFun F u v (s - (u + v)) = ∫ v in (0 : ℝ)..1, tetFun F u v (s - (u + v)) := by
      apply full_Ioc zero_le_one
      · intros; rfl
      · intro v hv
        apply z
        rintro ⟨a, b, c, d, e, f⟩
        exact hv ⟨c, d⟩
    show |∫ v, tetFun F u v (s - (u + v))| ≤ C
    rw [this]
    have := intervalIntegral.norm_integral_le_of_norm_le_const (a := 0) (b := 1) (C := C)
      (f := fun v => tetFun F u v (s - (u + v))) (fun v _ => hb _ _ _)
    simpa using this
  · rintro ⟨u, s⟩ hw
    have : ∀ v, tetFun F u v (s - (u + v)) = 0 := by
      intro v
      apply z
      rintro ⟨a, b, c, d, e, f⟩
      exact hw ⟨⟨a, b⟩, ⟨e, f⟩⟩
    simp [Function.uncurry, this]

/-- The integral over the reference tetrahedron, section by section. -/
lemma tet_slices : ∫ u in (0 : ℝ)..1, ∫ v in (0 : ℝ)..(1 - u), ∫ w in (0 : ℝ)..(1 - u - v), F (u, v, w) =
    ∫ s in (0 : ℝ)..1, s ^ 2 * ∫ a in (0 : ℝ)..1, ∫ b in (0 : ℝ)..(1 - a), F (s * a, s * b, s * (1 - a - b)) := by
  rw [tetFun_full, tetFun_swap hF hC, tetFun_slices]

end

end Clipper
end MM
