import Verif.Spec.Integrals
import Verif.Proofs.Vec
import Mathlib.Analysis.SpecialFunctions.Integrals.Basic
import Mathlib.Tactic.NormNum

/-!
# Closed forms of polynomial integrals over the reference triangle and tetrahedron
-/

namespace MM

open MeasureTheory intervalIntegral

theorem integral_quartic (k0 k1 k2 k3 k4 b : ℝ) :
    ∫ x in (0 : ℝ)..b, (k0 + k1 * x + k2 * x ^ 2 + k3 * x ^ 3 + k4 * x ^ 4) =
      k0 * b + k1 * b ^ 2 / 2 + k2 * b ^ 3 / 3 + k3 * b ^ 4 / 4 + k4 * b ^ 5 / 5 := by
  have h : ∀ x ∈ Set.uIcc (0 : ℝ) b, HasDerivAt
      (fun x => k0 * x + k1 / 2 * x ^ 2 + k2 / 3 * x ^ 3 + k3 / 4 * x ^ 4 + k4 / 5 * x ^ 5)
      (k0 + k1 * x + k2 * x ^ 2 + k3 * x ^ 3 + k4 * x ^ 4) x := by
    intro x _
    have h1 := (hasDerivAt_id x).const_mul k0
    have h2 := (hasDerivAt_pow 2 x).const_mul (k1 / 2)
    have h3 := (hasDerivAt_pow 3 x).const_mul (k2 / 3)
    have h4 := (hasDerivAt_pow 4 x).const_mul (k3 / 4)
    have h5 := (hasDerivAt_pow 5 x).const_mul (k4 / 5)
    refine ((((h1.add h2).add h3).add h4).add h5).congr_deriv ?_
    norm_num; ring
  rw [integral_eq_sub_of_hasDerivAt h (Continuous.intervalIntegrable (by fun_prop) _ _)]
  ring

/-- A function equal to a quartic polynomial. -/
theorem integral_of_quartic {f : ℝ → ℝ} (k0 k1 k2 k3 k4 b : ℝ)
    (h : ∀ x, f x = k0 + k1 * x + k2 * x ^ 2 + k3 * x ^ 3 + k4 * x ^ 4) :
    ∫ x in (0 : ℝ)..b, f x =
      k0 * b + k1 * b ^ 2 / 2 + k2 * b ^ 3 / 3 + k3 * b ^ 4 / 4 + k4 * b ^ 5 / 5 := by
  rw [← integral_quartic]; congr 1; funext x; exact h x

/-- Integral of a cubic polynomial over the reference triangle. -/
theorem triangle_cubic (c00 c10 c01 c20 c11 c02 c30 c21 c12 c03 : ℝ) {f : ℝ → ℝ → ℝ}
    (h : ∀ u v, f u v = c00 + c10 * u + c01 * v + c20 * u ^ 2 + c11 * u * v + c02 * v ^ 2 + c30 * u ^ 3 +
      c21 * u ^ 2 * v + c12 * u * v ^ 2 + c03 * v ^ 3) :
    ∫ u in (0 : ℝ)..1, ∫ v in (0 : ℝ)..(1 - u), f u v =
      c00 / 2 + (c10 + c01) / 6 + (c20 + c02) / 12 + c11 / 24 + (c30 + c03) / 20 + (c21 + c12) / 60 := by
  have hin : ∀ u : ℝ, (∫ v in (0 : ℝ)..(1 - u), f u v) =
      (c00 + c10 * u + c20 * u ^ 2 + c30 * u ^ 3) * (1 - u) + (c01 + c11 * u + c21 * u ^ 2) * (1 - u) ^ 2 / 2
      + (c02 + c12 * u) * (1 - u) ^ 3 / 3 + c03 * (1 - u) ^ 4 / 4 := by
    intro u
    rw [integral_of_quartic (c00 + c10 * u + c20 * u ^ 2 + c30 * u ^ 3) (c01 + c11 * u + c21 * u ^ 2)
      (c02 + c12 * u) c03 0 (1 - u) (fun v => by rw [h]; ring)]
    ring
  simp only [hin]
  rw [integral_of_quartic (c00 + c01 / 2 + c02 / 3 + c03 / 4)
    (-c00 + c10 - c01 + c11 / 2 - c02 + c12 / 3 - c03)
    (-c10 + c20 + c01 / 2 - c11 + c21 / 2 + c02 - c12 + 3 * c03 / 2)
    (-c20 + c30 + c11 / 2 - c21 - c02 / 3 + c12 - c03)
    (-c30 + c21 / 2 - c12 / 3 + c03 / 4) 1 (fun u => by ring)]
  ring

/-- Integral of a quadratic polynomial over the reference tetrahedron. -/
theorem tet_quadratic (c0 cu cv cw cuu cvv cww cuv cuw cvw : ℝ) {f : ℝ → ℝ → ℝ → ℝ}
    (h : ∀ u v w, f u v w = c0 + cu * u + cv * v + cw * w + cuu * u ^ 2 + cvv * v ^ 2 + cww * w ^ 2 +
      cuv * u * v + cuw * u * w + cvw * v * w) :
    ∫ u in (0 : ℝ)..1, ∫ v in (0 : ℝ)..(1 - u), ∫ w in (0 : ℝ)..(1 - u - v), f u v w =
      c0 / 6 + (cu + cv + cw) / 24 + (cuu + cvv + cww) / 60 + (cuv + cuw + cvw) / 120 := by
  have hin : ∀ u v : ℝ, (∫ w in (0 : ℝ)..(1 - u - v), f u v w) =
      (c0 + cu * u + cv * v + cuu * u ^ 2 + cvv * v ^ 2 + cuv * u * v) * (1 - u - v) +
      (cw + cuw * u + cvw * v) * (1 - u - v) ^ 2 / 2 + cww * (1 - u - v) ^ 3 / 3 := by
    intro u v
    rw [integral_of_quartic (c0 + cu * u + cv * v + cuu * u ^ 2 + cvv * v ^ 2 + cuv * u * v)
      (cw + cuw * u + cvw * v) cww 0 0 (1 - u - v) (fun w => by rw [h]; ring)]
    ring
  simp only [hin]
  rw [triangle_cubic
    (c0 + cw / 2 + cww / 3)
    (-c0 + cu - cw + cuw / 2 - cww)
    (-c0 + cv - cw + cvw / 2 - cww)
    (-cu + cuu + cw / 2 - cuw + cww)
    (-cu - cv + cuv + cw - cuw - cvw + 2 * cww)
    (-cv + cvv + cw / 2 - cvw + cww)
    (-cuu + cuw / 2 - cww / 3)
    (-cuu - cuv + cuw + cvw / 2 - cww)
    (-cvv - cuv + cvw + cuw / 2 - cww)
    (-cvv + cvw / 2 - cww / 3)
    (fun u v => by ring)]
  ring

end MM
