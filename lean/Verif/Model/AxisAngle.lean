import Verif.Model.Rotations
import Mathlib.Analysis.SpecialFunctions.Trigonometric.Inverse

/-!
# Model of `_get_axis_angle_from_rotation_matrix`
-/

namespace MM

open Classical in
/-- `_get_axis_angle_from_rotation_matrix` (mesh.py:136-143). `math.acos` raises `ValueError` out of `[-1, 1]`; the division
by `2 sin(theta)` raises `ZeroDivisionError` when it is null. In exact arithmetic this includes the angle π, for which the
sine of the floating-point number is 1e-16 and not 0. -/
noncomputable def axisAngleFromRotmat (r : M3 ℝ) : Except PyErr (ℝ × V3 ℝ) :=
  let x := (r.r0.x + r.r1.y + r.r2.z - 1) * (1 / 2)
  if x < -1 ∨ 1 < x then .error .valueError
  else
    let theta := Real.arccos x
    if 2 * Real.sin theta = 0 then .error .zeroDivision
    else .ok (theta, (1 / (2 * Real.sin theta)) • (⟨r.r2.y - r.r1.z, r.r0.z - r.r2.x, r.r1.x - r.r0.y⟩ : V3 ℝ))

end MM
