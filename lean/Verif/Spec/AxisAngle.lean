import Verif.Model.Vec
import Mathlib.Analysis.SpecialFunctions.Trigonometric.Basic

/-!
# Specification: the rotation of an angle about an axis
-/

namespace MM

/-- The image of a vector by the rotation of angle `a` about the unit vector `n` (right-hand rule). -/
noncomputable def turned (n : V3 ℝ) (a : ℝ) (v : V3 ℝ) : V3 ℝ :=
  Real.cos a • v + Real.sin a • n.cross v + ((1 - Real.cos a) * n.dot v) • n

end MM
