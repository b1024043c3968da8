import Verif.Model.Vec
import Mathlib.Data.Real.Basic

/-!
# Specification: forces applied at points
-/

namespace MM

/-- A force and the point where it is applied. -/
structure Load where
  point : V3 ℝ
  force : V3 ℝ

/-- Sum of the forces. -/
noncomputable def totalForce (l : List Load) : V3 ℝ := (l.map (fun f => f.force)).sum

/-- Sum of their moments about `A`. -/
noncomputable def totalMoment (A : V3 ℝ) (l : List Load) : V3 ℝ := (l.map (fun f => (f.point - A).cross f.force)).sum

end MM
