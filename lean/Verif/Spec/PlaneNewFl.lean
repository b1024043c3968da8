import Verif.Model.Mesh
import Verif.Model.FaceProps

/-!
# The plane meant by a vector and a scalar
-/

namespace MM

/-- The plane orthogonal to `n`, at the signed distance `c` of the origin along `n`. -/
noncomputable def Plane.given (n : V3 ℝ) (c : ℝ) : Plane ℝ := ⟨n.norm⁻¹ • n, c⟩

end MM
