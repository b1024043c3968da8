import Verif.Model.PlaneFl

/-!
# Model of the construction of a plane in floating point
-/

namespace MM

/-- `Plane(normal, scalar)` (mesh.py:162-167), and the setters of `normal` and `c` (mesh.py:186-200), in floating point: `np.linalg.norm` is a
parameter, the three quotients are rounded. The rotation matrix and the name are left out. -/
def Plane.newFl {K : Type*} [Field K] (rnd : K → K) (nrm : V3 K → K) (normal : V3 K) (scalar : K) : Plane K :=
  let l := nrm normal
  ⟨⟨rnd (normal.x / l), rnd (normal.y / l), rnd (normal.z / l)⟩, scalar⟩

end MM
