import Verif.Model.Rotations

/-!
# Model of the class `Plane` of `meshmagick/mesh.py`

`PlaneObj` is the state of a `Plane` object; `PlaneObj.plane` forgets the stored rotation matrix.
-/

namespace MM

/-- State of a `Plane` (mesh.py:164-172): `_normal`, `_scalar`, `_rot`. The name is not modelled. -/
structure PlaneObj where
  normal : V3 ℝ
  c : ℝ
  rot : M3 ℝ

namespace PlaneObj

/-- `value / np.linalg.norm(value)` (mesh.py:166, 190). A zero vector gives NaN in numpy and `0` here. -/
noncomputable def normalize (v : V3 ℝ) : V3 ℝ := (1 / v.norm) • v

open Classical in
/-- `get_normal_orientation_wrt_z` (mesh.py:246-266) from the normal. -/
noncomputable def orientation (n : V3 ℝ) : ℝ × ℝ :=
  let st := Real.sqrt (n.x * n.x + n.y * n.y)
  if st = 0 then
    if n.z = 1 then (0, 0) else if n.z = -1 then (Real.pi, 0) else (0, 0)
  else
    let k := atan2 st n.z / st
    (-k * n.y, k * n.x)

/-- `Plane(normal, scalar)` (mesh.py:162-174); `_get_rotation_matrix` is called with its default
`atype='fixed'`. -/
noncomputable def init (n : V3 ℝ) (c : ℝ) : PlaneObj :=
  let n' := normalize n
  ⟨n', c, rodrigues (orientation n').1 (orientation n').2⟩

/-- `plane.normal = value` (mesh.py:186-190): `_rot` is not updated. -/
noncomputable def setNormal (p : PlaneObj) (v : V3 ℝ) : PlaneObj := ⟨normalize v, p.c, p.rot⟩

/-- `plane.c = value` (mesh.py:197-200). -/
def setC (p : PlaneObj) (c : ℝ) : PlaneObj := ⟨p.normal, c, p.rot⟩

/-- `rotate_normal` (mesh.py:202-217). -/
noncomputable def rotateNormal (p : PlaneObj) (tx ty : ℝ) : PlaneObj :=
  let r := rodrigues tx ty
  ⟨normalize (r.mulVec p.normal), p.c, r.mul p.rot⟩

open Classical in
/-- `set_normal_from_angles` (mesh.py:219-244). -/
noncomputable def setNormalFromAngles (p : PlaneObj) (tx ty : ℝ) : PlaneObj :=
  let th := Real.sqrt (tx * tx + ty * ty)
  if th = 0 then ⟨⟨0, 0, 1⟩, p.c, M3.one⟩
  else
    let s := Real.sin th / th
    ⟨⟨s * ty, -s * tx, Real.cos th⟩, p.c, rodrigues tx ty⟩

/-- `set_plane_parameters` (mesh.py:268-284). -/
noncomputable def setPlaneParameters (p : PlaneObj) (scalar tx ty : ℝ) : PlaneObj :=
  let q := p.rotateNormal tx ty
  ⟨q.normal, p.c * Real.cos (Real.sqrt (tx * tx + ty * ty)) + scalar, q.rot⟩

/-- `flip_normal` (mesh.py:303-309): `self.normal *= -1` negates in place, then runs the setter. -/
noncomputable def flipNormal (p : PlaneObj) : PlaneObj :=
  let n := normalize (-p.normal)
  ⟨n, p.c, rodrigues (orientation n).1 (orientation n).2⟩

/-- The plane as used by the geometric queries. -/
def plane (p : PlaneObj) : Plane ℝ := ⟨p.normal, p.c⟩

/-- `coord_in_plane` on one point (mesh.py:311-328). -/
def coordInPlane (p : PlaneObj) (v : V3 ℝ) : V3 ℝ := (-p.c) • p.normal + p.rot.mulVec v

end PlaneObj

/-- `get_edge_intersection` (mesh.py:330-353) with numpy floats: a division by zero gives an infinite `t`
(rejected by the test) unless both end points are in the plane, when `t` is NaN, passes the test and a NaN
point is returned: `ok none`. -/
def Plane.edgeIntersection {K : Type*} [Field K] [LinearOrder K] (p : Plane K) (p0 p1 : V3 K) :
    Except PyErr (Option (V3 K)) :=
  let p0n := p0.dot p.normal
  let p1n := p1.dot p.normal
  if p0n - p1n = 0 then
    if p0n - p.c = 0 then .ok none else .error .runtimeError
  else
    let t := (p0n - p.c) / (p0n - p1n)
    if t < 0 ∨ t > 1 then .error .runtimeError
    else .ok (some ((1 - t) • p0 + t • p1))

end MM
