import Verif.Model.FaceProps
import Mathlib.Analysis.SpecialFunctions.Trigonometric.Inverse
import Mathlib.Analysis.SpecialFunctions.Complex.Arg

/-!
# Model of `meshmagick/rotations.py` and of the rotation helpers of `meshmagick/mesh.py`
-/

namespace MM

/-- `math.atan2(y, x)` (signed zeros are not modelled). -/
noncomputable def atan2 (y x : ℝ) : ℝ := Complex.arg ⟨x, y⟩

/-- A quaternion array `(q0, q1, q2, q3)`. -/
@[ext]
structure Quat where
  q0 : ℝ
  q1 : ℝ
  q2 : ℝ
  q3 : ℝ

def Quat.normSq (q : Quat) : ℝ := q.q0 * q.q0 + q.q1 * q.q1 + q.q2 * q.q2 + q.q3 * q.q3
instance : Neg Quat := ⟨fun q => ⟨-q.q0, -q.q1, -q.q2, -q.q3⟩⟩

/-- `np.isclose(a, b)` with the default tolerances. -/
def IsClose (a b : ℝ) : Prop := |a - b| ≤ 1 / 100000000 + 1 / 100000 * |b|

/-- `is_unit_vector` on a quaternion / a 3-vector (rotations.py:48-50). -/
noncomputable def Quat.isUnit (q : Quat) : Prop := IsClose (Real.sqrt q.normSq) 1
noncomputable def V3.isUnit (v : V3 ℝ) : Prop := IsClose v.norm 1

open Classical in
/-- `quat_to_axis_angle` (rotations.py:52-67). `math.acos` and `math.sqrt` raise `ValueError` outside of
their domain. -/
noncomputable def quatToAxisAngle (q : Quat) : Except PyErr (V3 ℝ × ℝ) :=
  if q.isUnit then
    let d := 1 - q.q0 * q.q0
    if IsClose d 0 then .ok (⟨0, 0, 1⟩, 0)
    else if d < 0 then .error .valueError
    else .ok ((1 / Real.sqrt d) • ⟨q.q1, q.q2, q.q3⟩, 2 * Real.arccos q.q0)
  else .error .assertionError

open Classical in
/-- `axis_angle_to_quat` (rotations.py:69-76). -/
noncomputable def axisAngleToQuat (axis : V3 ℝ) (angle : ℝ) : Except PyErr Quat :=
  if axis.isUnit then
    let h := (1 / 2) * angle
    .ok ⟨Real.cos h, Real.sin h * axis.x, Real.sin h * axis.y, Real.sin h * axis.z⟩
  else .error .assertionError

/-- The matrix computed by `quat_to_rotmat` (rotations.py:83-106). -/
def quatMat (q : Quat) : M3 ℝ :=
  ⟨⟨(q.q0 * q.q0 + q.q1 * q.q1) * 2 - 1, (q.q1 * q.q2 - q.q0 * q.q3) * 2,
      (q.q1 * q.q3 + q.q0 * q.q2) * 2⟩,
   ⟨(q.q1 * q.q2 + q.q0 * q.q3) * 2, (q.q0 * q.q0 + q.q2 * q.q2) * 2 - 1,
      (q.q2 * q.q3 - q.q0 * q.q1) * 2⟩,
   ⟨(q.q1 * q.q3 - q.q0 * q.q2) * 2, (q.q2 * q.q3 + q.q0 * q.q1) * 2,
      (q.q0 * q.q0 + q.q3 * q.q3) * 2 - 1⟩⟩

open Classical in
/-- `quat_to_rotmat` (rotations.py:78-106). -/
noncomputable def quatToRotmat (q : Quat) : Except PyErr (M3 ℝ) :=
  if q.isUnit then .ok (quatMat q) else .error .assertionError

/-- `rotmat_to_quat` (rotations.py:108-166). -/
noncomputable def rotmatToQuat (r : M3 ℝ) : Quat :=
  let tr := r.r0.x + r.r1.y + r.r2.z
  if tr ≥ 0 then
    let s := Real.sqrt (tr + 1)
    let s' := 1 / 2 / s
    ⟨1 / 2 * s, (r.r2.y - r.r1.z) * s', (r.r0.z - r.r2.x) * s', (r.r1.x - r.r0.y) * s'⟩
  else
    let i : Fin 3 :=
      if r.r1.y > r.r0.x then (if r.r2.z > r.r1.y then 2 else 1)
      else (if r.r2.z > r.r0.x then 2 else 0)
    if i = 0 then
      let s := Real.sqrt (r.r0.x - r.r1.y - r.r2.z + 1)
      let s' := 1 / 2 / s
      ⟨(r.r2.y - r.r1.z) * s', 1 / 2 * s, (r.r0.y + r.r1.x) * s', (r.r2.x + r.r0.z) * s'⟩
    else if i = 1 then
      let s := Real.sqrt (r.r1.y - r.r2.z - r.r0.x + 1)
      let s' := 1 / 2 / s
      ⟨(r.r0.z - r.r2.x) * s', (r.r0.y + r.r1.x) * s', 1 / 2 * s, (r.r1.z + r.r2.y) * s'⟩
    else
      let s := Real.sqrt (r.r2.z - r.r0.x - r.r1.y + 1)
      let s' := 1 / 2 / s
      ⟨(r.r1.x - r.r0.y) * s', (r.r2.x + r.r0.z) * s', (r.r1.z + r.r2.y) * s', 1 / 2 * s⟩

/-- `cardan_to_quat` (rotations.py:168-187). -/
noncomputable def cardanToQuat (phi theta psi : ℝ) : Quat :=
  let cp := Real.cos (1 / 2 * phi)
  let sp := Real.sin (1 / 2 * phi)
  let ct := Real.cos (1 / 2 * theta)
  let st := Real.sin (1 / 2 * theta)
  let cs := Real.cos (1 / 2 * psi)
  let ss := Real.sin (1 / 2 * psi)
  ⟨cp * ct * cs + sp * st * ss, -cp * st * ss + ct * cs * sp, cp * cs * st + sp * ct * ss,
   cp * ct * ss - sp * cs * st⟩

/-- `rotmat_to_cardan` (rotations.py:189-219): `(phi, theta, psi)`. -/
noncomputable def rotmatToCardan (r : M3 ℝ) : ℝ × ℝ × ℝ :=
  if r.r2.x < 1 then
    if r.r2.x > -1 then
      (atan2 r.r2.y r.r2.z, Real.arcsin (-r.r2.x), atan2 r.r1.x r.r0.x)
    else (0, 1 / 2 * Real.pi, -atan2 (-r.r1.z) r.r1.y)
  else (0, -(1 / 2 * Real.pi), atan2 (-r.r1.z) r.r1.y)

/-- `cardan_to_rotmat` (rotations.py:221-242). -/
noncomputable def cardanToRotmat (phi theta psi : ℝ) : M3 ℝ :=
  let cp := Real.cos phi
  let sp := Real.sin phi
  let ct := Real.cos theta
  let st := Real.sin theta
  let cs := Real.cos psi
  let ss := Real.sin psi
  ⟨⟨ct * cs, sp * st * cs - cp * ss, cp * st * cs + sp * ss⟩,
   ⟨ct * ss, sp * st * ss + cp * cs, cp * st * ss - sp * cs⟩,
   ⟨-st, ct * sp, ct * cp⟩⟩

/-- `quat_to_cardan` (rotations.py:244-245). -/
noncomputable def quatToCardan (q : Quat) : Except PyErr (ℝ × ℝ × ℝ) :=
  (quatToRotmat q).map rotmatToCardan
/-- `rotmat_to_axis_angle` (rotations.py:247-248). -/
noncomputable def rotmatToAxisAngle (r : M3 ℝ) : Except PyErr (V3 ℝ × ℝ) :=
  quatToAxisAngle (rotmatToQuat r)
/-- `axis_angle_to_rotmat` (rotations.py:250-251). -/
noncomputable def axisAngleToRotmat (axis : V3 ℝ) (angle : ℝ) : Except PyErr (M3 ℝ) :=
  (axisAngleToQuat axis angle).bind quatToRotmat
/-- `cardan_to_axis_angle` (rotations.py:253-254). -/
noncomputable def cardanToAxisAngle (phi theta psi : ℝ) : Except PyErr (V3 ℝ × ℝ) :=
  quatToAxisAngle (cardanToQuat phi theta psi)
/-- `axis_angle_to_cardan` (rotations.py:256-257). -/
noncomputable def axisAngleToCardan (axis : V3 ℝ) (angle : ℝ) : Except PyErr (ℝ × ℝ × ℝ) :=
  (axisAngleToQuat axis angle).bind quatToCardan

/-- `_rodrigues(thetax, thetay)` (mesh.py:37-73). -/
noncomputable def rodrigues (tx ty : ℝ) : M3 ℝ :=
  let th := Real.sqrt (tx * tx + ty * ty)
  let nx := if th = 0 then 0 else tx / th
  let ny := if th = 0 then 0 else ty / th
  let c := if th = 0 then 1 else Real.cos th
  let s := if th = 0 then 0 else Real.sin th
  ⟨⟨c + (1 - c) * (nx * nx), (1 - c) * (nx * ny), s * ny⟩,
   ⟨(1 - c) * (nx * ny), c + (1 - c) * (ny * ny), s * (-nx)⟩,
   ⟨s * (-ny), s * nx, c⟩⟩

/-- `_cardan(phi, theta)` (mesh.py:76-104). -/
noncomputable def cardanOld (phi theta : ℝ) : M3 ℝ :=
  ⟨⟨Real.cos theta, 0, -Real.sin theta⟩,
   ⟨Real.sin phi * Real.sin theta, Real.cos phi, Real.sin phi * Real.cos theta⟩,
   ⟨Real.cos phi * Real.sin theta, -Real.sin phi, Real.cos phi * Real.cos theta⟩⟩

/-- `_get_rotation_matrix(theta_x, theta_y, atype)` (mesh.py:107-133). -/
noncomputable def getRotationMatrix (tx ty : ℝ) (atype : String) : Except PyErr (M3 ℝ) :=
  if atype = "fixed" then .ok (rodrigues tx ty)
  else if atype = "cardan" then .ok (cardanOld tx ty)
  else .error .attributeError

/-- `Mesh.rotate(angles)` and `rotate_x/y/z` (mesh.py:1201-1266): the rotated mesh. -/
noncomputable def Mesh.rotate (m : Mesh ℝ) (phi theta psi : ℝ) : Mesh ℝ :=
  m.rotateMatrix (cardanToRotmat phi theta psi)
noncomputable def Mesh.rotateX (m : Mesh ℝ) (t : ℝ) : Mesh ℝ := m.rotate t 0 0
noncomputable def Mesh.rotateY (m : Mesh ℝ) (t : ℝ) : Mesh ℝ := m.rotate 0 t 0
noncomputable def Mesh.rotateZ (m : Mesh ℝ) (t : ℝ) : Mesh ℝ := m.rotate 0 0 t

end MM
