import Verif.Model.Rotations
import Verif.Model.VolumeQuadFl

/-!
# Model of the rigid motions of a mesh in floating point
-/

namespace MM

/-- The rigid motions of the API: `translate` (mesh.py:1356-1382), `translate_x`, `translate_y`, `translate_z`
(mesh.py:1287-1354) and `rotate` (mesh.py:1246-1266), which `rotate_x`, `rotate_y` and `rotate_z` (mesh.py:1201-1244) call with
two zero angles. -/
inductive RigidMove where
  | translate (t : V3 ℝ)
  | translateX (t : ℝ)
  | translateY (t : ℝ)
  | translateZ (t : ℝ)
  | rotate (phi theta psi : ℝ)

/-- The motion in exact arithmetic (`Model/Mesh.lean`, `Model/Rotations.lean`). -/
noncomputable def RigidMove.run : RigidMove → Mesh ℝ → Mesh ℝ
  | .translate t, m => m.translate t
  | .translateX t, m => m.translateX t
  | .translateY t, m => m.translateY t
  | .translateZ t, m => m.translateZ t
  | .rotate a b c, m => m.rotate a b c

/-- Motions one after the other. -/
noncomputable def RigidMove.runAll (l : List RigidMove) (m : Mesh ℝ) : Mesh ℝ := l.foldl (fun m a => a.run m) m

/-- `cardan_to_rotmat` (rotations.py:221-242) in floating point: `cosF` and `sinF` are the computed cosine and sine, the products
are rounded from left to right. -/
def cardanFl (rnd cosF sinF : ℝ → ℝ) (phi theta psi : ℝ) : M3 ℝ :=
  let cp := cosF phi
  let sp := sinF phi
  let ct := cosF theta
  let st := sinF theta
  let cs := cosF psi
  let ss := sinF psi
  ⟨⟨rnd (ct * cs), rnd (rnd (rnd (sp * st) * cs) - rnd (cp * ss)), rnd (rnd (rnd (cp * st) * cs) + rnd (sp * ss))⟩,
   ⟨rnd (ct * ss), rnd (rnd (rnd (sp * st) * ss) + rnd (cp * cs)), rnd (rnd (rnd (cp * st) * ss) - rnd (sp * cs))⟩,
   ⟨-st, rnd (ct * sp), rnd (ct * cp)⟩⟩

/-- The motions in floating point: each sum of a translation is rounded, `dot` computes the scalar products of `np.dot`
(mesh.py:1272). -/
def RigidMove.runFl (rnd cosF sinF : ℝ → ℝ) (dot : V3 ℝ → V3 ℝ → ℝ) : RigidMove → Mesh ℝ → Mesh ℝ
  | .translate t, m => m.mapVertices fun v => ⟨rnd (v.x + t.x), rnd (v.y + t.y), rnd (v.z + t.z)⟩
  | .translateX t, m => m.mapVertices fun v => ⟨rnd (v.x + t), v.y, v.z⟩
  | .translateY t, m => m.mapVertices fun v => ⟨v.x, rnd (v.y + t), v.z⟩
  | .translateZ t, m => m.mapVertices fun v => ⟨v.x, v.y, rnd (v.z + t)⟩
  | .rotate a b c, m =>
    let r := cardanFl rnd cosF sinF a b c
    m.mapVertices fun v => ⟨dot r.r0 v, dot r.r1 v, dot r.r2 v⟩

/-- Motions one after the other, in floating point. -/
def RigidMove.runAllFl (rnd cosF sinF : ℝ → ℝ) (dot : V3 ℝ → V3 ℝ → ℝ) (l : List RigidMove) (m : Mesh ℝ) : Mesh ℝ :=
  l.foldl (fun m a => a.runFl rnd cosF sinF dot m) m

end MM
