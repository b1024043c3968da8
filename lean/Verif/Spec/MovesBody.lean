import Verif.Spec.Integrals
import Verif.Model.MovesFl

/-!
# Specification: where rigid motions take a point
-/

namespace MM

/-- Where a motion takes a point. -/
noncomputable def RigidMove.place1 : RigidMove → V3 ℝ → V3 ℝ
  | .translate t, v => v + t
  | .translateX t, v => ⟨v.x + t, v.y, v.z⟩
  | .translateY t, v => ⟨v.x, v.y + t, v.z⟩
  | .translateZ t, v => ⟨v.x, v.y, v.z + t⟩
  | .rotate a b c, v => (cardanToRotmat a b c).mulVec v

/-- Where motions done one after the other take a point. -/
noncomputable def RigidMove.place (l : List RigidMove) (v : V3 ℝ) : V3 ℝ := l.foldl (fun v a => a.place1 v) v

/-- Centre of the solid bounded by a mesh: the mean of the positions of its points. The solid is cut in tetrahedra of apex `o`. -/
noncomputable def Mesh.centreOfSolid (m : Mesh ℝ) (o : V3 ℝ) : V3 ℝ :=
  ⟨m.solidIntegral o (fun p => p.x) / m.solidIntegral o (fun _ => 1), m.solidIntegral o (fun p => p.y) / m.solidIntegral o (fun _ => 1),
    m.solidIntegral o (fun p => p.z) / m.solidIntegral o (fun _ => 1)⟩

/-- Centre of the faces of a mesh. -/
noncomputable def Mesh.centreOfShell (m : Mesh ℝ) : V3 ℝ :=
  ⟨m.shellIntegral (fun p => p.x) / m.shellIntegral (fun _ => 1), m.shellIntegral (fun p => p.y) / m.shellIntegral (fun _ => 1),
    m.shellIntegral (fun p => p.z) / m.shellIntegral (fun _ => 1)⟩

end MM
