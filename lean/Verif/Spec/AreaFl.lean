import Verif.Spec.Closed
import Verif.Model.FaceProps

/-!
# Specification: area of the surface of a mesh
-/

namespace MM

/-- Area of a face: of the triangle, or of the two triangles on the diagonal from the first corner of a quadrangle. -/
noncomputable def Mesh.areaOfFace (m : Mesh ℝ) (f : Face) : ℝ :=
  if f.a = f.d then (areaVec (m.vert f.a) (m.vert f.b) (m.vert f.c)).norm / 2
  else (areaVec (m.vert f.a) (m.vert f.b) (m.vert f.c)).norm / 2 + (areaVec (m.vert f.a) (m.vert f.c) (m.vert f.d)).norm / 2

/-- Area of the surface. -/
noncomputable def Mesh.areaOfSurface (m : Mesh ℝ) : ℝ := (m.faces.map m.areaOfFace).sum

end MM
