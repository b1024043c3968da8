import Verif.Spec.Closed

/-!
# Specification: volume between a point and a surface, over any field
-/

namespace MM

variable {K : Type*} [Field K]

/-- Signed volume of the tetrahedron `0 p q r`. -/
def coneVol (p q r : V3 K) : K := p.dot (q.cross r) / 6

/-- Signed volume delimited by a face and the origin. -/
def Mesh.faceConeVolume (m : Mesh K) (f : Face) : K :=
  if f.a = f.d then coneVol (m.vert f.a) (m.vert f.b) (m.vert f.c)
  else coneVol (m.vert f.a) (m.vert f.b) (m.vert f.c) + coneVol (m.vert f.a) (m.vert f.c) (m.vert f.d)

/-- Signed volume delimited by the surface and the origin: the sum of the signed cones over its faces. -/
def Mesh.coneVolume (m : Mesh K) : K := (m.faces.map m.faceConeVolume).sum

end MM
