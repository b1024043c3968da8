import Verif.Model.VolumeQuadFl

/-!
# Model of the areas of the faces and of the area of the surface in floating point

As in `Model/VolumeFl.lean`: every operation is followed by a rounding `rnd`, the terms are added in any order, `nrm` is
`np.linalg.norm` of a row.
-/

namespace MM

variable {K : Type*} [Field K] [LinearOrder K]

section
variable (rnd : K → K)

/-- `triangles_areas / 2.` (mesh.py:661-665). -/
def triAreaFl (nrm : V3 K → K) (p0 p1 p2 : V3 K) : K := rnd (nrm (triCrossFl rnd p0 p1 p2) / 2)

/-- `a1 + a2` (mesh.py:677-681). -/
def quadAreaFl (nrm : V3 K → K) (p0 p1 p2 p3 : V3 K) : K :=
  let a1 := rnd (nrm (crossFl rnd (subFl rnd p1 p0) (subFl rnd p2 p0)) * (1 / 2))
  let a2 := rnd (nrm (crossFl rnd (subFl rnd p3 p0) (subFl rnd p2 p0)) * (1 / 2))
  rnd (a1 + a2)

namespace Mesh

/-- A value of `faces_areas` (mesh.py:640-682). -/
def faceAreaFl (nrm : V3 K → K) (m : Mesh K) (f : Face) : K :=
  if f.a = f.d then triAreaFl rnd nrm (m.vert f.a) (m.vert f.b) (m.vert f.c)
  else quadAreaFl rnd nrm (m.vert f.a) (m.vert f.b) (m.vert f.c) (m.vert f.d)

/-- `A` may be the value of `faces_areas.sum()` (hydrostatics.py:41, mesh.py:2012). -/
def AreaFl (nrm : V3 K → K) (m : Mesh K) (A : K) : Prop := SumFl rnd (m.faces.map (m.faceAreaFl rnd nrm)) A

end Mesh
end
end MM
