import Verif.Model.VolumeFl

/-!
# Model of the volume of a mesh of triangles and quadrangles in floating point

As in `Model/VolumeFl.lean`: every operation is followed by a rounding `rnd`, the terms are added in any order, `nrm` is
`np.linalg.norm` of a row.
-/

namespace MM

variable {K : Type*} [Field K] [LinearOrder K]

section
variable (rnd : K → K)

/-- `np.cross(p2 - p0, p3 - p1)` (mesh.py:673-674). -/
def quadCrossFl (p0 p1 p2 p3 : V3 K) : V3 K := crossFl rnd (subFl rnd p2 p0) (subFl rnd p3 p1)

/-- `delta * f / q` (mesh.py:2086-2088): `c` is the vector product of two sides of the triangle, `f` a polynomial. -/
def integralFl (nrm : V3 K → K) (c : V3 K) (f q : K) : K := rnd (rnd (nrm c * f) / q)

/-- A coordinate of the normal of a quadrangle (mesh.py:675, `C` is the vector product of the diagonals and `n` its coordinate), times
the sum of the integrals over its two triangles (mesh.py:1898-1904, 1939). -/
def quadTermFl (nrm : V3 K → K) (C : V3 K) (n : K) (c1 : V3 K) (f1 : K) (c2 : V3 K) (f2 q : K) : K :=
  rnd (rnd (n / nrm C) * rnd (integralFl rnd nrm c1 f1 q + integralFl rnd nrm c2 f2 q))

/-- Products of the normal of a quadrangle and of the rows 0-2 of its integrals. -/
def quad0Fl (nrm : V3 K → K) (p0 p1 p2 p3 : V3 K) : V3 K :=
  let C := quadCrossFl rnd p0 p1 p2 p3
  let c1 := triCrossFl rnd p0 p1 p2
  let c2 := triCrossFl rnd p0 p2 p3
  ⟨quadTermFl rnd nrm C C.x c1 (f1Fl rnd p0.x p1.x p2.x) c2 (f1Fl rnd p0.x p2.x p3.x) 6,
    quadTermFl rnd nrm C C.y c1 (f1Fl rnd p0.y p1.y p2.y) c2 (f1Fl rnd p0.y p2.y p3.y) 6,
    quadTermFl rnd nrm C C.z c1 (f1Fl rnd p0.z p1.z p2.z) c2 (f1Fl rnd p0.z p2.z p3.z) 6⟩

namespace Mesh

/-- The column of `normals.T * sigma_0_2` of a face (mesh.py:1939). -/
def face0Fl (nrm : V3 K → K) (m : Mesh K) (f : Face) : V3 K :=
  if f.a = f.d then vol0Fl rnd nrm (m.vert f.a) (m.vert f.b) (m.vert f.c)
  else quad0Fl rnd nrm (m.vert f.a) (m.vert f.b) (m.vert f.c) (m.vert f.d)

/-- `V` may be the value of `volume` (mesh.py:1932-1939), for any mesh. -/
def VolumeAllFl (nrm : V3 K → K) (m : Mesh K) (V : K) : Prop :=
  ∃ s, SumFl rnd ((m.faces.map (m.face0Fl rnd nrm)).flatMap (fun t => [t.x, t.y, t.z])) s ∧ V = rnd (s / 3)

/-- The vector product whose norm divides that of the normal of a face (mesh.py:661-664, 673-675). -/
def faceCrossFl (m : Mesh K) (f : Face) : V3 K :=
  if f.a = f.d then triCrossFl rnd (m.vert f.a) (m.vert f.b) (m.vert f.c)
  else quadCrossFl rnd (m.vert f.a) (m.vert f.b) (m.vert f.c) (m.vert f.d)

end Mesh
end
end MM
