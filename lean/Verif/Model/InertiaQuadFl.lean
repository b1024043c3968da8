import Verif.Model.VolumeQuadFl

/-!
# Model of the inertia of a mesh of triangles and quadrangles in floating point

As in `Model/VolumeFl.lean`: every operation is followed by a rounding `rnd`, the terms are added in any order, `nrm` is
`np.linalg.norm` of a row.
-/

namespace MM

variable {K : Type*} [Field K] [LinearOrder K]

section
variable (rnd : K → K)

/-- Products of the normal of a quadrangle and of three rows of its integrals (mesh.py:673-675, 1898-1904, 1978-1981), from the
polynomials of these rows on a triangle and their divisor. -/
def quadTermsFl (nrm : V3 K → K) (p0 p1 p2 p3 : V3 K) (fx fy fz : V3 K → V3 K → V3 K → K) (q : K) : V3 K :=
  let C := quadCrossFl rnd p0 p1 p2 p3
  let c1 := triCrossFl rnd p0 p1 p2
  let c2 := triCrossFl rnd p0 p2 p3
  ⟨quadTermFl rnd nrm C C.x c1 (fx p0 p1 p2) c2 (fx p0 p2 p3) q,
    quadTermFl rnd nrm C C.y c1 (fy p0 p1 p2) c2 (fy p0 p2 p3) q,
    quadTermFl rnd nrm C C.z c1 (fz p0 p1 p2) c2 (fz p0 p2 p3) q⟩

/-- Rows 6-8, 9-11 and 12-14 of the integrals of a quadrangle (mesh.py:2089-2099). -/
def quad6Fl (nrm : V3 K → K) (p0 p1 p2 p3 : V3 K) : V3 K :=
  quadTermsFl rnd nrm p0 p1 p2 p3 (fun p q r => f2Fl rnd p.x q.x r.x) (fun p q r => f2Fl rnd p.y q.y r.y)
    (fun p q r => f2Fl rnd p.z q.z r.z) 12
def quad9Fl (nrm : V3 K → K) (p0 p1 p2 p3 : V3 K) : V3 K :=
  quadTermsFl rnd nrm p0 p1 p2 p3 (fun p q r => f3Fl rnd p.x q.x r.x) (fun p q r => f3Fl rnd p.y q.y r.y)
    (fun p q r => f3Fl rnd p.z q.z r.z) 20
def quad12Fl (nrm : V3 K → K) (p0 p1 p2 p3 : V3 K) : V3 K :=
  quadTermsFl rnd nrm p0 p1 p2 p3 (fun p q r => mixFl rnd p.y q.y r.y p.x q.x r.x) (fun p q r => mixFl rnd p.z q.z r.z p.y q.y r.y)
    (fun p q r => mixFl rnd p.x q.x r.x p.z q.z r.z) 60

namespace Mesh

/-- The columns of `normals.T * sigma_6_8`, `normals.T * sigma_9_11` and `normals.T * sigma_12_14` of a face (mesh.py:1978-1981). -/
def face6Fl (nrm : V3 K → K) (m : Mesh K) (f : Face) : V3 K :=
  if f.a = f.d then vol6Fl rnd nrm (m.vert f.a) (m.vert f.b) (m.vert f.c)
  else quad6Fl rnd nrm (m.vert f.a) (m.vert f.b) (m.vert f.c) (m.vert f.d)
def face9Fl (nrm : V3 K → K) (m : Mesh K) (f : Face) : V3 K :=
  if f.a = f.d then vol9Fl rnd nrm (m.vert f.a) (m.vert f.b) (m.vert f.c)
  else quad9Fl rnd nrm (m.vert f.a) (m.vert f.b) (m.vert f.c) (m.vert f.d)
def face12Fl (nrm : V3 K → K) (m : Mesh K) (f : Face) : V3 K :=
  if f.a = f.d then vol12Fl rnd nrm (m.vert f.a) (m.vert f.b) (m.vert f.c)
  else quad12Fl rnd nrm (m.vert f.a) (m.vert f.b) (m.vert f.c) (m.vert f.d)

/-- `r` may be the result of `eval_plain_mesh_inertias(rho)` (mesh.py:1968-1992), for any mesh. -/
def PlainAllFl (nrm : V3 K → K) (m : Mesh K) (rho : K) (r : Plain K) : Prop :=
  ∃ V s6 s9 s12, m.VolumeAllFl rnd nrm V ∧ SumsFl rnd (m.faces.map (m.face6Fl rnd nrm)) s6 ∧
    SumsFl rnd (m.faces.map (m.face9Fl rnd nrm)) s9 ∧ SumsFl rnd (m.faces.map (m.face12Fl rnd nrm)) s12 ∧
    r = { mass := rnd (rho * V)
          cog := ⟨rnd (s6.x / rnd (2 * V)), rnd (s6.y / rnd (2 * V)), rnd (s6.z / rnd (2 * V))⟩
          xx := rnd (rnd (rho * rnd (s9.y + s9.z)) / 3)
          yy := rnd (rnd (rho * rnd (s9.x + s9.z)) / 3)
          zz := rnd (rnd (rho * rnd (s9.x + s9.y)) / 3)
          xy := rnd (rnd (rho * s12.x) / 2)
          xz := rnd (rnd (rho * s12.z) / 2)
          yz := rnd (rnd (rho * s12.y) / 2) }

end Mesh
end
end MM
