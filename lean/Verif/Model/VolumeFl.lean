import Verif.Model.Mesh

/-!
# Model of the volume and inertia of a mesh of triangles in floating point

Every operation is followed by a rounding `rnd`. The order in which `numpy` adds the terms of an array depends on the length and on
the machine: any order is allowed. `nrm` is `np.linalg.norm` of a row; nothing is asked of it here.
-/

namespace MM

variable {K : Type*} [Field K] [LinearOrder K]

/-- `a.sum()` in floating point, in any order: an array is separated into two non-empty parts, whose sums are added and rounded. (The
sums which start from zero are included: adding to zero is exact.) -/
inductive SumFl (rnd : K → K) : List K → K → Prop
  | nil : SumFl rnd [] 0
  | one (x : K) : SumFl rnd [x] x
  | add {l l₁ l₂ : List K} {s₁ s₂ : K} (h : l.Perm (l₁ ++ l₂)) (h₁ : l₁ ≠ []) (h₂ : l₂ ≠ []) (r₁ : SumFl rnd l₁ s₁)
      (r₂ : SumFl rnd l₂ s₂) : SumFl rnd l (rnd (s₁ + s₂))

section
variable (rnd : K → K)

/-- The difference of two points with roundings. -/
def subFl (a b : V3 K) : V3 K := ⟨rnd (a.x - b.x), rnd (a.y - b.y), rnd (a.z - b.z)⟩

/-- `np.cross` of two rows with roundings. -/
def crossFl (a b : V3 K) : V3 K :=
  ⟨rnd (rnd (a.y * b.z) - rnd (a.z * b.y)), rnd (rnd (a.z * b.x) - rnd (a.x * b.z)), rnd (rnd (a.x * b.y) - rnd (a.y * b.x))⟩

/-- `np.cross(p1 - p0, p2 - p0)` (mesh.py:661-662 and 2083-2086). -/
def triCrossFl (p0 p1 p2 : V3 K) : V3 K := crossFl rnd (subFl rnd p1 p0) (subFl rnd p2 p0)

/-- The normal of a triangle (mesh.py:663-664). -/
def normalFl (nrm : V3 K → K) (c : V3 K) : V3 K := ⟨rnd (c.x / nrm c), rnd (c.y / nrm c), rnd (c.z / nrm c)⟩

/-- `f1, t2, f2, f3, g0, g1, g2` (mesh.py:2073-2081) for one coordinate of the three points, with roundings (`gFl a`, `gFl b`, `gFl c`
for `g0`, `g1`, `g2`). -/
def f1Fl (a b c : K) : K := rnd (rnd (a + b) + c)
def t2Fl (a b : K) : K := rnd (rnd (a * a) + rnd (b * rnd (a + b)))
def f2Fl (a b c : K) : K := rnd (t2Fl rnd a b + rnd (c * f1Fl rnd a b c))
def f3Fl (a b c : K) : K := rnd (rnd (rnd (a * rnd (a * a)) + rnd (b * t2Fl rnd a b)) + rnd (c * f2Fl rnd a b c))
def gFl (s a b c : K) : K := rnd (f2Fl rnd a b c + rnd (s * rnd (f1Fl rnd a b c + s)))

/-- `point_0.y*g0.x + point_1.y*g1.x + point_2.y*g2.x` (mesh.py:2097-2099) for two coordinates of the three points. -/
def mixFl (y0 y1 y2 a b c : K) : K :=
  rnd (rnd (rnd (y0 * gFl rnd a a b c) + rnd (y1 * gFl rnd b a b c)) + rnd (y2 * gFl rnd c a b c))

/-- `normal * (delta * f / q)`, a coordinate of a normal times an integral (mesh.py:1939, 1978-1981, 2088-2099): `n` is the coordinate
of the vector product `c`. -/
def termFl (nrm : V3 K → K) (c : V3 K) (n f q : K) : K := rnd (rnd (n / nrm c) * rnd (rnd (nrm c * f) / q))

/-- The three products of the normal of a triangle and of three integrals, from their polynomials. -/
def termsFl (nrm : V3 K → K) (c : V3 K) (fx fy fz q : K) : V3 K :=
  ⟨termFl rnd nrm c c.x fx q, termFl rnd nrm c c.y fy q, termFl rnd nrm c c.z fz q⟩

/-- Products of the normal and of the rows 0-2, 6-8, 9-11 and 12-14 of the integrals of a triangle. -/
def vol0Fl (nrm : V3 K → K) (p0 p1 p2 : V3 K) : V3 K :=
  termsFl rnd nrm (triCrossFl rnd p0 p1 p2) (f1Fl rnd p0.x p1.x p2.x) (f1Fl rnd p0.y p1.y p2.y) (f1Fl rnd p0.z p1.z p2.z) 6
def vol6Fl (nrm : V3 K → K) (p0 p1 p2 : V3 K) : V3 K :=
  termsFl rnd nrm (triCrossFl rnd p0 p1 p2) (f2Fl rnd p0.x p1.x p2.x) (f2Fl rnd p0.y p1.y p2.y) (f2Fl rnd p0.z p1.z p2.z) 12
def vol9Fl (nrm : V3 K → K) (p0 p1 p2 : V3 K) : V3 K :=
  termsFl rnd nrm (triCrossFl rnd p0 p1 p2) (f3Fl rnd p0.x p1.x p2.x) (f3Fl rnd p0.y p1.y p2.y) (f3Fl rnd p0.z p1.z p2.z) 20
def vol12Fl (nrm : V3 K → K) (p0 p1 p2 : V3 K) : V3 K :=
  termsFl rnd nrm (triCrossFl rnd p0 p1 p2) (mixFl rnd p0.y p1.y p2.y p0.x p1.x p2.x) (mixFl rnd p0.z p1.z p2.z p0.y p1.y p2.y)
    (mixFl rnd p0.x p1.x p2.x p0.z p1.z p2.z) 60

namespace Mesh

/-- A function of the three corners of each (triangular) face. -/
def onTriangles (m : Mesh K) (g : V3 K → V3 K → V3 K → V3 K) : List (V3 K) :=
  m.faces.map (fun f => g (m.vert f.a) (m.vert f.b) (m.vert f.c))

/-- `V` may be the value of `volume` (mesh.py:1932-1939), for a mesh of triangles. -/
def VolumeFl (nrm : V3 K → K) (m : Mesh K) (V : K) : Prop :=
  ∃ s, SumFl rnd ((m.onTriangles (vol0Fl rnd nrm)).flatMap (fun t => [t.x, t.y, t.z])) s ∧ V = rnd (s / 3)

/-- `s` may be the value of `(normals * integrals).sum(axis=1)` (mesh.py:1978-1981). -/
def SumsFl (l : List (V3 K)) (s : V3 K) : Prop :=
  SumFl rnd (l.map V3.x) s.x ∧ SumFl rnd (l.map V3.y) s.y ∧ SumFl rnd (l.map V3.z) s.z

/-- What `eval_plain_mesh_inertias` passes to `RigidBodyInertia` (mesh.py:1992). -/
structure Plain (K : Type*) where
  mass : K
  cog : V3 K
  xx : K
  yy : K
  zz : K
  yz : K
  xz : K
  xy : K

/-- `r` may be the result of `eval_plain_mesh_inertias(rho)` (mesh.py:1968-1992), for a mesh of triangles. -/
def PlainFl (nrm : V3 K → K) (m : Mesh K) (rho : K) (r : Plain K) : Prop :=
  ∃ V s6 s9 s12, m.VolumeFl rnd nrm V ∧ SumsFl rnd (m.onTriangles (vol6Fl rnd nrm)) s6 ∧
    SumsFl rnd (m.onTriangles (vol9Fl rnd nrm)) s9 ∧ SumsFl rnd (m.onTriangles (vol12Fl rnd nrm)) s12 ∧
    r = { mass := rnd (rho * V)
          cog := ⟨rnd (s6.x / rnd (2 * V)), rnd (s6.y / rnd (2 * V)), rnd (s6.z / rnd (2 * V))⟩
          xx := rnd (rnd (rho * rnd (s9.y + s9.z)) / 3)
          yy := rnd (rnd (rho * rnd (s9.x + s9.z)) / 3)
          zz := rnd (rnd (rho * rnd (s9.x + s9.y)) / 3)
          xy := rnd (rnd (rho * s12.x) / 2)
          xz := rnd (rnd (rho * s12.z) / 2)
          yz := rnd (rnd (rho * s12.y) / 2) }

end Mesh
end
end MM
