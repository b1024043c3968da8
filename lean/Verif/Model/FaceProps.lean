import Verif.Model.Mesh
import Mathlib.Analysis.Real.Sqrt
import Mathlib.Data.Fin.VecNotation

/-!
# Model of the face properties and surface integrals of `meshmagick/mesh.py`

Everything here is over `ℝ` because of the square roots. Division by a zero norm or area (a degenerate
face) gives NaN in numpy and `0` here; theorems about normals and centres state the guard.
-/

namespace MM

/-- `np.linalg.norm(v)` -/
noncomputable def V3.norm (v : V3 ℝ) : ℝ := Real.sqrt v.normSq

/-- One line of the arrays `faces_areas`, `faces_normals`, `faces_centers`. -/
@[ext]
structure FP where
  area : ℝ
  normal : V3 ℝ
  center : V3 ℝ

/-- Lines of `np.zeros` (mesh.py:652-654). -/
noncomputable def FP.zero : FP := ⟨0, 0, 0⟩

/-- Properties of one triangle (mesh.py:661-666). -/
noncomputable def triProps (p0 p1 p2 : V3 ℝ) : FP :=
  let n := (p1 - p0).cross (p2 - p0)
  ⟨n.norm / 2, (1 / n.norm) • n, (1 / 3 : ℝ) • (p0 + p1 + p2)⟩

/-- The two areas of a quadrangle, `a1` and `a2` (mesh.py:677-680). -/
noncomputable def quadA1 (p0 p1 p2 : V3 ℝ) : ℝ := ((p1 - p0).cross (p2 - p0)).norm * (1 / 2)
noncomputable def quadA2 (p0 p2 p3 : V3 ℝ) : ℝ := ((p3 - p0).cross (p2 - p0)).norm * (1 / 2)

/-- Properties of one quadrangle (mesh.py:673-687). -/
noncomputable def quadProps (p0 p1 p2 p3 : V3 ℝ) : FP :=
  let n := (p2 - p0).cross (p3 - p1)
  let a1 := quadA1 p0 p1 p2
  let a2 := quadA2 p0 p2 p3
  let c1 := (1 / 3 : ℝ) • (p0 + p1 + p2)
  let c2 := (1 / 3 : ℝ) • ((p2 + p3) + p0)
  ⟨a1 + a2, (1 / n.norm) • n, (1 / (a1 + a2)) • (a1 • c1 + a2 • c2)⟩

namespace Mesh

/-- `self._faces[k]` for a valid `k`. -/
def faceAt {K : Type*} (m : Mesh K) (k : ℕ) : Face := m.faces.getD k ⟨0, 0, 0, 0⟩

noncomputable def triPropsOf (m : Mesh ℝ) (f : Face) : FP :=
  triProps (m.vert f.a) (m.vert f.b) (m.vert f.c)
noncomputable def quadPropsOf (m : Mesh ℝ) (f : Face) : FP :=
  quadProps (m.vert f.a) (m.vert f.b) (m.vert f.c) (m.vert f.d)

/-- `_faces_properties` (mesh.py:641-695), the three arrays line by line, given the (possibly cached)
`triangles_ids` and `quadrangles_ids`. Out of range ids raise `IndexError` in Python; they are ignored
here (the callers below always pass ids of the mesh or stale ids of a mesh with as many faces). -/
noncomputable def facesPropertiesWith (m : Mesh ℝ) (tri quad : List ℕ) : List FP :=
  quad.foldl (fun l k => l.set k (m.quadPropsOf (m.faceAt k)))
    (tri.foldl (fun l k => l.set k (m.triPropsOf (m.faceAt k))) (List.replicate m.nf FP.zero))

/-- Face properties of a mesh without cached values. -/
noncomputable def facesProperties (m : Mesh ℝ) : List FP :=
  m.facesPropertiesWith m.trianglesIds m.quadranglesIds

end Mesh

/-! ### Surface integrals -/

/-- The scalar polynomials `f1, f2, f3, g0, g1, g2` (mesh.py:2073-2081) for one coordinate of the three
points. -/
def pf1 (a b c : ℝ) : ℝ := (a + b) + c
def pt2 (a b : ℝ) : ℝ := a * a + b * (a + b)
def pf2 (a b c : ℝ) : ℝ := pt2 a b + c * pf1 a b c
def pf3 (a b c : ℝ) : ℝ := a * (a * a) + b * pt2 a b + c * pf2 a b c
def pg0 (a b c : ℝ) : ℝ := pf2 a b c + a * (pf1 a b c + a)
def pg1 (a b c : ℝ) : ℝ := pf2 a b c + b * (pf1 a b c + b)
def pg2 (a b c : ℝ) : ℝ := pf2 a b c + c * (pf1 a b c + c)

/-- `delta` (mesh.py:2083-2086). -/
noncomputable def triDelta (p0 p1 p2 : V3 ℝ) : ℝ := ((p1 - p0).cross (p2 - p0)).norm

/-- `_compute_triangles_integrals` (mesh.py:2053-2101) for one triangle: the fifteen rows. -/
noncomputable def triIntegrals (p0 p1 p2 : V3 ℝ) : Fin 15 → ℝ :=
  let δ := triDelta p0 p1 p2
  ![δ * pf1 p0.x p1.x p2.x / 6, δ * pf1 p0.y p1.y p2.y / 6, δ * pf1 p0.z p1.z p2.z / 6,
    δ * (6 * p0.y * p0.z + 3 * (p1.y * p1.z + p2.y * p2.z) - p0.y * pf1 p0.z p1.z p2.z
      - p0.z * pf1 p0.y p1.y p2.y) / 12,
    δ * (6 * p0.x * p0.z + 3 * (p1.x * p1.z + p2.x * p2.z) - p0.x * pf1 p0.z p1.z p2.z
      - p0.z * pf1 p0.x p1.x p2.x) / 12,
    δ * (6 * p0.x * p0.y + 3 * (p1.x * p1.y + p2.x * p2.y) - p0.x * pf1 p0.y p1.y p2.y
      - p0.y * pf1 p0.x p1.x p2.x) / 12,
    δ * pf2 p0.x p1.x p2.x / 12, δ * pf2 p0.y p1.y p2.y / 12, δ * pf2 p0.z p1.z p2.z / 12,
    δ * pf3 p0.x p1.x p2.x / 20, δ * pf3 p0.y p1.y p2.y / 20, δ * pf3 p0.z p1.z p2.z / 20,
    δ * (p0.y * pg0 p0.x p1.x p2.x + p1.y * pg1 p0.x p1.x p2.x + p2.y * pg2 p0.x p1.x p2.x) / 60,
    δ * (p0.z * pg0 p0.y p1.y p2.y + p1.z * pg1 p0.y p1.y p2.y + p2.z * pg2 p0.y p1.y p2.y) / 60,
    δ * (p0.x * pg0 p0.z p1.z p2.z + p1.x * pg1 p0.z p1.z p2.z + p2.x * pg2 p0.z p1.z p2.z) / 60]

namespace Mesh

noncomputable def triIntegralsOf (m : Mesh ℝ) (f : Face) : Fin 15 → ℝ :=
  triIntegrals (m.vert f.a) (m.vert f.b) (m.vert f.c)

/-- Two passes over the triangles `(0, 1, 2)` and `(0, 2, 3)` of a quadrangle (mesh.py:1899-1904). -/
noncomputable def quadIntegralsOf (m : Mesh ℝ) (f : Face) : Fin 15 → ℝ :=
  triIntegrals (m.vert f.a) (m.vert f.b) (m.vert f.c) +
    triIntegrals (m.vert f.a) (m.vert f.c) (m.vert f.d)

/-- `_compute_faces_integrals` (mesh.py:1881-1908): one column of fifteen values per face, given the
(possibly cached) ids. -/
noncomputable def facesIntegralsWith (m : Mesh ℝ) (tri quad : List ℕ) : List (Fin 15 → ℝ) :=
  quad.foldl (fun l k => l.set k (m.quadIntegralsOf (m.faceAt k)))
    (tri.foldl (fun l k => l.set k (m.triIntegralsOf (m.faceAt k))) (List.replicate m.nf 0))

/-- `get_surface_integrals()` of a mesh without cached values. -/
noncomputable def surfaceIntegrals (m : Mesh ℝ) : List (Fin 15 → ℝ) :=
  m.facesIntegralsWith m.trianglesIds m.quadranglesIds

/-- `(normals.T * integrals[i:i+3]).sum()` by coordinate: the three sums over the faces of
`normal[j] * integrals[i + j]` (mesh.py:1939, 1978-1981). -/
noncomputable def normalWeighted (props : List FP) (ints : List (Fin 15 → ℝ)) (i0 i1 i2 : Fin 15) : V3 ℝ :=
  ((props.zip ints).map (fun p =>
    (⟨p.1.normal.x * p.2 i0, p.1.normal.y * p.2 i1, p.1.normal.z * p.2 i2⟩ : V3 ℝ))).sum

/-- `_compute_volume` (mesh.py:1932-1939) from the (possibly cached) normals and integrals. -/
noncomputable def volumeWith (props : List FP) (ints : List (Fin 15 → ℝ)) : ℝ :=
  let s := normalWeighted props ints 0 1 2
  (s.x + s.y + s.z) / 3

/-- `volume` of a mesh without cached values. -/
noncomputable def volume (m : Mesh ℝ) : ℝ := volumeWith m.facesProperties m.surfaceIntegrals

/-- `faces_areas.sum()` -/
noncomputable def totalArea (m : Mesh ℝ) : ℝ := (m.facesProperties.map FP.area).sum

/-- `get_surface_integrals().sum(axis=1)` -/
noncomputable def totalIntegrals (m : Mesh ℝ) : Fin 15 → ℝ := m.surfaceIntegrals.sum

/-- The lengths tabulated by `_edges_stats` (mesh.py:2028-2036): `vertices[faces[i]] -
vertices[faces[i-1]]` for `i = 0..3`, for every face, triangle or not. -/
noncomputable def edgeLengths (m : Mesh ℝ) : List ℝ :=
  m.faces.flatMap (fun f =>
    [(m.vert f.a - m.vert f.d).norm, (m.vert f.b - m.vert f.a).norm,
     (m.vert f.c - m.vert f.b).norm, (m.vert f.d - m.vert f.c).norm])

/-- `edge_length.min()`, `.max()`, `.mean()`; the first two raise `ValueError` on an empty array. -/
noncomputable def edgesStats (m : Mesh ℝ) : Except PyErr (ℝ × ℝ × ℝ) :=
  match m.edgeLengths with
  | [] => .error .valueError
  | e :: es => .ok (es.foldl min e, es.foldl max e, (e :: es).sum / (e :: es).length)

end Mesh
end MM
