import Verif.Model.Merge

/-!
# Model of `meshmagick/mesh.py`: the `Mesh` data and its index operations

Caches (`__internals__`) are modelled separately in `Verif.Model.Cache`; here a mesh is its vertices and
faces arrays.
-/

namespace MM

/-- One line of the `faces` array: four vertex numbers; a triangle repeats its first vertex at the end
(mesh.py:747-752). numpy integers are idealised as naturals (negative wrapping indices are not
modelled). -/
@[ext]
structure Face where
  a : ℕ
  b : ℕ
  c : ℕ
  d : ℕ
deriving DecidableEq, Repr

namespace Face

/-- The four indices, in order. -/
def toList (f : Face) : List ℕ := [f.a, f.b, f.c, f.d]

/-- `face[0] == face[-1]` (mesh.py:748, 826) -/
def isTri (f : Face) : Bool := f.a == f.d

/-- `get_face` (mesh.py:828-844): three indices for a triangle, four otherwise. -/
def corners (f : Face) : List ℕ := if f.isTri then [f.a, f.b, f.c] else [f.a, f.b, f.c, f.d]

/-- Renumbering of the four indices. -/
def map (g : ℕ → ℕ) (f : Face) : Face := ⟨g f.a, g f.b, g f.c, g f.d⟩

/-- `np.roll(face, 1)` (mesh.py:1729) -/
def roll (f : Face) : Face := ⟨f.d, f.a, f.b, f.c⟩

/-- `np.flipud(face)`, one line of `np.fliplr(faces)` (mesh.py:1465, 1632) -/
def flip (f : Face) : Face := ⟨f.d, f.c, f.b, f.a⟩

end Face

/-- `Mesh._vertices` and `Mesh._faces` (mesh.py:412-413). -/
@[ext]
structure Mesh (K : Type*) where
  vertices : List (V3 K)
  faces : List Face
deriving DecidableEq, Repr

namespace Mesh

variable {K : Type*}

/-- `nb_vertices`, `nb_faces` (mesh.py:588-605). -/
def nv (m : Mesh K) : ℕ := m.vertices.length
def nf (m : Mesh K) : ℕ := m.faces.length

/-- All the vertex numbers used by faces are valid; otherwise numpy indexing raises `IndexError`. -/
def WF (m : Mesh K) : Prop := ∀ f ∈ m.faces, ∀ i ∈ f.toList, i < m.nv

instance (m : Mesh K) : Decidable m.WF := by unfold WF; infer_instance

/-- `triangles_ids` and `quadrangles_ids` (mesh.py:747-752), `np.where(mask)[0]`. -/
def trianglesIds (m : Mesh K) : List ℕ :=
  (List.range m.nf).filter (fun i => (m.faces[i]?.map Face.isTri).getD false)
def quadranglesIds (m : Mesh K) : List ℕ :=
  (List.range m.nf).filter (fun i => (m.faces[i]?.map (fun f => !f.isTri)).getD false)

/-- The mask / renumbering idiom shared by `extract_faces` (mesh.py:865-872) and
`remove_unused_vertices` (mesh.py:1690-1696): `mask[used] = True; id_v = arange(nv)[mask];
new_id = arange(nv); new_id[id_v] = arange(len(id_v))`. -/
def usedMask (nv : ℕ) (used : List ℕ) : List Bool :=
  used.foldl (fun mk i => mk.set i true) (List.replicate nv false)
def idV (nv : ℕ) (used : List ℕ) : List ℕ :=
  (List.range nv).filter (fun i => (usedMask nv used).getD i false)
def newIds (nv : ℕ) (ids : List ℕ) : List ℕ :=
  ids.zipIdx.foldl (fun a p => a.set p.1 p.2) (List.range nv)

section Geometry
variable [CommRing K]

/-- `vertices[i]`; only used below for valid indices. -/
def vert (m : Mesh K) (i : ℕ) : V3 K := m.vertices.getD i 0

/-- `extract_faces(ids, return_index=True)` (mesh.py:846-885). `IndexError` on an invalid face or vertex
number. -/
def extractFaces (m : Mesh K) (ids : List ℕ) : Except PyErr (Mesh K × List ℕ) :=
  if ids.all (fun k => decide (k < m.nf)) then
    let sel := ids.map (fun k => m.faces.getD k ⟨0, 0, 0, 0⟩)
    let used := sel.flatMap Face.toList
    if used.all (fun i => decide (i < m.nv)) then
      let idv := idV m.nv used
      let newId := newIds m.nv idv
      .ok (⟨idv.map m.vert, sel.map (Face.map (fun i => newId.getD i 0))⟩, idv)
    else .error .indexError
  else .error .indexError

/-- `remove_unused_vertices` (mesh.py:1681-1714). -/
def removeUnusedVertices (m : Mesh K) : Except PyErr (Mesh K) :=
  let used := m.faces.flatMap Face.toList
  if used.all (fun i => decide (i < m.nv)) then
    let idv := idV m.nv used
    if idv.length < m.nv then
      let newId := newIds m.nv idv
      .ok ⟨idv.map m.vert, m.faces.map (Face.map (fun i => newId.getD i 0))⟩
    else .ok m
  else .error .indexError

/-- One pass `faces[quads] = np.roll(faces[quads], 1, axis=1)` with
`quads = faces[:, 0] != faces[:, -1]` (mesh.py:1726-1736) on one face. -/
def healStep (f : Face) : Face := if f.isTri then f else f.roll

/-- `heal_triangles` (mesh.py:1716-1749): three passes. -/
def healTriangles (m : Mesh K) : Mesh K :=
  ⟨m.vertices, ((m.faces.map healStep).map healStep).map healStep⟩

/-- `flip_normals` (mesh.py:1461-1473): `np.fliplr(faces)`. -/
def flipNormals (m : Mesh K) : Mesh K := ⟨m.vertices, m.faces.map Face.flip⟩

/-- `triangulate_quadrangles` (mesh.py:1806-1842): each quadrangle is replaced in place by its second
triangle `(0, 2, 3)`, the first triangles `(0, 1, 2)` are appended. -/
def secondTri (f : Face) : Face := if f.isTri then f else ⟨f.a, f.c, f.d, f.a⟩
def firstTri (f : Face) : Face := ⟨f.a, f.b, f.c, f.a⟩
def triangulateQuadrangles (m : Mesh K) : Mesh K :=
  ⟨m.vertices, m.faces.map secondTri ++ (m.faces.filter (fun f => !f.isTri)).map firstTri⟩

end Geometry

section Merge
variable [Field K] [LinearOrder K]

/-- `merge_duplicates(atol, return_index=True)` (mesh.py:1512-1558): the mesh and `new_id`.
`new_id[self._faces]` raises `IndexError` on invalid vertex numbers. -/
def mergeDuplicates (srt : (ℕ → K) → List ℕ → List ℕ) (atol : K) (m : Mesh K) :
    Except PyErr (Mesh K × List ℕ) :=
  match mergeDuplicateRows srt atol (m.vertices.map V3.coord) with
  | .error e => .error e
  | .ok r =>
    if m.faces.all (fun f => f.toList.all (fun i => decide (i < m.nv))) then
      .ok (⟨r.rows.map V3.ofCoord, m.faces.map (Face.map (fun i => r.newID.getD i 0))⟩, r.newID)
    else .error .indexError

/-- Tolerance `1e-8`, the default of `merge_duplicates`. -/
def defaultAtol : K := 1 / 100000000

/-- Concatenation before merging in `__add__` (mesh.py:1494-1496). -/
def concat (m n : Mesh K) : Mesh K :=
  ⟨m.vertices ++ n.vertices, m.faces ++ n.faces.map (Face.map (· + m.nv))⟩

/-- `__add__` (mesh.py:1475-1500). -/
def add (srt : (ℕ → K) → List ℕ → List ℕ) (m n : Mesh K) : Except PyErr (Mesh K) :=
  (mergeDuplicates srt defaultAtol (concat m n)).map Prod.fst

end Merge

section Moves
variable [CommRing K]

/-- Application of a point map to the vertices array. -/
def mapVertices (g : V3 K → V3 K) (m : Mesh K) : Mesh K := ⟨m.vertices.map g, m.faces⟩

/-- `translate(t)` (mesh.py:1356-1382) and `translate_x/y/z` (mesh.py:1287-1354), vertices part. -/
def translate (t : V3 K) (m : Mesh K) : Mesh K := m.mapVertices (· + t)
def translateX (t : K) (m : Mesh K) : Mesh K := m.mapVertices (fun v => ⟨v.x + t, v.y, v.z⟩)
def translateY (t : K) (m : Mesh K) : Mesh K := m.mapVertices (fun v => ⟨v.x, v.y + t, v.z⟩)
def translateZ (t : K) (m : Mesh K) : Mesh K := m.mapVertices (fun v => ⟨v.x, v.y, v.z + t⟩)

/-- `rotate_matrix(rotmat)` (mesh.py:1268-1282), vertices part. -/
def rotateMatrix (r : M3 K) (m : Mesh K) : Mesh K := m.mapVertices r.mulVec

/-- Vertices part of `scale`, `scalex/y/z` (mesh.py:1384-1459) once `assert 0 < alpha` has passed. -/
def scaleBy (alpha : K) (m : Mesh K) : Mesh K := m.mapVertices (alpha • ·)
def scaleXBy (alpha : K) (m : Mesh K) : Mesh K := m.mapVertices (fun v => ⟨alpha * v.x, v.y, v.z⟩)
def scaleYBy (alpha : K) (m : Mesh K) : Mesh K := m.mapVertices (fun v => ⟨v.x, alpha * v.y, v.z⟩)
def scaleZBy (alpha : K) (m : Mesh K) : Mesh K := m.mapVertices (fun v => ⟨v.x, v.y, alpha * v.z⟩)

end Moves

end Mesh

/-- The data of a `Plane` used by geometric queries (mesh.py:148-174): its unit normal and its scalar
parameter. -/
structure Plane (K : Type*) where
  normal : V3 K
  c : K
deriving DecidableEq, Repr

namespace Plane
variable {K : Type*} [CommRing K]

/-- `get_point_dist_wrt_plane` (mesh.py:286-301). -/
def dist (p : Plane K) (v : V3 K) : K := v.dot p.normal - p.c

/-- `v - 2 * (v.n - c) n`, the reflection used by `symmetrize` and `mirror` (mesh.py:1855, 1876). -/
def reflect (p : Plane K) (v : V3 K) : V3 K := v - (2 * (v.dot p.normal - p.c)) • p.normal

/-- `orthogonal_projection_on_plane` on one point (mesh.py:371-372). -/
def project (p : Plane K) (v : V3 K) : V3 K := v - (p.dist v) • p.normal

/-- `get_origin` (mesh.py:376-378). -/
def origin (p : Plane K) : V3 K := p.c • p.normal

end Plane

namespace Mesh
variable {K : Type*}

/-- `mirror(plane)` (mesh.py:1868-1879). -/
def mirror [CommRing K] (p : Plane K) (m : Mesh K) : Mesh K :=
  (m.mapVertices p.reflect).flipNormals

/-- `symmetrize(plane)` before the merge (mesh.py:1853-1858). -/
def symmetrizeRaw [CommRing K] (p : Plane K) (m : Mesh K) : Mesh K :=
  ⟨m.vertices ++ m.vertices.map p.reflect, m.faces ++ m.faces.map (fun f => (f.map (· + m.nv)).flip)⟩

/-- `symmetrize(plane)` (mesh.py:1844-1866). -/
def symmetrize [Field K] [LinearOrder K] (srt : (ℕ → K) → List ℕ → List ℕ) (p : Plane K)
    (m : Mesh K) : Except PyErr (Mesh K) :=
  (mergeDuplicates srt defaultAtol (symmetrizeRaw p m)).map Prod.fst

/-- `axis_aligned_bbox` (mesh.py:1099-1114). -/
structure BBox (K : Type*) where
  xmin : K
  xmax : K
  ymin : K
  ymax : K
  zmin : K
  zmax : K
deriving DecidableEq, Repr

def bbox [CommRing K] [LinearOrder K] (m : Mesh K) : BBox K :=
  match m.vertices with
  | [] => ⟨0, 0, 0, 0, 0, 0⟩
  | v :: vs =>
    ⟨vs.foldl (fun a w => min a w.x) v.x, vs.foldl (fun a w => max a w.x) v.x,
     vs.foldl (fun a w => min a w.y) v.y, vs.foldl (fun a w => max a w.y) v.y,
     vs.foldl (fun a w => min a w.z) v.z, vs.foldl (fun a w => max a w.z) v.z⟩

/-- `squared_axis_aligned_bbox` (mesh.py:1116-1133). -/
def squaredBBox [Field K] [LinearOrder K] (m : Mesh K) : BBox K :=
  let b := m.bbox
  let x0 := (b.xmin + b.xmax) * (1 / 2)
  let y0 := (b.ymin + b.ymax) * (1 / 2)
  let z0 := (b.zmin + b.zmax) * (1 / 2)
  let d := max (max ((b.xmax - b.xmin) * (1 / 2)) ((b.ymax - b.ymin) * (1 / 2)))
    ((b.zmax - b.zmin) * (1 / 2))
  ⟨x0 - d, x0 + d, y0 - d, y0 + d, z0 - d, z0 + d⟩

end Mesh
end MM
