import Verif.Model.HealNormals
import Verif.Model.Rotations

/-!
# Model of the cached values of a `Mesh` (`__internals__`, mesh.py)

`MeshObj` is a `Mesh` object: its two arrays and what `__internals__` holds.  `Op` lists the operations and
queries, `step` executes one of them.

Simplifications: a history ends at the first exception; arrays returned to the caller are values (the caller does
not write into them); `Conn.edges` is not stored by the code.
-/

namespace MM

/-- The dict `__internals__`. The three face properties are always stored and deleted together
(mesh.py:689-709), so are `triangles_ids` and `quadrangles_ids` (747-763) and the four connectivities
(1013-1031). -/
structure Cache where
  props : Option (List FP) := none
  ints : Option (List (Fin 15 → ℝ)) := none
  ids : Option (List ℕ × List ℕ) := none
  conn : Option Conn := none

structure MeshObj where
  mesh : Mesh ℝ
  cache : Cache

namespace MeshObj

/-- `Mesh(vertices, faces)` (mesh.py:405-423): nothing is cached. -/
def new (m : Mesh ℝ) : MeshObj := ⟨m, {}⟩

/-- `triangles_ids`, `quadrangles_ids`, `nb_triangles`, `nb_quadrangles` (mesh.py:747-814). -/
def readIds (o : MeshObj) : (List ℕ × List ℕ) × MeshObj :=
  match o.cache.ids with
  | some p => (p, o)
  | none =>
    let p := (o.mesh.trianglesIds, o.mesh.quadranglesIds)
    (p, { o with cache := { o.cache with ids := some p } })

/-- numpy indexing of the vertices by the corners of the faces of the given ids raises `IndexError` for invalid
numbers. -/
def idsOk (m : Mesh ℝ) (ids : List ℕ × List ℕ) : Bool :=
  (ids.1 ++ ids.2).all (fun k => decide (k < m.nf)) &&
  m.faces.all (fun f => f.toList.all (fun i => decide (i < m.nv)))

/-- `faces_areas`, `faces_normals`, `faces_centers` (mesh.py:641-745). -/
noncomputable def readProps (o : MeshObj) : Except PyErr (List FP × MeshObj) :=
  match o.cache.props with
  | some p => .ok (p, o)
  | none =>
    let r := o.readIds
    if idsOk o.mesh r.1 then
      let p := o.mesh.facesPropertiesWith r.1.1 r.1.2
      .ok (p, { r.2 with cache := { r.2.cache with props := some p } })
    else .error .indexError

/-- `get_surface_integrals` (mesh.py:1881-1930). -/
noncomputable def readInts (o : MeshObj) : Except PyErr (List (Fin 15 → ℝ) × MeshObj) :=
  match o.cache.ints with
  | some p => .ok (p, o)
  | none =>
    let r := o.readIds
    if idsOk o.mesh r.1 then
      let p := o.mesh.facesIntegralsWith r.1.1 r.1.2
      .ok (p, { r.2 with cache := { r.2.cache with ints := some p } })
    else .error .indexError

/-- `vv`, `vf`, `ff`, `boundaries`, `nb_boundaries`, `is_mesh_closed` (mesh.py:1033-1097, 1135-1145). -/
def readConn (ord : List ℕ → List ℕ) (o : MeshObj) : Except PyErr (Conn × MeshObj) :=
  match o.cache.conn with
  | some c => .ok (c, o)
  | none =>
    match connectivity ord o.mesh.nv o.mesh.faces with
    | .error e => .error e
    | .ok c => .ok (c, { o with cache := { o.cache with conn := some c } })

/-- `volume` (mesh.py:1932-1951), from what is cached. -/
noncomputable def readVolume (o : MeshObj) : Except PyErr (ℝ × MeshObj) :=
  match o.readProps with
  | .error e => .error e
  | .ok (p, o1) =>
    match o1.readInts with
    | .error e => .error e
    | .ok (i, o2) => .ok (Mesh.volumeWith p i, o2)

/-- `_remove_faces_properties` (mesh.py:700-709). -/
def dropProps (c : Cache) : Cache := { c with props := none, ints := none, ids := none }
/-- `_remove_surface_integrals` (mesh.py:1912-1915). -/
def dropInts (c : Cache) : Cache := { c with ints := none }
/-- `_remove_connectivity` (mesh.py:1025-1031). -/
def dropConn (c : Cache) : Cache := { c with conn := none }
/-- `if self._has_faces_properties(): self._remove_faces_properties()` -/
def dropPropsIfAny (c : Cache) : Cache := if c.props.isSome then dropProps c else c

/-- `translate`, `translate_x/y/z` (mesh.py:1287-1382): the cached centres are moved, the integrals dropped. -/
noncomputable def doTranslate (t : V3 ℝ) (m' : Mesh ℝ) (o : MeshObj) : MeshObj :=
  ⟨m', { dropInts o.cache with
    props := o.cache.props.map (fun l => l.map (fun p => ⟨p.area, p.normal, p.center + t⟩)) }⟩

/-- `rotate_matrix` (mesh.py:1268-1285): the cached normals and centres are rotated, the integrals dropped. -/
noncomputable def doRotate (r : M3 ℝ) (o : MeshObj) : MeshObj :=
  ⟨o.mesh.rotateMatrix r, { dropInts o.cache with
    props := o.cache.props.map (fun l => l.map (fun p => ⟨p.area, r.mulVec p.normal, r.mulVec p.center⟩)) }⟩

/-- `scale`, `scalex/y/z` (mesh.py:1384-1459). -/
noncomputable def doScale (alpha : ℝ) (m' : Mesh ℝ) (o : MeshObj) : Except PyErr MeshObj :=
  if 0 < alpha then .ok ⟨m', dropPropsIfAny o.cache⟩ else .error .assertionError

/-- `flip_normals` (mesh.py:1461-1473). -/
noncomputable def doFlip (o : MeshObj) : MeshObj :=
  ⟨o.mesh.flipNormals, { dropInts o.cache with
    props := o.cache.props.map (fun l => l.map (fun p => ⟨p.area, -p.normal, p.center⟩)) }⟩

/-- `merge_duplicates` (mesh.py:1512-1558). -/
noncomputable def doMerge (srt : (ℕ → ℝ) → List ℕ → List ℕ) (atol : ℝ) (o : MeshObj) : Except PyErr MeshObj :=
  match o.mesh.mergeDuplicates srt atol with
  | .error e => .error e
  | .ok (m', _) => .ok ⟨m', dropConn o.cache⟩

/-- `remove_unused_vertices` (mesh.py:1681-1714). -/
def doRemoveUnused (o : MeshObj) : Except PyErr MeshObj :=
  match o.mesh.removeUnusedVertices with
  | .error e => .error e
  | .ok m' => .ok ⟨m', dropConn o.cache⟩

/-- `heal_triangles` (mesh.py:1716-1749). -/
def doHealTriangles (o : MeshObj) : MeshObj := ⟨o.mesh.healTriangles, dropPropsIfAny o.cache⟩

/-- `areas.mean() * float(rtol)` (mesh.py:1769); the mean of no values (NaN, all comparisons false) is 0 here. -/
noncomputable def areaThreshold (areas : List ℝ) (rtol : ℝ) : ℝ := areas.sum / areas.length * rtol

open Classical in
/-- `self._faces[np.logical_not(areas < area_threshold)]` (mesh.py:1772) -/
noncomputable def keepFaces (faces : List Face) (areas : List ℝ) (thr : ℝ) : List Face :=
  ((faces.zip areas).filter (fun p => decide (¬ p.2 < thr))).map Prod.fst

/-- `remove_degenerated_faces(rtol)` (mesh.py:1751-1784): reading the areas always caches the face properties, so
`_remove_faces_properties` is always called. -/
noncomputable def doRemoveDegenerated (rtol : ℝ) (o : MeshObj) : Except PyErr MeshObj :=
  if 0 < rtol then
    match o.readProps with
    | .error e => .error e
    | .ok (p, o1) =>
      let areas := p.map FP.area
      .ok ⟨⟨o1.mesh.vertices, keepFaces o1.mesh.faces areas (areaThreshold areas rtol)⟩, dropProps o1.cache⟩
  else .error .assertionError

/-- `faces[quads_ids]` replaced by their second triangles, then the first triangles appended (mesh.py:1816-1830),
with the possibly cached ids. -/
def triangulateWith (q : List ℕ) (m : Mesh ℝ) : Mesh ℝ :=
  ⟨m.vertices, q.foldl (fun l k => l.set k ((fun f : Face => ⟨f.a, f.c, f.d, f.a⟩) (m.faceAt k))) m.faces ++
    q.map (fun k => Mesh.firstTri (m.faceAt k))⟩

/-- `triangulate_quadrangles` (mesh.py:1806-1842). -/
def doTriangulate (o : MeshObj) : Except PyErr MeshObj :=
  let r := o.readIds
  if r.1.2.all (fun k => decide (k < o.mesh.nf)) then .ok (new (triangulateWith r.1.2 o.mesh))
  else .error .indexError

/-- `symmetrize` (mesh.py:1844-1866). -/
noncomputable def doSymmetrize (srt : (ℕ → ℝ) → List ℕ → List ℕ) (p : Plane ℝ) (o : MeshObj) :
    Except PyErr MeshObj :=
  match o.mesh.symmetrize srt p with
  | .error e => .error e
  | .ok m' => .ok (new m')

/-- `hs[2]` (mesh.py:1650-1655) from the possibly cached face properties. -/
noncomputable def outwardWith (zmax : ℝ) (props : List FP) : ℝ :=
  (props.map (fun p => (p.center.z - zmax) * p.area * p.normal.z)).sum

open Classical in
/-- `heal_normals` (mesh.py:1560-1679). The kinds of the faces are taken from the faces and not from the cached
ids; the adjacency modified by the flooding stays in the cache. -/
noncomputable def doHealNormals (ord : List ℕ → List ℕ) (o : MeshObj) : Except PyErr MeshObj :=
  match o.readConn ord with
  | .error e => .error e
  | .ok (c, o1) =>
    let o2 := o1.readIds.2
    match healFlood ord c.ff o2.mesh.faces with
    | .error e => .error e
    | .ok (faces, ff') =>
      let o3 : MeshObj := ⟨⟨o2.mesh.vertices, faces⟩, { o2.cache with conn := some { c with ff := ff' } }⟩
      if c.isClosed then
        match o3.readProps with
        | .error e => .error e
        | .ok (p, o4) =>
          let o5 := if outwardWith o4.mesh.zmax p < 0 then o4.doFlip else o4
          .ok ⟨o5.mesh, dropPropsIfAny o5.cache⟩
      else .ok ⟨o3.mesh, dropPropsIfAny o3.cache⟩

/-- `heal_mesh` (mesh.py:1786-1804). -/
noncomputable def doHealMesh (srt : (ℕ → ℝ) → List ℕ → List ℕ) (ord : List ℕ → List ℕ) (o : MeshObj) :
    Except PyErr MeshObj := do
  let o1 ← doRemoveUnused ⟨o.mesh, dropPropsIfAny o.cache⟩
  let o2 ← doRemoveDegenerated (1 / 100000) o1
  let o3 ← doMerge srt Mesh.defaultAtol o2
  doHealNormals ord (doHealTriangles o3)

/-- The operations and queries of a `Mesh`. -/
inductive Op where
  | setVertices (v : List (V3 ℝ))
  | setFaces (f : List Face)
  | readIds
  | readProps
  | readInts
  | readConn
  | readVolume
  | translate (t : V3 ℝ)
  | translateX (t : ℝ)
  | translateY (t : ℝ)
  | translateZ (t : ℝ)
  | rotate (phi theta psi : ℝ)
  | rotateMatrix (r : M3 ℝ)
  | scale (a : ℝ)
  | scaleX (a : ℝ)
  | scaleY (a : ℝ)
  | scaleZ (a : ℝ)
  | flipNormals
  | mergeDuplicates (atol : ℝ)
  | removeUnusedVertices
  | healTriangles
  | removeDegeneratedFaces (rtol : ℝ)
  | triangulateQuadrangles
  | symmetrize (p : Plane ℝ)
  | mirror (p : Plane ℝ)
  | healNormals
  | healMesh

/-- One operation. The setters and `mirror` clear everything (mesh.py:628-639, 1868-1879). -/
noncomputable def step (srt : (ℕ → ℝ) → List ℕ → List ℕ) (ord : List ℕ → List ℕ) (o : MeshObj) :
    Op → Except PyErr MeshObj
  | .setVertices v => .ok (new ⟨v, o.mesh.faces⟩)
  | .setFaces f => .ok (new ⟨o.mesh.vertices, f⟩)
  | .readIds => .ok o.readIds.2
  | .readProps => o.readProps.map Prod.snd
  | .readInts => o.readInts.map Prod.snd
  | .readConn => (o.readConn ord).map Prod.snd
  | .readVolume => o.readVolume.map Prod.snd
  | .translate t => .ok (o.doTranslate t (o.mesh.translate t))
  | .translateX t => .ok (o.doTranslate ⟨t, 0, 0⟩ (o.mesh.translateX t))
  | .translateY t => .ok (o.doTranslate ⟨0, t, 0⟩ (o.mesh.translateY t))
  | .translateZ t => .ok (o.doTranslate ⟨0, 0, t⟩ (o.mesh.translateZ t))
  | .rotate a b c => .ok (o.doRotate (cardanToRotmat a b c))
  | .rotateMatrix r => .ok (o.doRotate r)
  | .scale a => o.doScale a (o.mesh.scaleBy a)
  | .scaleX a => o.doScale a (o.mesh.scaleXBy a)
  | .scaleY a => o.doScale a (o.mesh.scaleYBy a)
  | .scaleZ a => o.doScale a (o.mesh.scaleZBy a)
  | .flipNormals => .ok o.doFlip
  | .mergeDuplicates atol => o.doMerge srt atol
  | .removeUnusedVertices => o.doRemoveUnused
  | .healTriangles => .ok o.doHealTriangles
  | .removeDegeneratedFaces rtol => o.doRemoveDegenerated rtol
  | .triangulateQuadrangles => o.doTriangulate
  | .symmetrize p => o.doSymmetrize srt p
  | .mirror p => .ok (new (o.mesh.mirror p))
  | .healNormals => o.doHealNormals ord
  | .healMesh => o.doHealMesh srt ord

/-- A history. -/
noncomputable def run (srt : (ℕ → ℝ) → List ℕ → List ℕ) (ord : List ℕ → List ℕ) :
    List Op → MeshObj → Except PyErr MeshObj
  | [], o => .ok o
  | op :: ops, o =>
    match step srt ord o op with
    | .error e => .error e
    | .ok o' => run srt ord ops o'

end MeshObj
end MM
