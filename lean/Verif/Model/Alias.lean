import Verif.Model.Cache

/-!
# Model of the arrays a `Mesh` shares, writes in place or replaces (mesh.py)

`Model/Cache.lean` takes arrays as values.  Here arrays live in a heap, a `Mesh` object holds addresses, and every
operation says which arrays it writes in place and which it replaces by new ones.

Simplifications: the integrals, the ids and the connectivity are not written in place by array operations and are
kept as values (`heal_normals` modifies the sets of the cached adjacency, see `Model/Cache.lean`); an array which is
written in place is given its whole new content at once; temporary arrays are not allocated; a history ends at the
first exception.
-/

namespace MM
namespace Alias

/-- A numpy array: `n x 3` floats, `n x 4` integers, or `n` floats. -/
inductive Arr where
  | vecs (l : List (V3 ℝ))
  | faces (l : List Face)
  | reals (l : List ℝ)

/-- The arrays created so far; an address is a position. -/
abbrev Heap := List Arr

/-- The content of an array. -/
def vecsAt (h : Heap) (a : ℕ) : List (V3 ℝ) :=
  match h[a]? with
  | some (.vecs l) => l
  | _ => []
def facesAt (h : Heap) (a : ℕ) : List Face :=
  match h[a]? with
  | some (.faces l) => l
  | _ => []
def realsAt (h : Heap) (a : ℕ) : List ℝ :=
  match h[a]? with
  | some (.reals l) => l
  | _ => []

/-- A `Mesh` object (mesh.py:405-423): the addresses of `_vertices`, `_faces` and, when they are in
`__internals__`, of `faces_areas`, `faces_normals`, `faces_centers` (mesh.py:689-693). -/
structure MeshRef where
  v : ℕ
  f : ℕ
  props : Option (ℕ × ℕ × ℕ) := none
  ints : Option (List (Fin 15 → ℝ)) := none
  ids : Option (List ℕ × List ℕ) := none
  conn : Option Conn := none

/-- The line of the three cached arrays which belongs to each face. -/
def zipProps : List ℝ → List (V3 ℝ) → List (V3 ℝ) → List FP
  | a :: as, n :: ns, c :: cs => ⟨a, n, c⟩ :: zipProps as ns cs
  | _, _, _ => []

/-- What is seen of a `Mesh` through its properties. -/
def view (h : Heap) (m : MeshRef) : MeshObj :=
  ⟨⟨vecsAt h m.v, facesAt h m.f⟩,
   { props := m.props.map (fun p => zipProps (realsAt h p.1) (vecsAt h p.2.1) (vecsAt h p.2.2)),
     ints := m.ints, ids := m.ids, conn := m.conn }⟩

/-- The heap and one mesh of it. -/
abbrev St := Heap × MeshRef

namespace St

def view (s : St) : MeshObj := Alias.view s.1 s.2

/-! ## What the statements of the methods do to the arrays -/

/-- `self._vertices = <new array>` -/
def storeV (l : List (V3 ℝ)) (s : St) : St := (s.1 ++ [.vecs l], { s.2 with v := s.1.length })
/-- `self._faces = <new array>` -/
def storeF (l : List Face) (s : St) : St := (s.1 ++ [.faces l], { s.2 with f := s.1.length })
/-- `self._vertices[...] = ...`, `self._vertices -= ...` -/
def writeV (l : List (V3 ℝ)) (s : St) : St := (s.1.set s.2.v (.vecs l), s.2)
/-- `self._faces[...] = ...` -/
def writeF (l : List Face) (s : St) : St := (s.1.set s.2.f (.faces l), s.2)
/-- `self.__internals__['faces_normals'] *= -1` (mesh.py:1468) -/
noncomputable def negNormals (s : St) : St :=
  match s.2.props with
  | none => s
  | some p => (s.1.set p.2.1 (.vecs ((vecsAt s.1 p.2.1).map (fun n => -n))), s.2)
/-- `centers = self.__internals__['faces_centers']; centers[:, 0] += tx` … (mesh.py:1299-1302, 1322-1325,
1345-1348, 1371-1377) -/
noncomputable def addCentres (t : V3 ℝ) (s : St) : St :=
  match s.2.props with
  | none => s
  | some p => (s.1.set p.2.2 (.vecs ((vecsAt s.1 p.2.2).map (· + t))), s.2)
/-- The rotated normals and centres are new arrays (mesh.py:1274-1279). -/
noncomputable def rotateProps (r : M3 ℝ) (s : St) : St :=
  match s.2.props with
  | none => s
  | some p =>
    (s.1 ++ [.vecs ((vecsAt s.1 p.2.1).map r.mulVec), .vecs ((vecsAt s.1 p.2.2).map r.mulVec)],
      { s.2 with props := some (p.1, s.1.length, s.1.length + 1) })
/-- `self.__internals__.update(faces_properties)` (mesh.py:689-693), three new arrays. -/
def storeProps (l : List FP) (s : St) : St :=
  (s.1 ++ [.reals (l.map FP.area), .vecs (l.map FP.normal), .vecs (l.map FP.center)],
    { s.2 with props := some (s.1.length, s.1.length + 1, s.1.length + 2) })
/-- `_remove_faces_properties` (mesh.py:700-709). -/
def dropProps (s : St) : St := (s.1, { s.2 with props := none, ints := none, ids := none })
/-- `if self._has_faces_properties(): self._remove_faces_properties()` -/
def dropPropsIfAny (s : St) : St := if s.2.props.isSome then dropProps s else s
/-- `_remove_surface_integrals` (mesh.py:1912-1915). -/
def dropInts (s : St) : St := (s.1, { s.2 with ints := none })
/-- `_remove_connectivity` (mesh.py:1025-1031). -/
def dropConn (s : St) : St := (s.1, { s.2 with conn := none })
/-- `self.__internals__.clear()` -/
def clear (s : St) : St := (s.1, { v := s.2.v, f := s.2.f })
/-- The triangles and quadrangles ids, the integrals, the connectivity are stored. -/
def setIds (p : List ℕ × List ℕ) (s : St) : St := (s.1, { s.2 with ids := some p })
def setInts (p : List (Fin 15 → ℝ)) (s : St) : St := (s.1, { s.2 with ints := some p })
def setConn (c : Conn) (s : St) : St := (s.1, { s.2 with conn := some c })

/-! ## The methods -/

/-- `triangles_ids`, `quadrangles_ids` (mesh.py:747-814). -/
def readIds (s : St) : St := s.setIds s.view.readIds.1

/-- `faces_areas`, `faces_normals`, `faces_centers` (mesh.py:641-745). -/
noncomputable def readProps (s : St) : Except PyErr St :=
  match s.2.props with
  | some _ => .ok s
  | none =>
    let r := s.view.readIds.1
    if MeshObj.idsOk s.view.mesh r then .ok (s.readIds.storeProps (s.view.mesh.facesPropertiesWith r.1 r.2))
    else .error .indexError

/-- `get_surface_integrals` (mesh.py:1881-1930). -/
noncomputable def readInts (s : St) : Except PyErr St :=
  match s.2.ints with
  | some _ => .ok s
  | none =>
    let r := s.view.readIds.1
    if MeshObj.idsOk s.view.mesh r then .ok (s.readIds.setInts (s.view.mesh.facesIntegralsWith r.1 r.2))
    else .error .indexError

/-- `vv`, `vf`, `ff`, `boundaries` (mesh.py:1033-1097). -/
def readConn (ord : List ℕ → List ℕ) (s : St) : Except PyErr (Conn × St) :=
  match s.2.conn with
  | some c => .ok (c, s)
  | none =>
    match connectivity ord s.view.mesh.nv s.view.mesh.faces with
    | .error e => .error e
    | .ok c => .ok (c, s.setConn c)

/-- `volume` (mesh.py:1932-1951). -/
noncomputable def readVolume (s : St) : Except PyErr St :=
  match s.readProps with
  | .error e => .error e
  | .ok s1 => s1.readInts

/-- `translate_x` (mesh.py:1287-1307): `vertices = self._vertices` is written, no copy is made. -/
noncomputable def translateX (t : ℝ) (s : St) : St :=
  ((s.writeV (s.view.mesh.translateX t).vertices).addCentres ⟨t, 0, 0⟩).dropInts
/-- `translate_y` (mesh.py:1309-1330): `vertices = self._vertices.copy()`. -/
noncomputable def translateY (t : ℝ) (s : St) : St :=
  ((s.storeV (s.view.mesh.translateY t).vertices).addCentres ⟨0, t, 0⟩).dropInts
/-- `translate_z` (mesh.py:1332-1353) -/
noncomputable def translateZ (t : ℝ) (s : St) : St :=
  ((s.storeV (s.view.mesh.translateZ t).vertices).addCentres ⟨0, 0, t⟩).dropInts
/-- `translate` (mesh.py:1355-1382) -/
noncomputable def translate (t : V3 ℝ) (s : St) : St :=
  ((s.storeV (s.view.mesh.translate t).vertices).addCentres t).dropInts

/-- `rotate_matrix` (mesh.py:1268-1285) -/
noncomputable def rotateMatrix (r : M3 ℝ) (s : St) : St :=
  ((s.storeV (s.view.mesh.rotateMatrix r).vertices).rotateProps r).dropInts

/-- `scale`, `scalex/y/z` (mesh.py:1384-1459): `l` is the scaled copy. -/
noncomputable def scale (alpha : ℝ) (l : List (V3 ℝ)) (s : St) : Except PyErr St :=
  if 0 < alpha then .ok (s.storeV l).dropPropsIfAny else .error .assertionError

/-- `flip_normals` (mesh.py:1461-1473): the faces are copied, the cached normals are negated in place. -/
noncomputable def flipNormals (s : St) : St :=
  ((s.storeF s.view.mesh.flipNormals.faces).negNormals).dropInts

/-- `merge_duplicates` (mesh.py:1512-1558): `merge_duplicate_rows` returns the array it was given when it finds no
duplicates (tools.py:73-78), a new one otherwise (tools.py:93); `new_id[self._faces]` is a new array. -/
noncomputable def mergeDuplicates (srt : (ℕ → ℝ) → List ℕ → List ℕ) (atol : ℝ) (s : St) : Except PyErr St :=
  match s.view.mesh.mergeDuplicates srt atol with
  | .error e => .error e
  | .ok (m', _) =>
    let rows := s.view.mesh.vertices.map V3.coord
    let s1 := if (mergeLoop srt atol rows (List.finRange 3) [List.range rows.length]).isNone then s
      else s.storeV m'.vertices
    .ok (s1.storeF m'.faces).dropConn

/-- `remove_unused_vertices` (mesh.py:1681-1714): the two arrays are replaced when a vertex is unused. -/
def removeUnused (s : St) : Except PyErr St :=
  match s.view.mesh.removeUnusedVertices with
  | .error e => .error e
  | .ok m' =>
    if (Mesh.idV s.view.mesh.nv (s.view.mesh.faces.flatMap Face.toList)).length < s.view.mesh.nv then
      .ok ((s.storeV m'.vertices).storeF m'.faces).dropConn
    else .ok s.dropConn

/-- `heal_triangles` (mesh.py:1716-1749): `faces = self._faces` is written, no copy is made. -/
def healTriangles (s : St) : St := s.dropPropsIfAny.writeF s.view.mesh.healTriangles.faces

/-- `remove_degenerated_faces` (mesh.py:1751-1784): indexing by a mask makes a new array. -/
noncomputable def removeDegenerated (rtol : ℝ) (s : St) : Except PyErr St :=
  if 0 < rtol then
    match s.readProps with
    | .error e => .error e
    | .ok s1 =>
      let areas := ((s1.view.cache.props).getD []).map FP.area
      .ok (s1.storeF (MeshObj.keepFaces s1.view.mesh.faces areas (MeshObj.areaThreshold areas rtol))).dropProps
  else .error .assertionError

/-- The second triangles are written into `self._faces` (mesh.py:1816, 1823-1824). -/
def secondTriangles (q : List ℕ) (m : Mesh ℝ) : List Face :=
  q.foldl (fun l k => l.set k ((fun f : Face => ⟨f.a, f.c, f.d, f.a⟩) (m.faceAt k))) m.faces

/-- `triangulate_quadrangles` (mesh.py:1806-1842): the array of the faces is written, then the concatenation is a
new one. -/
def triangulate (s : St) : Except PyErr St :=
  let q := s.view.readIds.1.2
  if q.all (fun k => decide (k < s.view.mesh.nf)) then
    .ok ((s.writeF (secondTriangles q s.view.mesh)).storeF (MeshObj.triangulateWith q s.view.mesh).faces).clear
  else .error .indexError

/-- `symmetrize` (mesh.py:1844-1866): `np.concatenate` makes new arrays. -/
noncomputable def symmetrize (srt : (ℕ → ℝ) → List ℕ → List ℕ) (p : Plane ℝ) (s : St) : Except PyErr St :=
  let raw := s.view.mesh.symmetrizeRaw p
  match ((s.storeV raw.vertices).storeF raw.faces).mergeDuplicates srt Mesh.defaultAtol with
  | .error e => .error e
  | .ok s1 => .ok s1.clear

/-- `mirror` (mesh.py:1868-1879): `self._vertices -= …` writes the array, then `flip_normals`. -/
noncomputable def mirror (p : Plane ℝ) (s : St) : St :=
  (s.writeV (s.view.mesh.vertices.map p.reflect)).flipNormals.clear

open Classical in
/-- `heal_normals` (mesh.py:1560-1679): `faces = self._faces` is written (line 1629). -/
noncomputable def healNormals (ord : List ℕ → List ℕ) (s : St) : Except PyErr St :=
  match s.readConn ord with
  | .error e => .error e
  | .ok (c, s1) =>
    let s2 := s1.readIds
    match healFlood ord c.ff s2.view.mesh.faces with
    | .error e => .error e
    | .ok (faces, ff') =>
      let s3 := (s2.writeF faces).setConn { c with ff := ff' }
      if c.isClosed then
        match s3.readProps with
        | .error e => .error e
        | .ok s4 =>
          .ok (if MeshObj.outwardWith s4.view.mesh.zmax ((s4.view.cache.props).getD []) < 0 then s4.flipNormals
            else s4).dropPropsIfAny
      else .ok s3.dropPropsIfAny

/-- `heal_mesh` (mesh.py:1786-1804). -/
noncomputable def healMesh (srt : (ℕ → ℝ) → List ℕ → List ℕ) (ord : List ℕ → List ℕ) (s : St) : Except PyErr St :=
  match s.dropPropsIfAny.removeUnused with
  | .error e => .error e
  | .ok s1 =>
    match s1.removeDegenerated (1 / 100000) with
    | .error e => .error e
    | .ok s2 =>
      match s2.mergeDuplicates srt Mesh.defaultAtol with
      | .error e => .error e
      | .ok s3 => s3.healTriangles.healNormals ord

/-- One operation; the setters make a copy and clear everything (mesh.py:628-639). -/
noncomputable def step (srt : (ℕ → ℝ) → List ℕ → List ℕ) (ord : List ℕ → List ℕ) (s : St) :
    MeshObj.Op → Except PyErr St
  | .setVertices v => .ok (s.storeV v).clear
  | .setFaces f => .ok (s.storeF f).clear
  | .readIds => .ok s.readIds
  | .readProps => s.readProps
  | .readInts => s.readInts
  | .readConn => (s.readConn ord).map Prod.snd
  | .readVolume => s.readVolume
  | .translate t => .ok (s.translate t)
  | .translateX t => .ok (s.translateX t)
  | .translateY t => .ok (s.translateY t)
  | .translateZ t => .ok (s.translateZ t)
  | .rotate a b c => .ok (s.rotateMatrix (cardanToRotmat a b c))
  | .rotateMatrix r => .ok (s.rotateMatrix r)
  | .scale a => s.scale a (s.view.mesh.scaleBy a).vertices
  | .scaleX a => s.scale a (s.view.mesh.scaleXBy a).vertices
  | .scaleY a => s.scale a (s.view.mesh.scaleYBy a).vertices
  | .scaleZ a => s.scale a (s.view.mesh.scaleZBy a).vertices
  | .flipNormals => .ok s.flipNormals
  | .mergeDuplicates atol => s.mergeDuplicates srt atol
  | .removeUnusedVertices => s.removeUnused
  | .healTriangles => .ok s.healTriangles
  | .removeDegeneratedFaces rtol => s.removeDegenerated rtol
  | .triangulateQuadrangles => s.triangulate
  | .symmetrize p => s.symmetrize srt p
  | .mirror p => .ok (s.mirror p)
  | .healNormals => s.healNormals ord
  | .healMesh => s.healMesh srt ord

end St

/-! ## A program with several meshes -/

/-- The heap, the meshes and the arrays which a program has created. -/
structure World where
  heap : Heap := []
  meshes : List MeshRef := []
  vars : List ℕ := []

/-- An array which a program passes to a method: one of its own, or `mesh.vertices`, `mesh.faces`. -/
inductive Src where
  | var (i : ℕ)
  | vertices (k : ℕ)
  | faces (k : ℕ)

/-- What a program does. -/
inductive Act where
  /-- `a = np.array(...)` -/
  | array (x : Arr)
  /-- `a[...] = ...`, on an array which the program has created -/
  | write (i : ℕ) (x : Arr)
  /-- `Mesh(vertices, faces)` -/
  | new (v f : Src)
  /-- `mesh.vertices = a` -/
  | setVertices (k : ℕ) (s : Src)
  /-- `mesh.faces = a` -/
  | setFaces (k : ℕ) (s : Src)
  /-- `mesh.copy()` -/
  | copy (k : ℕ)
  /-- `mesh1 + mesh2` -/
  | add (i j : ℕ)
  /-- `mesh.extract_faces(ids)` -/
  | extract (k : ℕ) (ids : List ℕ)
  /-- an operation or a query of a mesh -/
  | call (k : ℕ) (op : MeshObj.Op)
  /-- `mesh.vertices[...] = ...` -/
  | pokeVertices (k : ℕ) (l : List (V3 ℝ))
  /-- `mesh.faces[...] = ...` -/
  | pokeFaces (k : ℕ) (l : List Face)

namespace World

/-- The content of an array given where coordinates, or faces, are expected; `mesh.vertices` and `mesh.faces` return
the arrays themselves (mesh.py:608-626). Arrays of another shape are refused (mesh.py:409-410); the setters do not
check, other shapes are not modelled there. -/
def vecsArg (w : World) : Src → Except PyErr (List (V3 ℝ))
  | .var i =>
    match w.vars[i]? with
    | none => .error .nameError
    | some a =>
      match w.heap[a]? with
      | some (.vecs l) => .ok l
      | _ => .error .assertionError
  | .vertices k =>
    match w.meshes[k]? with
    | none => .error .nameError
    | some m => .ok (vecsAt w.heap m.v)
  | .faces k =>
    match w.meshes[k]? with
    | none => .error .nameError
    | some _ => .error .assertionError
def facesArg (w : World) : Src → Except PyErr (List Face)
  | .var i =>
    match w.vars[i]? with
    | none => .error .nameError
    | some a =>
      match w.heap[a]? with
      | some (.faces l) => .ok l
      | _ => .error .assertionError
  | .faces k =>
    match w.meshes[k]? with
    | none => .error .nameError
    | some m => .ok (facesAt w.heap m.f)
  | .vertices k =>
    match w.meshes[k]? with
    | none => .error .nameError
    | some _ => .error .assertionError

/-- `Mesh(vertices, faces)` (mesh.py:405-423): `np.array` makes two new arrays. -/
def newMesh (h : Heap) (v : List (V3 ℝ)) (f : List Face) : St :=
  (h ++ [.vecs v, .faces f], { v := h.length, f := h.length + 1 })

/-- `copy` (mesh.py:1502-1510): `copy.deepcopy` copies the arrays and `__internals__`. -/
def copyMesh (h : Heap) (m : MeshRef) : St :=
  match m.props with
  | none => (h ++ [.vecs (vecsAt h m.v), .faces (facesAt h m.f)], { m with v := h.length, f := h.length + 1 })
  | some p => (h ++ [.vecs (vecsAt h m.v), .faces (facesAt h m.f), .reals (realsAt h p.1), .vecs (vecsAt h p.2.1),
      .vecs (vecsAt h p.2.2)],
      { m with v := h.length, f := h.length + 1, props := some (h.length + 2, h.length + 3, h.length + 4) })

/-- A mesh is added to the program, or replaced after one of its methods. -/
def push (w : World) (s : St) : World := { w with heap := s.1, meshes := w.meshes ++ [s.2] }
def put (w : World) (k : ℕ) (s : St) : World := { w with heap := s.1, meshes := w.meshes.set k s.2 }

/-- One action. `__add__` (mesh.py:1475-1500) and `extract_faces` (mesh.py:846-885) build their result with the
constructor. -/
noncomputable def step (srt : (ℕ → ℝ) → List ℕ → List ℕ) (ord : List ℕ → List ℕ) (w : World) :
    Act → Except PyErr World
  | .array x => .ok { w with heap := w.heap ++ [x], vars := w.vars ++ [w.heap.length] }
  | .write i x =>
    match w.vars[i]? with
    | none => .error .nameError
    | some a => .ok { w with heap := w.heap.set a x }
  | .new v f => do
    let lv ← w.vecsArg v
    let lf ← w.facesArg f
    .ok (w.push (newMesh w.heap lv lf))
  | .setVertices k s => do
    let l ← w.vecsArg s
    match w.meshes[k]? with
    | none => .error .nameError
    | some m => .ok (w.put k ((St.storeV l (w.heap, m)).clear))
  | .setFaces k s => do
    let l ← w.facesArg s
    match w.meshes[k]? with
    | none => .error .nameError
    | some m => .ok (w.put k ((St.storeF l (w.heap, m)).clear))
  | .copy k =>
    match w.meshes[k]? with
    | none => .error .nameError
    | some m => .ok (w.push (copyMesh w.heap m))
  | .add i j =>
    match w.meshes[i]?, w.meshes[j]? with
    | some m, some n =>
      let c := Mesh.concat (view w.heap m).mesh (view w.heap n).mesh
      match (newMesh w.heap c.vertices c.faces).mergeDuplicates srt Mesh.defaultAtol with
      | .error e => .error e
      | .ok s => .ok (w.push s)
    | _, _ => .error .nameError
  | .extract k ids =>
    match w.meshes[k]? with
    | none => .error .nameError
    | some m =>
      match (view w.heap m).mesh.extractFaces ids with
      | .error e => .error e
      | .ok r => .ok (w.push (newMesh w.heap r.1.vertices r.1.faces))
  | .call k op =>
    match w.meshes[k]? with
    | none => .error .nameError
    | some m =>
      match St.step srt ord (w.heap, m) op with
      | .error e => .error e
      | .ok s => .ok (w.put k s)
  | .pokeVertices k l =>
    match w.meshes[k]? with
    | none => .error .nameError
    | some m =>
      if l.length = (view w.heap m).mesh.vertices.length then .ok (w.put k (St.writeV l (w.heap, m)))
      else .error .valueError
  | .pokeFaces k l =>
    match w.meshes[k]? with
    | none => .error .nameError
    | some m =>
      if l.length = (view w.heap m).mesh.faces.length then .ok (w.put k (St.writeF l (w.heap, m)))
      else .error .valueError

/-- A program. -/
noncomputable def run (srt : (ℕ → ℝ) → List ℕ → List ℕ) (ord : List ℕ → List ℕ) :
    List Act → World → Except PyErr World
  | [], w => .ok w
  | a :: as, w =>
    match w.step srt ord a with
    | .error e => .error e
    | .ok w' => run srt ord as w'

end World
end Alias
end MM
