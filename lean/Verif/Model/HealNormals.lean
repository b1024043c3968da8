import Verif.Model.Connectivity
import Verif.Model.FaceProps

/-!
# Model of `Mesh.heal_normals` (mesh.py:1560-1679)

`ord` is the iteration order of Python sets, as in `Verif.Model.Connectivity`.
-/

namespace MM

/-- The variables of the flooding loop. The top of the stack is the head of the list. -/
structure FloodState where
  ff : ℕ → List ℕ
  faces : List Face
  vis : ℕ → Bool
  stack : List ℕ

/-- `np.roll(face[:type], -np.where(face == v)[0][0])` (mesh.py:1621-1622); `type` is 3 for the triangles and
4 for the others (mesh.py:1581-1583). -/
def cellRef (f : Face) (v : ℕ) : List ℕ := f.corners.rotate (f.toList.idxOf v)

/-- The test that decides whether the adjacent face is reversed (mesh.py:1621-1629). -/
def needsFlip (face adj : Face) (v1 v2 : ℕ) : Bool :=
  if (cellRef face v1).getD 1 0 = v2 then decide ((cellRef adj v1).getD 1 0 = v2)
  else decide ((cellRef adj v1).getLastD 0 = v2)

/-- `s1 & s2` (mesh.py:1600, 1611-1613) -/
def commonVertices (face adj : Face) : List ℕ := face.toList.dedup.filter (· ∈ adj.toList)

/-- One iteration of the inner loop (mesh.py:1602-1635). -/
def floodAdj (ord : List ℕ → List ℕ) (iface : ℕ) (face : Face) (st : FloodState) (iadj : ℕ) :
    Except PyErr FloodState :=
  if st.vis iadj then .ok st
  else if iface ∈ st.ff iadj then
    let vis := fun k => if k = iadj then true else st.vis k
    let ff := fun k => if k = iadj then (st.ff k).erase iface else st.ff k
    let adj := st.faces.getD iadj ⟨0, 0, 0, 0⟩
    match ord (commonVertices face adj) with
    | [v1, v2] =>
      .ok ⟨ff, if needsFlip face adj v1 v2 then st.faces.set iadj adj.flip else st.faces, vis, iadj :: st.stack⟩
    | _ => .ok ⟨ff, st.faces, vis, st.stack⟩
  else .error .keyError

/-- The inner loop. -/
def floodLoop (ord : List ℕ → List ℕ) (iface : ℕ) (face : Face) : List ℕ → FloodState → Except PyErr FloodState
  | [], st => .ok st
  | g :: gs, st =>
    match floodAdj ord iface face st g with
    | .error e => .error e
    | .ok st' => floodLoop ord iface face gs st'

/-- The body of the outer loop once a face is on the stack (mesh.py:1598-1635). -/
def floodPop (ord : List ℕ → List ℕ) (st : FloodState) (iface : ℕ) (rest : List ℕ) : Except PyErr FloodState :=
  floodLoop ord iface (st.faces.getD iface ⟨0, 0, 0, 0⟩) (ord (st.ff iface)) { st with stack := rest }

/-- The outer loop (mesh.py:1589-1635). `fuel` bounds the number of iterations; `flood_spec` shows that the
loop always ends by its `break`. -/
def flood (ord : List ℕ → List ℕ) (nf : ℕ) : ℕ → FloodState → Except PyErr FloodState
  | 0, st => .ok st
  | fuel + 1, st =>
    match st.stack with
    | iface :: rest =>
      match floodPop ord st iface rest with
      | .error e => .error e
      | .ok st' => flood ord nf fuel st'
    | [] =>
      match (List.range nf).find? (fun k => !st.vis k) with
      | none => .ok st
      | some k =>
        match floodPop ord { st with vis := fun i => if i = k then true else st.vis i } k [] with
        | .error e => .error e
        | .ok st' => flood ord nf fuel st'

/-- First part of `heal_normals` (mesh.py:1565-1644) given the (cached) face adjacency: the new faces and the
modified adjacency, which stays in the cache. `f_vis[0]` raises `IndexError` when there is no face. -/
def healFlood (ord : List ℕ → List ℕ) (ff : ℕ → List ℕ) (faces : List Face) :
    Except PyErr (List Face × (ℕ → List ℕ)) :=
  if faces.length = 0 then .error .indexError
  else
    match flood ord faces.length (faces.length + 1) ⟨ff, faces, fun k => k == 0, [0]⟩ with
    | .error e => .error e
    | .ok st => .ok (st.faces, st.ff)

/-- `np.max(self._vertices[:, 2])` (mesh.py:1648) -/
noncomputable def Mesh.zmax (m : Mesh ℝ) : ℝ :=
  match m.vertices with
  | [] => 0
  | v :: vs => vs.foldl (fun z w => max z w.z) v.z

/-- `hs[2]` (mesh.py:1655) -/
noncomputable def Mesh.outwardTest (m : Mesh ℝ) : ℝ :=
  (m.facesProperties.map (fun p => (p.center.z - m.zmax) * p.area * p.normal.z)).sum

open Classical in
/-- `heal_normals` (mesh.py:1560-1679) given the cached adjacency and whether there is no boundary; the new mesh
and the adjacency left in the cache. The face properties used by the outward test are taken to be those of the
mesh: when they were cached before the call they may be stale. -/
noncomputable def healNormals (ord : List ℕ → List ℕ) (ff : ℕ → List ℕ) (closed : Bool) (m : Mesh ℝ) :
    Except PyErr (Mesh ℝ × (ℕ → List ℕ)) :=
  match healFlood ord ff m.faces with
  | .error e => .error e
  | .ok (faces, ff') =>
    let m1 : Mesh ℝ := ⟨m.vertices, faces⟩
    if closed then
      if m1.outwardTest < 0 then .ok (m1.flipNormals, ff') else .ok (m1, ff')
    else .ok (m1, ff')

/-- `heal_normals` on a mesh whose connectivity is not cached. -/
noncomputable def healNormalsFresh (ord : List ℕ → List ℕ) (m : Mesh ℝ) :
    Except PyErr (Mesh ℝ × (ℕ → List ℕ)) :=
  match connectivity ord m.nv m.faces with
  | .error e => .error e
  | .ok c => healNormals ord c.ff c.isClosed m

end MM
