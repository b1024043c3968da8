import Verif.Model.Connectivity
import Verif.Model.Plane

/-!
# Model of `meshmagick/mesh_clipper.py`

A `MeshClipper` is run by its constructor and its setters; `clip` is one run of `_update`
(mesh_clipper.py:106-111). Everything is over an ordered field.
-/

namespace MM

/-- What a run can raise. `above` and `below` are the two values of `err.args[1]` of the `RuntimeError` raised
when the mesh does not cross the plane; `unknownCase` is the `Exception` for an unhandled type of face;
`openCurve` the `RuntimeError` of `assert_closed_boundaries`; `py` anything else. -/
inductive ClipErr where
  | above
  | below
  | unknownCase
  | openCurve
  | py (e : PyErr)
deriving DecidableEq, Repr

namespace Clipper
variable {K : Type*} [Field K] [LinearOrder K]

/-- The three masks (mesh_clipper.py:120-124). A vertex at distance exactly `±tol` is in none of them. -/
def isAbove (tol d : K) : Bool := decide (d > tol)
def isOn (tol d : K) : Bool := decide (|d| < tol)
def isBelow (tol d : K) : Bool := decide (d < -tol)

/-- `_vertices_positions_wrt_plane` (mesh_clipper.py:113-136): the distances. -/
def vertexDists (p : Plane K) (tol : K) (m : Mesh K) : Except ClipErr (List K) :=
  let d := m.vertices.map p.dist
  if d.all (isAbove tol) then .error .above
  else if d.all (isBelow tol) then .error .below
  else .ok d

/-- `mask[source_mesh_faces].sum(axis=1) == 4` (mesh_clipper.py:153-159) for one face. -/
def allFour (mask : K → Bool) (dists : List K) (f : Face) : Bool :=
  (f.toList.filter (fun i => mask (dists.getD i 0))).length == 4

/-- `above_faces_ids`, `below_faces_ids`, `crown_faces_ids` (mesh_clipper.py:158-164). -/
def aboveIds (tol : K) (dists : List K) (m : Mesh K) : List ℕ :=
  (List.range m.nf).filter (fun k => allFour (isAbove tol) dists (m.faces.getD k ⟨0, 0, 0, 0⟩))
def belowIds (tol : K) (dists : List K) (m : Mesh K) : List ℕ :=
  (List.range m.nf).filter (fun k => allFour (isBelow tol) dists (m.faces.getD k ⟨0, 0, 0, 0⟩))
def crownIds (tol : K) (dists : List K) (m : Mesh K) : List ℕ :=
  (List.range m.nf).filter (fun k => !allFour (isAbove tol) dists (m.faces.getD k ⟨0, 0, 0, 0⟩) &&
    !allFour (isBelow tol) dists (m.faces.getD k ⟨0, 0, 0, 0⟩))

/-- The three meshes of `_partition_mesh` (mesh_clipper.py:138-186) and the distances of the crown vertices. -/
structure Partition (K : Type*) where
  upper : Mesh K
  crown : Mesh K
  lower : Mesh K
  crownDists : List K

/-- `_partition_mesh` (mesh_clipper.py:138-186). -/
def partition (tol : K) (dists : List K) (m : Mesh K) : Except PyErr (Partition K) := do
  let u ← m.extractFaces (aboveIds tol dists m)
  let c ← m.extractFaces (crownIds tol dists m)
  let l ← m.extractFaces (belowIds tol dists m)
  .ok ⟨u.1, c.1, l.1, c.2.map (fun i => dists.getD i 0)⟩

/-- `np.where(mask[face])[0]` (mesh_clipper.py:371-373). -/
def posOf (mask : K → Bool) (dists : List K) (face : List ℕ) : List ℕ :=
  (List.range face.length).filter (fun k => mask (dists.getD (face.getD k 0) 0))

/-- What the body of the loop does for one face: the lines appended to `crown_faces`, the points appended to
`intersections`, the value of `boundary_edge`, and by how much `index` grows. -/
structure FaceClip (K : Type*) where
  faces : List (List ℕ)
  pts : List (V3 K)
  edge : Option (ℕ × ℕ)
  step : ℕ
deriving DecidableEq, Repr

/-- `self._plane.get_edge_intersection(vertices[i], vertices[j])`. The NaN point returned when both ends are in
the plane is turned into an error here: it does not occur for `tol ≥ 0` since the ends are always on both sides. -/
def cut (p : Plane K) (verts : List (V3 K)) (i j : ℕ) : Except ClipErr (V3 K) :=
  match p.edgeIntersection (verts.getD i 0) (verts.getD j 0) with
  | .error e => .error (.py e)
  | .ok none => .error (.py .valueError)
  | .ok (some x) => .ok x

/-- The body of the loop over the crown faces (mesh_clipper.py:366-669). `face` is the result of `get_face`: three
or four vertex numbers; `np.roll(face, -k)` is `face.rotate k`. `p0, p1, p2 = vertices[face]` raises `ValueError`
when there are four numbers. `cutf` computes the intersection of an edge. The debug files written before raising on an unknown case are not modelled. -/
def clipFaceWith (cutf : ℕ → ℕ → Except ClipErr (V3 K)) (tol : K) (dists : List K) (index : ℕ) (face0 : List ℕ) :
    Except ClipErr (FaceClip K) :=
  let va := posOf (isAbove tol) dists face0
  let vo := posOf (isOn tol) dists face0
  let vb := posOf (isBelow tol) dists face0
  match va.length, vo.length, vb.length with
  | 2, 0, 2 =>
    let face := if va.getD 1 0 == va.getD 0 0 + 1 then face0.rotate (va.getD 1 0) else face0
    match cutf (face.getD 0 0) (face.getD 1 0), cutf (face.getD 2 0) (face.getD 3 0) with
    | .ok ileft, .ok iright =>
      .ok ⟨[[index, face.getD 1 0, face.getD 2 0, index + 1]], [ileft, iright], some (index, index + 1), 2⟩
    | .error e, _ => .error e
    | _, .error e => .error e
  | 3, 0, 1 =>
    let face := face0.rotate (vb.getD 0 0)
    match cutf (face.getD 0 0) (face.getD 3 0), cutf (face.getD 0 0) (face.getD 1 0) with
    | .ok ileft, .ok iright =>
      .ok ⟨[[index, face.getD 0 0, index + 1, index]], [ileft, iright], some (index, index + 1), 2⟩
    | .error e, _ => .error e
    | _, .error e => .error e
  | 1, 0, 3 =>
    let face := face0.rotate (va.getD 0 0)
    match cutf (face.getD 0 0) (face.getD 1 0), cutf (face.getD 0 0) (face.getD 3 0) with
    | .ok ileft, .ok iright =>
      .ok ⟨[[index, face.getD 1 0, face.getD 3 0, index + 1],
        [face.getD 1 0, face.getD 2 0, face.getD 3 0, face.getD 1 0]], [ileft, iright], some (index, index + 1), 2⟩
    | .error e, _ => .error e
    | _, .error e => .error e
  | 1, 0, 2 =>
    let face := face0.rotate (va.getD 0 0)
    if face.length ≠ 3 then .error (.py .valueError) else
    match cutf (face.getD 0 0) (face.getD 1 0), cutf (face.getD 0 0) (face.getD 2 0) with
    | .ok ileft, .ok iright =>
      .ok ⟨[[index, face.getD 1 0, face.getD 2 0, index + 1]], [ileft, iright], some (index, index + 1), 2⟩
    | .error e, _ => .error e
    | _, .error e => .error e
  | 2, 0, 1 =>
    let face := face0.rotate (vb.getD 0 0)
    if face.length ≠ 3 then .error (.py .valueError) else
    match cutf (face.getD 0 0) (face.getD 2 0), cutf (face.getD 0 0) (face.getD 1 0) with
    | .ok ileft, .ok iright =>
      .ok ⟨[[index, face.getD 0 0, index + 1, index]], [ileft, iright], some (index, index + 1), 2⟩
    | .error e, _ => .error e
    | _, .error e => .error e
  | 2, 1, 1 =>
    let face := face0.rotate (vo.getD 0 0)
    if dists.getD (face.getD 1 0) 0 < 0 then
      match cutf (face.getD 1 0) (face.getD 2 0) with
      | .error e => .error e
      | .ok iright => .ok ⟨[[face.getD 0 0, face.getD 1 0, index, face.getD 0 0]], [iright],
          some (face.getD 0 0, index), 1⟩
    else
      match cutf (face.getD 2 0) (face.getD 3 0) with
      | .error e => .error e
      | .ok ileft => .ok ⟨[[index, face.getD 3 0, face.getD 0 0, index]], [ileft], some (index, face.getD 0 0), 1⟩
  | 1, 1, 2 =>
    let face := face0.rotate (vo.getD 0 0)
    if dists.getD (face.getD 1 0) 0 < 0 then
      match cutf (face.getD 2 0) (face.getD 3 0) with
      | .error e => .error e
      | .ok iright => .ok ⟨[[face.getD 0 0, face.getD 1 0, face.getD 2 0, index]], [iright],
          some (face.getD 0 0, index), 1⟩
    else
      match cutf (face.getD 1 0) (face.getD 2 0) with
      | .error e => .error e
      | .ok ileft => .ok ⟨[[index, face.getD 2 0, face.getD 3 0, face.getD 0 0]], [ileft],
          some (index, face.getD 0 0), 1⟩
  | 0, 1, 3 => .ok ⟨[face0], [], none, 0⟩
  | 2, 1, 0 => .ok ⟨[], [], none, 0⟩
  | 3, 1, 0 => .ok ⟨[], [], none, 0⟩
  | 1, 1, 1 =>
    let face := face0.rotate (vo.getD 0 0)
    match cutf (face.getD 1 0) (face.getD 2 0) with
    | .error e => .error e
    | .ok x =>
      if dists.getD (face.getD 1 0) 0 < 0 then
        .ok ⟨[[face.getD 0 0, face.getD 1 0, index, face.getD 0 0]], [x], some (face.getD 0 0, index), 1⟩
      else
        .ok ⟨[[index, face.getD 2 0, face.getD 0 0, index]], [x], some (index, face.getD 0 0), 1⟩
  | 1, 2, 0 => .ok ⟨[], [], none, 0⟩
  | 0, 2, 1 =>
    let face := face0.rotate (vb.getD 0 0)
    .ok ⟨[face ++ [face.getD 0 0]], [], some (face.getD 2 0, face.getD 1 0), 0⟩
  | 0, 2, 2 =>
    let face := if vo.getD 1 0 == vo.getD 0 0 + 1 then face0.rotate (vo.getD 1 0) else face0
    .ok ⟨[face], [], some (face.getD 0 0, face.getD 3 0), 0⟩
  | 0, 1, 2 => .ok ⟨[face0 ++ [face0.getD 0 0]], [], none, 0⟩
  | 2, 2, 0 => .ok ⟨[], [], none, 0⟩
  | 1, 2, 1 =>
    let face := face0.rotate (va.getD 0 0)
    .ok ⟨[[face.getD 1 0, face.getD 2 0, face.getD 3 0, face.getD 1 0]], [],
      some (face.getD 1 0, face.getD 3 0), 0⟩
  | 3, 0, 0 => .ok ⟨[], [], none, 0⟩
  | 4, 0, 0 => .ok ⟨[], [], none, 0⟩
  | 0, 0, 3 => .ok ⟨[face0 ++ [face0.getD 0 0]], [], none, 0⟩
  | 0, 0, 4 => .ok ⟨[face0], [], none, 0⟩
  | 0, 3, 0 => .ok ⟨[], [], none, 0⟩
  | 0, 4, 0 => .ok ⟨[], [], none, 0⟩
  | _, _, _ => .error .unknownCase

/-- The body of the loop over the crown faces (mesh_clipper.py:366-669), with the intersections of `Plane`. -/
def clipFace (p : Plane K) (tol : K) (verts : List (V3 K)) (dists : List K) (index : ℕ) (face0 : List ℕ) :
    Except ClipErr (FaceClip K) := clipFaceWith (cut p verts) tol dists index face0

/-- The variables of the loop (mesh_clipper.py:358-364). -/
structure LoopState (K : Type*) where
  crownFaces : List (List ℕ)
  pts : List (V3 K)
  direct : List (ℕ × ℕ)
  inv : List (ℕ × ℕ)
  index : ℕ

/-- One iteration: the updates of mesh_clipper.py:366-674. -/
def LoopState.update (st : LoopState K) (r : FaceClip K) : LoopState K :=
  { crownFaces := st.crownFaces ++ r.faces
    pts := st.pts ++ r.pts
    direct := match r.edge with
      | none => st.direct
      | some e => dictSet st.direct e.1 e.2
    inv := match r.edge with
      | none => st.inv
      | some e => dictSet st.inv e.2 e.1
    index := st.index + r.step }

/-- The loop over the crown faces (mesh_clipper.py:366-674). -/
def clipLoop (p : Plane K) (tol : K) (verts : List (V3 K)) (dists : List K) :
    List Face → LoopState K → Except ClipErr (LoopState K)
  | [], st => .ok st
  | f :: fs, st =>
    match clipFace p tol verts dists st.index f.corners with
    | .error e => .error e
    | .ok r => clipLoop p tol verts dists fs (st.update r)

/-- A line of `crown_faces` as a line of a faces array. -/
def toFace : List ℕ → Option Face
  | [a, b, c, d] => some ⟨a, b, c, d⟩
  | _ => none

/-- `Mesh(vertices, crown_faces)` (mesh_clipper.py:676-679, mesh.py:409-413): an empty list of faces has no
`shape[1]` (`IndexError`); lines of another length than four do not make an array of four columns. -/
def mkMesh (verts : List (V3 K)) (faces : List (List ℕ)) : Except PyErr (Mesh K) :=
  if faces = [] then .error .indexError
  else
    match mapE (fun l => match toFace l with
      | none => Except.error PyErr.valueError
      | some f => .ok f) faces with
    | .error e => .error e
    | .ok fs => .ok ⟨verts, fs⟩

/-- `dict(zip(new_id[keys], new_id[values]))` (mesh_clipper.py:678-681). -/
def remap (newId : List ℕ) (d : List (ℕ × ℕ)) : List (ℕ × ℕ) :=
  (d.map (fun e => (newId.getD e.1 0, newId.getD e.2 0))).foldl (fun d e => dictSet d e.1 e.2) []

/-- The inner loop that prolongs an open line backwards (mesh_clipper.py:701-710): the vertices appended to
`queue`, and the remaining edges. -/
def queueBack : ℕ → List (ℕ × ℕ) → List (ℕ × ℕ) → ℕ → List ℕ × List (ℕ × ℕ)
  | 0, d, _, _ => ([], d)
  | fuel + 1, d, inv, v0 =>
    match inv.find? (fun e => e.1 == v0) with
    | none => ([], d)
    | some e =>
      match dictPop d e.2 with
      | none => ([], d)
      | some (_, d') => let r := queueBack fuel d' inv e.2; (e.2 :: r.1, r.2)

/-- The loop that orders the edges in lines (mesh_clipper.py:683-746): `closed_polygons` and `open_lines`. `fuel`
bounds the number of lines, each of which consumes an edge. -/
def extractLines (inv : List (ℕ × ℕ)) : ℕ → List (ℕ × ℕ) → List (List ℕ) × List (List ℕ)
  | 0, _ => ([], [])
  | fuel + 1, d =>
    match d.getLast? with
    | none => ([], [])
    | some (v0, v1) =>
      let r := follow d.length d.dropLast v1
      let line := v0 :: v1 :: r.1
      if line.getLastD v0 ≠ v0 then
        let q := queueBack r.2.length r.2 inv v0
        let rest := extractLines inv fuel q.2
        (rest.1, (q.1.reverse ++ line) :: rest.2)
      else
        let rest := extractLines inv fuel r.2
        (line :: rest.1, rest.2)

/-- What a run leaves in `__internals__`. -/
structure Clipped (K : Type*) where
  upper : Mesh K
  crown : Mesh K
  lower : Mesh K
  clippedCrown : Mesh K
  closedPolygons : List (List ℕ)
  openLines : List (List ℕ)
  clipped : Mesh K
deriving DecidableEq

/-- The result of the loop and of the merge (mesh_clipper.py:337-681): the clipped crown and the two dicts. -/
def clipCrown (srt : (ℕ → K) → List ℕ → List ℕ) (p : Plane K) (tol : K) (crown : Mesh K) (dists : List K) :
    Except ClipErr (Mesh K × List (ℕ × ℕ) × List (ℕ × ℕ)) :=
  match clipLoop p tol crown.vertices dists crown.faces ⟨[], [], [], [], crown.nv⟩ with
  | .error e => .error e
  | .ok st =>
    match mkMesh (crown.vertices ++ st.pts) st.crownFaces with
    | .error e => .error (.py e)
    | .ok cm =>
      match cm.mergeDuplicates srt (1 / 100000) with
      | .error e => .error (.py e)
      | .ok (cm', newId) => .ok (cm', remap newId st.direct, remap newId st.inv)

/-- One run of the clipper: `_update` (mesh_clipper.py:106-111), with the flag `assert_closed_boundaries`. -/
def clip (srt : (ℕ → K) → List ℕ → List ℕ) (p : Plane K) (tol : K) (assertClosed : Bool) (m : Mesh K) :
    Except ClipErr (Clipped K) :=
  match vertexDists p tol m with
  | .error e => .error e
  | .ok dists =>
    match partition tol dists m with
    | .error e => .error (.py e)
    | .ok part =>
      match clipCrown srt p tol part.crown part.crownDists with
      | .error e => .error e
      | .ok (cm, direct, inv) =>
        let lines := extractLines inv direct.length direct
        if assertClosed && !lines.2.isEmpty then .error .openCurve
        else
          match Mesh.add srt part.lower cm with
          | .error e => .error (.py e)
          | .ok c => .ok ⟨part.upper, part.crown, part.lower, cm, lines.1, lines.2, c⟩

end Clipper
end MM
