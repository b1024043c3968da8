import Verif.Model.Mesh

/-!
# Model of `Mesh._connectivity` and of what is derived from it (mesh.py:926-1199)

A Python set of ids is a list without repetition, in order of insertion.  The order in which Python iterates
over a set is not specified: it is the parameter `ord`, of which the theorems only assume that it returns the
elements of the set in some order.  A Python dict (insertion order, `popitem` from the end) is an association
list.
-/

namespace MM

/-- `set.add` -/
def sadd (s : List ℕ) (x : ℕ) : List ℕ := if x ∈ s then s else s ++ [x]

/-- `d[k].add(x)` for a dict of sets -/
def dadd (d : ℕ → List ℕ) (k x : ℕ) : ℕ → List ℕ := fun i => if i = k then sadd (d i) x else d i

/-- `for (index, iV) in enumerate(face_w)`: the pairs `(face_w[index - 1], iV)` (mesh.py:947-954). -/
def Face.prevPairs (f : Face) : List (ℕ × ℕ) :=
  if f.isTri then [(f.c, f.a), (f.a, f.b), (f.b, f.c)]
  else [(f.d, f.a), (f.a, f.b), (f.b, f.c), (f.c, f.d)]

/-- The iterations of the two nested loops of mesh.py:946-954: previous corner, corner, face. -/
def cornerVisits (faces : List Face) : List (ℕ × ℕ × ℕ) :=
  faces.zipIdx.flatMap (fun fk => fk.1.prevPairs.map (fun pi => (pi.1, pi.2, fk.2)))

/-- `v_f` (mesh.py:945, 952); keys out of range raise, see `connectivity`. -/
def buildVF (faces : List Face) : ℕ → List ℕ :=
  (cornerVisits faces).foldl (fun vf t => dadd vf t.2.1 t.2.2) (fun _ => [])

/-- `v_v` (mesh.py:944, 953-954) -/
def buildVV (faces : List Face) : ℕ → List ℕ :=
  (cornerVisits faces).foldl (fun vv t => dadd (dadd vv t.1 t.2.1) t.2.1 t.1) (fun _ => [])

/-- The iterations `(ivertex, iadj_v)` of mesh.py:960-962. -/
def adjVisits (ord : List ℕ → List ℕ) (nv : ℕ) (vv : ℕ → List ℕ) : List (ℕ × ℕ) :=
  (List.range nv).flatMap (fun i => (ord (vv i)).map (fun j => (i, j)))

/-- What one iteration does: adds a pair of adjacent faces, or a boundary edge `orig → target`. -/
inductive ConnAct where
  | adj (f g : ℕ)
  | bnd (orig target : ℕ)
  deriving DecidableEq

/-- `np.where((face == i) + (face == j))[0]` (mesh.py:974) -/
def whereIds (l : List ℕ) (i j : ℕ) : List ℕ :=
  (List.range l.length).filter (fun k => l.getD k 0 == i || l.getD k 0 == j)

/-- Orientation of a boundary edge (mesh.py:970-979). `ids[1]` raises `IndexError` when there are less than
two ids, unpacking raises `ValueError` when there are more than two. -/
def boundaryEdge (f : Face) (i j : ℕ) : Except PyErr (ℕ × ℕ) :=
  match whereIds f.corners i j with
  | [] => .error .indexError
  | [_] => .error .indexError
  | [p, q] =>
    if q ≠ p + 1 then .ok (f.corners.getD p 0, f.corners.getD q 0)
    else .ok (f.corners.getD q 0, f.corners.getD p 0)
  | _ => .error .valueError

/-- Body of the loop (mesh.py:961-983), up to the updates. -/
def connClassify (ord : List ℕ → List ℕ) (faces : List Face) (vf : ℕ → List ℕ) (ij : ℕ × ℕ) :
    Except PyErr ConnAct :=
  match ord ((vf ij.1).filter (· ∈ vf ij.2)) with
  | [f, g] => .ok (.adj f g)
  | [k] => do
    let e ← boundaryEdge (faces.getD k ⟨0, 0, 0, 0⟩) ij.1 ij.2
    .ok (.bnd e.1 e.2)
  | _ => .error .runtimeError

/-- A loop that may raise. -/
def mapE {α β ε : Type*} (g : α → Except ε β) : List α → Except ε (List β)
  | [] => .ok []
  | a :: l =>
    match g a with
    | .error e => .error e
    | .ok b =>
      match mapE g l with
      | .error e => .error e
      | .ok bs => .ok (b :: bs)

/-- `f_f[..].add(..)` (mesh.py:966-967) -/
def addAdj (ff : ℕ → List ℕ) : ConnAct → (ℕ → List ℕ)
  | .adj f g => dadd (dadd ff f g) g f
  | .bnd _ _ => ff

/-- `d[k] = v`: an existing key keeps its position. -/
def dictSet (d : List (ℕ × ℕ)) (k v : ℕ) : List (ℕ × ℕ) :=
  if d.any (fun e => e.1 == k) then d.map (fun e => if e.1 = k then (k, v) else e) else d ++ [(k, v)]

/-- `boundary_edges[i_v_orig] = i_v_target` (mesh.py:981) -/
def addBnd (d : List (ℕ × ℕ)) : ConnAct → List (ℕ × ℕ)
  | .adj _ _ => d
  | .bnd o t => dictSet d o t

/-- `d.pop(k)`; `none` is `KeyError`. -/
def dictPop (d : List (ℕ × ℕ)) (k : ℕ) : Option (ℕ × List (ℕ × ℕ)) :=
  (d.find? (fun e => e.1 == k)).map (fun e => (e.2, d.filter (fun e => e.1 != k)))

/-- The inner loop (mesh.py:996-1006): the vertices appended to `boundary` and the remaining edges.  `fuel`
is the number of edges left, which decreases at each iteration (`follow_fuel`). -/
def follow : ℕ → List (ℕ × ℕ) → ℕ → List ℕ × List (ℕ × ℕ)
  | 0, d, _ => ([], d)
  | fuel + 1, d, v =>
    match dictPop d v with
    | none => ([], d)
    | some (w, d') => let r := follow fuel d' w; (w :: r.1, r.2)

/-- The outer loop (mesh.py:986-1008): open chains are dropped. -/
def extractBoundaries : ℕ → List (ℕ × ℕ) → List (List ℕ)
  | 0, _ => []
  | fuel + 1, d =>
    match d.getLast? with
    | none => []
    | some (v0, v1) =>
      let r := follow d.length d.dropLast v1
      let boundary := v0 :: v1 :: r.1
      if boundary.getLastD v0 = v0 then boundary :: extractBoundaries fuel r.2
      else extractBoundaries fuel r.2

/-- What `_connectivity` stores. -/
structure Conn where
  vv : ℕ → List ℕ
  vf : ℕ → List ℕ
  ff : ℕ → List ℕ
  /-- the dict `boundary_edges` before the boundaries are extracted; not stored by the code -/
  edges : List (ℕ × ℕ)
  boundaries : List (List ℕ)

/-- `_connectivity` (mesh.py:926-1019). `v_v[...]`, `v_f[...]` raise `KeyError` for an index that is not a
vertex. The loop bodies are separated from their updates: an exception leaves nothing stored. -/
def connectivity (ord : List ℕ → List ℕ) (nv : ℕ) (faces : List Face) : Except PyErr Conn :=
  if faces.all (fun f => f.corners.all (· < nv)) then
    let vv := buildVV faces
    let vf := buildVF faces
    match mapE (connClassify ord faces vf) (adjVisits ord nv vv) with
    | .error e => .error e
    | .ok acts =>
      let ff := acts.foldl addAdj (fun _ => [])
      let edges := acts.foldl addBnd []
      .ok ⟨vv, vf, ff, edges, extractBoundaries edges.length edges⟩
  else .error .keyError

/-- `is_mesh_closed` (mesh.py:1135-1145) -/
def Conn.isClosed (c : Conn) : Bool := c.boundaries.length == 0

/-- `((np.roll(b, -1) - b) * (np.roll(a, -1) + a)).sum()` (mesh.py:1186-1194) -/
def rollArea {K : Type*} [CommRing K] (a b : List K) : K :=
  (List.zipWith (· * ·) (List.zipWith (· - ·) (b.rotate 1) b) (List.zipWith (· + ·) (a.rotate 1) a)).sum

/-- The three areas computed for one boundary (mesh.py:1170-1194): note the columns read in the second and
third projections. -/
def boundaryAreas {K : Type*} [CommRing K] (m : Mesh K) (boundary : List ℕ) : K × K × K :=
  let bv := boundary.map m.vert
  let proj0 := bv.map (Plane.project ⟨⟨0, 0, 1⟩, 0⟩)
  let proj1 := bv.map (Plane.project ⟨⟨1, 0, 0⟩, 0⟩)
  let proj2 := bv.map (Plane.project ⟨⟨0, 1, 0⟩, 0⟩)
  (rollArea (proj0.map (·.x)) (proj0.map (·.y)),
   rollArea (proj1.map (·.y)) (proj1.map (·.x)),
   rollArea (proj2.map (·.y)) (proj2.map (·.x)))

/-- `is_mesh_conformal` (mesh.py:1147-1199) given `boundaries`: the `return` is inside the loop, so only the
first boundary is examined, and without boundary the function returns `None`. -/
def isConformal {K : Type*} [CommRing K] [LinearOrder K] (tol : K) (m : Mesh K) (boundaries : List (List ℕ)) :
    Option Bool :=
  match boundaries with
  | [] => none
  | b :: _ =>
    let a := boundaryAreas m b
    some (!(decide (|a.1| < tol) && decide (|a.2.1| < tol) && decide (|a.2.2| < tol)))

end MM
