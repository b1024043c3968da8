import Verif.Model.Clipper
import Verif.Model.MergeFl
import Verif.Model.PlaneFl

/-!
# Model of a run of the clipper in floating point

The same as `Verif.Model.Clipper`, where every arithmetic operation is followed by a rounding `rnd`, and the scalar products
are computed by functions `dot` (of two vectors) and `dot'` (of the array of vertices and a vector). The literals `1e-5` and
`1e-8` are rounded as well. The tolerance `tol` is a floating point number. There is neither overflow nor NaN.
-/

namespace MM

variable {K : Type*} [Field K] [LinearOrder K]

/-- `merge_duplicates(atol, return_index=True)` (mesh.py:1512-1558) with a rounded subtraction; see
`Mesh.mergeDuplicates`. -/
def Mesh.mergeDuplicatesFl (rnd : K → K) (srt : (ℕ → K) → List ℕ → List ℕ) (atol : K) (m : Mesh K) :
    Except PyErr (Mesh K × List ℕ) :=
  match mergeDuplicateRowsFl rnd srt atol (m.vertices.map V3.coord) with
  | .error e => .error e
  | .ok r =>
    if m.faces.all (fun f => f.toList.all (fun i => decide (i < m.nv))) then
      .ok (⟨r.rows.map V3.ofCoord, m.faces.map (Face.map (fun i => r.newID.getD i 0))⟩, r.newID)
    else .error .indexError

/-- `__add__` (mesh.py:1475-1500). -/
def Mesh.addFl (rnd : K → K) (srt : (ℕ → K) → List ℕ → List ℕ) (m n : Mesh K) : Except PyErr (Mesh K) :=
  (mergeDuplicatesFl rnd srt (rnd defaultAtol) (concat m n)).map Prod.fst

namespace Clipper

/-- `self._plane.get_edge_intersection(vertices[i], vertices[j])` with roundings; see `cut`. -/
def cutFl (rnd : K → K) (dot : V3 K → V3 K → K) (p : Plane K) (verts : List (V3 K)) (i j : ℕ) : Except ClipErr (V3 K) :=
  match p.edgeIntersectionFl rnd dot (verts.getD i 0) (verts.getD j 0) with
  | .error e => .error (.py e)
  | .ok none => .error (.py .valueError)
  | .ok (some x) => .ok x

/-- The loop over the crown faces (mesh_clipper.py:366-674), `cutf` computing the intersections. -/
def clipLoopWith (cutf : ℕ → ℕ → Except ClipErr (V3 K)) (tol : K) (dists : List K) :
    List Face → LoopState K → Except ClipErr (LoopState K)
  | [], st => .ok st
  | f :: fs, st =>
    match clipFaceWith cutf tol dists st.index f.corners with
    | .error e => .error e
    | .ok r => clipLoopWith cutf tol dists fs (st.update r)

/-- The result of the loop and of the merge (mesh_clipper.py:337-681) with roundings; see `clipCrown`. -/
def clipCrownFl (rnd : K → K) (dot : V3 K → V3 K → K) (srt : (ℕ → K) → List ℕ → List ℕ) (p : Plane K) (tol : K)
    (crown : Mesh K) (dists : List K) : Except ClipErr (Mesh K × List (ℕ × ℕ) × List (ℕ × ℕ)) :=
  match clipLoopWith (cutFl rnd dot p crown.vertices) tol dists crown.faces ⟨[], [], [], [], crown.nv⟩ with
  | .error e => .error e
  | .ok st =>
    match mkMesh (crown.vertices ++ st.pts) st.crownFaces with
    | .error e => .error (.py e)
    | .ok cm =>
      match cm.mergeDuplicatesFl rnd srt (rnd (1 / 100000)) with
      | .error e => .error (.py e)
      | .ok (cm', newId) => .ok (cm', remap newId st.direct, remap newId st.inv)

/-- One run of the clipper: `_update` (mesh_clipper.py:106-111) with roundings; see `clip`. -/
def clipFl (rnd : K → K) (dot dot' : V3 K → V3 K → K) (srt : (ℕ → K) → List ℕ → List ℕ) (p : Plane K) (tol : K)
    (assertClosed : Bool) (m : Mesh K) : Except ClipErr (Clipped K) :=
  match vertexDistsFl rnd dot' p tol m with
  | .error e => .error e
  | .ok dists =>
    match partition tol dists m with
    | .error e => .error (.py e)
    | .ok part =>
      match clipCrownFl rnd dot srt p tol part.crown part.crownDists with
      | .error e => .error e
      | .ok (cm, direct, inv) =>
        let lines := extractLines inv direct.length direct
        if assertClosed && !lines.2.isEmpty then .error .openCurve
        else
          match Mesh.addFl rnd srt part.lower cm with
          | .error e => .error (.py e)
          | .ok c => .ok ⟨part.upper, part.crown, part.lower, cm, lines.1, lines.2, c⟩

end Clipper
end MM
