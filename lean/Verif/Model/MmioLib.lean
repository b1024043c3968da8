import Verif.Model.MmioIds
import Verif.Model.Merge

/-!
# Model of `meshmagick/mmio.py`: loaders which call a library

`load_VTU`, `load_VTP`, `load_VTK`, `load_OBJ`, `load_STL` (vtk), `load_MED` (h5py), `load_MSH41` (gmshparser). What the library
returns is an argument; what is done with it is modelled.
-/

namespace MM.Io

open MM

/-! ### vtk -/

/-- What a reader of vtk returns: the points, and the points of each cell. -/
structure VtkData where
  points : List (V3 ℚ)
  cells : List (List ℕ)

/-- mmio.py:609-616, `_dump_vtk`: the row of a cell, on a row of four zeros; the fifth point raises `IndexError`. -/
def dumpRow : List ℕ → Except PyErr Face
  | [] => .ok ⟨0, 0, 0, 0⟩
  | [a] => .ok ⟨a, 0, 0, 0⟩
  | [a, b] => .ok ⟨a, b, 0, 0⟩
  | [a, b, c] => .ok ⟨a, b, c, a⟩
  | [a, b, c, d] => .ok ⟨a, b, c, d⟩
  | _ => .error .indexError

/-- `_dump_vtk` (mmio.py:590-618), hence `load_VTU`, `load_VTP`, `load_VTK`, `load_OBJ` (mmio.py:462-587). -/
def dumpVtk (d : VtkData) : Except PyErr (Mesh ℚ) :=
  match mapAll dumpRow d.cells with
  | .error e => .error e
  | .ok fs => .ok ⟨d.points, fs⟩

/-! ### STL -/

/-- What the STL reader of vtk returns: the points, and the three points of each cell (`none`: no cell). -/
structure StlData where
  points : List (V3 ℚ)
  cells : List (Option (ℕ × ℕ × ℕ))

/-- mmio.py:657-664: the row of a cell. -/
def stlRow : Option (ℕ × ℕ × ℕ) → Face
  | some (i, j, k) => ⟨i, j, k, i⟩
  | none => ⟨0, 0, 0, 0⟩

/-- mmio.py:668: `new_id[i]`. -/
def newIdOf (ids : List ℕ) (i : ℕ) : Except PyErr ℕ :=
  match ids[i]? with
  | some j => .ok j
  | none => .error .indexError

/-- mmio.py:668: `new_id[faces]`, for a row. -/
def newFace (ids : List ℕ) (f : Face) : Except PyErr Face :=
  match newIdOf ids f.a, newIdOf ids f.b, newIdOf ids f.c, newIdOf ids f.d with
  | .ok a, .ok b, .ok c, .ok d => .ok ⟨a, b, c, d⟩
  | _, _, _, _ => .error .indexError

/-- `load_STL` (mmio.py:622-672). The tolerance is the default one of `merge_duplicate_rows` (tools.py:6). -/
def loadSTL (srt : (ℕ → ℚ) → List ℕ → List ℕ) (d : StlData) : Except PyErr (Mesh ℚ) :=
  match mergeDuplicateRows srt (1 / 100000000) (d.points.map V3.coord) with
  | .error e => .error e
  | .ok r =>
    match mapAll (newFace r.newID) (d.cells.map stlRow) with
    | .error e => .error e
    | .ok fs => .ok ⟨r.rows.map V3.ofCoord, fs⟩

/-! ### MED -/

/-- An entry of a MED file: the coordinates of the nodes (`/NOE/COO`), the nodes of the triangles (`/MAI/TR3/NOD`) or of the
quadrangles (`/MAI/QU4/NOD`), anything else. -/
inductive MedItem where
  | coo (xs : List ℚ)
  | tr3 (is : List ℤ)
  | qu4 (is : List ℤ)
  | other

/-- `xs.reshape((k, -1)).T`: row `i` is `xs[i], xs[n + i], …` where `n` is the length divided by `k`. `ValueError` when it is
not a multiple. -/
def reshapeT {α : Type} [Inhabited α] (k : ℕ) (xs : List α) : Except PyErr (List (List α)) :=
  if xs.length % k ≠ 0 then .error .valueError
  else .ok ((List.range (xs.length / k)).map fun i => (List.range k).map fun j => xs[j * (xs.length / k) + i]!)

/-- The variables of the loop of `load_MED`. -/
structure MedState where
  vertices : Option (List (List ℚ)) := none
  triangles : List (List ℤ) := []
  quadrangles : List (List ℤ) := []

/-- One turn of the loop (mmio.py:987-997). -/
def medStep (s : MedState) : MedItem → Except PyErr MedState
  | .coo xs => match reshapeT 3 xs with
    | .error e => .error e
    | .ok r => .ok { s with vertices := some r }
  | .tr3 is => match reshapeT 3 is with
    | .error e => .error e
    | .ok r => .ok { s with triangles := r.map fun l => l.map (· - 1) }
  | .qu4 is => match reshapeT 4 is with
    | .error e => .error e
    | .ok r => .ok { s with quadrangles := r.map fun l => l.map (· - 1) }
  | .other => .ok s

/-- The loop (mmio.py:987-997). -/
def medLoop : MedState → List MedItem → Except PyErr MedState
  | s, [] => .ok s
  | s, i :: is => match medStep s i with
    | .error e => .error e
    | .ok s => medLoop s is

/-- `load_MED` (mmio.py:954-1011) from the entries of the file, in the order of the visit. -/
def loadMED (items : List MedItem) : Except PyErr Loaded :=
  match medLoop {} items with
  | .error e => .error e
  | .ok s =>
    match s.vertices with
    | none => .error .nameError
    | some vs => .ok ⟨vs, s.triangles.map (fun t => t ++ t.take 1) ++ s.quadrangles⟩

/-! ### GMSH 4 -/

/-- What gmshparser returns: for each entity, its nodes with their tags, and its type of elements with their nodes. -/
structure GmshData where
  nodes : List (List (ℕ × V3 ℚ))
  elements : List (ℕ × List (List ℤ))

/-- mmio.py:900-907: the rows of an entity. -/
def msh41Rows : ℕ × List (List ℤ) → List (List ℤ)
  | (t, els) => if t = 2 then els.map (fun e => e ++ e.take 1) else if t = 3 then els else []

/-- `load_MSH41` (mmio.py:882-911). The vertices are given as a list. -/
def loadMSH41 (d : GmshData) : Loaded :=
  ⟨d.nodes.flatMap (fun e => e.map fun n => [n.2.x, n.2.y, n.2.z]), minusOne (d.elements.flatMap msh41Rows)⟩

end MM.Io
