import Verif.Model.Mmio

/-!
# Model of `meshmagick/mmio.py`: node identifiers in loaders

The cutting of the files into sections and lines, done with regular expressions, is not modelled: the functions start from
the words of the node lines and of the element lines.
-/

namespace MM.Io

open MM

/-! ### DAT -/

/-- `node_dict` after the loop of `load_DAT` (mmio.py:197-201): `node_dict[node_split[0]] = inode`, the last one wins. -/
def nodeDict (ids : List Str) (w : Str) : Option ℕ :=
  ids.zipIdx.foldl (fun acc p => if p.1 = w then some p.2 else acc) none

/-- `node_dict[w]` (mmio.py:216-219, 233-236). -/
def lookup (ids : List Str) (w : Str) : Except PyErr ℕ :=
  match nodeDict ids w with
  | some i => .ok i
  | none => .error .keyError

/-- mmio.py:212-222: a triangle line. -/
def datTriangle (ids : List Str) (ws : List Str) : Except PyErr Face :=
  match ws with
  | _ :: a :: b :: c :: _ =>
    match lookup ids a, lookup ids b, lookup ids c with
    | .ok i, .ok j, .ok k => .ok ⟨i, j, k, i⟩
    | _, _, _ => .error .keyError
  | _ => .error .indexError

/-- mmio.py:229-239: a quadrangle line. -/
def datQuad (ids : List Str) (ws : List Str) : Except PyErr Face :=
  match ws with
  | _ :: a :: b :: c :: d :: _ =>
    match lookup ids a, lookup ids b, lookup ids c, lookup ids d with
    | .ok i, .ok j, .ok k, .ok l => .ok ⟨i, j, k, l⟩
    | _, _, _, _ => .error .keyError
  | _ => .error .indexError

/-- A function which may fail, on all the elements of a list. -/
def mapAll {α β : Type} (p : α → Except PyErr β) : List α → Except PyErr (List β)
  | [] => .ok []
  | a :: as =>
    match p a with
    | .error e => .error e
    | .ok b =>
      match mapAll p as with
      | .error e => .error e
      | .ok bs => .ok (b :: bs)

/-- `load_DAT` (mmio.py:196-243) from the node lines (identifier, coordinates) and the words of the element lines. -/
def loadDAT (nodes : List (Str × V3 ℚ)) (tris quads : List (List Str)) : Except PyErr (Mesh ℚ) :=
  match mapAll (datTriangle (nodes.map Prod.fst)) tris with
  | .error e => .error e
  | .ok ts =>
    match mapAll (datQuad (nodes.map Prod.fst)) quads with
    | .error e => .error e
    | .ok qs => .ok ⟨nodes.map Prod.snd, ts ++ qs⟩

/-! ### Loaders which do not read the identifiers: HST, RAD, MSH -/

/-- `load_HST` (mmio.py:145-175, one node section and one element section), `load_RAD` (mmio.py:92-104), `load_MSH22`
(mmio.py:861-877, triangles are closed by the caller): the first column of the node lines is dropped, and the numbers of the
elements, minus one, are taken for positions. -/
def loadDropIds (nodes : List (ℕ × V3 ℚ)) (elems : List (List ℤ)) : List (V3 ℚ) × List (List ℤ) :=
  (nodes.map Prod.snd, minusOne elems)

/-- One element line of `load_MSH22` (mmio.py:866-875): the last three numbers of a triangle, closed, or the last four
numbers of a quadrangle. -/
def mshElem (tri : Bool) (ws : List ℤ) : List ℤ :=
  if tri then
    let t := ws.drop (ws.length - 3)
    t ++ t.take 1
  else ws.drop (ws.length - 4)

/-- `load_MSH22` (mmio.py:861-879) from the node lines and the element lines: triangles first, then quadrangles. -/
def loadMSH22 (nodes : List (ℕ × V3 ℚ)) (tris quads : List (List ℤ)) : List (V3 ℚ) × List (List ℤ) :=
  loadDropIds nodes (tris.map (mshElem true) ++ quads.map (mshElem false))

/-! ### INP -/

/-- The content of a `.DAT` file called by an `.INP` file: the node lines and the element sections (mmio.py:329-365). -/
structure DatFile where
  nodes : List (ℕ × V3 ℚ)
  sections : List (List (List ℕ))

/-- `id_new` (mmio.py:348-351). -/
def idNew (ids : List ℕ) : List ℤ :=
  ids.zipIdx.foldl (fun a p => a.set p.1 ((p.2 : ℤ) + 1)) (List.replicate (ids.foldl max 0 + 1) (-1))

/-- `id_new[n]` -/
def renum (ids : List ℕ) (n : ℕ) : Except PyErr ℤ :=
  match (idNew ids)[n]? with
  | some i => .ok i
  | none => .error .indexError

/-- mmio.py:358-364: the nodes of an element line (without the identifier of the element), renumbered. -/
def inpElem (ids : List ℕ) (e : List ℕ) : Except PyErr (List ℤ) :=
  match mapAll (renum ids) e with
  | .error e => .error e
  | .ok l => .ok (if l.length = 3 then l ++ l.take 1 else l)

/-- mmio.py:285-308: a line `*NODE` or `*ELEMENT` of the `.INP` file, in order. The frames are replaced by their vectors. -/
inductive InpField where
  | node (file : ℕ) (frame : V3 ℚ) (increment : Bool)
  | element (file : ℕ)

/-- The variables of the loop of mmio.py:370-411. `increment = none`: not assigned yet. -/
structure InpState where
  vertices : List (V3 ℚ) := []
  nbNodes : ℕ := 0
  increment : Option Bool := none
  faces : List (List ℤ) := []
  nbElems : ℕ := 0
  used : ℕ → ℕ := fun _ => 0

/-- The sections of a file, renumbered (mmio.py:353-365). -/
def inpSections (f : DatFile) : Except PyErr (List (List (List ℤ))) :=
  mapAll (mapAll (inpElem (f.nodes.map Prod.fst))) f.sections

/-- One turn of the loop of mmio.py:372-411. `idx` is the last value of the variable `idx` of mmio.py:350: the identifier of
the last node of the last file read. `np.concatenate` of rows of unequal lengths is not modelled (all elements have four
numbers). -/
def inpStep (files : ℕ → DatFile) (idx : ℕ) (s : InpState) : InpField → Except PyErr InpState
  | .node file frame increment =>
    let nodes := (files file).nodes.map fun p => p.2 + frame
    if s.nbNodes = 0 then .ok { s with vertices := nodes, nbNodes := nodes.length, increment := some false }
    else if increment then
      .ok { s with vertices := s.vertices ++ nodes, nbNodes := (s.vertices ++ nodes).length, increment := some true }
    else if ¬ idx < s.vertices.length then .error .indexError
    else
      match nodes with
      | [v] => .ok { s with vertices := s.vertices.set idx v, increment := some false }
      | _ => .error .valueError
  | .element file =>
    match inpSections (files file) with
    | .error e => .error e
    | .ok secs =>
      match secs[s.used file]? with
      | none => .error .indexError
      | some elems =>
        let used := if s.used file + 1 = secs.length then 0 else s.used file + 1
        let s := { s with used := fun f => if f = file then used else s.used f }
        match s.increment with
        | none => .error .nameError
        | some inc =>
          let elems := if inc then elems.map (fun e => e.map (· + (s.nbNodes : ℤ))) else elems
          let faces := if s.nbElems = 0 then elems else s.faces ++ elems
          .ok { s with faces := faces, nbElems := faces.length }

/-- The loop of `load_INP` (mmio.py:370-411). -/
def inpRun (files : ℕ → DatFile) (idx : ℕ) : InpState → List InpField → Except PyErr InpState
  | s, [] => .ok s
  | s, f :: fs =>
    match inpStep files idx s f with
    | .error e => .error e
    | .ok s => inpRun files idx s fs

/-- mmio.py:413: what is returned. `vertices` and `faces` are not assigned without node, element (a section is never empty). -/
def inpDone (s : InpState) : Except PyErr (List (V3 ℚ) × List (List ℤ)) :=
  if s.increment = none ∨ s.nbElems = 0 then .error .nameError else .ok (s.vertices, minusOne s.faces)

/-- `load_INP` (mmio.py:370-413). -/
def loadINP (files : ℕ → DatFile) (idx : ℕ) (layout : List InpField) : Except PyErr (List (V3 ℚ) × List (List ℤ)) :=
  match inpRun files idx {} layout with
  | .error e => .error e
  | .ok s => inpDone s

/-! ### STL -/

/-- mmio.py:1717-1730, `write_STL`: the array `faces` of the caller after the two assignments in place, and the array of the
triangles that are written. -/
def stlFaces (faces : List Face) : List Face × List Face :=
  let inPlace := faces.map fun f => if f.a ≠ f.d then ⟨f.a, f.c, f.d, f.a⟩ else f
  let new := (faces.filter fun f => f.a ≠ f.d).map fun f => (⟨f.a, f.b, f.c, f.a⟩ : Face)
  (inPlace, inPlace ++ new)

/-! ### VTK -/

/-- mmio.py:1515-1528, `_build_vtkUnstructuredGrid`: the points of the cell of a face. The last vertex being among the first
three, the cell is a triangle made of the first three vertices; otherwise a quadrangle. -/
def ugCell (f : Face) : List ℕ := if f.d ∈ [f.a, f.b, f.c] then [f.a, f.b, f.c] else [f.a, f.b, f.c, f.d]

/-- mmio.py:1553-1561, `_build_vtkPolyData`. -/
def pdCell (f : Face) : List ℕ := if f.a = f.d then [f.a, f.b, f.c] else [f.a, f.b, f.c, f.d]

/-- mmio.py:605-618, `_dump_vtk`: the row of a cell of three or four points (`None`: another number of points). -/
def dumpCell : List ℕ → Option Face
  | [a, b, c] => some ⟨a, b, c, a⟩
  | [a, b, c, d] => some ⟨a, b, c, d⟩
  | _ => none

/-- `_build_vtkPolyData` then `_dump_vtk`. `store` is what `vtkPoints` keeps of a point (coordinates in single
precision). -/
def pdRoundTrip (store : V3 ℚ → V3 ℚ) (m : Mesh ℚ) : Option (Mesh ℚ) :=
  (m.faces.mapM fun f => dumpCell (pdCell f)).map fun fs => ⟨m.vertices.map store, fs⟩

/-- `_build_vtkUnstructuredGrid` then `_dump_vtk`. There are at least three points (`max(np.shape(vertices))`, mmio.py:1503);
`junk` are the points which are not set. -/
def ugRoundTrip (store : V3 ℚ → V3 ℚ) (junk : List (V3 ℚ)) (m : Mesh ℚ) : Option (Mesh ℚ) :=
  (m.faces.mapM fun f => dumpCell (ugCell f)).map fun fs => ⟨m.vertices.map store ++ junk.take (3 - m.nv), fs⟩

end MM.Io
