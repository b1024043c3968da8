import Verif.Model.Text

/-!
# Model of `meshmagick/mmio.py`: text writers and loaders

A file is the list of its characters; opening and closing are not modelled. Coordinates are rationals (`-0.0`, infinities
and NaN are not modelled). The loaders return the rows of the arrays they build.
-/

namespace MM.Io

open MM

/-- The arrays returned by a loader, row by row. (An array without rows has a shape which is not kept here.) -/
structure Loaded where
  vertices : List (List ℚ)
  faces : List (List ℤ)
deriving DecidableEq, Repr

/-! ### Pieces of formats -/

/-- `'%{w}u' % n`, `'{:{w}d}'.format(n)`, `'{:>{w}}'.format(n)` -/
def fInt (w n : ℕ) : Str := padL w (natStr n)

/-- `'%{w}.6f' % x`, `'{:{w}.6f}'.format(x)` -/
def fFix (w : ℕ) (x : ℚ) : Str := padL w (fixedStr 6 x)

/-- `'%{w}.6E' % x` -/
def fSci (w : ℕ) (x : ℚ) : Str := padL w (sciStr 6 x)

/-- End of line. -/
def nl : Str := ['\n']

/-! ### Pieces of loaders -/

/-- One conversion; a failure is a `ValueError`. -/
def conv {α : Type} (o : Option α) : Except PyErr α :=
  match o with
  | some x => .ok x
  | none => .error .valueError

/-- A conversion mapped to words. -/
def convAll {α : Type} (p : Str → Option α) : List Str → Except PyErr (List α)
  | [] => .ok []
  | w :: ws =>
    match conv (p w) with
    | .error e => .error e
    | .ok x =>
      match convAll p ws with
      | .error e => .error e
      | .ok xs => .ok (x :: xs)

/-- `list(map(float, words))` -/
def floats (ws : List Str) : Except PyErr (List ℚ) := convAll parseFloat ws

/-- `list(map(int, words))` -/
def ints (ws : List Str) : Except PyErr (List ℤ) := convAll parseInt ws

/-- `for i in range(n): rows.append(p(ifile.readline().split()))`; past the end of the file `readline` gives `''`. -/
def readRows {α : Type} (p : List Str → Except PyErr α) : ℕ → List Str → Except PyErr (List α × List Str)
  | 0, ls => .ok ([], ls)
  | n + 1, ls =>
    match p (split (ls.headD [])) with
    | .error e => .error e
    | .ok r =>
      match readRows p n ls.tail with
      | .error e => .error e
      | .ok q => .ok (r :: q.1, q.2)

/-- `np.array(rows)`: rows of unequal lengths are a `ValueError`. -/
def rect {α : Type} (rows : List (List α)) : Except PyErr (List (List α)) :=
  if ∀ r ∈ rows, r.length = (rows.headD []).length then .ok rows else .error .valueError

/-- `faces - 1` -/
def minusOne (rows : List (List ℤ)) : List (List ℤ) := rows.map fun r => r.map (· - 1)

/-- `int(ifile.readline())`: `int` ignores the blanks around the number. -/
def intLine (l : Str) : Except PyErr ℤ :=
  match split l with
  | [w] => conv (parseInt w)
  | _ => .error .valueError

/-! ### NAT -/

/-- `write_NAT` (mmio.py:1585-1597). `max(np.shape(vertices))` is the maximum of the number of vertices and of 3,
`max(np.shape(faces))` the maximum of the number of faces and of 4. -/
def writeNAT (m : Mesh ℚ) : Str :=
  let nv := max m.nv 3
  let nf := max m.nf 4
  (fInt 6 0 ++ fInt 6 0 ++ nl) ++ (fInt 6 nv ++ fInt 6 nf ++ nl)
    ++ m.vertices.flatMap (fun v => fSci 15 v.x ++ fSci 15 v.y ++ fSci 15 v.z ++ nl)
    ++ m.faces.flatMap (fun f => fInt 10 (f.a + 1) ++ fInt 10 (f.b + 1) ++ fInt 10 (f.c + 1) ++ fInt 10 (f.d + 1) ++ nl)

/-- The two blocks of rows of `load_NAT` and `load_NEM` (mmio.py:725-736, 1080-1091). -/
def loadBlocks (nv nf : ℤ) (ls : List Str) : Except PyErr Loaded :=
  match readRows floats nv.toNat ls with
  | .error e => .error e
  | .ok (vs, ls) =>
    match rect vs with
    | .error e => .error e
    | .ok vs =>
      match readRows ints nf.toNat ls with
      | .error e => .error e
      | .ok (fs, _) =>
        match rect fs with
        | .error e => .error e
        | .ok fs => .ok ⟨vs, minusOne fs⟩

/-- `load_NAT` (mmio.py:721-736) -/
def loadNAT (text : Str) : Except PyErr Loaded :=
  let ls := (linesOf text).tail
  match ints (split (ls.headD [])) with
  | .error e => .error e
  | .ok [nv, nf] => loadBlocks nv nf ls.tail
  | .ok _ => .error .valueError

/-! ### NEM -/

/-- `write_NEM` (mmio.py:1616-1627) -/
def writeNEM (m : Mesh ℚ) : Str :=
  (fInt 0 m.nv ++ nl) ++ (fInt 0 m.nf ++ nl)
    ++ m.vertices.flatMap (fun v => fFix 15 v.x ++ '\t' :: fFix 15 v.y ++ '\t' :: fFix 15 v.z ++ nl)
    ++ m.faces.flatMap (fun f => fInt 10 (f.a + 1) ++ '\t' :: fInt 10 (f.b + 1) ++ '\t' :: fInt 10 (f.c + 1)
        ++ '\t' :: fInt 10 (f.d + 1) ++ nl)

/-- `load_NEM` (mmio.py:1075-1091) -/
def loadNEM (text : Str) : Except PyErr Loaded :=
  let ls := linesOf text
  match intLine (ls.headD []) with
  | .error e => .error e
  | .ok nv =>
    match intLine (ls.tail.headD []) with
    | .error e => .error e
    | .ok nf => loadBlocks nv nf ls.tail.tail

/-! ### GDF -/

/-- `write_GDF` (mmio.py:1643-1658); `date` is the result of `time.strftime('%c')`. A vertex number out of range is an
`IndexError`. -/
def gdfCorner (m : Mesh ℚ) (i : ℕ) : Except PyErr Str :=
  match m.vertices[i]? with
  | some v => .ok (fSci 16 v.x ++ fSci 16 v.y ++ fSci 16 v.z ++ nl)
  | none => .error .indexError

/-- mmio.py:1653-1656, the loop over the corners of the faces. -/
def gdfCorners (m : Mesh ℚ) : List ℕ → Except PyErr Str
  | [] => .ok []
  | i :: is =>
    match gdfCorner m i with
    | .error e => .error e
    | .ok s =>
      match gdfCorners m is with
      | .error e => .error e
      | .ok t => .ok (s ++ t)

def writeGDF (date : Str) (m : Mesh ℚ) : Except PyErr Str :=
  let nf := max m.nf 4
  match gdfCorners m (m.faces.flatMap Face.toList) with
  | .error e => .error e
  | .ok t =>
    .ok ("GDF file generated by meshmagick on ".toList ++ date ++ nl
      ++ (fFix 16 100 ++ fFix 16 (981 / 100) ++ nl) ++ (fInt 12 0 ++ fInt 12 1 ++ nl) ++ (fInt 12 nf ++ nl) ++ t)

/-- mmio.py:784-790, `while n_coords < 12`: one face. `none`: not finished after `fuel` lines. -/
def gdfFace : ℕ → List Str → List ℚ → Option (Except PyErr (List ℚ × List Str))
  | fuel, ls, cs =>
    if 12 ≤ cs.length then some (.ok (cs, ls))
    else
      match fuel with
      | 0 => none
      | fuel + 1 =>
        match floats (split (ls.headD [])) with
        | .error e => some (.error e)
        | .ok ws =>
          if 12 < cs.length + ws.length then some (.error .valueError) else gdfFace fuel ls.tail (cs ++ ws)

/-- mmio.py:782-794, `for icell in range(nf)`. -/
def gdfFaces (fuel : ℕ) : ℕ → List Str → Option (Except PyErr (List (List ℚ)))
  | 0, _ => some (.ok [])
  | n + 1, ls =>
    match gdfFace fuel ls [] with
    | none => none
    | some (.error e) => some (.error e)
    | some (.ok (cs, ls)) =>
      match gdfFaces fuel n ls with
      | none => none
      | some (.error e) => some (.error e)
      | some (.ok r) => some (.ok (cs :: r))

/-- `np.split(face_coords, 4)` (mmio.py:792) -/
def quarter (cs : List ℚ) : List (List ℚ) :=
  [(cs.drop 0).take 3, (cs.drop 3).take 3, (cs.drop 6).take 3, (cs.drop 9).take 3]

/-- `load_GDF` (mmio.py:764-798); every face is allowed to read `fuel` lines. -/
def loadGDF (fuel : ℕ) (text : Str) : Option (Except PyErr Loaded) :=
  let ls := (linesOf text).tail
  if (split (ls.headD [])).length < 2 then some (.error .indexError)
  else
    let ls := ls.tail
    if (split (ls.headD [])).length < 2 then some (.error .indexError)
    else
      let ls := ls.tail
      match split (ls.headD []) with
      | [] => some (.error .indexError)
      | w :: _ =>
        match parseInt w with
        | none => some (.error .valueError)
        | some nf =>
          if nf < 0 then some (.error .valueError)
          else
            match gdfFaces fuel nf.toNat ls.tail with
            | none => none
            | some (.error e) => some (.error e)
            | some (.ok r) =>
              some (.ok ⟨r.flatMap quarter,
                (List.range nf.toNat).map fun (k : ℕ) => [4 * (k : ℤ), 4 * (k : ℤ) + 1, 4 * (k : ℤ) + 2, 4 * (k : ℤ) + 3]⟩)

/-! ### MAR -/

/-- `sep.join(l)` -/
def joinWith (sep : Str) : List Str → Str
  | [] => []
  | [s] => s
  | s :: t :: l => s ++ sep ++ joinWith sep (t :: l)

/-- `write_MAR` (mmio.py:1676-1692) -/
def writeMAR (m : Mesh ℚ) : Str :=
  (fInt 6 2 ++ fInt 6 0 ++ nl)
    ++ m.vertices.zipIdx.flatMap (fun p => fInt 6 (p.2 + 1) ++ fFix 16 p.1.x ++ fFix 16 p.1.y ++ fFix 16 p.1.z ++ nl)
    ++ (fInt 6 0 ++ fInt 6 0 ++ fInt 6 0 ++ fInt 6 0 ++ fInt 6 0 ++ nl)
    ++ (joinWith nl (m.faces.map fun f => fInt 10 (f.a + 1) ++ fInt 10 (f.b + 1) ++ fInt 10 (f.c + 1) ++ fInt 10 (f.d + 1))
        ++ nl)
    ++ (fInt 6 0 ++ fInt 6 0 ++ fInt 6 0 ++ fInt 6 0 ++ nl)

/-- mmio.py:827-832 and 836-841, `while 1`: rows until a line whose first word is `0`; `p` converts a line. An empty line,
or the end of the file, is an `IndexError` (`line[0]`). -/
def untilZero {α : Type} (p : List Str → Except PyErr α) : List Str → Except PyErr (List α × List Str)
  | [] => .error .indexError
  | l :: ls =>
    match split l with
    | [] => .error .indexError
    | w :: ws =>
      if w = ['0'] then .ok ([], ls)
      else
        match p (w :: ws) with
        | .error e => .error e
        | .ok r =>
          match untilZero p ls with
          | .error e => .error e
          | .ok q => .ok (r :: q.1, q.2)

/-- `load_MAR` (mmio.py:823-847) -/
def loadMAR (text : Str) : Except PyErr Loaded :=
  match untilZero (fun ws => floats ws.tail) (linesOf text).tail with
  | .error e => .error e
  | .ok (vs, ls) =>
    match rect vs with
    | .error e => .error e
    | .ok vs =>
      match untilZero ints ls with
      | .error e => .error e
      | .ok (fs, _) =>
        match rect fs with
        | .error e => .error e
        | .ok fs => .ok ⟨vs, minusOne fs⟩

/-! ### PNL -/

/-- mmio.py:1808-1813, one face; `i` is its number, from 0. -/
def pnlFace (i : ℕ) (f : Face) : Str :=
  if f.c + 1 = f.d + 1 then
    fInt 5 (i + 1) ++ fInt 5 3 ++ fInt 10 (f.a + 1) ++ fInt 10 (f.b + 1) ++ fInt 10 (f.c + 1) ++ nl
  else
    fInt 5 (i + 1) ++ fInt 5 4 ++ fInt 10 (f.a + 1) ++ fInt 10 (f.b + 1) ++ fInt 10 (f.c + 1) ++ fInt 10 (f.d + 1) ++ nl

/-- `write_PNL` (mmio.py:1796-1816) -/
def writePNL (m : Mesh ℚ) : Str :=
  "    --------------Hull Mesh File---------------\n".toList
    ++ nl
    ++ "    # Number of Panels, Nodes, X-Symmetry and Y-Symmetry\n".toList
    ++ ("         ".toList ++ natStr m.nf ++ "         ".toList ++ natStr m.nv ++ "         0         0\n".toList)
    ++ nl
    ++ "    #Start Definition of Node Coordinates     ! node_number   x   y   z\n".toList
    ++ m.vertices.zipIdx.flatMap (fun p => fInt 5 (p.2 + 1) ++ fFix 18 p.1.x ++ fFix 18 p.1.y ++ fFix 18 p.1.z ++ nl)
    ++ "   #End Definition of Node Coordinates\n".toList
    ++ nl
    ++ ("   #Start Definition of Node Relations   ! panel_number  number_of_vertices   Vertex1_ID   Vertex2_ID   Vertex3_ID"
        ++ "   (Vertex4_ID)\n").toList
    ++ m.faces.zipIdx.flatMap (fun p => pnlFace p.2 p.1)
    ++ "   #End Definition of Node Relations\n".toList
    ++ nl
    ++ "    --------------End Hull Mesh File---------------\n".toList

/-- A numpy array of dimension one or two. -/
inductive NpArr where
  | flat (l : List ℚ)
  | rows (l : List (List ℚ))
deriving DecidableEq, Repr

/-- The columns 1, 2, 3 of a line for `np.genfromtxt(…, usecols=(1, 2, 3))` (mmio.py:1120). Simplification: a word which is
not a number, which numpy replaces by NaN, is a `ValueError` here. -/
def cols123 (ws : List Str) : Except PyErr (List ℚ) :=
  match ws with
  | _ :: x :: y :: z :: _ => floats [x, y, z]
  | _ => .error .valueError

/-- The shape given by `np.genfromtxt`: the dimensions of length one are squeezed. -/
def squeeze (rows : List (List ℚ)) : NpArr :=
  match rows with
  | [] => .flat []
  | [r] => .flat r
  | rows => .rows rows

/-- mmio.py:1127-1135, one face; `i` is its number, from 0. -/
def pnlRow (i : ℕ) (ws : List Str) : Except PyErr (List ℤ) :=
  match ints ws with
  | .error e => .error e
  | .ok (index :: nb :: data) =>
    if (i : ℤ) + 1 ≠ index then .error .assertionError
    else if nb = 3 then
      match data with
      | [a, b, c] => .ok [a, b, c, c]
      | _ => .error .assertionError
    else if nb = 4 then (if data.length = 4 then .ok data else .error .assertionError)
    else .ok [0, 0, 0, 0]
  | .ok _ => .error .valueError

/-- mmio.py:1126-1135, the faces from number `i`. -/
def pnlRows : ℕ → ℕ → List Str → Except PyErr (List (List ℤ))
  | _, 0, _ => .ok []
  | i, n + 1, ls =>
    match pnlRow i (split (ls.headD [])) with
    | .error e => .error e
    | .ok r =>
      match pnlRows (i + 1) n ls.tail with
      | .error e => .error e
      | .ok q => .ok (r :: q)

/-- `load_PNL` (mmio.py:1108-1138): the vertices array and the rows of the faces array. -/
def loadPNL (text : Str) : Except PyErr (NpArr × List (List ℤ)) :=
  let ls := (linesOf text).drop 3
  match ints (split (ls.headD [])) with
  | .error e => .error e
  | .ok [nf, nv, xs, ys] =>
    if xs ≠ 0 ∨ ys ≠ 0 then .error .notImplemented
    else
      match readRows cols123 nv.toNat (ls.drop 3) with
      | .error e => .error e
      | .ok (vs, ls) =>
        if nf < 0 then .error .valueError
        else
          match pnlRows 0 nf.toNat (ls.drop 3) with
          | .error e => .error e
          | .ok fs => .ok (squeeze vs, minusOne fs)
  | .ok _ => .error .valueError

end MM.Io
