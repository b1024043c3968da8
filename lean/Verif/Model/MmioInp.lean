import Verif.Model.MmioRegex

/-!
# Model of `meshmagick/mmio.py`: `load_INP` from the characters of the files

The loops over the fields (mmio.py:370-413) are those of `Model/MmioIds.lean` (`inpStep`).
-/

namespace MM.Io

open MM

/-- `s.strip()` -/
def strip (s : Str) : Str := ((s.dropWhile isSpace).reverse.dropWhile isSpace).reverse

/-- `re.split('[, ]', s)`, `s.split(',')`, `s.split('=')`: the pieces of a text between the characters of a class. -/
def cutAt (p : Char → Bool) : Str → List Str
  | [] => [[]]
  | c :: s =>
    if p c then [] :: cutAt p s
    else
      match cutAt p s with
      | [] => [[c]]
      | w :: ws => (c :: w) :: ws

/-- `d[key]` for a dictionary; the last value set is the first one of the list. -/
def getKey {α : Type} (d : List (Str × α)) (key : Str) : Except PyErr α :=
  match d.lookup key with
  | some v => .ok v
  | none => .error .keyError

/-- mmio.py:275: `^\s*\*FRAME,NAME=(.+)[\r\n]+(.*)` -/
def inpFrame : Re :=
  .seq .bol <| .seq .ws <| .seq (.lit "*FRAME,NAME=".toList) <| .seq (.group 1 .dots1) <| .seq .eols1 (.group 2 .dots)

/-- mmio.py:279-282: a frame and its vector. (`float` accepts blanks around a number, which can be here only other characters
than the space: not modelled.) -/
def inpFrameOf (m : ReMatch) : Except PyErr (Str × List ℚ) :=
  match floats (cutAt (fun c => c == ',' || c == ' ') (strip (m.group 2))) with
  | .error e => .error e
  | .ok v => .ok (strip (m.group 1), v)

/-- mmio.py:285: `^\s*\*(NODE|ELEMENT),(.*)` -/
def inpField : Re :=
  .seq .bol <| .seq .ws <| .seq (.lit "*".toList) <| .seq (.group 1 (.alt (.lit "NODE".toList) (.lit "ELEMENT".toList))) <|
  .seq (.lit ",".toList) (.group 2 .dots)

/-- mmio.py:295-296: an option. The key is not stripped. -/
def inpOpt (o : Str) : Except PyErr (Str × Str) :=
  match cutAt (· == '=') o with
  | [key, pair] => .ok (key, strip pair)
  | _ => .error .valueError

/-- mmio.py:289-307: the dictionary of a field, and the checks made by the counters of its mesh file. -/
def inpFieldOf (m : ReMatch) : Except PyErr (List (Str × Str)) :=
  match mapAll inpOpt (cutAt (· == ',') (m.group 2)) with
  | .error e => .error e
  | .ok opts =>
    let d := opts.reverse ++ ((if m.group 1 = "NODE".toList then [("INCREMENT".toList, "NO".toList)] else []) ++
      [("type".toList, m.group 1)])
    match getKey d "INPUT".toList, getKey d "type".toList with
    | .ok _, .ok t => if t = "NODE".toList ∨ t = "ELEMENT".toList then .ok d else .error .keyError
    | .error e, _ => .error e
    | _, .error e => .error e

/-- mmio.py:287, 299-305: the keys of `mesh_files`, in the order of their first occurrence. -/
def inpNames (fields : List (List (Str × Str))) : List Str :=
  (fields.filterMap (List.lookup "INPUT".toList)).foldl (fun l n => if n ∈ l then l else l ++ [n]) []

/-- mmio.py:314: `^ +\d+(?: +\d+){3,4}[\r\n]+` -/
def inpElemRe : Re :=
  .seq .bol <| .seq (.plus (.chr (· == ' '))) <| .seq .ds1 <| .seq (.rep (.seq (.plus (.chr (· == ' '))) .ds1) 3) <|
  .seq (.opt (.seq (.plus (.chr (· == ' '))) .ds1)) .eols1

/-- mmio.py:315 -/
def inpElemsRe : Re := .group 1 (.plus inpElemRe)

/-- mmio.py:337-343: a node line, four words. (`node_line`, mmio.py:312, is the one of HST files.) -/
def inpNodeOf (m : ReMatch) : Except PyErr (ℕ × V3 ℚ) :=
  match split m.text with
  | [i, x, y, z] =>
    match conv (parseInt i), conv (parseFloat x), conv (parseFloat y), conv (parseFloat z) with
    | .ok i, .ok x, .ok y, .ok z => .ok (i.toNat, ⟨x, y, z⟩)
    | _, _, _, _ => .error .valueError
  | _ => .error .valueError

/-- mmio.py:358-360: the numbers of the nodes of an element line. -/
def inpElemOf (m : ReMatch) : Except PyErr (List ℕ) :=
  match ints (split m.text) with
  | .error e => .error e
  | .ok l => .ok (l.tail.map Int.toNat)

/-- mmio.py:354-365: the sections of element lines. -/
def inpSectionOf (s : ReMatch) : Except PyErr (List (List ℕ)) := mapAll inpElemOf (findall inpElemRe (s.group 1))

/-- mmio.py:320-368: a mesh file. The elements are renumbered here in the code: an error there is an error here. -/
def inpRead (data : Str) : Except PyErr DatFile :=
  match findall hstNodes data with
  | [] => .error .indexError
  | [m] =>
    match mapAll inpNodeOf (findall hstNode (m.group 1)) with
    | .error e => .error e
    | .ok nodes =>
      match mapAll inpSectionOf (findall inpElemsRe data) with
      | .error e => .error e
      | .ok secs =>
        match inpSections ⟨nodes, secs⟩ with
        | .error e => .error e
        | .ok _ => .ok ⟨nodes, secs⟩
  | _ => .error .ioError

/-- mmio.py:320-327: a mesh file is opened and read. -/
def inpOpen (opened : Str → Option Str) (name : Str) : Except PyErr DatFile :=
  match opened (name ++ ".DAT".toList) with
  | none => .error .ioError
  | some data => inpRead data

/-- mmio.py:377: `nodes += frames[…]`, with the rules of numpy for the shapes. -/
def inpVector : List ℚ → Except PyErr (V3 ℚ)
  | [x, y, z] => .ok ⟨x, y, z⟩
  | [x] => .ok ⟨x, x, x⟩
  | _ => .error .valueError

/-- mmio.py:373-387: what is looked up in the dictionaries for a field. -/
def inpResolve (frames : List (Str × List ℚ)) (names : List Str) (d : List (Str × Str)) : Except PyErr InpField :=
  match getKey d "INPUT".toList, getKey d "type".toList with
  | .ok file, .ok t =>
    if t = "NODE".toList then
      match getKey d "FRAME".toList with
      | .error e => .error e
      | .ok name =>
        match getKey frames name with
        | .error e => .error e
        | .ok v =>
          match inpVector v with
          | .error e => .error e
          | .ok v =>
            match getKey d "INCREMENT".toList with
            | .error e => .error e
            | .ok inc => .ok (.node (names.idxOf file) v (inc ≠ "NO".toList))
    else .ok (.element (names.idxOf file))
  | .error e, _ => .error e
  | _, .error e => .error e

/-- mmio.py:372-411: the loop over the fields. -/
def inpLoop (frames : List (Str × List ℚ)) (names : List Str) (files : ℕ → DatFile) (idx : ℕ) :
    InpState → List (List (Str × Str)) → Except PyErr InpState
  | s, [] => .ok s
  | s, d :: ds =>
    match inpResolve frames names d with
    | .error e => .error e
    | .ok f =>
      match inpStep files idx s f with
      | .error e => .error e
      | .ok s => inpLoop frames names files idx s ds

/-- `load_INP` (mmio.py:249-413) from the text of the file; `opened` gives the text of the files of the same directory. -/
def loadINPText (opened : Str → Option Str) (text : Str) : Except PyErr (List (V3 ℚ) × List (List ℤ)) :=
  match mapAll inpFrameOf (findall inpFrame text) with
  | .error e => .error e
  | .ok frames =>
    match mapAll inpFieldOf (findall inpField text) with
    | .error e => .error e
    | .ok fields =>
      match mapAll (inpOpen opened) (inpNames fields) with
      | .error e => .error e
      | .ok files =>
        let idx := (((files.getLast?.map DatFile.nodes).getD []).getLast?.map Prod.fst).getD 0
        match inpLoop frames.reverse (inpNames fields) (fun i => files[i]?.getD ⟨[], []⟩) idx {} fields with
        | .error e => .error e
        | .ok s => inpDone s

end MM.Io
