import Verif.Model.Regex
import Verif.Model.MmioIds

/-!
# Model of `meshmagick/mmio.py`: loaders which use regular expressions (HST, TEC, DAT), and their writers
-/

namespace MM.Io

open MM

/-- `[+-]` -/
def signRe : Re := .chr fun c => c == '+' || c == '-'

/-- `real_str` (mmio.py:8): `[+-]?(?:\d+\.\d*|\d*\.\d+)(?:[Ee][+-]?\d+)?` -/
def realRe : Re :=
  .seq (.opt signRe) (.seq (.alt (.seq .ds1 (.seq (.chr (· == '.')) .ds)) (.seq .ds (.seq (.chr (· == '.')) .ds1)))
    (.opt (.seq (.chr fun c => c == 'E' || c == 'e') (.seq (.opt signRe) .ds1))))

/-! ### HST -/

/-- mmio.py:134: `\s*\d+(?:\s+real){3}` -/
def hstNode : Re := .seq .ws (.seq .ds1 (.rep (.seq .ws1 realRe) 3))

/-- mmio.py:135 -/
def hstNodes : Re := .group 1 (.plus hstNode)

/-- mmio.py:137: `^\s*(?:\d+\s+){3}\d+\s*[\r\n]+` -/
def hstElem : Re := .seq .bol (.seq .ws (.seq (.rep (.seq .ds1 .ws1) 3) (.seq .ds1 (.seq .ws .eols1))))

/-- mmio.py:138 -/
def hstElems : Re := .group 1 (.plus hstElem)

/-- The variables of the loops of `load_HST` (mmio.py:145-158 and 160-173): `vertices_tmp` (`array`: it has been replaced by
an array), `vertices`, `nv`; `faces_tmp`, `faces`, `nf`. -/
structure HstTmp (α : Type) where
  tmp : List (List α) := []
  array : Bool := false
  all : List (List α) := []
  n : ℕ := 0

/-- mmio.py:149-150, 164-165: the lines of a section. An array has no method `append`. -/
def hstAppend {α : Type} (p : Str → Except PyErr (List α)) : HstTmp α → List ReMatch → Except PyErr (HstTmp α)
  | st, [] => .ok st
  | st, m :: ms =>
    if st.array then .error .attributeError
    else
      match p m.text with
      | .error e => .error e
      | .ok r => hstAppend p { st with tmp := st.tmp ++ [r] } ms

/-- mmio.py:148-158, 163-173: the loop over the sections. -/
def hstSections {α : Type} (line : Re) (p : Str → Except PyErr (List α)) :
    HstTmp α → List ReMatch → Except PyErr (HstTmp α)
  | st, [] => .ok st
  | st, m :: ms =>
    match hstAppend p st (findall line (m.group 1)) with
    | .error e => .error e
    | .ok st =>
      match rect st.tmp with
      | .error e => .error e
      | .ok tmp =>
        hstSections line p (if st.n = 0 then ⟨tmp, true, tmp, tmp.length⟩ else ⟨tmp, true, st.all ++ tmp, st.n + tmp.length⟩) ms

/-- `load_HST` (mmio.py:128-175). Without element section `faces` is still a list, and `faces-1` a `TypeError`. -/
def loadHST (text : Str) : Except PyErr Loaded :=
  match hstSections hstNode (fun l => floats (split l).tail) {} (findall hstNodes text) with
  | .error e => .error e
  | .ok vs =>
    match hstSections hstElem (fun l => ints (split l)) {} (findall hstElems text) with
    | .error e => .error e
    | .ok fs => if fs.array then .ok ⟨vs.all, minusOne fs.all⟩ else .error .typeError

/-- `write_HST` (mmio.py:1275-1314) -/
def writeHST (m : Mesh ℚ) : Str :=
  "PROJECT:\nUSERS:   meshmagick\n\nNBODY   1\nRHO   1025.0\nGRAVITY   9.81\n\nCOORDINATES\n".toList
    ++ joinWith nl (m.vertices.zipIdx.map fun p => fInt 10 (p.2 + 1) ++ fSci 16 p.1.x ++ fSci 16 p.1.y ++ fSci 16 p.1.z)
    ++ "\nENDCOORDINATES\n\nPANEL TYPE 0\n".toList
    ++ joinWith nl (m.faces.map fun f => fInt 10 (f.a + 1) ++ fInt 10 (f.b + 1) ++ fInt 10 (f.c + 1) ++ fInt 10 (f.d + 1))
    ++ "\nENDPANEL\n\nENDFILE\n".toList

/-! ### TEC -/

/-- mmio.py:442-445:
`ZONE.*\s*N\s*=\s*(\d+)\s*,\s*E=\s*(\d+)\s*,\s*F\s*=\s*FEPOINT\s*,\s*ET\s*=\s*QUADRILATERAL\s+(^(?:\s*real){3,})\s+(^(?:\s*\d+)*)` -/
def tecRe : Re :=
  .seq (.lit "ZONE".toList) <| .seq .dots <| .seq .ws <| .seq (.lit "N".toList) <| .seq .ws <| .seq (.lit "=".toList) <|
  .seq .ws <| .seq (.group 1 .ds1) <| .seq .ws <| .seq (.lit ",".toList) <| .seq .ws <| .seq (.lit "E=".toList) <|
  .seq .ws <| .seq (.group 2 .ds1) <| .seq .ws <| .seq (.lit ",".toList) <| .seq .ws <| .seq (.lit "F".toList) <|
  .seq .ws <| .seq (.lit "=".toList) <| .seq .ws <| .seq (.lit "FEPOINT".toList) <| .seq .ws <| .seq (.lit ",".toList) <|
  .seq .ws <| .seq (.lit "ET".toList) <| .seq .ws <| .seq (.lit "=".toList) <| .seq .ws <|
  .seq (.lit "QUADRILATERAL".toList) <| .seq .ws1 <|
  .seq (.group 3 (.seq .bol (.atLeast (.seq .ws realRe) 3))) <| .seq .ws1 <|
  .group 4 (.seq .bol (.star (.seq .ws .ds1)))

/-- The rows of length `k` of a list. -/
def rowsOf {α : Type} (k : ℕ) : ℕ → List α → List (List α)
  | 0, _ => []
  | n + 1, l => l.take k :: rowsOf k n (l.drop k)

/-- `array.reshape((n, -1))` (mmio.py:454): the size must be a multiple of `n`, and `n` must not be 0. -/
def reshapeRows {α : Type} (n : ℕ) (l : List α) : Except PyErr (List (List α)) :=
  if n = 0 ∨ l.length % n ≠ 0 then .error .valueError else .ok (rowsOf (l.length / n) n l)

/-- `load_TEC` (mmio.py:447-457). No match: `None.groups` is an `AttributeError`. -/
def loadTEC (text : Str) : Except PyErr Loaded :=
  match research tecRe text with
  | none => .error .attributeError
  | some m =>
    match conv (parseInt (m.group 1)), conv (parseInt (m.group 2)) with
    | .ok nv, .ok nf =>
      match floats (split (m.group 3)) with
      | .error e => .error e
      | .ok xs =>
        match reshapeRows nv.toNat xs with
        | .error e => .error e
        | .ok vs =>
          match ints (split (m.group 4)) with
          | .error e => .error e
          | .ok is =>
            if is.length ≠ 4 * nf.toNat then .error .valueError
            else .ok ⟨vs.map (List.take 3), minusOne (rowsOf 4 nf.toNat is)⟩
    | .error e, _ => .error e
    | _, .error e => .error e

/-- `write_TEC` (mmio.py:1334-1357) -/
def writeTEC (filename : Str) (m : Mesh ℚ) : Str :=
  "TITLE = \" THIS FILE WAS GENERATED BY MESHMAGICK - FICHIER : ".toList ++ filename ++ " \" \n".toList
    ++ "VARIABLES = \"X\",\"Y\",\"Z\" \n".toList
    ++ "ZONE T=\"MESH\" \n".toList
    ++ ("N=".toList ++ fInt 10 m.nv ++ " ,E=".toList ++ fInt 10 m.nf ++ " , F=FEPOINT, ET=QUADRILATERAL\n".toList)
    ++ (joinWith nl (m.vertices.map fun v => fSci 16 v.x ++ fSci 16 v.y ++ fSci 16 v.z) ++ nl)
    ++ (joinWith nl (m.faces.map fun f => fInt 10 (f.a + 1) ++ fInt 10 (f.b + 1) ++ fInt 10 (f.c + 1) ++ fInt 10 (f.d + 1))
        ++ nl)

/-! ### DAT -/

/-- mmio.py:190: `NODE\s*((?:\d+(?:\s+\S+){3}\s+)+)\*RETURN` -/
def datNodesRe : Re :=
  .seq (.lit "NODE".toList) <| .seq .ws <|
  .seq (.group 1 (.plus (.seq .ds1 (.seq (.rep (.seq .ws1 .nonws1) 3) .ws1)))) <| .lit "*RETURN".toList

/-- mmio.py:208, 225: `ELEMENT\S+T3C000.+\s*((?:(?:\d+\s+){4})+)\*RETURN`, and with `Q4C000` and `{5}`. -/
def datElemsRe (type : Str) (n : ℕ) : Re :=
  .seq (.lit "ELEMENT".toList) <| .seq .nonws1 <| .seq (.lit type) <| .seq .dots1 <| .seq .ws <|
  .seq (.group 1 (.plus (.rep (.seq .ds1 .ws1) n))) <| .lit "*RETURN".toList

/-- mmio.py:198-201: the identifier and the coordinates of a node line. -/
def datNode (l : Str) : Except PyErr (Str × List Str) :=
  match split l with
  | [] => .error .indexError
  | w :: ws => .ok (w, ws)

/-- The words of the lines of the first section, if any (mmio.py:212-213, 229-230). `splitlines` cuts at the ends of lines
only (the other separators are not modelled). -/
def datLines (secs : List ReMatch) : List (List Str) :=
  match secs with
  | [] => []
  | s :: _ => (linesOf (s.group 1)).map split

/-- `load_DAT` (mmio.py:184-243). -/
def loadDATText (text : Str) : Except PyErr Loaded :=
  match findall datNodesRe text with
  | [] => .error .indexError
  | _ :: _ :: _ => .error .runtimeError
  | [s] =>
    match mapAll datNode (linesOf (s.group 1)) with
    | .error e => .error e
    | .ok nodes =>
      match mapAll floats (nodes.map Prod.snd) with
      | .error e => .error e
      | .ok vs =>
        match rect vs with
        | .error e => .error e
        | .ok vs =>
          match mapAll (datTriangle (nodes.map Prod.fst)) (datLines (findall (datElemsRe "T3C000".toList 4) text)) with
          | .error e => .error e
          | .ok ts =>
            match mapAll (datQuad (nodes.map Prod.fst)) (datLines (findall (datElemsRe "Q4C000".toList 5) text)) with
            | .error e => .error e
            | .ok qs => .ok ⟨vs, (ts ++ qs).map fun f => [(f.a : ℤ), (f.b : ℤ), (f.c : ℤ), (f.d : ℤ)]⟩

/-- `'{:13.5E}'.format(x)` -/
def fSci5 (x : ℚ) : Str := padL 13 (sciStr 5 x)

/-- mmio.py:1217-1240: the lines of the quadrangles and of the triangles, with the number of the face. -/
def datQuadLine (p : Face × ℕ) : Str :=
  nl ++ fInt 8 (p.2 + 1) ++ fInt 8 (p.1.a + 1) ++ fInt 8 (p.1.b + 1) ++ fInt 8 (p.1.c + 1) ++ fInt 8 (p.1.d + 1)

def datTriLine (p : Face × ℕ) : Str :=
  nl ++ fInt 8 (p.2 + 1) ++ fInt 8 (p.1.a + 1) ++ fInt 8 (p.1.b + 1) ++ fInt 8 (p.1.c + 1)

/-- `write_DAT` (mmio.py:1188-1258): the text of the file; `name` is `root_filename.upper()`, `date` is
`time.strftime('%c')`. -/
def writeDAT (name date : Str) (m : Mesh ℚ) : Str :=
  let quads := m.faces.zipIdx.filter fun p => p.1.a ≠ p.1.d
  let tris := m.faces.zipIdx.filter fun p => p.1.a = p.1.d
  ("$\n$ Data for DIODORE input file : ".toList ++ name ++ nl)
    ++ ("$ GENERATED BY MESHMAGICK ON ".toList ++ date ++ "\n$\n".toList)
    ++ "$ NODE\n".toList
    ++ (joinWith nl (m.vertices.zipIdx.map fun p => fInt 8 (p.2 + 1) ++ fSci5 p.1.x ++ fSci5 p.1.y ++ fSci5 p.1.z)
        ++ "\n*RETURN\n".toList)
    ++ (if quads.length > 0 then
          ("$\n$ ELEMENT,TYPE=Q4C000,ELSTRUCTURE=".toList ++ name) ++ quads.flatMap datQuadLine ++ "\n*RETURN\n".toList
        else [])
    ++ (if tris.length > 0 then
          ("$\n$ ELEMENT,TYPE=T3C000,ELSTRUCTURE=".toList ++ name) ++ tris.flatMap datTriLine ++ "\n*RETURN\n".toList
        else [])

end MM.Io
