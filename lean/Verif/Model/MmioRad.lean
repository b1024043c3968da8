import Verif.Model.MmioRegex

/-!
# Model of `meshmagick/mmio.py`: `load_RAD`
-/

namespace MM.Io

open MM

/-- mmio.py:80: `\s*\d+\s*(real)\s*(real)\s*(real)`. `g n` is the group number `n`. -/
def radNode (g : ℕ → Re → Re) : Re :=
  .seq .ws <| .seq .ds1 <| .seq .ws <| .seq (g 1 realRe) <| .seq .ws <| .seq (g 2 realRe) <| .seq .ws <| g 3 realRe

/-- mmio.py:81: `((?:node_line)+)`. Only the group 1 of this expression is used: the others are not kept. -/
def radNodes : Re := .group 1 (.plus (radNode fun _ r => r))

/-- mmio.py:83: `^\s*(?:\d+\s+){6}\d+\s*[\r\n]+` -/
def radElem : Re := .seq .bol (.seq .ws (.seq (.rep (.seq .ds1 .ws1) 6) (.seq .ds1 (.seq .ws .eols1))))

/-- mmio.py:84: `((?:elem_line){3,})` -/
def radElems : Re := .group 1 (.atLeast radElem 3)

/-- mmio.py:95: the coordinates of a node. -/
def radVertex (m : ReMatch) : Except PyErr (List ℚ) := floats [m.group 1, m.group 2, m.group 3]

/-- mmio.py:101: the numbers of an element, without the first three. -/
def radFace (m : ReMatch) : Except PyErr (List ℤ) := ints ((split m.text).drop 3)

/-- `load_RAD` (mmio.py:72-104) from the text of the file. A search which fails gives `None`, which has no method `group`. -/
def loadRAD (text : Str) : Except PyErr Loaded :=
  match research radNodes text with
  | none => .error .attributeError
  | some mn =>
    match mapAll radVertex (findall (radNode .group) (mn.group 1)) with
    | .error e => .error e
    | .ok vs =>
      match research radElems text with
      | none => .error .attributeError
      | some me =>
        match mapAll radFace (findall radElem (me.group 1)) with
        | .error e => .error e
        | .ok fs => .ok ⟨vs, minusOne fs⟩

end MM.Io
