import Verif.Model.MmioRegex

/-!
# Model of `meshmagick/mmio.py`: `load_MSH`, `load_MSH22`
-/

namespace MM.Io

open MM

/-- mmio.py:858-859: `\$Nodes\n(\d+)\n(.+)\$EndNodes`, `\$Elements\n(\d+)\n(.+)\$EndElements` with `re.DOTALL`. -/
def mshSection (name : Str) : Re :=
  .seq (.lit ('$' :: name ++ ['\n'])) (.seq (.group 1 .ds1) (.seq (.chr (· == '\n'))
    (.seq (.group 2 .anys1) (.lit ("$End".toList ++ name)))))

/-- mmio.py:866, 872: `(^\d+\s2(?:\s\d+)+?$)`, `(^\d+\s3(?:\s\d+)+?$)` with `re.MULTILINE`. -/
def mshElts (t : Char) : Re :=
  .group 1 (.seq .bol (.seq .ds1 (.seq (.chr isSpace) (.seq (.chr (· == t))
    (.seq (.lazyPlus (.seq (.chr isSpace) .ds1)) .eol)))))

/-- mmio.py:939: `\$MeshFormat\n(\d.\d).*\n\$EndMeshFormat` with `re.DOTALL`. -/
def mshVersion : Re :=
  .seq (.lit "$MeshFormat\n".toList) (.seq (.group 1 (.seq (.chr isDigit) (.seq (.chr fun _ => true) (.chr isDigit))))
    (.seq .anys (.lit "\n$EndMeshFormat".toList)))

/-- mmio.py:867-870, 873-875: the row of an element. -/
def mshRow (tri : Bool) (m : ReMatch) : Except PyErr (List ℤ) :=
  match ints (split (m.group 1)) with
  | .error e => .error e
  | .ok ws => .ok (mshElem tri ws)

/-- `load_MSH22` (mmio.py:850-879) from the text of the file. A search which fails gives `None`, which has no method
`groups`. `reshape((-1, 4))` needs a multiple of four numbers. -/
def loadMSH22Text (text : Str) : Except PyErr Loaded :=
  match research (mshSection "Nodes".toList) text with
  | none => .error .attributeError
  | some mn =>
    match research (mshSection "Elements".toList) text with
    | none => .error .attributeError
    | some me =>
      match floats (split (mn.group 2)) with
      | .error e => .error e
      | .ok xs =>
        if xs.length % 4 ≠ 0 then .error .valueError
        else
          match mapAll (mshRow true) (findall (mshElts '2') (me.group 2)) with
          | .error e => .error e
          | .ok ts =>
            match mapAll (mshRow false) (findall (mshElts '3') (me.group 2)) with
            | .error e => .error e
            | .ok qs =>
              match rect (ts ++ qs) with
              | .error e => .error e
              | .ok fs => .ok ⟨(rowsOf 4 (xs.length / 4) xs).map (List.drop 1), minusOne fs⟩

/-- `load_MSH` (mmio.py:914-951) from the text of the file. `msh41` is the result of `load_MSH41`, which calls the library
`gmshparser`. -/
def loadMSH (msh41 : Str → Except PyErr Loaded) (text : Str) : Except PyErr Loaded :=
  match research mshVersion text with
  | none => .error .attributeError
  | some m =>
    match conv (parseFloat (m.group 1)) with
    | .error e => .error e
    | .ok v =>
      if 2 ≤ v ∧ v < 3 then loadMSH22Text text
      else if 4 ≤ v ∧ v < 5 then msh41 text
      else .error .runtimeError

end MM.Io
