import Verif.Model.MmioLib
import Verif.Model.Regex

/-!
# Model of `load_WRL` (VRML files)

What the importer of vtk makes of the file is an argument: the list of the shapes (actors), in the order in which vtk gives
them.
-/

namespace MM.Io

open MM

/-- mmio.py:1036: `#VRML\s+V(\d.\d)` -/
def wrlHead : Re :=
  .seq (.lit "#VRML".toList) <| .seq .ws1 <| .seq (.lit "V".toList) <|
  .group 1 (.seq (.chr isDigit) (.seq (.chr fun c => c != '\n') (.chr isDigit)))

/-- `load_WRL` (mmio.py:1014-1050): `text` is the file, `shapes` the data of the actors. Without the header `re.search`
returns `None`, without actor `GetNextActor` does: `AttributeError`. Only the first actor is taken. -/
def loadWRL (text : Str) (shapes : List VtkData) : Except PyErr (Mesh ℚ) :=
  match reSearch wrlHead ((linesOf text).headD []) [] with
  | none => .error .attributeError
  | some (m, _) =>
    if m.group 1 ≠ "2.0".toList then .error .notImplemented
    else
      match shapes with
      | [] => .error .attributeError
      | d :: _ => dumpVtk d

end MM.Io
