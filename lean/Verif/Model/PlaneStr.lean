import Verif.Model.Text

/-!
# Model of `str(plane)` and of the file name of `quick_save`
-/

namespace MM

/-- `Plane.__str__` (mesh.py:176-179) from `_normal` and `_scalar`. Numbers are rationals: `-0.0`, infinities and NaN are not modelled. -/
def planeStr (n : V3 ℚ) (c : ℚ) : Str :=
  "Plane{normal=[".toList ++ (fixedStr 6 n.x ++ (", ".toList ++ (fixedStr 6 n.y ++ (", ".toList ++ (fixedStr 6 n.z ++
    ("], scalar=".toList ++ (fixedStr 6 c ++ "}".toList)))))))

/-- The name of the file that `quick_save(filename)` writes (mesh.py:2114-2118); `none` is `None`. `not filename` holds for `None` and for
the empty name. -/
def quickSaveName (filename : Option Str) : Str :=
  let f := match filename with
    | none => "quick_save.vtp".toList
    | some s => if s = [] then "quick_save.vtp".toList else s
  if ".vtp".toList.isSuffixOf f then f else f ++ ".vtp".toList

/-- `quick_save(filename)` (mesh.py:2103-2125): the files after the call, by name. `write` makes the contents of the VTP file from
the arrays (`mmio.write_VTP`, the vtk library). -/
def quickSave {α β : Type*} (write : α → β) (mesh : α) (filename : Option Str) (files : Str → Option β) : Str → Option β :=
  fun s => if s = quickSaveName filename then some (write mesh) else files s

end MM
