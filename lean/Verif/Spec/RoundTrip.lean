import Verif.Spec.Exchange
import Verif.Spec.Lib

/-!
# Specification: what the readers of the library make of a file

The library reads the numbers of a file in its own precision: `read x` is what it makes of a number `x` of the file.
-/

namespace MM.Io

/-- The point of a row of a file. -/
def pointRead (read : ℚ → ℚ) : List ℚ → V3 ℚ
  | [x, y, z] => ⟨read x, read y, read z⟩
  | _ => ⟨0, 0, 0⟩

/-- The corners of a facet of a file. -/
def facetCornersRead (read : ℚ → ℚ) (t : Facet) : V3 ℚ × V3 ℚ × V3 ℚ :=
  match t.points with
  | [p, q, r] => (pointRead read p, pointRead read q, pointRead read r)
  | _ => (⟨0, 0, 0⟩, ⟨0, 0, 0⟩, ⟨0, 0, 0⟩)

/-- The library has read this STL file: one cell for each facet of the file, with its corners. -/
def ReadsStlFile (read : ℚ → ℚ) (file : Str) (d : StlData) : Prop :=
  ∃ ts, readStl file = some ts ∧ StlReads d (ts.map (facetCornersRead read))

/-- The library has read this file (VTK or OBJ, `format` being the reader of the format): its points and its polygons. -/
def ReadsFile (format : Str → Option (List (List ℚ) × List (List ℤ))) (read : ℚ → ℚ) (file : Str) (d : VtkData) : Prop :=
  ∃ ps fs, format file = some (ps, fs) ∧ d.points = ps.map (pointRead read) ∧ d.cells = fs.map (List.map Int.toNat)

/-- Each coordinate of `v` is that of `u` within `a`, plus `r` times this coordinate. -/
def NearTo (a r : ℚ) (u v : V3 ℚ) : Prop :=
  |v.x - u.x| ≤ a + r * |u.x| ∧ |v.y - u.y| ≤ a + r * |u.y| ∧ |v.z - u.z| ≤ a + r * |u.z|

end MM.Io
