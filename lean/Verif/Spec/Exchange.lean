import Verif.Spec.Io

/-!
# Specification: readers of the exchange formats VTK (legacy, ASCII, polygons), OBJ and STL (ASCII)

Written from the descriptions of the formats. Each reader gives `none` for a text which is not in its format.
-/

namespace MM.Io

open MM

/-- The first line of a text, and the text after it. -/
def firstLine (s : Str) : Str := s.takeWhile (· ≠ '\n')
def afterLine (s : Str) : Str := (s.dropWhile (· ≠ '\n')).tail

/-- The values of all the words. -/
def values {α : Type} (p : Str → Option α) : List Str → Option (List α)
  | [] => some []
  | w :: ws =>
    match p w, values p ws with
    | some x, some xs => some (x :: xs)
    | _, _ => none

/-- `n` points of three coordinates, and the words after them. -/
def readPoints : ℕ → List Str → Option (List (List ℚ) × List Str)
  | 0, ws => some ([], ws)
  | n + 1, ws =>
    match values parseFloat (ws.take 3), readPoints n (ws.drop 3) with
    | some [x, y, z], some (ps, r) => some ([x, y, z] :: ps, r)
    | _, _ => none

/-- `n` polygons, each one being the number of its points then these points, and the words after them. -/
def readPolygons : ℕ → List Str → Option (List (List ℤ) × List Str)
  | 0, ws => some ([], ws)
  | _ + 1, [] => none
  | n + 1, w :: ws =>
    match parseInt w with
    | none => none
    | some k =>
      match values parseInt (ws.take k.toNat), readPolygons n (ws.drop k.toNat) with
      | some is, some (ps, r) => if (is.length : ℤ) = k then some (is :: ps, r) else none
      | _, _ => none

/-- A VTK file: a line of version; a title of at most 256 characters; `ASCII`; then words: the data set, the number of
points and their type, the coordinates, the number of polygons and the number of integers they take, the polygons. -/
def readVtk (s : Str) : Option (List (List ℚ) × List (List ℤ)) :=
  if "# vtk DataFile Version ".toList <+: firstLine s ∧ (firstLine (afterLine s)).length ≤ 256 ∧
      firstLine (afterLine (afterLine s)) = "ASCII".toList then
    match split (afterLine (afterLine (afterLine s))) with
    | w1 :: w2 :: w3 :: n :: w4 :: ws =>
      if [w1, w2, w3, w4] = ["DATASET".toList, "POLYDATA".toList, "POINTS".toList, "float".toList] then
        match parseInt n with
        | none => none
        | some n =>
          match readPoints n.toNat ws with
          | some (ps, w5 :: k :: size :: ws) =>
            match parseInt k, parseInt size with
            | some k, some size =>
              match readPolygons k.toNat ws with
              | some (fs, []) =>
                if w5 = "POLYGONS".toList ∧ (ps.length : ℤ) = n ∧ (fs.length : ℤ) = k ∧
                    ((fs.map fun f => f.length + 1).sum : ℕ) = size then some (ps, fs) else none
              | _ => none
            | _, _ => none
          | _ => none
      else none
    | _ => none
  else none

/-- The lines of an OBJ file: empty lines, comments, points (`v`), and faces (`f`) whose points are numbered from 1. -/
def readObjLines : List Str → Option (List (List ℚ) × List (List ℤ))
  | [] => some ([], [])
  | l :: ls =>
    match readObjLines ls with
    | none => none
    | some (vs, fs) =>
      match split l with
      | [] => some (vs, fs)
      | w :: ws =>
        if w.head? = some '#' then some (vs, fs)
        else if w = ['v'] then (values parseFloat ws).map fun p => (p :: vs, fs)
        else if w = ['f'] then (values parseInt ws).map fun f => (vs, f.map (· - 1) :: fs)
        else none

/-- An OBJ file. -/
def readObj (s : Str) : Option (List (List ℚ) × List (List ℤ)) := readObjLines (linesOf s)

/-- The facet of an STL file: its normal (`none`: not a number) and its three points. -/
structure Facet where
  normal : List (Option ℚ)
  points : List (List ℚ)
deriving DecidableEq, Repr

/-- The words of the facets of an STL file, up to `endsolid`. -/
def readFacets : List Str → Option (List Facet)
  | w1 :: w2 :: n1 :: n2 :: n3 :: w3 :: w4 :: w5 :: a1 :: a2 :: a3 :: w6 :: b1 :: b2 :: b3 :: w7 :: c1 :: c2 :: c3 ::
      w8 :: w9 :: ws =>
    if [w1, w2, w3, w4, w5, w6, w7, w8, w9] = ["facet".toList, "normal".toList, "outer".toList, "loop".toList,
        "vertex".toList, "vertex".toList, "vertex".toList, "endloop".toList, "endfacet".toList] then
      match values parseFloat [a1, a2, a3], values parseFloat [b1, b2, b3], values parseFloat [c1, c2, c3],
          readFacets ws with
      | some a, some b, some c, some r => some (⟨[parseFloat n1, parseFloat n2, parseFloat n3], [a, b, c]⟩ :: r)
      | _, _, _, _ => none
    else none
  | w :: _ => if w = "endsolid".toList then some [] else none
  | [] => none

/-- An STL file: a line `solid` and a name, the facets, `endsolid` and the name. -/
def readStl (s : Str) : Option (List Facet) :=
  if "solid ".toList <+: firstLine s then readFacets (split (afterLine s)) else none

/-- A facet is the triangle of three points: these points, and when the triangle is not flat its normal `n / |n|`,
`n = (p1 - p0) × (p2 - p0)`, to seven digits. -/
def FacetOf (norm : V3 ℚ → ℚ) (p0 p1 p2 : V3 ℚ) (t : Facet) : Prop :=
  (∃ r0 r1 r2, t.points = [r0, r1, r2] ∧ RowOf Rounded7Digits p0 r0 ∧ RowOf Rounded7Digits p1 r1 ∧
    RowOf Rounded7Digits p2 r2) ∧
  (norm ((p1 - p0).cross (p2 - p0)) ≠ 0 → ∃ x y z : ℚ, t.normal = [some x, some y, some z] ∧
    let n := (p1 - p0).cross (p2 - p0)
    Rounded7Digits (n.x / norm n) x ∧ Rounded7Digits (n.y / norm n) y ∧ Rounded7Digits (n.z / norm n) z)

end MM.Io
