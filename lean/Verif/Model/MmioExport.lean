import Verif.Model.Mmio
import Verif.Model.MmioIds

/-!
# Model of `meshmagick/mmio.py`: the text of VTK, OBJ and STL files

These writers have no loader of their own in the code: the loaders of these formats call the VTK library. `date` is the
result of `time.strftime('%c')`.
-/

namespace MM.Io

open MM

/-- mmio.py:1442-1459, `write_VTK`: the line of a vertex. -/
def vtkVertexLine (v : V3 ℚ) : Str :=
  fFix 0 v.x ++ ' ' :: fFix 0 v.y ++ ' ' :: fFix 0 v.z ++ nl

/-- mmio.py:1455-1459, `write_VTK`: the line of a face. -/
def vtkFaceLine (f : Face) : Str :=
  if f.a = f.d then "3 ".toList ++ fInt 0 f.a ++ ' ' :: fInt 0 f.b ++ ' ' :: fInt 0 f.c ++ nl
  else "4 ".toList ++ fInt 0 f.a ++ ' ' :: fInt 0 f.b ++ ' ' :: fInt 0 f.c ++ ' ' :: fInt 0 f.d ++ nl

/-- mmio.py:1434-1459, `write_VTK`. -/
def writeVTK (date : Str) (m : Mesh ℚ) : Str :=
  let nbTri := (m.faces.filter fun f => f.a = f.d).length
  let nbQuad := (m.faces.filter fun f => f.a ≠ f.d).length
  "# vtk DataFile Version 4.0\n".toList ++
  ("vtk file generated by meshmagick on ".toList ++ date ++ nl) ++
  "ASCII\n".toList ++
  "DATASET POLYDATA\n".toList ++
  ("POINTS ".toList ++ fInt 0 m.nv ++ " float\n".toList) ++
  m.vertices.flatMap vtkVertexLine ++
  ("POLYGONS ".toList ++ fInt 0 m.nf ++ ' ' :: fInt 0 (4 * nbTri + 5 * nbQuad) ++ nl) ++
  m.faces.flatMap vtkFaceLine

/-- mmio.py:1471-1472, `write_OBJ`: the line of a vertex. -/
def objVertexLine (v : V3 ℚ) : Str :=
  "v  ".toList ++ fFix 15 v.x ++ '\t' :: fFix 15 v.y ++ '\t' :: fFix 15 v.z

/-- mmio.py:1475-1483, `write_OBJ`: the line of a face. -/
def objFaceLine (f : Face) : Str :=
  "f  ".toList ++ fInt 10 (f.a + 1) ++ "  ".toList ++ fInt 10 (f.b + 1) ++ "  ".toList ++ fInt 10 (f.c + 1) ++
    (if f.a = f.d then [] else "  ".toList ++ fInt 10 (f.d + 1))

/-- mmio.py:1462-1483, `write_OBJ`. -/
def writeOBJ (date : Str) (m : Mesh ℚ) : Str :=
  "# Wavefront OBJ file exported by Meshmagick (Copyright Ecole Centrale de Nantes)".toList ++ nl ++
  "# File Created: ".toList ++ date ++ nl ++ nl ++ nl ++
  "# Vertices: ".toList ++ fInt 0 m.nv ++ nl ++ nl ++
  m.vertices.flatMap (fun v => objVertexLine v ++ nl) ++
  nl ++ nl ++ nl ++ "# Faces: ".toList ++ fInt 0 m.nf ++ nl ++ nl ++
  m.faces.flatMap (fun f => objFaceLine f ++ nl)

/-- `'%15.6e' % x`: as `'%15.6E'` with a small letter. -/
def fSciLow (x : ℚ) : Str := padL 15 ((sciStr 6 x).map fun c => if c = 'E' then 'e' else c)

/-- mmio.py:1744-1745, 1747, `write_STL`: `n /= np.linalg.norm(n)` and `'%15.6e' % ni`. The norm is a parameter (a square root
is not a rational). The quotient by a zero norm is NaN or infinite. -/
def stlNormalField (norm ni : ℚ) : Str :=
  if norm = 0 then padL 15 (if ni = 0 then "nan".toList else if 0 < ni then "inf".toList else "-inf".toList)
  else fSciLow (ni / norm)

/-- mmio.py:1747-1749: `''.join('%15.6e' % Vi for Vi in v) + '\n'`. -/
def stlPoint (v : V3 ℚ) : Str := fSciLow v.x ++ fSciLow v.y ++ fSciLow v.z ++ nl

/-- mmio.py:1739-1754, `write_STL`: the block of a triangle. -/
def stlFacet (norm : V3 ℚ → ℚ) (v0 v1 v2 : V3 ℚ) : Str :=
  let n := (v1 - v0).cross (v2 - v0)
  "  facet normal ".toList ++
    (stlNormalField (norm n) n.x ++ stlNormalField (norm n) n.y ++ stlNormalField (norm n) n.z ++ nl) ++
  "    outer loop\n".toList ++
  "      vertex".toList ++ stlPoint v0 ++
  "      vertex".toList ++ stlPoint v1 ++
  "      vertex".toList ++ stlPoint v2 ++
  "    endloop\n".toList ++
  "  endfacet\n".toList

/-- mmio.py:1733-1756, `write_STL`: the loop on the triangles; what has been written before an exception stays in the file
and is not returned here. -/
def stlFacets (norm : V3 ℚ → ℚ) (vertices : List (V3 ℚ)) : List Face → Except PyErr Str
  | [] => .ok []
  | f :: fs =>
    if f.a ≠ f.d then .error .runtimeError
    else
      match vertices[f.a]?, vertices[f.b]?, vertices[f.c]? with
      | some v0, some v1, some v2 =>
        match stlFacets norm vertices fs with
        | .error e => .error e
        | .ok s => .ok (stlFacet norm v0 v1 v2 ++ s)
      | _, _, _ => .error .indexError

/-- mmio.py:1702-1758, `write_STL`. -/
def writeSTL (norm : V3 ℚ → ℚ) (m : Mesh ℚ) : Except PyErr Str :=
  match stlFacets norm m.vertices (stlFaces m.faces).2 with
  | .error e => .error e
  | .ok s => .ok ("solid meshmagick\n".toList ++ s ++ "endsolid meshmagick\n".toList)

end MM.Io
