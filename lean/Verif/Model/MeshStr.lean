import Verif.Model.Mmio
import Verif.Model.Mesh

/-!
# Model of `str(mesh)`, which `--info` prints
-/

namespace MM.Info

open MM MM.Io

/-- The eight blanks which start the lines of the docstring-like text (mesh.py:433-448). -/
def ind : Str := List.replicate 8 ' '

/-- A line of the text, indented and ended. -/
def line (s : Str) : Str := ind ++ (s ++ nl)

/-- `'%s = %f\t%s = %f'` (mesh.py:443-445). -/
def bounds (l1 : Str) (x1 : ℚ) (l2 : Str) (x2 : ℚ) : Str :=
  l1 ++ (' ' :: '=' :: ' ' :: (fixedStr 6 x1 ++ ('\t' :: (l2 ++ (' ' :: '=' :: ' ' :: fixedStr 6 x2)))))

/-- `nb_triangles` and `nb_quadrangles` (mesh.py:776-810): `len(self.triangles_ids)`, `len(self.quadrangles_ids)`. -/
def nbTriangles (m : Mesh ℚ) : ℕ := m.trianglesIds.length
def nbQuadrangles (m : Mesh ℚ) : ℕ := m.quadranglesIds.length

/-- `Mesh.__str__` (mesh.py:423-457), printed by `--info` (cli.py:984-985). Coordinates are rationals: `-0.0`, infinities
and NaN are not modelled. -/
def str (name : Str) (m : Mesh ℚ) : Str :=
  let b := m.bbox
  nl ++
  (line "--------------------------------------------".toList ++
  (line ("\tMESH NAME : ".toList ++ name) ++
  (line "--------------------------------------------".toList ++
  (nl ++
  (line ("Number of vertices: ".toList ++ natStr m.nv) ++
  (line ("Number of faces:    ".toList ++ natStr m.nf) ++
  (nl ++
  (line ("Number of triangles:   ".toList ++ natStr (nbTriangles m)) ++
  (line ("Number of quadrangles: ".toList ++ natStr (nbQuadrangles m)) ++
  (nl ++
  (line (bounds "xmin".toList b.xmin "xmax".toList b.xmax) ++
  (line (bounds "ymin".toList b.ymin "ymax".toList b.ymax) ++
  (line (bounds "zmin".toList b.zmin "zmax".toList b.zmax) ++
  (nl ++ (nl ++ ind)))))))))))))))

end MM.Info
