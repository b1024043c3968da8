import Verif.Spec.Io

/-!
# Specification: ASCII files of GMSH, version 2

The layout of the file as GMSH writes it: numbers separated by one blank, one node or one element per line.
-/

namespace MM.Io

open MM

/-- A node: its number, its position, and the three words of its coordinates. -/
structure MshNode where
  id : ℕ
  p : V3 ℚ
  x : Str
  y : Str
  z : Str

/-- An element: its number, its type (2: triangle, 3: quadrangle, others: points, lines, volumes), its tags, its nodes. -/
structure MshElement where
  id : ℕ
  type : ℕ
  tags : List ℕ
  nodes : List ℕ

/-- `id x y z` -/
def MshNode.line (n : MshNode) : Str := natStr n.id ++ ' ' :: (n.x ++ ' ' :: (n.y ++ ' ' :: n.z))

/-- `id type number-of-tags tags nodes` -/
def MshElement.line (e : MshElement) : Str :=
  natStr e.id ++ (e.type :: e.tags.length :: (e.tags ++ e.nodes)).flatMap fun n => ' ' :: natStr n

/-- A file: `format` is what follows `2.` in the version and the line it is in; `before`, `between` and `after` are the other
sections of the file (physical names, entities, results…). -/
structure MshFile where
  minor : Char
  format : Str
  before : Str
  nodes : List MshNode
  between : Str
  elements : List MshElement
  after : Str

/-- What comes before the nodes. -/
def MshFile.head (f : MshFile) : Str :=
  "$MeshFormat\n2.".toList ++ f.minor :: (f.format ++ ("\n$EndMeshFormat\n".toList ++ f.before))

def MshFile.text (f : MshFile) : Str :=
  f.head ++ (
  "$Nodes\n".toList ++ (natStr f.nodes.length ++ '\n' :: (f.nodes.flatMap (fun n => n.line ++ ['\n']) ++
  ("$EndNodes\n".toList ++ (f.between ++
  ("$Elements\n".toList ++ (natStr f.elements.length ++ '\n' :: (f.elements.flatMap (fun e => e.line ++ ['\n']) ++
  ("$EndElements\n".toList ++ f.after)))))))))

/-- A word which is a number: `float` accepts it, and it has no blank and no dollar. -/
def NumberWord (w : Str) (v : ℚ) : Prop := parseFloat w = some v ∧ w ≠ [] ∧ ∀ c ∈ w, isSpace c = false ∧ c ≠ '$'

/-- The words of a node are the numbers of its coordinates. -/
def MshNode.Written (n : MshNode) : Prop := NumberWord n.x n.p.x ∧ NumberWord n.y n.p.y ∧ NumberWord n.z n.p.z

/-- The other sections do not contain the key words of the nodes and of the elements. -/
def MshFile.Separate (f : MshFile) : Prop :=
  ∀ s ∈ [f.head, f.between, f.after], ∀ k ∈ ["$Nodes", "$EndNodes", "$Elements", "$EndElements"], ¬ k.toList <:+: s

/-- Triangles have three nodes, quadrangles four. -/
def MshElement.Regular (e : MshElement) : Prop := (e.type = 2 → e.nodes.length = 3) ∧ (e.type = 3 → e.nodes.length = 4)

/-- The position of the node whose number is `i`. -/
def MshFile.position (f : MshFile) (i : ℕ) : Option (V3 ℚ) := (f.nodes.find? fun n => n.id = i).map MshNode.p

/-- The triangles of the file, then its quadrangles. -/
def MshFile.panels (f : MshFile) : List MshElement :=
  (f.elements.filter fun e => e.type = 2) ++ f.elements.filter fun e => e.type = 3

end MM.Io
