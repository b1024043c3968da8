import Verif.Model.MmioLib
import Verif.Spec.Mesh

/-!
# Specification: what the libraries used by the loaders give for a surface
-/

namespace MM.Io

open MM

/-- The vertices around a face of a mesh: three for a triangle (its first vertex is repeated), otherwise four. -/
def around (f : Face) : List ℕ := if f.a = f.d then [f.a, f.b, f.c] else [f.a, f.b, f.c, f.d]

/-- The STL reader has read these facets: one cell for each, whose three points are the corners, in order. -/
def StlReads (d : StlData) (facets : List (V3 ℚ × V3 ℚ × V3 ℚ)) : Prop :=
  List.Forall₂ (fun c t => ∃ i j k, c = some (i, j, k) ∧ d.points[i]? = some t.1 ∧ d.points[j]? = some t.2.1 ∧
    d.points[k]? = some t.2.2) d.cells facets

/-- The corners of all the facets, in order. -/
def facetCorners (facets : List (V3 ℚ × V3 ℚ × V3 ℚ)) : List (V3 ℚ) := facets.flatMap fun t => [t.1, t.2.1, t.2.2]

/-- The vertices of all the triangles, in order. -/
def triangleCorners (m : Mesh ℚ) : List ℕ := m.faces.flatMap fun f => [f.a, f.b, f.c]

/-- The entries of a MED file are stored by columns: all the first components, then all the second ones, and so on. -/
def cooEntry (ps : List (V3 ℚ)) : List ℚ := ps.map V3.x ++ ps.map V3.y ++ ps.map V3.z
@[inherit_doc cooEntry]
def tr3Entry (ts : List (ℤ × ℤ × ℤ)) : List ℤ := ts.map (·.1) ++ ts.map (·.2.1) ++ ts.map (·.2.2)
@[inherit_doc cooEntry]
def qu4Entry (qs : List (ℤ × ℤ × ℤ × ℤ)) : List ℤ :=
  qs.map (·.1) ++ qs.map (·.2.1) ++ qs.map (·.2.2.1) ++ qs.map (·.2.2.2)

/-- The arrays stored in a file under each of the three names. -/
def MedItem.coo? : MedItem → Option (List ℚ)
  | .coo xs => some xs
  | _ => none
@[inherit_doc MedItem.coo?]
def MedItem.tr3? : MedItem → Option (List ℤ)
  | .tr3 xs => some xs
  | _ => none
@[inherit_doc MedItem.coo?]
def MedItem.qu4? : MedItem → Option (List ℤ)
  | .qu4 xs => some xs
  | _ => none

/-- A MED file of one mesh: one array of coordinates, at most one array of triangles and one of quadrangles (whose nodes are
numbered from 1), in any order, among anything else. -/
structure MedFile (items : List MedItem) (ps : List (V3 ℚ)) (ts : List (ℤ × ℤ × ℤ)) (qs : List (ℤ × ℤ × ℤ × ℤ)) : Prop where
  coo : items.filterMap MedItem.coo? = [cooEntry ps]
  tr3 : items.filterMap MedItem.tr3? = [tr3Entry ts] ∨ items.filterMap MedItem.tr3? = [] ∧ ts = []
  qu4 : items.filterMap MedItem.qu4? = [qu4Entry qs] ∨ items.filterMap MedItem.qu4? = [] ∧ qs = []

/-- The node of tag `t` of a GMSH file. -/
def GmshData.node (d : GmshData) (t : ℤ) : Option (V3 ℚ) :=
  (d.nodes.flatten.find? fun n => (n.1 : ℤ) = t).map Prod.snd

/-- The surface elements of a GMSH file: the tags of the nodes of the triangles (type 2) and quadrangles (type 3). -/
def GmshData.surface (d : GmshData) : List (List ℤ) :=
  (d.elements.filter fun e => e.1 = 2 ∨ e.1 = 3).flatMap Prod.snd

end MM.Io
