import Verif.Spec.Closed
import Verif.Model.Cache

/-!
# Specification: operations which keep the surface, half hulls
-/

namespace MM

/-- The operations of a mesh which are not meant to change which faces bound the body: all but the replacement of the faces, the
removal of degenerated faces, and the healing of the normals (alone or in `heal_mesh`). -/
def MeshObj.Op.KeepsSurface : MeshObj.Op → Prop
  | .setFaces _ => False
  | .removeDegeneratedFaces _ => False
  | .healNormals => False
  | .healMesh => False
  | _ => True

/-- Half of a body: the surface is open along a plane only, each edge which is not traversed as often in one direction as in the
other has its two ends on the plane. -/
def Mesh.OpenAlong {K : Type*} [CommRing K] (m : Mesh K) (p : Plane K) : Prop :=
  ∀ i j : ℕ, m.directedEdges.count (i, j) ≠ m.directedEdges.count (j, i) →
    (m.vert i).dot p.normal = p.c ∧ (m.vert j).dot p.normal = p.c

end MM
