import Verif.Model.PlaneFl
import Verif.Model.VolumeQuadFl

/-!
# Model of `mirror` in floating point
-/

namespace MM

variable {K : Type*} [Field K] [LinearOrder K]

/-- A row of `_vertices` after `_vertices -= 2 * np.outer(np.dot(_vertices, normal) - c, normal)` (mesh.py:1876): the product with the normal,
its double and the difference are rounded. The distance is that of `Plane.distFl`, with `np.dot` as a parameter. -/
def Plane.reflectFl (rnd : K → K) (dot : V3 K → V3 K → K) (p : Plane K) (v : V3 K) : V3 K :=
  let d := p.distFl rnd dot v
  ⟨rnd (v.x - rnd (2 * rnd (d * p.normal.x))), rnd (v.y - rnd (2 * rnd (d * p.normal.y))), rnd (v.z - rnd (2 * rnd (d * p.normal.z)))⟩

/-- `mirror(plane)` (mesh.py:1868-1879) in floating point. -/
def Mesh.mirrorFl (rnd : K → K) (dot : V3 K → V3 K → K) (p : Plane K) (m : Mesh K) : Mesh K :=
  (m.mapVertices (p.reflectFl rnd dot)).flipNormals

end MM
