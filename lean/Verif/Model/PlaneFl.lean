import Verif.Model.Plane
import Verif.Model.Clipper

/-!
# Model of the distances and of the intersections of `Plane` in floating point

Every operation is followed by a rounding `rnd`. `dot` is the function `np.dot` of two 3-vectors, whose order of summation
is chosen by the BLAS: it is a parameter (the product of a matrix and a vector, used for the distances of the vertices, and
that of two vectors, used for the intersections, may not be rounded in the same way).
-/

namespace MM

variable {K : Type*} [Field K] [LinearOrder K]

/-- `np.dot` of two 3-vectors, from left to right. -/
def dotFl (rnd : K → K) (a b : V3 K) : K := rnd (rnd (rnd (a.x * b.x) + rnd (a.y * b.y)) + rnd (a.z * b.z))

/-- `np.dot` of two 3-vectors, from right to left with fused multiply-adds. -/
def dotFma (rnd : K → K) (a b : V3 K) : K := rnd (a.x * b.x + rnd (a.y * b.y + rnd (a.z * b.z)))

/-- `get_point_dist_wrt_plane` (mesh.py:286-301) with roundings. -/
def Plane.distFl (rnd : K → K) (dot : V3 K → V3 K → K) (p : Plane K) (v : V3 K) : K := rnd (dot v p.normal - p.c)

/-- `get_edge_intersection` (mesh.py:330-353) with roundings; see `Plane.edgeIntersection`. -/
def Plane.edgeIntersectionFl (rnd : K → K) (dot : V3 K → V3 K → K) (p : Plane K) (p0 p1 : V3 K) :
    Except PyErr (Option (V3 K)) :=
  let p0n := dot p0 p.normal
  let p1n := dot p1 p.normal
  if rnd (p0n - p1n) = 0 then
    if rnd (p0n - p.c) = 0 then .ok none else .error .runtimeError
  else
    let t := rnd (rnd (p0n - p.c) / rnd (p0n - p1n))
    if t < 0 ∨ t > 1 then .error .runtimeError
    else
      let s := rnd (1 - t)
      .ok (some ⟨rnd (rnd (s * p0.x) + rnd (t * p1.x)), rnd (rnd (s * p0.y) + rnd (t * p1.y)),
        rnd (rnd (s * p0.z) + rnd (t * p1.z))⟩)

/-- `_vertices_positions_wrt_plane` (mesh_clipper.py:113-136): the distances, with roundings. -/
def Clipper.vertexDistsFl (rnd : K → K) (dot : V3 K → V3 K → K) (p : Plane K) (tol : K) (m : Mesh K) :
    Except ClipErr (List K) :=
  let d := m.vertices.map (p.distFl rnd dot)
  if d.all (isAbove tol) then .error .above
  else if d.all (isBelow tol) then .error .below
  else .ok d

end MM
