import Verif.Spec.Clipper
import Verif.Spec.Connectivity

/-!
# Specification vocabulary: the section of a mesh by a plane, boundaries as lists of pairs of points
-/

namespace MM

variable {K : Type*} [Field K] [LinearOrder K]

/-- The point of the plane on the line through `a` and `b` (which are at different distances of the plane). -/
def Plane.cutPt (p : Plane K) (a b : V3 K) : V3 K := (p.dist a - p.dist b)⁻¹ • (p.dist a • b - p.dist b • a)

/-- The directed edges of the faces, as pairs of points. -/
def Mesh.pointEdges (m : Mesh K) : List (V3 K × V3 K) := m.directedEdges.map (fun e => (m.vert e.1, m.vert e.2))

/-- The part of a face in the plane, from the point where the boundary of the face goes below the plane to the point where
it comes back above. -/
def Face.sectionEdge (p : Plane K) (vert : ℕ → V3 K) (f : Face) : Option (V3 K × V3 K) :=
  match f.directedEdges.find? (fun e => decide (0 < p.dist (vert e.1)) && decide (p.dist (vert e.2) < 0)),
    f.directedEdges.find? (fun e => decide (p.dist (vert e.1) < 0) && decide (0 < p.dist (vert e.2))) with
  | some e, some e' => some (p.cutPt (vert e.1) (vert e.2), p.cutPt (vert e'.1) (vert e'.2))
  | _, _ => none

/-- The section of the mesh by the plane, one edge for each face that crosses it. -/
def Mesh.sectionEdges (p : Plane K) (m : Mesh K) : List (V3 K × V3 K) := m.faces.filterMap (Face.sectionEdge p m.vert)

/-- The side in the plane of the part of a face below it, when corners may be on the plane: from the point where the boundary of
the face leaves the closed upper half-space to the point where it comes back. Nothing when the face is under the plane and
touches it in a single corner. -/
def Face.lowerSectionEdge (p : Plane K) (vert : ℕ → V3 K) (f : Face) : Option (V3 K × V3 K) :=
  match f.directedEdges.find? (fun e => decide (0 ≤ p.dist (vert e.1)) && decide (p.dist (vert e.2) < 0)),
    f.directedEdges.find? (fun e => decide (p.dist (vert e.1) < 0) && decide (0 ≤ p.dist (vert e.2))) with
  | some e, some e' =>
    if e.1 = e'.2 ∧ p.dist (vert e.1) = 0 then none
    else some (p.cutPt (vert e.1) (vert e.2), p.cutPt (vert e'.1) (vert e'.2))
  | _, _ => none

/-- The boundary in the plane of the part of the mesh below it. -/
def Mesh.lowerSectionEdges (p : Plane K) (m : Mesh K) : List (V3 K × V3 K) :=
  m.faces.filterMap (Face.lowerSectionEdge p m.vert)

/-- The points that clipping deals with: the vertices, and the points where edges cross the plane. -/
def Mesh.ClipPoint (p : Plane K) (m : Mesh K) (X : V3 K) : Prop :=
  X ∈ m.vertices ∨ ∃ e ∈ m.directedEdges, p.dist (m.vert e.1) * p.dist (m.vert e.2) < 0 ∧
    X = p.cutPt (m.vert e.1) (m.vert e.2)

/-- Distinct points that clipping deals with are not within `1e-5` of each other (in each coordinate). -/
def Mesh.WellSeparated [IsStrictOrderedRing K] (p : Plane K) (m : Mesh K) : Prop :=
  ∀ X Y, m.ClipPoint p X → m.ClipPoint p Y → V3.Close (1 / 100000) X Y → X = Y

/-- The point is farther from the plane than the tolerance of the clipper, or exactly on the plane. -/
def Plane.Clear [IsStrictOrderedRing K] (p : Plane K) (tol : K) (v : V3 K) : Prop :=
  tol < |p.dist v| ∨ (p.dist v = 0 ∧ 0 < tol)

/-- The plane with the opposite normal. -/
def Plane.reversed (p : Plane K) : Plane K := ⟨-p.normal, -p.c⟩

/-- The edges of the closed boundary polygons returned by the clipper, as pairs of points. -/
def Clipper.Clipped.polygonEdges [IsStrictOrderedRing K] (c : Clipper.Clipped K) : List (V3 K × V3 K) :=
  (c.closedPolygons.flatMap chainPairs).map (fun e => (c.clippedCrown.vert e.1, c.clippedCrown.vert e.2))

/-- No two edges of the mesh cross the plane, from above to below, at the same point. -/
def Mesh.CrossesOnce (p : Plane K) (m : Mesh K) : Prop :=
  ∀ e ∈ m.directedEdges, ∀ e' ∈ m.directedEdges, ∀ x, CrossesDown p m.vert e x → CrossesDown p m.vert e' x → e = e'

/-- Plane strictly convex quadrangle: the triangles at its four corners are not degenerate and have the same orientation. -/
def StrictlyConvexQuad (p q r s : V3 K) : Prop :=
  ∃ n : V3 K, ∃ α β γ δ : K, 0 < α ∧ 0 < β ∧ 0 < γ ∧ 0 < δ ∧ n ≠ 0 ∧
    areaVec p q r = α • n ∧ areaVec p r s = β • n ∧ areaVec p q s = γ • n ∧ areaVec q r s = δ • n

/-- No triangle is degenerate and each quadrangle is plane and strictly convex. -/
def Mesh.StrictlyConvexFaces (m : Mesh K) : Prop :=
  ∀ f ∈ m.faces,
    if f.a = f.d then areaVec (m.vert f.a) (m.vert f.b) (m.vert f.c) ≠ 0
    else StrictlyConvexQuad (m.vert f.a) (m.vert f.b) (m.vert f.c) (m.vert f.d)

end MM
