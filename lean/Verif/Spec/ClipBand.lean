import Verif.Spec.ClipBody

/-!
# Specification vocabulary: the section of a mesh by a plane, up to a tolerance

The slab of half-width `tol` around the plane separates the points above it from the points below it. A corner in the slab counts
as a point of the plane, without being moved.
-/

namespace MM

variable {K : Type*} [Field K] [LinearOrder K]

/-- The end of the part below of an edge from `a`, which is not below the slab, to `b`, which is: the point of the plane when `a`
is above the slab, and `a` itself when it is in the slab. -/
def Plane.tolCutPt (p : Plane K) (tol : K) (a b : V3 K) : V3 K := if tol < p.dist a then p.cutPt a b else a

/-- The side along the plane of the part of a face below it, when corners may be in the slab: from the point where the boundary
of the face goes below to the point where it comes back. Nothing when the face is under the slab but for a single corner in it. -/
def Face.tolSectionEdge (p : Plane K) (tol : K) (vert : ℕ → V3 K) (f : Face) : Option (V3 K × V3 K) :=
  match f.directedEdges.find? (fun e => decide (-tol ≤ p.dist (vert e.1)) && decide (p.dist (vert e.2) < -tol)),
    f.directedEdges.find? (fun e => decide (p.dist (vert e.1) < -tol) && decide (-tol ≤ p.dist (vert e.2))) with
  | some e, some e' =>
    if e.1 = e'.2 ∧ p.dist (vert e.1) ≤ tol then none
    else some (p.tolCutPt tol (vert e.1) (vert e.2), p.tolCutPt tol (vert e'.2) (vert e'.1))
  | _, _ => none

/-- The boundary along the plane of the part of the mesh below it. -/
def Mesh.tolSectionEdges (p : Plane K) (tol : K) (m : Mesh K) : List (V3 K × V3 K) :=
  m.faces.filterMap (Face.tolSectionEdge p tol m.vert)

/-- The points that clipping deals with: the vertices, and the points where edges that go through the slab cross the plane. -/
def Mesh.TolClipPoint (p : Plane K) (tol : K) (m : Mesh K) (X : V3 K) : Prop :=
  X ∈ m.vertices ∨ ∃ e ∈ m.directedEdges,
    ((tol < p.dist (m.vert e.1) ∧ p.dist (m.vert e.2) < -tol) ∨ (p.dist (m.vert e.1) < -tol ∧ tol < p.dist (m.vert e.2))) ∧
    X = p.cutPt (m.vert e.1) (m.vert e.2)

/-- Distinct points that clipping deals with are not within `1e-5` of each other (in each coordinate). -/
def Mesh.TolSeparated [IsStrictOrderedRing K] (p : Plane K) (tol : K) (m : Mesh K) : Prop :=
  ∀ X Y, m.TolClipPoint p tol X → m.TolClipPoint p tol Y → V3.Close (1 / 100000) X Y → X = Y

/-- No face with a side in the slab has corners both above and below it. -/
def Mesh.NoSlabSide [IsStrictOrderedRing K] (p : Plane K) (tol : K) (m : Mesh K) : Prop :=
  ∀ f ∈ m.faces, ∀ e ∈ f.directedEdges, |p.dist (m.vert e.1)| < tol → |p.dist (m.vert e.2)| < tol →
    (∀ i ∈ f.toList, p.dist (m.vert i) ≤ tol) ∨ (∀ i ∈ f.toList, -tol ≤ p.dist (m.vert i))

end MM
