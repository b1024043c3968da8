import Verif.Model.Clipper
import Verif.Spec.Mesh
import Verif.Spec.Closed

/-!
# Specification vocabulary for the clipper
-/

namespace MM

variable {K : Type*} [Field K] [LinearOrder K]

/-- `X` is in the triangle `a b c`. -/
def InTri (a b c X : V3 K) : Prop :=
  ∃ α β γ : K, 0 ≤ α ∧ 0 ≤ β ∧ 0 ≤ γ ∧ α + β + γ = 1 ∧ X = α • a + β • b + γ • c

/-- `X` is in the convex hull of `a b c d`. -/
def InQuad (a b c d X : V3 K) : Prop :=
  ∃ α β γ δ : K, 0 ≤ α ∧ 0 ≤ β ∧ 0 ≤ γ ∧ 0 ≤ δ ∧ α + β + γ + δ = 1 ∧ X = α • a + β • b + γ • c + δ • d

/-- The diagonals of the quadrangle `a b c d` have a common point. -/
def DiagonalsCross (a b c d : V3 K) : Prop :=
  ∃ s t : K, 0 ≤ s ∧ s ≤ 1 ∧ 0 ≤ t ∧ t ≤ 1 ∧ (1 - s) • a + s • c = (1 - t) • b + t • d

/-- The set of points covered by a face, `vert` giving the vertices. -/
def InFace (vert : ℕ → V3 K) (f : Face) (X : V3 K) : Prop :=
  if f.a = f.d then InTri (vert f.a) (vert f.b) (vert f.c) X
  else InQuad (vert f.a) (vert f.b) (vert f.c) (vert f.d) X

/-- Twice the area vector of a face. -/
def faceAreaVec (vert : ℕ → V3 K) (f : Face) : V3 K :=
  if f.a = f.d then areaVec (vert f.a) (vert f.b) (vert f.c)
  else areaVec (vert f.a) (vert f.b) (vert f.c) + areaVec (vert f.a) (vert f.c) (vert f.d)

/-- `x` is on the segment `a b`. -/
def OnSegment (a b x : V3 K) : Prop := ∃ t : K, 0 ≤ t ∧ t ≤ 1 ∧ x = (1 - t) • a + t • b

/-- `x` is the point of the plane on the directed edge `e`, that goes from above the plane to below it. -/
def CrossesDown (p : Plane K) (vert : ℕ → V3 K) (e : ℕ × ℕ) (x : V3 K) : Prop :=
  0 < p.dist (vert e.1) ∧ p.dist (vert e.2) < 0 ∧ OnSegment (vert e.1) (vert e.2) x ∧ p.dist x = 0

/-- The part of a face in the plane goes from `x`, on an edge that goes down, to `y`, on an edge that goes up. -/
def FaceCrosses (p : Plane K) (vert : ℕ → V3 K) (f : Face) (x y : V3 K) : Prop :=
  (∃ e ∈ f.directedEdges, CrossesDown p vert e x) ∧ ∃ e ∈ f.directedEdges, CrossesDown p vert e.swap y

/-- The face has corners on both sides of the plane. -/
def FaceOnBothSides (p : Plane K) (vert : ℕ → V3 K) (f : Face) : Prop :=
  (∃ i ∈ f.toList, 0 < p.dist (vert i)) ∧ ∃ i ∈ f.toList, p.dist (vert i) < 0

/-- Sum of the absolute values of the coordinates. -/
def V3.abs1 (v : V3 K) : K := |v.x| + |v.y| + |v.z|

end MM
