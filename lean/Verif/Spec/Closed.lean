import Verif.Model.FaceProps

/-!
# Specification vocabulary: oriented closed surfaces, plane convex faces, signed volume
-/

namespace MM

/-- The directed edges of a face, in the order in which they are traversed. -/
def Face.directedEdges (f : Face) : List (ℕ × ℕ) :=
  if f.a = f.d then [(f.a, f.b), (f.b, f.c), (f.c, f.a)]
  else [(f.a, f.b), (f.b, f.c), (f.c, f.d), (f.d, f.a)]

/-- All the directed edges of a mesh. -/
def Mesh.directedEdges {K : Type*} (m : Mesh K) : List (ℕ × ℕ) := m.faces.flatMap Face.directedEdges

/-- Closed and consistently oriented: each edge is traversed as often in one direction as in the other. -/
def Mesh.ClosedOriented {K : Type*} (m : Mesh K) : Prop :=
  ∀ i j : ℕ, m.directedEdges.count (i, j) = m.directedEdges.count (j, i)

/-- Twice the area vector of the triangle `p q r`. -/
def areaVec {K : Type*} [CommRing K] (p q r : V3 K) : V3 K := (q - p).cross (r - p)

/-- The quadrangle `p q r s` is plane and its two halves `p q r`, `p r s` have the same orientation. -/
def FlatQuad {K : Type*} [CommRing K] [LinearOrder K] (p q r s : V3 K) : Prop :=
  ∃ n : V3 K, ∃ α β : K, 0 ≤ α ∧ 0 ≤ β ∧ 0 < α + β ∧ n ≠ 0 ∧
    areaVec p q r = α • n ∧ areaVec p r s = β • n

/-- Plane convex quadrangle: the triangles at its four corners have the same orientation. -/
def ConvexQuad {K : Type*} [CommRing K] [LinearOrder K] (p q r s : V3 K) : Prop :=
  ∃ n : V3 K, ∃ α β γ δ : K, 0 ≤ α ∧ 0 ≤ β ∧ 0 ≤ γ ∧ 0 ≤ δ ∧ 0 < α + β ∧ n ≠ 0 ∧
    areaVec p q r = α • n ∧ areaVec p r s = β • n ∧ areaVec p q s = γ • n ∧ areaVec q r s = δ • n

/-- No triangle is degenerate and each quadrangle is `FlatQuad`. -/
def Mesh.FlatFaces (m : Mesh ℝ) : Prop :=
  ∀ f ∈ m.faces,
    if f.a = f.d then areaVec (m.vert f.a) (m.vert f.b) (m.vert f.c) ≠ 0
    else FlatQuad (m.vert f.a) (m.vert f.b) (m.vert f.c) (m.vert f.d)

/-- No triangle is degenerate and each quadrangle is plane and convex. -/
def Mesh.ConvexFaces (m : Mesh ℝ) : Prop :=
  ∀ f ∈ m.faces,
    if f.a = f.d then areaVec (m.vert f.a) (m.vert f.b) (m.vert f.c) ≠ 0
    else ConvexQuad (m.vert f.a) (m.vert f.b) (m.vert f.c) (m.vert f.d)

/-- Signed volume of the tetrahedron `0 p q r`. -/
noncomputable def tetVol (p q r : V3 ℝ) : ℝ := p.dot (q.cross r) / 6

/-- Signed volume delimited by a face and the origin. -/
noncomputable def Mesh.faceSignedVolume (m : Mesh ℝ) (f : Face) : ℝ :=
  if f.a = f.d then tetVol (m.vert f.a) (m.vert f.b) (m.vert f.c)
  else tetVol (m.vert f.a) (m.vert f.b) (m.vert f.c) + tetVol (m.vert f.a) (m.vert f.c) (m.vert f.d)

/-- Signed volume delimited by the surface (sum of the signed cones over its faces). -/
noncomputable def Mesh.signedVolume (m : Mesh ℝ) : ℝ := (m.faces.map m.faceSignedVolume).sum

end MM
