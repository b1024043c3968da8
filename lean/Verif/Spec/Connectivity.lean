import Verif.Spec.Closed

/-!
# Specification vocabulary: edges, shared edges, boundary edges, chains
-/

namespace MM

/-- `i`, `j` are the ends of an edge of the face. -/
def Face.HasEdge (f : Face) (i j : ℕ) : Prop := (i, j) ∈ f.directedEdges ∨ (j, i) ∈ f.directedEdges

instance (f : Face) (i j : ℕ) : Decidable (f.HasEdge i j) := by unfold Face.HasEdge; infer_instance

/-- Some face has the edge `i j`. -/
def Joined (faces : List Face) (i j : ℕ) : Prop := ∃ f ∈ faces, f.HasEdge i j

instance (faces : List Face) (i j : ℕ) : Decidable (Joined faces i j) := by unfold Joined; infer_instance

/-- The three or four corners of each face are distinct. -/
def ProperFaces (faces : List Face) : Prop := ∀ f ∈ faces, f.corners.Nodup

instance (faces : List Face) : Decidable (ProperFaces faces) := by unfold ProperFaces; infer_instance

/-- No edge of a face is a diagonal of another one. -/
def NoChord (faces : List Face) : Prop :=
  ∀ f ∈ faces, ∀ i ∈ f.corners, ∀ j ∈ f.corners, Joined faces i j → f.HasEdge i j

instance (faces : List Face) : Decidable (NoChord faces) := by unfold NoChord; infer_instance

/-- Number of faces having both `i` and `j` among their corners. -/
def facesThrough (faces : List Face) (i j : ℕ) : ℕ := faces.countP (fun f => i ∈ f.corners ∧ j ∈ f.corners)

/-- Number of faces having the edge `i j`. -/
def facesOnEdge (faces : List Face) (i j : ℕ) : ℕ := faces.countP (fun f => f.HasEdge i j)

/-- `i → j` is an edge, as its face traverses it, that belongs to no other face. -/
def IsBoundary (faces : List Face) (i j : ℕ) : Prop :=
  (∃ f ∈ faces, (i, j) ∈ f.directedEdges) ∧ facesOnEdge faces i j = 1

instance (faces : List Face) (i j : ℕ) : Decidable (IsBoundary faces i j) := by unfold IsBoundary; infer_instance

/-- Faces number `f` and `g` have an edge in common. -/
def ShareEdge (faces : List Face) (f g : ℕ) : Prop :=
  ∃ F G : Face, faces[f]? = some F ∧ faces[g]? = some G ∧ ∃ i j, F.HasEdge i j ∧ G.HasEdge i j

/-- Consecutive elements of a list. -/
def chainPairs {α : Type*} (l : List α) : List (α × α) := l.zip l.tail

/-- Twice the signed area of the polygon of plane points `(x, y)` (shoelace formula). -/
def shoelace {K : Type*} [CommRing K] (l : List (K × K)) : K :=
  (List.zipWith (fun p q => p.1 * q.2 - q.1 * p.2) l (l.rotate 1)).sum

end MM
