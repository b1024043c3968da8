import Verif.Model.Mesh

/-!
# Specification vocabulary for meshes

`Mesh.geometry m` is the geometric content of a mesh: for each face, in order, the list of its four corner
points. It is what a user sees, independently of how the vertices are numbered. A corner whose index is
invalid appears as `none`.
-/

namespace MM

variable {K : Type*}

/-- Corner points of a face of `m`. -/
def Mesh.cornerPoints (m : Mesh K) (f : Face) : List (Option (V3 K)) :=
  f.toList.map (fun i => m.vertices[i]?)

/-- Corner points of all faces. -/
def Mesh.geometry (m : Mesh K) : List (List (Option (V3 K))) := m.faces.map m.cornerPoints

/-- Vertex number `i` is used by some face. -/
def Mesh.Uses (m : Mesh K) (i : ℕ) : Prop := ∃ f ∈ m.faces, i ∈ f.toList

/-- Two points differ by at most `tol` in every coordinate. -/
def V3.Close [CommRing K] [LinearOrder K] (tol : K) (u v : V3 K) : Prop :=
  |u.x - v.x| ≤ tol ∧ |u.y - v.y| ≤ tol ∧ |u.z - v.z| ≤ tol

/-- Two optional points are both present and close. -/
def OptClose [CommRing K] [LinearOrder K] (tol : K) : Option (V3 K) → Option (V3 K) → Prop
  | some u, some v => V3.Close tol u v
  | _, _ => False

/-- Two face/corner structures have the same shape and corresponding corners are close. -/
def GeomClose [CommRing K] [LinearOrder K] (tol : K) (g h : List (List (Option (V3 K)))) : Prop :=
  List.Forall₂ (List.Forall₂ (OptClose tol)) g h

end MM
