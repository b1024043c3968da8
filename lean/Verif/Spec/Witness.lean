import Verif.Spec.Closed
import Mathlib.Tactic.NormNum

/-!
# A concrete mesh used to show that hypotheses are satisfiable

The unit cube with outward normals; its top is split into two triangles, so that the mesh mixes
quadrangles and triangles.
-/

namespace MM

/-- Faces of the cube; vertex number `x + 2 y + 4 z`. -/
def cubeFaces : List Face :=
  [⟨0, 2, 3, 1⟩, ⟨0, 1, 5, 4⟩, ⟨2, 6, 7, 3⟩, ⟨0, 4, 6, 2⟩, ⟨1, 3, 7, 5⟩, ⟨4, 5, 7, 4⟩, ⟨4, 7, 6, 4⟩]

/-- The unit cube. -/
def cubeMesh (K : Type*) [Zero K] [One K] : Mesh K :=
  ⟨[⟨0, 0, 0⟩, ⟨1, 0, 0⟩, ⟨0, 1, 0⟩, ⟨1, 1, 0⟩, ⟨0, 0, 1⟩, ⟨1, 0, 1⟩, ⟨0, 1, 1⟩, ⟨1, 1, 1⟩], cubeFaces⟩

/-- Closedness only needs to be checked on the edges of the mesh. -/
theorem Mesh.closedOriented_of {K : Type*} {m : Mesh K}
    (h : ∀ e ∈ m.directedEdges, m.directedEdges.count e = m.directedEdges.count e.swap) :
    m.ClosedOriented := by
  intro i j
  by_cases h1 : (i, j) ∈ m.directedEdges
  · exact h (i, j) h1
  · by_cases h2 : (j, i) ∈ m.directedEdges
    · exact (h (j, i) h2).symm
    · rw [List.count_eq_zero_of_not_mem h1, List.count_eq_zero_of_not_mem h2]

theorem cubeMesh_closed (K : Type*) [Zero K] [One K] : (cubeMesh K).ClosedOriented := by
  apply Mesh.closedOriented_of
  show ∀ e ∈ cubeFaces.flatMap Face.directedEdges, (cubeFaces.flatMap Face.directedEdges).count e =
    (cubeFaces.flatMap Face.directedEdges).count e.swap
  decide

theorem cubeMesh_wf (K : Type*) [Zero K] [One K] : (cubeMesh K).WF := by
  show ∀ f ∈ cubeFaces, ∀ i ∈ f.toList, i < 8
  decide

theorem cubeMesh_convex : (cubeMesh ℝ).ConvexFaces := by
  intro f hf
  simp only [cubeMesh, cubeFaces, List.mem_cons, List.not_mem_nil, or_false] at hf
  rcases hf with rfl | rfl | rfl | rfl | rfl | rfl | rfl
  · refine ⟨⟨0, 0, -1⟩, 1, 1, 1, 1, ?_⟩
    simp [cubeMesh, Mesh.vert, areaVec, V3.cross, V3.ext_iff]
  · refine ⟨⟨0, -1, 0⟩, 1, 1, 1, 1, ?_⟩
    simp [cubeMesh, Mesh.vert, areaVec, V3.cross, V3.ext_iff]
  · refine ⟨⟨0, 1, 0⟩, 1, 1, 1, 1, ?_⟩
    simp [cubeMesh, Mesh.vert, areaVec, V3.cross, V3.ext_iff]
  · refine ⟨⟨-1, 0, 0⟩, 1, 1, 1, 1, ?_⟩
    simp [cubeMesh, Mesh.vert, areaVec, V3.cross, V3.ext_iff]
  · refine ⟨⟨1, 0, 0⟩, 1, 1, 1, 1, ?_⟩
    simp [cubeMesh, Mesh.vert, areaVec, V3.cross, V3.ext_iff]
  · simp [cubeMesh, Mesh.vert, areaVec, V3.cross, V3.ext_iff]
  · simp [cubeMesh, Mesh.vert, areaVec, V3.cross, V3.ext_iff]

/-- The signed volume of the unit cube is one. -/
theorem cubeMesh_volume : (cubeMesh ℝ).signedVolume = 1 := by
  simp [Mesh.signedVolume, cubeMesh, cubeFaces, Mesh.faceSignedVolume, Mesh.vert, tetVol, V3.dot, V3.cross]
  norm_num

end MM
