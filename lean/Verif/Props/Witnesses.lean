import Verif.Props.Geometry
import Verif.Props.Plane
import Verif.Props.Rotations
import Verif.Props.Inertia
import Verif.Props.MeshIndex
import Mathlib.Analysis.Real.Pi.Bounds

/-!
# Cases which meet the hypotheses of the first properties

Named witnesses for C01-C15, C30 and C35 (the other files have theirs beside each theorem).
-/

namespace MM

open Real

/-- An oblique plane with a unit normal. -/
def tiltedPlane (K : Type*) [Field K] : Plane K := ⟨⟨3 / 5, 0, 4 / 5⟩, 1 / 7⟩

/-- A sorting function as `np.argsort`, a mesh with an unused vertex, and what the merge of its vertices with a large
tolerance gives: hypotheses of C01-C03, C05-C08, C11. -/
theorem exMesh_meets_C05 : IsArgsort (K := ℚ) insArgsort ∧ exMesh.WF ∧ exMesh.vertices ≠ [] ∧
    (exMesh.mergeDuplicates insArgsort 1).toOption.map (fun r => (r.1.nv, r.2)) = some (2, [0, 0, 1, 0, 0, 0]) ∧
    (exMesh.extractFaces [2, 0]).toOption.map (fun r => r.2) = some [0, 1, 3, 4, 5] :=
  ⟨insArgsort_isArgsort, by decide, by decide, by decide +kernel, by decide +kernel⟩

/-- The hypotheses of C13 and C14: the cube and an oblique plane. -/
theorem cube_meets_C13 : (tiltedPlane ℝ).normal.dot (tiltedPlane ℝ).normal = 1 ∧ (cubeMesh ℝ).WF ∧
    (cubeMesh ℝ).ClosedOriented ∧ (cubeMesh ℝ).ConvexFaces ∧
    ((cubeMesh ℝ).mirror (tiltedPlane ℝ)).vertices ≠ (cubeMesh ℝ).vertices := by
  refine ⟨by norm_num [tiltedPlane, V3.dot], cubeMesh_wf ℝ, cubeMesh_closed ℝ, cubeMesh_convex, ?_⟩
  intro h
  have h0 := congrArg (fun l : List (V3 ℝ) => (l.headD 0).x) h
  simp only [Mesh.mirror, Mesh.flipNormals, Mesh.mapVertices, cubeMesh, tiltedPlane, List.map_cons, List.headD_cons,
    Plane.reflect] at h0
  norm_num [V3.dot, Plane.dist] at h0

theorem cube_meets_C14 : (tiltedPlane ℚ).normal.dot (tiltedPlane ℚ).normal = 1 ∧ (cubeMesh ℚ).WF ∧
    (cubeMesh ℚ).vertices ≠ [] ∧ IsArgsort (K := ℚ) insArgsort ∧
    ((cubeMesh ℚ).symmetrize insArgsort ⟨⟨0, 0, 1⟩, 0⟩).toOption.map (fun s => (s.nv, s.nf)) = some (12, 14) :=
  ⟨by norm_num [tiltedPlane, V3.dot], by decide, by decide, insArgsort_isArgsort, by decide +kernel⟩

/-- The hypothesis of C15, and a mesh which is not a cube. -/
theorem exMesh_meets_C15 : exMesh.vertices ≠ [] ∧ exMesh.bbox = ⟨0, 7, 0, 7, 0, 7⟩ := ⟨by decide, by decide +kernel⟩

/-- The hypotheses of C35: angles inside the ranges, none of them null. -/
theorem angles_meet_C35 : -π < 1 ∧ (1 : ℝ) ≤ π ∧ -(π / 2) < (1 / 2 : ℝ) ∧ (1 / 2 : ℝ) < π / 2 ∧ -π < (-2 : ℝ) ∧ (-2 : ℝ) ≤ π := by
  have := Real.pi_gt_three
  refine ⟨?_, ?_, ?_, ?_, ?_, ?_⟩ <;> linarith

end MM
