import Verif.Proofs.ClipConvex
import Verif.Props.ClipBody

/-!
# Property C78: clipping makes no degenerate face
-/

namespace MM
namespace Clipper

set_option linter.unusedSectionVars false
set_option linter.unusedVariables false

variable {K : Type*} [Field K] [LinearOrder K] [IsStrictOrderedRing K]

lemma StrictlyConvexQuad.convex {p q r s : V3 K} (h : StrictlyConvexQuad p q r s) : ConvexQuad p q r s := by
  obtain ⟨n, α, β, γ, δ, h1, h2, h3, h4, hn, e1, e2, e3, e4⟩ := h
  exact ⟨n, α, β, γ, δ, h1.le, h2.le, h3.le, h4.le, by linarith, hn, e1, e2, e3, e4⟩

lemma strictlyConvex_cross {m : Mesh K} (h : m.StrictlyConvexFaces) : QuadsCross m := by
  apply quadsCross_of_convex
  intro f hf hne
  have := h f hf
  rw [if_neg hne] at this
  exact StrictlyConvexQuad.convex this

/-- **C78** (no vertex at exactly the tolerance from the plane): if no triangle of the mesh is degenerate and its quadrangles
are plane and strictly convex, the same holds for the clipped mesh. Vertices may be on the plane or closer to it than the
tolerance. -/
theorem C78_no_degenerate_face_partial (srt : (ℕ → K) → List ℕ → List ℕ) (hsrt : IsArgsort srt) (p : Plane K) (tol : K)
    (htol : 0 ≤ tol) (b : Bool) (m : Mesh K) (hwf : m.WF) (hcv : m.StrictlyConvexFaces)
    (hpos : ∀ f ∈ m.faces, ∀ i ∈ f.toList, |p.dist (m.vert i)| ≠ tol) (hsep : m.WellSeparated p)
    (c : Clipped K) (hc : clip srt p tol b m = .ok c) : c.clipped.WF ∧ c.clipped.StrictlyConvexFaces := by
  have hq := strictlyConvex_cross hcv
  obtain ⟨_, _, _, w, _⟩ :=
    clip_planned_notAt hsrt htol hwf hpos (fun f hf => .inr (corners_nodup (hcv f hf))) hsep hc
  exact ⟨w, clip_convex hsrt htol hwf hpos hq hsep hcv hc⟩

/-- The faces of the cube are strictly convex. -/
lemma cubeMesh_strictlyConvex : (cubeMesh ℚ).StrictlyConvexFaces := by
  have h : ∀ f ∈ (cubeMesh ℚ).faces,
      let P := (cubeMesh ℚ).vert
      let n := areaVec (P f.a) (P f.b) (P f.c)
      n ≠ 0 ∧ (f.a ≠ f.d → areaVec (P f.a) (P f.c) (P f.d) = n ∧ areaVec (P f.a) (P f.b) (P f.d) = n ∧
        areaVec (P f.b) (P f.c) (P f.d) = n) := by decide +kernel
  intro f hf
  obtain ⟨h2, h⟩ := h f hf
  by_cases h1 : f.a = f.d
  · rw [if_pos h1]; exact h2
  rw [if_neg h1]
  obtain ⟨h3, h4, h5⟩ := h h1
  exact ⟨_, 1, 1, 1, 1, one_pos, one_pos, one_pos, one_pos, h2, by rw [one_smul], by rw [one_smul]; exact h3,
    by rw [one_smul]; exact h4, by rw [one_smul]; exact h5⟩

/-- The hypotheses of C78 are met by the cube cut at half its height, the clipped mesh has five faces. -/
theorem cube_meets_C78 : (cubeMesh ℚ).WF ∧ (cubeMesh ℚ).StrictlyConvexFaces ∧
    (∀ f ∈ (cubeMesh ℚ).faces, ∀ i ∈ f.toList, 1 / 100 < |(⟨⟨0, 0, 1⟩, 1 / 2⟩ : Plane ℚ).dist ((cubeMesh ℚ).vert i)|) ∧
    (cubeMesh ℚ).WellSeparated ⟨⟨0, 0, 1⟩, 1 / 2⟩ ∧
    (match clip insArgsort (⟨⟨0, 0, 1⟩, 1 / 2⟩ : Plane ℚ) (1 / 100) false (cubeMesh ℚ) with
      | .ok c => c.clipped.faces.length == 5
      | .error _ => false) = true :=
  ⟨by decide +kernel, cubeMesh_strictlyConvex, by decide +kernel, cube_meets_C75.1, by decide +kernel⟩

/-- A pyramid with two corners of its base on the plane `y = 0`. -/
def pyramidMesh : Mesh ℚ :=
  ⟨[⟨1, 0, 0⟩, ⟨0, 1, 0⟩, ⟨-1, 0, 0⟩, ⟨0, -1, 0⟩, ⟨1 / 4, 1 / 10000, 1⟩],
   [⟨0, 3, 2, 1⟩, ⟨0, 1, 4, 0⟩, ⟨1, 2, 4, 1⟩, ⟨2, 3, 4, 2⟩, ⟨3, 0, 4, 3⟩]⟩

/-- The hypotheses of C78 are met by a pyramid with two corners on the plane, and its apex closer to the plane than the
tolerance; the clipped mesh has three faces. -/
theorem pyramid_meets_C78 : pyramidMesh.WF ∧
    (∀ f ∈ pyramidMesh.faces, ∀ i ∈ f.toList, |(⟨⟨0, 1, 0⟩, 0⟩ : Plane ℚ).dist (pyramidMesh.vert i)| ≠ 1 / 1000) ∧
    pyramidMesh.StrictlyConvexFaces ∧ pyramidMesh.WellSeparated ⟨⟨0, 1, 0⟩, 0⟩ ∧
    (match clip insArgsort (⟨⟨0, 1, 0⟩, 0⟩ : Plane ℚ) (1 / 1000) false pyramidMesh with
      | .ok c => c.clipped.faces.length == 3
      | .error _ => false) = true := by
  refine ⟨by decide +kernel, by decide +kernel, ?_, wellSeparated_of_list (by decide +kernel), by decide +kernel⟩
  have h : ∀ f ∈ pyramidMesh.faces,
      let P := pyramidMesh.vert
      let n := areaVec (P f.a) (P f.b) (P f.c)
      n ≠ 0 ∧ (f.a ≠ f.d → areaVec (P f.a) (P f.c) (P f.d) = n ∧ areaVec (P f.a) (P f.b) (P f.d) = n ∧
        areaVec (P f.b) (P f.c) (P f.d) = n) := by decide +kernel
  intro f hf
  obtain ⟨h2, h⟩ := h f hf
  by_cases h1 : f.a = f.d
  · rw [if_pos h1]; exact h2
  rw [if_neg h1]
  obtain ⟨h3, h4, h5⟩ := h h1
  exact ⟨_, 1, 1, 1, 1, one_pos, one_pos, one_pos, one_pos, h2, by rw [one_smul], by rw [one_smul]; exact h3,
    by rw [one_smul]; exact h4, by rw [one_smul]; exact h5⟩

/-- A quadrangle with three corners on a line. -/
def kiteMesh : Mesh ℚ := ⟨[⟨0, 0, 1⟩, ⟨-1, 0, -1⟩, ⟨0, 0, -1⟩, ⟨1, 0, -1⟩], [⟨0, 1, 2, 3⟩]⟩

/-- **C78 fails** for convex quadrangles with a flat corner: the triangle cut off along the lower corners is degenerate (its
normal is `0 / 0`). -/
theorem C78_fails_on_flat_corner : kiteMesh.WF ∧
    (∀ f ∈ kiteMesh.faces, ConvexQuad (kiteMesh.vert f.a) (kiteMesh.vert f.b) (kiteMesh.vert f.c) (kiteMesh.vert f.d)) ∧
    ∃ c, clip insArgsort ⟨⟨0, 0, 1⟩, 0⟩ (1 / 1000) false kiteMesh = .ok c ∧ ∃ g ∈ c.clipped.faces, g.a = g.d ∧
      areaVec (c.clipped.vert g.a) (c.clipped.vert g.b) (c.clipped.vert g.c) = 0 := by
  refine ⟨by decide +kernel, ?_, ?_⟩
  · have h : ∀ f ∈ kiteMesh.faces,
      let P := kiteMesh.vert
      areaVec (P f.a) (P f.b) (P f.c) = (2 : ℚ) • ⟨0, -1, 0⟩ ∧ areaVec (P f.a) (P f.c) (P f.d) = (2 : ℚ) • ⟨0, -1, 0⟩ ∧
        areaVec (P f.a) (P f.b) (P f.d) = (4 : ℚ) • ⟨0, -1, 0⟩ ∧
        areaVec (P f.b) (P f.c) (P f.d) = (0 : ℚ) • ⟨0, -1, 0⟩ := by decide +kernel
    intro f hf
    obtain ⟨h1, h2, h3, h4⟩ := h f hf
    exact ⟨⟨0, -1, 0⟩, 2, 2, 4, 0, by norm_num, by norm_num, by norm_num, by norm_num, by norm_num, by decide +kernel,
      h1, h2, h3, h4⟩
  · have h : (match clip insArgsort (⟨⟨0, 0, 1⟩, 0⟩ : Plane ℚ) (1 / 1000) false kiteMesh with
      | .ok c => c.clipped.faces.any (fun g => decide (g.a = g.d) &&
          decide (areaVec (c.clipped.vert g.a) (c.clipped.vert g.b) (c.clipped.vert g.c) = 0))
      | .error _ => false) = true := by decide +kernel
    cases hc : clip insArgsort (⟨⟨0, 0, 1⟩, 0⟩ : Plane ℚ) (1 / 1000) false kiteMesh with
    | error e => rw [hc] at h; simp at h
    | ok c =>
      rw [hc] at h
      simp only [List.any_eq_true, Bool.and_eq_true, decide_eq_true_eq] at h
      obtain ⟨g, hg, h1, h2⟩ := h
      exact ⟨c, rfl, g, hg, h1, h2⟩

end Clipper
end MM
