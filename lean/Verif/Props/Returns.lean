import Verif.Props.WettedArea
import Verif.Props.ClipOnPlane

/-!
# C96: `compute_hydrostatics` returns for every watertight hull that crosses the free surface
-/

namespace MM
namespace Hydro

open Clipper

/-- A closed polygon of the clipper has at least two ends. -/
lemma closedPolygons_two {K : Type*} [Field K] [LinearOrder K] [IsStrictOrderedRing K] [FloorRing K]
    {srt : (ℕ → K) → List ℕ → List ℕ} {p : Plane K} {tol : K} {b : Bool} {m : Mesh K}
    {c : Clipped K} (h : clip srt p tol b m = .ok c) : ∀ l ∈ c.closedPolygons, 2 ≤ l.length := by
  obtain ⟨part, cm, direct, inv, _, hcc, _, _, _, _, _, hlines, _⟩ := clip_ok h
  have hcl : c.closedPolygons = (extractLines inv direct.length direct).1 := congrArg Prod.fst hlines
  intro l hl
  rw [hcl] at hl
  exact ((extractLines_shape inv direct.length direct (clipCrown_keys hcc)).1 l hl).1

/-- **C96** (each corner on the free surface or farther from it than the tolerance of the clipper). For a watertight hull,
`compute_hydrostatics` returns exactly when a face of the hull (in its working position) has a corner under the free surface and
either a corner above it or two corners on it; otherwise it raises an exception. -/
theorem C96_returns_partial (srt : (ℕ → ℝ) → List ℕ → List ℕ) (hsrt : IsArgsort srt) (m : Mesh ℝ) (cog : V3 ℝ)
    (rho grav : ℝ) (rot : M3 ℝ) (z : ℝ) (atCog : Bool) (lpp : Option ℝ) (ap : Bool)
    (hwf : (workingMesh m rot z).WF) (hcl : (workingMesh m rot z).ClosedOriented)
    (hcv : (workingMesh m rot z).StrictlyConvexFaces)
    (hpos : ∀ f ∈ (workingMesh m rot z).faces, ∀ i ∈ f.toList,
      ((workingMesh m rot z).vert i).z = 0 ∨ 1 / 1000 < |((workingMesh m rot z).vert i).z|)
    (hsep : (workingMesh m rot z).WellSeparated ⟨⟨0, 0, 1⟩, 0⟩)
    (hone : (((workingMesh m rot z).lowerSectionEdges ⟨⟨0, 0, 1⟩, 0⟩).map Prod.fst).Nodup) :
    (∃ h, compute srt m cog rho grav rot z atCog lpp ap = .ok h) ↔
    ∃ f ∈ (workingMesh m rot z).faces, (∃ i ∈ f.toList, ((workingMesh m rot z).vert i).z < 0) ∧
      ((∃ i ∈ f.toList, 0 < ((workingMesh m rot z).vert i).z) ∨
        ∃ i ∈ f.toList, ∃ j ∈ f.toList, i ≠ j ∧ ((workingMesh m rot z).vert i).z = 0 ∧ ((workingMesh m rot z).vert j).z = 0) := by
  set M := workingMesh m rot z with hM
  have hq := strictlyConvex_cross hcv
  have htol : (0 : ℝ) ≤ 1 / 1000 := by norm_num
  have hpos' : ∀ f ∈ M.faces, ∀ i ∈ f.toList, waterplane.Clear (1 / 1000) (M.vert i) := fun f hf i hi =>
    waterplane_clear (hpos f hf i hi)
  have hsome : ∀ f ∈ M.faces, (f.lowerSectionEdge waterplane M.vert ≠ none ↔
      (∃ i ∈ f.toList, (M.vert i).z < 0) ∧ ((∃ i ∈ f.toList, 0 < (M.vert i).z) ∨
        ∃ i ∈ f.toList, ∃ j ∈ f.toList, i ≠ j ∧ (M.vert i).z = 0 ∧ (M.vert j).z = 0)) := by
    intro f hf
    rw [lowerSectionEdge_isSome (corners_nodup (hcv f hf)) (hq f hf)]
    simp only [waterplane_dist]
  constructor
  · rintro ⟨h, hh⟩
    obtain ⟨c, hc, hne, -⟩ := compute_ok hh
    have hperm := (C75_polygons_on_plane_partial srt hsrt waterplane (1 / 1000) htol true M hwf hcl hcv hpos' hsep hone c hc).2
    by_contra hno
    have hs : M.lowerSectionEdges waterplane = [] := by
      unfold Mesh.lowerSectionEdges
      rw [List.filterMap_eq_nil_iff]
      intro f hf
      by_contra hb
      exact hno ⟨f, hf, (hsome f hf).1 hb⟩
    rw [hs] at hperm
    have h0 := hperm.eq_nil
    obtain ⟨l, L, hl⟩ := List.exists_cons_of_ne_nil hne
    have hlen := closedPolygons_two hc l (by rw [hl]; simp)
    unfold Clipped.polygonEdges at h0
    rw [hl, List.map_eq_nil_iff, List.flatMap_cons, List.append_eq_nil_iff] at h0
    obtain ⟨h1, -⟩ := h0
    rcases l with _ | ⟨a, _ | ⟨b, l⟩⟩
    · simp at hlen
    · simp at hlen
    · simp [chainPairs] at h1
  · rintro ⟨f, hf, hb⟩
    obtain ⟨-, hret⟩ := C45_on_plane_partial srt hsrt waterplane (1 / 1000) htol M hwf hcl hcv hpos' hsep hone
    obtain ⟨c, hc⟩ := hret ⟨f, hf, by simpa only [waterplane_dist] using hb.1, by
      simp only [waterplane_dist]
      rcases hb.2 with ⟨i, hi, h⟩ | ⟨i, hi, _, _, _, h, _⟩
      · exact ⟨i, hi, h.le⟩
      · exact ⟨i, hi, h.ge⟩⟩ true
    have hperm := (C75_polygons_on_plane_partial srt hsrt waterplane (1 / 1000) htol true M hwf hcl hcv hpos' hsep hone c hc).2
    obtain ⟨e, he⟩ := Option.ne_none_iff_exists'.1 ((hsome f hf).2 hb)
    have hpe := hperm.mem_iff.2 (List.mem_filterMap.2 ⟨f, hf, he⟩)
    refine ⟨ofClipped m cog rho grav rot z atCog lpp ap c, ?_⟩
    unfold compute
    have hc2 : clip srt ⟨⟨0, 0, 1⟩, 0⟩ (1 / 1000) true (workingMesh m rot z) = .ok c := hc
    rw [hc2]
    simp only
    rw [if_neg]
    intro h0
    unfold Clipped.polygonEdges at hpe
    rw [h0] at hpe
    simp at hpe

/-- The hypotheses of C96 are met by the octahedron with four vertices on the free surface (`octa_meets_C80`), and by the half
immersed cube (`halfCube_meets_C80`): both cross the free surface in the sense of C96. -/
theorem octa_meets_C96 (cog : V3 ℝ) (grav : ℝ) :
    (∃ f ∈ (workingMesh octaMesh.real M3.one 0).faces, (∃ i ∈ f.toList, ((workingMesh octaMesh.real M3.one 0).vert i).z < 0) ∧
      ((∃ i ∈ f.toList, 0 < ((workingMesh octaMesh.real M3.one 0).vert i).z) ∨
        ∃ i ∈ f.toList, ∃ j ∈ f.toList, i ≠ j ∧ ((workingMesh octaMesh.real M3.one 0).vert i).z = 0 ∧
          ((workingMesh octaMesh.real M3.one 0).vert j).z = 0)) ∧
    ∃ f ∈ (workingMesh halfCube.real M3.one 0).faces, (∃ i ∈ f.toList, ((workingMesh halfCube.real M3.one 0).vert i).z < 0) ∧
      ((∃ i ∈ f.toList, 0 < ((workingMesh halfCube.real M3.one 0).vert i).z) ∨
        ∃ i ∈ f.toList, ∃ j ∈ f.toList, i ≠ j ∧ ((workingMesh halfCube.real M3.one 0).vert i).z = 0 ∧
          ((workingMesh halfCube.real M3.one 0).vert j).z = 0) := by
  constructor
  · obtain ⟨h1, h2, h3, h4, h5, h6, h7, h8, h, hh, -⟩ := octa_meets_C80 cog grav false
    exact (C96_returns_partial insArgsort insArgsort_isArgsort _ cog 1000 grav M3.one 0 false none false h1 h2 h3 h4 h6 h7).1 ⟨h, hh⟩
  · obtain ⟨h1, h2, h3, h4, h5, h6, h7, h8, h, hh, -⟩ := halfCube_meets_C80 cog grav false
    exact (C96_returns_partial insArgsort insArgsort_isArgsort _ cog 1000 grav M3.one 0 false none false h1 h2 h3 h4 h6 h7).1 ⟨h, hh⟩

end Hydro
end MM
