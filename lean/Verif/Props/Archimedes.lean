import Verif.Proofs.Pressure
import Verif.Props.Hydrostatics
import Verif.Props.ClipConvex
import Verif.Proofs.RealMesh

/-!
# C79: the displacement and the buoyancy centre returned are the force and the moment of the water
-/

namespace MM
namespace Hydro

open Clipper

set_option linter.unusedSectionVars false
set_option linter.unusedSimpArgs false
set_option linter.unusedVariables false

section
variable {srt : (ℕ → ℝ) → List ℕ → List ℕ} (hsrt : IsArgsort srt) {tol : ℝ} (htol : 0 ≤ tol) {b : Bool} {m : Mesh ℝ}
  (hwf : m.WF) (hcl : m.ClosedOriented) (hpos : ∀ f ∈ m.faces, ∀ i ∈ f.toList, waterplane.Clear tol (m.vert i))
  (hsep : m.WellSeparated waterplane) (hcv : m.StrictlyConvexFaces) {c : Clipped ℝ} (hc : clip srt waterplane tol b m = .ok c)

/-- A vertex on the free surface, or farther from it than the tolerance. -/
lemma waterplane_clear {v : V3 ℝ} (h : v.z = 0 ∨ 1 / 1000 < |v.z|) : waterplane.Clear (1 / 1000) v := by
  rcases h with h | h
  · right; rw [waterplane_dist]; exact ⟨h, by norm_num⟩
  · left; rw [waterplane_dist]; exact h

lemma surfaceSum_sub_eq {m : Mesh ℝ} {S T : V3 ℝ → V3 ℝ → V3 ℝ → ℝ} {a : ℝ}
    (h : m.surfaceSum (fun p q r => S p q r + (-a) * T p q r) = 0) : m.surfaceSum S = a * m.surfaceSum T := by
  rw [surfaceSum_add, surfaceSum_smul] at h
  linarith

include hsrt htol hwf hcl hpos hsep hcv hc

/-- `∫ z L n_z`, `∫ z n_x`, … over the clipped mesh. -/
lemma wet_relations :
    c.clipped.surfaceSum (fun p q r => (areaVec p q r).x * triPoly p q r 0) =
      1 * c.clipped.surfaceSum (zFlux ⟨0, 0, 1⟩ (1, 0)) ∧
    c.clipped.surfaceSum (fun p q r => (areaVec p q r).y * triPoly p q r 1) =
      1 * c.clipped.surfaceSum (zFlux ⟨0, 0, 1⟩ (1, 0)) ∧
    c.clipped.surfaceSum (fun p q r => (areaVec p q r).z * triPoly p q r 2) =
      1 * c.clipped.surfaceSum (zFlux ⟨0, 0, 1⟩ (1, 0)) ∧
    c.clipped.surfaceSum (fun p q r => (areaVec p q r).x * triPoly p q r 6) =
      2 * c.clipped.surfaceSum (zFlux ⟨0, 0, 1⟩ (0, ⟨1, 0, 0⟩)) ∧
    c.clipped.surfaceSum (fun p q r => (areaVec p q r).y * triPoly p q r 7) =
      2 * c.clipped.surfaceSum (zFlux ⟨0, 0, 1⟩ (0, ⟨0, 1, 0⟩)) ∧
    c.clipped.surfaceSum (zFlux ⟨1, 0, 0⟩ (1, 0)) = 0 ∧ c.clipped.surfaceSum (zFlux ⟨0, 1, 0⟩ (1, 0)) = 0 ∧
    c.clipped.surfaceSum (zFlux ⟨1, 0, 0⟩ (0, ⟨0, 0, 1⟩)) = 0 ∧ c.clipped.surfaceSum (zFlux ⟨0, 1, 0⟩ (0, ⟨0, 0, 1⟩)) = 0 ∧
    c.clipped.surfaceSum (zFlux ⟨0, 1, 0⟩ (0, ⟨1, 0, 0⟩)) = 1 * c.clipped.surfaceSum (zFlux ⟨1, 0, 0⟩ (0, ⟨0, 1, 0⟩)) := by
  have key := wet_flux_zero hsrt htol hwf hpos hsep hcv hc (strictlyConvex_cross hcv) hcl
  refine ⟨surfaceSum_sub_eq (key _ ?_ ?_ ?_), surfaceSum_sub_eq (key _ ?_ ?_ ?_), surfaceSum_sub_eq (key _ ?_ ?_ ?_),
    surfaceSum_sub_eq (key _ ?_ ?_ ?_), surfaceSum_sub_eq (key _ ?_ ?_ ?_), key _ ?_ ?_ ?_, key _ ?_ ?_ ?_,
    key _ ?_ ?_ ?_, key _ ?_ ?_ ?_, surfaceSum_sub_eq (key _ ?_ ?_ ?_)⟩
  all_goals first
    | (intro p q hp hq'; simp [zFlux, zPoly, aff, areaVec, V3.cross, V3.dot, triPoly, pf1, pf2, pt2, hp, hq']; done)
    | (intro p q r; simp [zFlux, zPoly, aff, areaVec, V3.cross, V3.dot, triPoly, pf1, pf2, pt2] <;> ring; done)
    | (intro p q; simp [zFlux, zPoly, aff, areaVec, V3.cross, V3.dot, triPoly, pf1, pf2, pt2] <;> ring; done)

end

lemma hydrostaticPressure_eq (ρ g : ℝ) (X : V3 ℝ) : hydrostaticPressure ρ g X = -(ρ * g) * min X.z 0 := by
  unfold hydrostaticPressure
  split_ifs with h
  · rw [min_eq_left h.le]; ring
  · rw [min_eq_right (not_lt.1 h)]; ring

/-- `∫ P L n` over the mesh. -/
lemma pressure_wetFlux (m : Mesh ℝ) (ρ g : ℝ) (l : ℝ × V3 ℝ) :
    m.normalIntegral (fun X => hydrostaticPressure ρ g X * aff l X) =
      (-(ρ * g)) • ⟨m.surfaceSum (wetFlux ⟨1, 0, 0⟩ l), m.surfaceSum (wetFlux ⟨0, 1, 0⟩ l), m.surfaceSum (wetFlux ⟨0, 0, 1⟩ l)⟩ := by
  have h : (fun X => hydrostaticPressure ρ g X * aff l X) = fun X => (-(ρ * g)) * (min X.z 0 * aff l X) := by
    funext X; rw [hydrostaticPressure_eq, mul_assoc]
  unfold Mesh.normalIntegral
  simp only [h, refInt_const_mul]
  ext
  · simp only [V3.smul_x]
    rw [← surfaceSum_smul]; congr 1; funext p q r; simp only [wetFlux, V3.dot]; ring
  · simp only [V3.smul_y]
    rw [← surfaceSum_smul]; congr 1; funext p q r; simp only [wetFlux, V3.dot]; ring
  · simp only [V3.smul_z]
    rw [← surfaceSum_smul]; congr 1; funext p q r; simp only [wetFlux, V3.dot]; ring

/-- **C79** (each vertex on the plane or farther than the tolerance): for a watertight hull, when `compute_hydrostatics` returns, the force of the hydrostatic
pressure of the water on the hull is vertical and is the displaced mass times gravity, and its moment about the origin is that
of this force applied at the buoyancy centre. -/
theorem C79_archimedes_partial (srt : (ℕ → ℝ) → List ℕ → List ℕ) (hsrt : IsArgsort srt) (m : Mesh ℝ) (cog : V3 ℝ)
    (rho grav : ℝ) (rot : M3 ℝ) (z : ℝ) (atCog : Bool) (lpp : Option ℝ) (ap : Bool) (h : HsData)
    (hwf : (workingMesh m rot z).WF) (hcl : (workingMesh m rot z).ClosedOriented)
    (hcv : (workingMesh m rot z).StrictlyConvexFaces)
    (hpos : ∀ f ∈ (workingMesh m rot z).faces, ∀ i ∈ f.toList, ((workingMesh m rot z).vert i).z = 0 ∨
      1 / 1000 < |((workingMesh m rot z).vert i).z|)
    (hsep : (workingMesh m rot z).WellSeparated ⟨⟨0, 0, 1⟩, 0⟩) (hrot : rot.IsRotation) (hrho : rho ≠ 0)
    (hh : compute srt m cog rho grav rot z atCog lpp ap = .ok h) :
    (workingMesh m rot z).pressureForce (hydrostaticPressure rho grav) = ⟨0, 0, h.dispMass * grav⟩ ∧
    (h.dispVolume ≠ 0 → (workingMesh m rot z).pressureMoment (hydrostaticPressure rho grav) =
      (workingPoint h.buoyancyCenter rot z).cross ⟨0, 0, h.dispMass * grav⟩) := by
  obtain ⟨c, hc, hne, rfl⟩ := compute_ok hh
  set M := workingMesh m rot z with hM
  have hq := strictlyConvex_cross hcv
  have htol : (0 : ℝ) ≤ 1 / 1000 := by norm_num
  have hpos' : ∀ f ∈ M.faces, ∀ i ∈ f.toList, waterplane.Clear (1 / 1000) (M.vert i) :=
    fun f hf i hi => waterplane_clear (hpos f hf i hi)
  have hsep' : M.WellSeparated waterplane := hsep
  have hc' : clip srt waterplane (1 / 1000) true M = .ok c := hc
  have hflat : c.clipped.FlatFaces := StrictlyConvexFaces.flat (clip_convex hsrt htol hwf
    (fun f hf i hi => clear_notAt (hpos' f hf i hi)) hq hsep' hcv hc')
  obtain ⟨r0, r1, r2, r6, r7, n1, n2, n3, n4, n5⟩ := wet_relations hsrt htol hwf hcl hpos' hsep' hcv hc'
  have W := wetFlux_clip hsrt htol hwf hpos' hsep' hcv hc' hq
  set V := c.clipped.surfaceSum (zFlux ⟨0, 0, 1⟩ (1, 0)) with hV
  have hvol : c.clipped.volume = V := by
    rw [Mesh.volume, Mesh.volumeWith, normalWeighted_flux _ hflat, r0, r1, r2]; ring
  have hdisp : (c.clipped.evalPlain rho).mass / rho = V := by
    show rho * c.clipped.volume / rho = V
    rw [hvol]; field_simp
  have pm : ∀ X, hydrostaticPressure rho grav X = hydrostaticPressure rho grav X * aff (1, 0) X := by
    intro X; simp [aff, V3.dot]
  have px : ∀ X, hydrostaticPressure rho grav X * X.x = hydrostaticPressure rho grav X * aff (0, ⟨1, 0, 0⟩) X := by
    intro X; simp [aff, V3.dot]
  have py : ∀ X, hydrostaticPressure rho grav X * X.y = hydrostaticPressure rho grav X * aff (0, ⟨0, 1, 0⟩) X := by
    intro X; simp [aff, V3.dot]
  have pz : ∀ X, hydrostaticPressure rho grav X * X.z = hydrostaticPressure rho grav X * aff (0, ⟨0, 0, 1⟩) X := by
    intro X; simp [aff, V3.dot]
  constructor
  · unfold Mesh.pressureForce
    rw [show hydrostaticPressure rho grav = fun X => hydrostaticPressure rho grav X * aff (1, 0) X from funext pm,
      pressure_wetFlux, W, W, W, n1, n2, ← hV]
    show _ = (⟨0, 0, rho * ((c.clipped.evalPlain rho).mass / rho) * grav⟩ : V3 ℝ)
    rw [hdisp]
    ext <;> simp
    ring
  · intro hv
    change (c.clipped.evalPlain rho).mass / rho ≠ 0 at hv
    rw [hdisp] at hv
    have hb : workingPoint (ofClipped m cog rho grav rot z atCog lpp ap c).buoyancyCenter rot z =
        (c.clipped.evalPlain rho).cog := by
      simp only [ofClipped, workingPoint]
      rw [hrot.mulVec_transpose]
      ext <;> simp
    have hcog : (c.clipped.evalPlain rho).cog = (1 / (2 * V)) •
        Mesh.normalWeighted c.clipped.facesProperties c.clipped.surfaceIntegrals 6 7 8 := by
      rw [← hvol]; rfl
    rw [hb, hcog, normalWeighted_flux _ hflat, r6, r7]
    unfold Mesh.pressureMoment
    simp only [px, py, pz]
    rw [pressure_wetFlux, pressure_wetFlux, pressure_wetFlux]
    simp only [W]
    show _ = V3.cross _ (⟨0, 0, rho * ((c.clipped.evalPlain rho).mass / rho) * grav⟩ : V3 ℝ)
    rw [hdisp, n3, n4, n5]
    ext
    · simp [V3.cross]; field_simp
    · simp [V3.cross]; field_simp
    · simp [V3.cross]

/-! ## The half immersed cube -/

lemma halfCube_strictlyConvex : halfCube.StrictlyConvexFaces := by
  have h : ∀ f ∈ halfCube.faces,
      let P := halfCube.vert
      let n := areaVec (P f.a) (P f.b) (P f.c)
      n ≠ 0 ∧ (f.a ≠ f.d → areaVec (P f.a) (P f.c) (P f.d) = n ∧ areaVec (P f.a) (P f.b) (P f.d) = n ∧
        areaVec (P f.b) (P f.c) (P f.d) = n) := by decide +kernel
  intro f hf
  obtain ⟨h2, h⟩ := h f hf
  by_cases h1 : f.a = f.d
  · rw [if_pos h1]; exact h2
  rw [if_neg h1]
  obtain ⟨h3, h4, h5⟩ := h h1
  exact ⟨_, 1, 1, 1, 1, one_pos, one_pos, one_pos, one_pos, h2, by rw [one_smul], by rw [one_smul]; exact h3,
    by rw [one_smul]; exact h4, by rw [one_smul]; exact h5⟩

/-- The hypotheses of C79 are met by the half immersed cube, which displaces half its volume. -/
theorem halfCube_meets_C79 (cog : V3 ℝ) (grav : ℝ) :
    (workingMesh halfCube.real M3.one 0).WF ∧ (workingMesh halfCube.real M3.one 0).ClosedOriented ∧
    (workingMesh halfCube.real M3.one 0).StrictlyConvexFaces ∧
    (∀ f ∈ (workingMesh halfCube.real M3.one 0).faces, ∀ i ∈ f.toList,
      1 / 1000 < |((workingMesh halfCube.real M3.one 0).vert i).z|) ∧
    (workingMesh halfCube.real M3.one 0).WellSeparated ⟨⟨0, 0, 1⟩, 0⟩ ∧ (M3.one : M3 ℝ).IsRotation ∧
    ∃ h, compute insArgsort halfCube.real cog 1000 grav = .ok h ∧ h.dispVolume = 1 / 2 ∧
      halfCube.real.pressureForce (hydrostaticPressure 1000 grav) = ⟨0, 0, 500 * grav⟩ := by
  have w : halfCube.real.WF := Mesh.WF.real (by decide +kernel)
  have cl : halfCube.real.ClosedOriented :=
    Mesh.ClosedOriented.real (closedOriented_of_manifold (by decide +kernel) (by decide +kernel))
  have cv : halfCube.real.StrictlyConvexFaces := halfCube_strictlyConvex.real
  have ps : ∀ f ∈ halfCube.real.faces, ∀ i ∈ f.toList, 1 / 1000 < |(halfCube.real.vert i).z| := by
    have : ∀ f ∈ halfCube.faces, ∀ i ∈ f.toList, 1 / 1000 < |(halfCube.vert i).z| := by decide +kernel
    intro f hf i hi
    have h := this f hf i hi
    rw [Mesh.real_vert]
    have : ((1 / 1000 : ℚ) : ℝ) < ((|(halfCube.vert i).z| : ℚ) : ℝ) := by exact_mod_cast h
    push_cast at this
    exact this
  have sp : halfCube.real.WellSeparated ⟨⟨0, 0, 1⟩, 0⟩ := by
    rw [← Plane.real_z]
    exact Mesh.WellSeparated.real (wellSeparated_of_list (by decide +kernel))
  have ro : (M3.one : M3 ℝ).IsRotation := by
    constructor <;> simp [M3.mul, M3.one, M3.transpose, M3.c0, M3.c1, M3.c2, V3.dot, M3.det, V3.cross]
  obtain ⟨h, hh, hv, _⟩ := halfCube_hs cog 1000 grav (by norm_num)
  rw [workingMesh_self]
  refine ⟨w, cl, cv, ps, sp, ro, h, hh, hv, ?_⟩
  have := (C79_archimedes_partial insArgsort insArgsort_isArgsort halfCube.real cog 1000 grav M3.one 0 false none false h
    (by rw [workingMesh_self]; exact w) (by rw [workingMesh_self]; exact cl) (by rw [workingMesh_self]; exact cv)
    (by rw [workingMesh_self]; exact fun f hf i hi => .inr (ps f hf i hi)) (by rw [workingMesh_self]; exact sp) ro (by norm_num) hh).1
  rw [workingMesh_self] at this
  rw [this]
  obtain ⟨c, _, _, rfl⟩ := compute_ok hh
  have e : (ofClipped halfCube.real cog 1000 grav M3.one 0 false none false c).dispMass =
      1000 * (ofClipped halfCube.real cog 1000 grav M3.one 0 false none false c).dispVolume := rfl
  rw [e, hv]
  norm_num

end Hydro
end MM
