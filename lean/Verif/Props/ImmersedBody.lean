import Verif.Props.HydroMotion

/-!
# C85: the displacement, the buoyancy centre and the inertia reported are those of the immersed body
-/

namespace MM
namespace Hydro

open Clipper

set_option linter.unusedSectionVars false
set_option linter.unusedSimpArgs false
set_option linter.unusedVariables false

section
variable {srt : (ℕ → ℝ) → List ℕ → List ℕ} (hsrt : IsArgsort srt) {tol : ℝ} (htol : 0 ≤ tol) {b : Bool} {m : Mesh ℝ}
  (hwf : m.WF) (hcl : m.ClosedOriented) (hpos : ∀ f ∈ m.faces, ∀ i ∈ f.toList, waterplane.Clear tol (m.vert i))
  (hsep : m.WellSeparated waterplane) (hcv : m.StrictlyConvexFaces) {c : Clipped ℝ} (hc : clip srt waterplane tol b m = .ok c)

include hsrt htol hwf hcl hpos hsep hcv hc

lemma wet_flux (T S : V3 ℝ → V3 ℝ → V3 ℝ → ℝ) (k : ℝ) (E : V3 ℝ → V3 ℝ → ℝ) (hanti : ∀ p q, E p q = -E q p)
    (h : ∀ p q r, T p q r = k * S p q r + (E p q + E q r + E r p)) (hlid : ∀ p q, p.z = 0 → q.z = 0 → E p q = 0) :
    c.clipped.surfaceSum T = k * c.clipped.surfaceSum S := by
  apply surfaceSum_sub_eq
  have e : ∀ p q r, T p q r + -k * S p q r = E p q + E q r + E r p := by intro p q r; rw [h]; ring
  apply wet_flux_zero hsrt htol hwf hpos hsep hcv hc (strictlyConvex_cross hcv) hcl
  · intro p q
    rw [e, e, hanti p q, hanti 0 p, hanti q 0]; ring
  · intro p q r
    rw [e, e, e, e, hanti q 0, hanti r 0, hanti p 0]; ring
  · intro p q hp hq'
    rw [e, hlid _ _ hp hq', hlid _ _ rfl hp, hlid _ _ hq' rfl]; ring

set_option maxRecDepth 4000 in
lemma wet_solid (o : V3 ℝ) (ho : o.z = 0) :
    c.clipped.surfaceSum (fun p q r => (areaVec p q r).x * triPoly p q r 0) = 1 * c.clipped.solidIntegral o (fun _ => 1) ∧
    c.clipped.surfaceSum (fun p q r => (areaVec p q r).y * triPoly p q r 1) = 1 * c.clipped.solidIntegral o (fun _ => 1) ∧
    c.clipped.surfaceSum (fun p q r => (areaVec p q r).z * triPoly p q r 2) = 1 * c.clipped.solidIntegral o (fun _ => 1) ∧
    c.clipped.surfaceSum (fun p q r => (areaVec p q r).x * triPoly p q r 6) = 2 * c.clipped.solidIntegral o (fun v => v.x) ∧
    c.clipped.surfaceSum (fun p q r => (areaVec p q r).y * triPoly p q r 7) = 2 * c.clipped.solidIntegral o (fun v => v.y) ∧
    c.clipped.surfaceSum (fun p q r => (areaVec p q r).z * triPoly p q r 8) = 2 * c.clipped.solidIntegral o (fun v => v.z) ∧
    c.clipped.surfaceSum (fun p q r => (areaVec p q r).x * triPoly p q r 9) = 3 * c.clipped.solidIntegral o (fun v => v.x ^ 2) ∧
    c.clipped.surfaceSum (fun p q r => (areaVec p q r).y * triPoly p q r 10) = 3 * c.clipped.solidIntegral o (fun v => v.y ^ 2) ∧
    c.clipped.surfaceSum (fun p q r => (areaVec p q r).z * triPoly p q r 11) = 3 * c.clipped.solidIntegral o (fun v => v.z ^ 2) ∧
    c.clipped.surfaceSum (fun p q r => (areaVec p q r).x * triPoly p q r 12) =
      2 * c.clipped.solidIntegral o (fun v => v.x * v.y) ∧
    c.clipped.surfaceSum (fun p q r => (areaVec p q r).y * triPoly p q r 13) =
      2 * c.clipped.solidIntegral o (fun v => v.y * v.z) ∧
    c.clipped.surfaceSum (fun p q r => (areaVec p q r).z * triPoly p q r 14) =
      2 * c.clipped.solidIntegral o (fun v => v.x * v.z) := by
  unfold Mesh.solidIntegral
  refine ⟨wet_flux hsrt htol hwf hcl hpos hsep hcv hc _ _ _ (fun p q => (areaVec o p q).x * triPoly o p q 0) ?_ ?_ ?_,
    wet_flux hsrt htol hwf hcl hpos hsep hcv hc _ _ _ (fun p q => (areaVec o p q).y * triPoly o p q 1) ?_ ?_ ?_,
    wet_flux hsrt htol hwf hcl hpos hsep hcv hc _ _ _ (fun p q => (areaVec o p q).z * triPoly o p q 2) ?_ ?_ ?_,
    wet_flux hsrt htol hwf hcl hpos hsep hcv hc _ _ _ (fun p q => (areaVec o p q).x * triPoly o p q 6) ?_ ?_ ?_,
    wet_flux hsrt htol hwf hcl hpos hsep hcv hc _ _ _ (fun p q => (areaVec o p q).y * triPoly o p q 7) ?_ ?_ ?_,
    wet_flux hsrt htol hwf hcl hpos hsep hcv hc _ _ _ (fun p q => (areaVec o p q).z * triPoly o p q 8) ?_ ?_ ?_,
    wet_flux hsrt htol hwf hcl hpos hsep hcv hc _ _ _ (fun p q => (areaVec o p q).x * triPoly o p q 9) ?_ ?_ ?_,
    wet_flux hsrt htol hwf hcl hpos hsep hcv hc _ _ _ (fun p q => (areaVec o p q).y * triPoly o p q 10) ?_ ?_ ?_,
    wet_flux hsrt htol hwf hcl hpos hsep hcv hc _ _ _ (fun p q => (areaVec o p q).z * triPoly o p q 11) ?_ ?_ ?_,
    wet_flux hsrt htol hwf hcl hpos hsep hcv hc _ _ _ (fun p q => (areaVec o p q).x * triPoly o p q 12) ?_ ?_ ?_,
    wet_flux hsrt htol hwf hcl hpos hsep hcv hc _ _ _ (fun p q => (areaVec o p q).y * triPoly o p q 13) ?_ ?_ ?_,
    wet_flux hsrt htol hwf hcl hpos hsep hcv hc _ _ _ (fun p q => (areaVec o p q).z * triPoly o p q 14) ?_ ?_ ?_⟩
  all_goals first
    | (intro p q hp hq'
       simp [areaVec, V3.cross, triPoly, pf1, pf2, pt2, pf3, pg0, pg1, pg2, hp, hq', ho]; done)
    | (intro p q
       simp [areaVec, V3.cross, triPoly, pf1, pf2, pt2, pf3, pg0, pg1, pg2]; ring; done)
    | (intro p q r
       simp only [tet_one, tet_x, tet_y, tet_z, tet_xx, tet_yy, tet_zz, tet_xy, tet_xz, tet_yz]
       simp [areaVec, V3.cross, V3.dot, triPoly, pf1, pf2, pt2, pf3, pg0, pg1, pg2]; ring; done)

end

/-- The parallel axis term of a mass `M` at `d` of the axes. -/
def steiner (M : ℝ) (d : V3 ℝ) : M3 ℝ :=
  ⟨⟨M * (d.y ^ 2 + d.z ^ 2), -(M * (d.x * d.y)), -(M * (d.x * d.z))⟩,
   ⟨-(M * (d.x * d.y)), M * (d.x ^ 2 + d.z ^ 2), -(M * (d.y * d.z))⟩,
   ⟨-(M * (d.x * d.z)), -(M * (d.y * d.z)), M * (d.x ^ 2 + d.y ^ 2)⟩⟩

/-- **C85** (each vertex on the plane or farther than the tolerance): for a watertight hull, the displaced volume, the buoyancy centre returned by
`compute_hydrostatics` are the volume and the centroid of the immersed body, delimited by the wetted faces and the free
surface (integrals over the tetrahedra joining any point `o` of the free surface to the wetted faces). The inertia matrix
returned is the one of the homogeneous immersed body about the origin of the working frame, plus the parallel axis
term of its mass placed at the gravity centre: it is the inertia at the gravity centre when this is the origin, and not
otherwise (`C85_fails`). -/
theorem C85_immersed_body_partial (srt : (ℕ → ℝ) → List ℕ → List ℕ) (hsrt : IsArgsort srt) (m : Mesh ℝ) (cog : V3 ℝ)
    (rho grav : ℝ) (rot : M3 ℝ) (z : ℝ) (atCog : Bool) (lpp : Option ℝ) (ap : Bool) (h : HsData)
    (hwf : (workingMesh m rot z).WF) (hcl : (workingMesh m rot z).ClosedOriented)
    (hcv : (workingMesh m rot z).StrictlyConvexFaces)
    (hpos : ∀ f ∈ (workingMesh m rot z).faces, ∀ i ∈ f.toList, ((workingMesh m rot z).vert i).z = 0 ∨
      1 / 1000 < |((workingMesh m rot z).vert i).z|)
    (hsep : (workingMesh m rot z).WellSeparated ⟨⟨0, 0, 1⟩, 0⟩) (hrot : rot.IsRotation) (hrho : rho ≠ 0)
    (hh : compute srt m cog rho grav rot z atCog lpp ap = .ok h) :
    ∃ c, clip srt ⟨⟨0, 0, 1⟩, 0⟩ (1 / 1000) true (workingMesh m rot z) = .ok c ∧ ∀ o : V3 ℝ, o.z = 0 →
      let body := c.clipped.solidIntegral o
      h.dispVolume = body (fun _ => 1) ∧
      (h.dispVolume ≠ 0 → h.dispVolume • workingPoint h.buoyancyCenter rot z =
        ⟨body (fun p => p.x), body (fun p => p.y), body (fun p => p.z)⟩) ∧
      h.inertia.mat = (inertiaMatrix (fun g => rho * body g)).add (steiner h.dispMass (workingPoint cog rot z)) ∧
      (workingPoint cog rot z = 0 → h.inertia.mat = inertiaMatrix (fun g => rho * body g)) := by
  obtain ⟨c, hc, hne, rfl⟩ := compute_ok hh
  refine ⟨c, hc, ?_⟩
  intro o ho
  set M := workingMesh m rot z with hM
  have hq := strictlyConvex_cross hcv
  have htol : (0 : ℝ) ≤ 1 / 1000 := by norm_num
  have hpos' : ∀ f ∈ M.faces, ∀ i ∈ f.toList, waterplane.Clear (1 / 1000) (M.vert i) :=
    fun f hf i hi => waterplane_clear (hpos f hf i hi)
  have hc' : clip srt waterplane (1 / 1000) true M = .ok c := hc
  have hflat : c.clipped.FlatFaces := StrictlyConvexFaces.flat (clip_convex hsrt htol hwf
    (fun f hf i hi => clear_notAt (hpos' f hf i hi)) hq hsep hcv hc')
  obtain ⟨s0, s1, s2, s6, s7, s8, s9, s10, s11, s12, s13, s14⟩ := wet_solid hsrt htol hwf hcl hpos' hsep hcv hc' o ho
  have hvol : c.clipped.volume = c.clipped.solidIntegral o (fun _ => 1) := by
    rw [Mesh.volume, Mesh.volumeWith, normalWeighted_flux _ hflat, s0, s1, s2]; ring
  have hdisp : (c.clipped.evalPlain rho).mass / rho = c.clipped.volume := by
    show rho * c.clipped.volume / rho = _
    field_simp
  have hmat : (c.clipped.evalPlain rho).mat = inertiaMatrix (fun g => rho * c.clipped.solidIntegral o g) := by
    simp only [Mesh.evalPlain, Inertia.init, inertiaMatrix, normalWeighted_flux _ hflat, s9, s10, s11, s12, s13, s14,
      solid_sq_add c.clipped o (·.y) (·.z) taff_y taff_z, solid_sq_add c.clipped o (·.x) (·.z) taff_x taff_z,
      solid_sq_add c.clipped o (·.x) (·.y) taff_x taff_y]
    ext <;> simp <;> ring
  have hI : (ofClipped m cog rho grav rot z atCog lpp ap c).inertia.mat =
      (inertiaMatrix (fun g => rho * c.clipped.solidIntegral o g)).add
        (steiner (ofClipped m cog rho grav rot z atCog lpp ap c).dispMass (workingPoint cog rot z)) := by
    have e : (ofClipped m cog rho grav rot z atCog lpp ap c).dispMass = (c.clipped.evalPlain rho).mass := by
      show rho * ((c.clipped.evalPlain rho).mass / rho) = _
      field_simp
    rw [e]
    show ((c.clipped.evalPlain rho).mat).add _ = _
    rw [hmat]
    congr 1
    simp only [Inertia.huygens, Inertia.setCog, steiner]
    have hp : (c.clipped.evalPlain rho).point = 0 := rfl
    rw [hp, sub_zero]
    ext <;> simp only [V3.dot] <;> ring
  intro body
  refine ⟨?_, ?_, hI, ?_⟩
  · show (c.clipped.evalPlain rho).mass / rho = _
    rw [hdisp, hvol]
  · intro hv
    have hb : workingPoint (ofClipped m cog rho grav rot z atCog lpp ap c).buoyancyCenter rot z =
        (c.clipped.evalPlain rho).cog := by
      simp only [ofClipped, workingPoint]
      rw [hrot.mulVec_transpose]
      ext <;> simp
    change (c.clipped.evalPlain rho).mass / rho ≠ 0 at hv
    rw [hb]
    show ((c.clipped.evalPlain rho).mass / rho) • _ = _
    rw [hdisp] at hv ⊢
    show c.clipped.volume • ((1 / (2 * c.clipped.volume)) • _ : V3 ℝ) = _
    rw [normalWeighted_flux _ hflat, s6, s7, s8, smul_smul]
    ext <;> simp only [V3.smul_x, V3.smul_y, V3.smul_z] <;> field_simp <;> rfl
  · intro h0
    rw [hI, h0]
    ext <;> simp [M3.add, steiner] <;> rfl


/-- The hypotheses of C85 are met by the half immersed cube, and **C85 fails** for its inertia: with the gravity centre at
the buoyancy centre `(1/2, 1/2, -1/4)`, the moment of inertia of the immersed half cube (mass 500 kg) about the `x` axis
through the gravity centre is 625/12, and the value returned is 4375/12. -/
theorem C85_fails (grav : ℝ) : ∃ h c, compute insArgsort halfCube.real ⟨1 / 2, 1 / 2, -1 / 4⟩ 1000 grav = .ok h ∧
    clip insArgsort ⟨⟨0, 0, 1⟩, 0⟩ (1 / 1000) true halfCube.real = .ok c ∧ h.buoyancyCenter = ⟨1 / 2, 1 / 2, -1 / 4⟩ ∧
    h.dispMass = 500 ∧ h.inertia.point = ⟨1 / 2, 1 / 2, -1 / 4⟩ ∧
    1000 * (c.clipped.solidIntegral 0 (fun p => (p.y - 1 / 2) ^ 2) + c.clipped.solidIntegral 0 (fun p => (p.z + 1 / 4) ^ 2)) =
      625 / 12 ∧ h.inertia.xx = 4375 / 12 := by
  obtain ⟨c, hc, hp, hm⟩ := halfCube_clip
  have hmesh : (c.aff ratReal 0).clipped = halfCubeClipped := by
    show c.clipped.aff ratReal 0 = _
    rw [hm]
    simp [Mesh.aff, affMap, ratReal_apply, halfCubeClipped]
  have hpoly : (c.aff ratReal 0).closedPolygons ≠ [] := by show c.closedPolygons ≠ []; rw [hp]; simp
  have hr := clip_real (by decide +kernel) hc
  have h4 : (√4 : ℝ) = 2 := by rw [show (4 : ℝ) = 2 * 2 by norm_num]; exact Real.sqrt_mul_self (by norm_num)
  refine ⟨ofClipped halfCube.real ⟨1 / 2, 1 / 2, -1 / 4⟩ 1000 grav M3.one 0 false none false (c.aff ratReal 0),
    c.aff ratReal 0, ?_, hr, ?_, ?_, ?_, ?_, ?_⟩
  · unfold compute
    rw [workingMesh_self, hr]
    simp only
    rw [if_neg hpoly]
  · simp only [ofClipped, hmesh, M3.transpose, M3.one, M3.mulVec, V3.dot, M3.c0, M3.c1, M3.c2]
    have hz : (halfCubeClipped.evalPlain 1000).cog.z = -1 / 4 := by
      simp only [Mesh.evalPlain, Inertia.init, halfCubeClipped_volume, normalWeighted_eq]
      simp [halfCubeClipped, Mesh.faceProps, Mesh.faceIntegrals, Face.isTri, Mesh.quadPropsOf, quadProps, quadA1, quadA2,
        Mesh.vert, V3.norm, V3.normSq, V3.cross, V3.dot, Mesh.quadIntegralsOf, triIntegrals, triDelta, pf1, pf2, pt2,
        sqrt_quarter, h4]
      norm_num [h4]
    rw [(halfCubeClipped_cog 1000).1, (halfCubeClipped_cog 1000).2, hz]
    norm_num
  · show 1000 * (((c.aff ratReal 0).clipped.evalPlain 1000).mass / 1000) = 500
    rw [hmesh]
    show 1000 * (1000 * halfCubeClipped.volume / 1000) = 500
    rw [halfCubeClipped_volume]
    norm_num
  · show workingPoint ⟨1 / 2, 1 / 2, -1 / 4⟩ M3.one 0 = _
    simp [workingPoint, M3.mulVec, M3.one, V3.dot]
  · rw [hmesh]
    unfold Mesh.solidIntegral
    have ey : tetIntegral (fun p : V3 ℝ => (p.y - 1 / 2) ^ 2) 0 = fun p q r => (p - 0).dot ((q - 0).cross (r - 0)) *
        ((((0 : V3 ℝ).y - 1 / 2 + (p.y - 1 / 2) + (q.y - 1 / 2) + (r.y - 1 / 2)) *
          ((0 : V3 ℝ).y - 1 / 2 + (p.y - 1 / 2) + (q.y - 1 / 2) + (r.y - 1 / 2)) +
        (((0 : V3 ℝ).y - 1 / 2) * ((0 : V3 ℝ).y - 1 / 2) + (p.y - 1 / 2) * (p.y - 1 / 2) + (q.y - 1 / 2) * (q.y - 1 / 2) +
          (r.y - 1 / 2) * (r.y - 1 / 2))) / 120) := by
      funext p q r
      have := tetIntegral_affine2 (fun p => p.y - 1 / 2) (fun p => p.y - 1 / 2)
        (by intro o p q r u v w; simp only [taff_y]; ring) (by intro o p q r u v w; simp only [taff_y]; ring) 0 p q r
      rw [← this]
      congr 1
      funext p; ring
    have ez : tetIntegral (fun p : V3 ℝ => (p.z + 1 / 4) ^ 2) 0 = fun p q r => (p - 0).dot ((q - 0).cross (r - 0)) *
        ((((0 : V3 ℝ).z + 1 / 4 + (p.z + 1 / 4) + (q.z + 1 / 4) + (r.z + 1 / 4)) *
          ((0 : V3 ℝ).z + 1 / 4 + (p.z + 1 / 4) + (q.z + 1 / 4) + (r.z + 1 / 4)) +
        (((0 : V3 ℝ).z + 1 / 4) * ((0 : V3 ℝ).z + 1 / 4) + (p.z + 1 / 4) * (p.z + 1 / 4) + (q.z + 1 / 4) * (q.z + 1 / 4) +
          (r.z + 1 / 4) * (r.z + 1 / 4))) / 120) := by
      funext p q r
      have := tetIntegral_affine2 (fun p => p.z + 1 / 4) (fun p => p.z + 1 / 4)
        (by intro o p q r u v w; simp only [taff_z]; ring) (by intro o p q r u v w; simp only [taff_z]; ring) 0 p q r
      rw [← this]
      congr 1
      funext p; ring
    rw [ey, ez]
    simp [halfCubeClipped, Mesh.surfaceSum, Mesh.faceSum, Mesh.vert, V3.dot, V3.cross]
    norm_num
  · show (((c.aff ratReal 0).clipped.evalPlain 1000).mat.r0 + _).x = _
    rw [hmesh]
    simp only [V3.add_x, Inertia.huygens, Inertia.setCog, workingPoint, M3.one, M3.mulVec]
    have hmass : (halfCubeClipped.evalPlain 1000).mass = 500 := by
      show 1000 * halfCubeClipped.volume = 500
      rw [halfCubeClipped_volume]; norm_num
    have hxx : (halfCubeClipped.evalPlain 1000).mat.r0.x = 2500 / 12 := by
      simp only [Mesh.evalPlain, Inertia.init, halfCubeClipped_volume, normalWeighted_eq]
      simp [halfCubeClipped, Mesh.faceProps, Mesh.faceIntegrals, Face.isTri, Mesh.quadPropsOf, quadProps, quadA1, quadA2,
        Mesh.vert, V3.norm, V3.normSq, V3.cross, V3.dot, Mesh.quadIntegralsOf, triIntegrals, triDelta, pf1, pf2, pt2, pf3,
        sqrt_quarter, h4]
      norm_num [h4]
    have hpt : (halfCubeClipped.evalPlain 1000).point = 0 := rfl
    rw [hmass, hxx, hpt]
    simp [V3.dot]
    norm_num

end Hydro
end MM
