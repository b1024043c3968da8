import Verif.Proofs.TolFlux
import Verif.Props.Stiffness

/-!
# C123, C124: the displaced volume and the buoyancy centre, with corners within the tolerance of the free surface
-/

namespace MM

open Clipper

lemma quadratic_z : Quadratic (fun X => X.z) := ⟨[((0, ⟨0, 0, 1⟩), (1, 0))], fun X => by simp [V3.dot]⟩
lemma quadratic_x : Quadratic (fun X => X.x) := ⟨[((0, ⟨1, 0, 0⟩), (1, 0))], fun X => by simp [V3.dot]⟩
lemma quadratic_y : Quadratic (fun X => X.y) := ⟨[((0, ⟨0, 1, 0⟩), (1, 0))], fun X => by simp [V3.dot]⟩
lemma quadratic_xz : Quadratic (fun X => X.x * X.z) := ⟨[((0, ⟨1, 0, 0⟩), (0, ⟨0, 0, 1⟩))], fun X => by simp [V3.dot]⟩
lemma quadratic_yz : Quadratic (fun X => X.y * X.z) := ⟨[((0, ⟨0, 1, 0⟩), (0, ⟨0, 0, 1⟩))], fun X => by simp [V3.dot]⟩
lemma quadratic_zz : Quadratic (fun X => X.z * X.z / 2) :=
  ⟨[((0, ⟨0, 0, 1 / 2⟩), (0, ⟨0, 0, 1⟩))], fun X => by simp [V3.dot]; ring⟩

private lemma refInt_prod (w l : ℝ × V3 ℝ) {G : V3 ℝ → ℝ} (h : ∀ X, G X = aff w X * aff l X) (a b c : V3 ℝ) :
    refInt G a b c = affPoly w l a b c := by
  rw [← refInt_aff]
  exact refInt_congr (fun _ _ _ _ _ => h _)

private lemma flux_z (a b c : V3 ℝ) : kFlux ⟨0, 0, 1⟩ (fun X => X.z) a b c = (areaVec a b c).z * ((a.z + b.z + c.z) / 6) := by
  rw [kFlux, refInt_prod (0, ⟨0, 0, 1⟩) (1, 0) (fun X => by simp [aff, V3.dot])]
  simp only [affPoly, aff, V3.dot, V3.zero_x, V3.zero_y, V3.zero_z]
  ring

private lemma flux_xz (a b c : V3 ℝ) : kFlux ⟨0, 0, 1⟩ (fun X => X.x * X.z) a b c = (areaVec a b c).z *
    (((a.x + b.x + c.x) * (a.z + b.z + c.z) + (a.x * a.z + b.x * b.z + c.x * c.z)) / 24) := by
  rw [kFlux, refInt_prod (0, ⟨1, 0, 0⟩) (0, ⟨0, 0, 1⟩) (fun X => by simp [aff, V3.dot])]
  simp [affPoly, aff, V3.dot]

private lemma flux_yz (a b c : V3 ℝ) : kFlux ⟨0, 0, 1⟩ (fun X => X.y * X.z) a b c = (areaVec a b c).z *
    (((a.y + b.y + c.y) * (a.z + b.z + c.z) + (a.y * a.z + b.y * b.z + c.y * c.z)) / 24) := by
  rw [kFlux, refInt_prod (0, ⟨0, 1, 0⟩) (0, ⟨0, 0, 1⟩) (fun X => by simp [aff, V3.dot])]
  simp [affPoly, aff, V3.dot]

private lemma flux_zz (a b c : V3 ℝ) : kFlux ⟨0, 0, 1⟩ (fun X => X.z * X.z / 2) a b c = (areaVec a b c).z *
    (((a.z + b.z + c.z) * (a.z + b.z + c.z) + (a.z * a.z + b.z * b.z + c.z * c.z)) / 48) := by
  rw [kFlux, refInt_prod (0, ⟨0, 0, 1 / 2⟩) (0, ⟨0, 0, 1⟩) (fun X => by simp [aff, V3.dot]; ring)]
  simp only [affPoly, aff, V3.dot, V3.zero_x, V3.zero_y, V3.zero_z]
  ring

private noncomputable def sideFlux (x y : V3 ℝ) : ℝ := (x.x * y.y - x.y * y.x) * (x.z + y.z) / 6

private noncomputable def sideX (p q : V3 ℝ) : ℝ :=
  (q.y - p.y) * (p.z * (3 * p.x ^ 2 + 2 * p.x * q.x + q.x ^ 2) + q.z * (p.x ^ 2 + 2 * p.x * q.x + 3 * q.x ^ 2)) / 24

private noncomputable def sideY (p q : V3 ℝ) : ℝ :=
  -((q.x - p.x) * (p.z * (3 * p.y ^ 2 + 2 * p.y * q.y + q.y ^ 2) + q.z * (p.y ^ 2 + 2 * p.y * q.y + 3 * q.y ^ 2)) / 24)

private lemma abs_between {R a b t : ℝ} (ha : |a| ≤ R) (hb : |b| ≤ R) (h0 : 0 ≤ t) (h1 : t ≤ 1) : |a + t * (b - a)| ≤ R := by
  rw [abs_le] at *
  constructor <;> nlinarith [mul_nonneg h0 (sub_nonneg.2 hb.2), mul_nonneg h0 (sub_nonneg.2 hb.1),
    mul_nonneg (sub_nonneg.2 h1) (sub_nonneg.2 ha.1), mul_nonneg (sub_nonneg.2 h1) (sub_nonneg.2 ha.2)]

/-- The polynomial in the terms of the sides. -/
private lemma side_bound {R tol a b z w d : ℝ} (ha : |a| ≤ R) (hb : |b| ≤ R) (hz : |z| ≤ tol) (hw : |w| ≤ tol) :
    |d * (z * (3 * a ^ 2 + 2 * a * b + b ^ 2) + w * (a ^ 2 + 2 * a * b + 3 * b ^ 2)) / 24| ≤ tol * (R ^ 2 / 2 * |d|) := by
  have hR : 0 ≤ R := (abs_nonneg a).trans ha
  have ht : 0 ≤ tol := (abs_nonneg z).trans hz
  have a2 : a ^ 2 ≤ R ^ 2 := by rw [← sq_abs a]; exact pow_le_pow_left₀ (abs_nonneg _) ha 2
  have b2 : b ^ 2 ≤ R ^ 2 := by rw [← sq_abs b]; exact pow_le_pow_left₀ (abs_nonneg _) hb 2
  have q1 : |3 * a ^ 2 + 2 * a * b + b ^ 2| ≤ 6 * R ^ 2 := by
    rw [abs_of_nonneg (by nlinarith [sq_nonneg (a + b), sq_nonneg a])]
    nlinarith [sq_nonneg (a - b)]
  have q2 : |a ^ 2 + 2 * a * b + 3 * b ^ 2| ≤ 6 * R ^ 2 := by
    rw [abs_of_nonneg (by nlinarith [sq_nonneg (a + b), sq_nonneg b])]
    nlinarith [sq_nonneg (a - b)]
  have s : |z * (3 * a ^ 2 + 2 * a * b + b ^ 2) + w * (a ^ 2 + 2 * a * b + 3 * b ^ 2)| ≤ tol * (12 * R ^ 2) := by
    refine (abs_add_le _ _).trans ?_
    rw [abs_mul, abs_mul]
    have e1 := mul_le_mul hz q1 (abs_nonneg _) ht
    have e2 := mul_le_mul hw q2 (abs_nonneg _) ht
    linarith
  rw [abs_div, abs_mul, abs_of_pos (by norm_num : (0 : ℝ) < 24)]
  have := mul_le_mul_of_nonneg_left s (abs_nonneg d)
  linarith

section
variable {srt : (ℕ → ℝ) → List ℕ → List ℕ} (hsrt : IsArgsort srt) {tol : ℝ} (htol : 0 ≤ tol) {b : Bool}
  {m : Mesh ℝ} (hwf : m.WF) (hcl : m.ClosedOriented)
  (hpos : ∀ f ∈ m.faces, ∀ i ∈ f.toList, |waterplane.dist (m.vert i)| ≠ tol)
  (hsep : m.TolSeparated waterplane tol) (hcv : m.StrictlyConvexFaces) (hfl : m.NoSlabSide waterplane tol) {c : Clipped ℝ}
  (hc : clip srt waterplane tol b m = .ok c) {o : V3 ℝ} (ho : o.z = 0)
include hsrt htol hwf hcl hpos hsep hcv hfl hc ho

/-- The volume of the clipped mesh against the volume of the part of the mesh under the free surface. -/
lemma clip_volume_near :
    |c.clipped.volume - m.solidIntegral o (waterplane.below (fun _ => 1))| ≤
      tol * (c.clipped.totalArea + m.totalArea +
        ((m.tolSectionEdges waterplane tol).map (fun e => |e.1.x * e.2.y - e.1.y * e.2.x|)).sum / 3) := by
  have hflat := StrictlyConvexFaces.flat (clip_convex_tol hsrt htol hwf hpos (strictlyConvex_cross hcv) hsep hcv hc)
  have e : c.clipped.volume = c.clipped.surfaceSum (fun a b c => ((areaVec a b c).x * triPoly a b c 0 +
      (areaVec a b c).y * triPoly a b c 1 + (areaVec a b c).z * triPoly a b c 2) / 3) := by
    rw [Mesh.volume, Mesh.volumeWith, normalWeighted_flux _ hflat]
    unfold Mesh.surfaceSum
    generalize c.clipped.faces = L
    induction L with
    | nil => simp
    | cons f L ih =>
      simp only [List.map_cons, List.sum_cons] at ih ⊢
      rw [← ih]
      unfold Mesh.faceSum
      split_ifs <;> ring
  have := clip_solid_near hsrt htol hwf hcl hpos hsep hcv hfl hc ho (g := fun _ => 1) (G := fun X => X.z) quadratic_one quadratic_z
    (fun X h => h)
    (fun a b c => by
      rw [tet_one, flux_z, flux_z, flux_z, flux_z]
      simp only [areaVec, V3.dot, V3.cross, V3.sub_x, V3.sub_y, V3.sub_z, ho]
      ring)
    (T := fun a b c => ((areaVec a b c).x * triPoly a b c 0 + (areaVec a b c).y * triPoly a b c 1 +
      (areaVec a b c).z * triPoly a b c 2) / 3) (E := sideFlux) (fun x y => by unfold sideFlux; ring)
    (fun a b c => by
      rw [flux_z]
      simp [triPoly, pf1, sideFlux, areaVec, V3.dot, V3.cross]
      ring)
    (P := fun _ => True) (fun _ _ _ _ _ _ _ => trivial) (fun _ _ _ _ => trivial) (R := 1) zero_le_one
    (fun X _ h => by simpa using h) (D := fun x y => |x.x * y.y - x.y * y.x| / 3)
    (fun x y _ _ h1 h2 => by
      unfold sideFlux
      rw [abs_div, abs_mul, abs_of_pos (by norm_num : (0 : ℝ) < 6)]
      have hz : |x.z + y.z| ≤ 2 * tol := (abs_add_le _ _).trans (by linarith)
      have := mul_le_mul_of_nonneg_left hz (abs_nonneg (x.x * y.y - x.y * y.x))
      linarith)
  rw [← e] at this
  have hs : ∀ L : List (V3 ℝ × V3 ℝ), (L.map (fun e => |e.1.x * e.2.y - e.1.y * e.2.x| / 3)).sum =
      (L.map (fun e => |e.1.x * e.2.y - e.1.y * e.2.x|)).sum / 3 := by
    intro L
    induction L with
    | nil => simp
    | cons e L ih => simp only [List.map_cons, List.sum_cons, ih]; ring
  rw [hs, one_mul] at this
  exact this

/-- The moments of the clipped mesh against those of the part of the mesh under the free surface. -/
lemma clip_moment_near {R : ℝ} (hR : 0 ≤ R) (hx : ∀ f ∈ m.faces, ∀ i ∈ f.toList, |(m.vert i).x| ≤ R)
    (hy : ∀ f ∈ m.faces, ∀ i ∈ f.toList, |(m.vert i).y| ≤ R) :
    |c.clipped.surfaceSum (fun a b c => (areaVec a b c).x * triPoly a b c 6) / 2 -
        m.solidIntegral o (waterplane.below (fun X => X.x))| ≤
      tol * (R * (c.clipped.totalArea + m.totalArea) +
        ((m.tolSectionEdges waterplane tol).map (fun e => R ^ 2 / 2 * |e.2.y - e.1.y|)).sum) ∧
    |c.clipped.surfaceSum (fun a b c => (areaVec a b c).y * triPoly a b c 7) / 2 -
        m.solidIntegral o (waterplane.below (fun X => X.y))| ≤
      tol * (R * (c.clipped.totalArea + m.totalArea) +
        ((m.tolSectionEdges waterplane tol).map (fun e => R ^ 2 / 2 * |e.2.x - e.1.x|)).sum) ∧
    |c.clipped.surfaceSum (fun a b c => (areaVec a b c).z * triPoly a b c 8) / 2 -
        m.solidIntegral o (waterplane.below (fun X => X.z))| ≤
      tol * (tol / 2 * (c.clipped.totalArea + m.totalArea)) := by
  have half : ∀ T : V3 ℝ → V3 ℝ → V3 ℝ → ℝ, c.clipped.surfaceSum T / 2 = c.clipped.surfaceSum (fun a b c => T a b c / 2) := by
    intro T
    unfold Mesh.surfaceSum
    generalize c.clipped.faces = L
    induction L with
    | nil => simp
    | cons f L ih =>
      simp only [List.map_cons, List.sum_cons] at ih ⊢
      rw [← ih]
      unfold Mesh.faceSum
      split_ifs <;> ring
  refine ⟨?_, ?_, ?_⟩
  · rw [half]
    exact clip_solid_near hsrt htol hwf hcl hpos hsep hcv hfl hc ho (g := fun X => X.x) (G := fun X => X.x * X.z) quadratic_x
      quadratic_xz (fun X h => by simp [h])
      (fun a b c => by
        rw [tet_x, flux_xz, flux_xz, flux_xz, flux_xz]
        simp only [areaVec, V3.dot, V3.cross, V3.sub_x, V3.sub_y, V3.sub_z, ho]
        ring)
      (T := fun a b c => (areaVec a b c).x * triPoly a b c 6 / 2) (E := sideX) (fun x y => by unfold sideX; ring)
      (fun a b c => by
        rw [flux_xz]
        simp [triPoly, pf1, pf2, pt2, sideX, areaVec, V3.dot, V3.cross]
        ring)
      (P := fun X => |X.x| ≤ R) (fun a b t ha hb h0 h1 => by simpa using abs_between ha hb h0 h1) hx hR
      (fun X h1 h2 => by
        rw [abs_mul, mul_comm]
        exact mul_le_mul h2 h1 (abs_nonneg _) htol)
      (D := fun x y => R ^ 2 / 2 * |y.y - x.y|) (fun x y h1 h2 h3 h4 => side_bound h1 h2 h3 h4)
  · rw [half]
    exact clip_solid_near hsrt htol hwf hcl hpos hsep hcv hfl hc ho (g := fun X => X.y) (G := fun X => X.y * X.z) quadratic_y
      quadratic_yz (fun X h => by simp [h])
      (fun a b c => by
        rw [tet_y, flux_yz, flux_yz, flux_yz, flux_yz]
        simp only [areaVec, V3.dot, V3.cross, V3.sub_x, V3.sub_y, V3.sub_z, ho]
        ring)
      (T := fun a b c => (areaVec a b c).y * triPoly a b c 7 / 2) (E := sideY) (fun x y => by unfold sideY; ring)
      (fun a b c => by
        rw [flux_yz]
        simp [triPoly, pf1, pf2, pt2, sideY, areaVec, V3.dot, V3.cross]
        ring)
      (P := fun X => |X.y| ≤ R) (fun a b t ha hb h0 h1 => by simpa using abs_between ha hb h0 h1) hy hR
      (fun X h1 h2 => by
        rw [abs_mul, mul_comm]
        exact mul_le_mul h2 h1 (abs_nonneg _) htol)
      (D := fun x y => R ^ 2 / 2 * |y.x - x.x|) (fun x y h1 h2 h3 h4 => by
        unfold sideY
        rw [abs_neg]
        exact side_bound h1 h2 h3 h4)
  · rw [half]
    have := clip_solid_near hsrt htol hwf hcl hpos hsep hcv hfl hc ho (g := fun X => X.z) (G := fun X => X.z * X.z / 2) quadratic_z
      quadratic_zz (fun X h => by simp [h])
      (fun a b c => by
        rw [tet_z, flux_zz, flux_zz, flux_zz, flux_zz]
        simp only [areaVec, V3.dot, V3.cross, V3.sub_x, V3.sub_y, V3.sub_z, ho]
        ring)
      (T := fun a b c => (areaVec a b c).z * triPoly a b c 8 / 2) (E := fun _ _ => 0) (fun x y => by simp)
      (fun a b c => by
        rw [flux_zz]
        simp [triPoly, pf1, pf2, pt2]
        ring)
      (P := fun _ => True) (fun _ _ _ _ _ _ _ => trivial) (fun _ _ _ _ => trivial) (R := tol / 2) (by linarith)
      (fun X _ h => by
        rw [abs_div, abs_mul, abs_of_pos (by norm_num : (0 : ℝ) < 2)]
        have := mul_le_mul h h (abs_nonneg _) htol
        linarith)
      (D := fun _ _ => 0) (fun x y _ _ _ _ => by simp)
    simpa using this

end

namespace Hydro

/-- **C123**: for a watertight hull with corners at any height (but exactly at the tolerance of the clipper), the displaced
volume returned by `compute_hydrostatics` is the volume of the part of the hull under the free surface, but for an error of at
most the tolerance times the sum of the wetted area, the area of the hull, and two thirds of the areas of the triangles that join
the origin to the edges of the waterline, seen from above. Partial: no face has a side in the slab of the tolerance and
corners on both sides of it, and the points that clipping deals with are farther apart than the tolerance of merging. -/
theorem C123_displaced_volume_in_slab_partial (srt : (ℕ → ℝ) → List ℕ → List ℕ) (hsrt : IsArgsort srt) (m : Mesh ℝ) (cog : V3 ℝ)
    (rho grav : ℝ) (rot : M3 ℝ) (z : ℝ) (atCog : Bool) (lpp : Option ℝ) (ap : Bool) (h : HsData)
    (hwf : (workingMesh m rot z).WF) (hcl : (workingMesh m rot z).ClosedOriented)
    (hcv : (workingMesh m rot z).StrictlyConvexFaces)
    (hpos : ∀ f ∈ (workingMesh m rot z).faces, ∀ i ∈ f.toList, |((workingMesh m rot z).vert i).z| ≠ 1 / 1000)
    (hsep : (workingMesh m rot z).TolSeparated ⟨⟨0, 0, 1⟩, 0⟩ (1 / 1000))
    (hfl : (workingMesh m rot z).NoSlabSide ⟨⟨0, 0, 1⟩, 0⟩ (1 / 1000)) (hrho : rho ≠ 0)
    (hh : compute srt m cog rho grav rot z atCog lpp ap = .ok h) (o : V3 ℝ) (ho : o.z = 0) :
    |h.dispVolume - (workingMesh m rot z).solidIntegral o (fun X => if X.z < 0 then 1 else 0)| ≤
      1 / 1000 * (h.wetSurfaceArea + (workingMesh m rot z).totalArea +
        (((workingMesh m rot z).tolSectionEdges ⟨⟨0, 0, 1⟩, 0⟩ (1 / 1000)).map
          (fun e => |e.1.x * e.2.y - e.1.y * e.2.x|)).sum / 3) := by
  obtain ⟨c, hc, hne, rfl⟩ := compute_ok hh
  have hb : waterplane.below (fun _ => (1 : ℝ)) = fun X => if X.z < 0 then 1 else 0 := by
    funext X; rw [below_dist, waterplane_dist]
  have key := clip_volume_near hsrt (by norm_num : (0 : ℝ) ≤ 1 / 1000) hwf hcl
    (fun f hf i hi => by rw [waterplane_dist]; exact hpos f hf i hi) hsep hcv hfl hc ho
  rw [hb] at key
  have hdisp : (c.clipped.evalPlain rho).mass / rho = c.clipped.volume := by
    show rho * c.clipped.volume / rho = _
    field_simp
  have e : (ofClipped m cog rho grav rot z atCog lpp ap c).dispVolume = c.clipped.volume := hdisp
  rw [e]
  exact key

/-- **C124**: for a watertight hull with corners at any height (but exactly at the tolerance of the clipper), the product of the
displaced volume by the buoyancy centre returned by `compute_hydrostatics`, in the working frame, is the first moment of the part
of the hull under the free surface, but for an error of at most the tolerance times: along `x` and `y`, the sum of the areas of
the wetted surface and of the hull times the largest coordinate `R`, and of the breadths of the waterline edges times
`R² / 2`; along `z`, half the tolerance times the sum of the areas. Partial: as C123. -/
theorem C124_buoyancy_centre_in_slab_partial (srt : (ℕ → ℝ) → List ℕ → List ℕ) (hsrt : IsArgsort srt) (m : Mesh ℝ) (cog : V3 ℝ)
    (rho grav : ℝ) (rot : M3 ℝ) (z : ℝ) (atCog : Bool) (lpp : Option ℝ) (ap : Bool) (h : HsData)
    (hwf : (workingMesh m rot z).WF) (hcl : (workingMesh m rot z).ClosedOriented)
    (hcv : (workingMesh m rot z).StrictlyConvexFaces)
    (hpos : ∀ f ∈ (workingMesh m rot z).faces, ∀ i ∈ f.toList, |((workingMesh m rot z).vert i).z| ≠ 1 / 1000)
    (hsep : (workingMesh m rot z).TolSeparated ⟨⟨0, 0, 1⟩, 0⟩ (1 / 1000))
    (hfl : (workingMesh m rot z).NoSlabSide ⟨⟨0, 0, 1⟩, 0⟩ (1 / 1000)) (hrot : rot.IsRotation) (hrho : rho ≠ 0)
    (R : ℝ) (hR : 0 ≤ R) (hx : ∀ f ∈ (workingMesh m rot z).faces, ∀ i ∈ f.toList, |((workingMesh m rot z).vert i).x| ≤ R)
    (hy : ∀ f ∈ (workingMesh m rot z).faces, ∀ i ∈ f.toList, |((workingMesh m rot z).vert i).y| ≤ R)
    (hh : compute srt m cog rho grav rot z atCog lpp ap = .ok h) (hv : h.dispVolume ≠ 0) (o : V3 ℝ) (ho : o.z = 0) :
    let immersed := fun g => (workingMesh m rot z).solidIntegral o (fun X => if X.z < 0 then g X else 0)
    let moment := h.dispVolume • workingPoint h.buoyancyCenter rot z
    let areas := h.wetSurfaceArea + (workingMesh m rot z).totalArea
    let waterline := (workingMesh m rot z).tolSectionEdges ⟨⟨0, 0, 1⟩, 0⟩ (1 / 1000)
    |moment.x - immersed (fun X => X.x)| ≤
      1 / 1000 * (R * areas + (waterline.map (fun e => R ^ 2 / 2 * |e.2.y - e.1.y|)).sum) ∧
    |moment.y - immersed (fun X => X.y)| ≤
      1 / 1000 * (R * areas + (waterline.map (fun e => R ^ 2 / 2 * |e.2.x - e.1.x|)).sum) ∧
    |moment.z - immersed (fun X => X.z)| ≤ 1 / 1000 * (1 / 2000 * areas) := by
  obtain ⟨c, hc, hne, rfl⟩ := compute_ok hh
  have hb : ∀ g : V3 ℝ → ℝ, waterplane.below g = fun X => if X.z < 0 then g X else 0 := by
    intro g; funext X; rw [below_dist, waterplane_dist]
  have htol : (0 : ℝ) ≤ 1 / 1000 := by norm_num
  have hpos' : ∀ f ∈ (workingMesh m rot z).faces, ∀ i ∈ f.toList, |waterplane.dist ((workingMesh m rot z).vert i)| ≠ 1 / 1000 :=
    fun f hf i hi => by rw [waterplane_dist]; exact hpos f hf i hi
  have key := clip_moment_near hsrt htol hwf hcl hpos' hsep hcv hfl hc ho hR hx hy
  simp only [hb] at key
  have hflat := StrictlyConvexFaces.flat (clip_convex_tol hsrt htol hwf hpos' (strictlyConvex_cross hcv) hsep hcv hc)
  have hdisp : (c.clipped.evalPlain rho).mass / rho = c.clipped.volume := by
    show rho * c.clipped.volume / rho = _
    field_simp
  have hmom : (ofClipped m cog rho grav rot z atCog lpp ap c).dispVolume •
      workingPoint (ofClipped m cog rho grav rot z atCog lpp ap c).buoyancyCenter rot z =
      (⟨c.clipped.surfaceSum (fun a b c => (areaVec a b c).x * triPoly a b c 6) / 2,
        c.clipped.surfaceSum (fun a b c => (areaVec a b c).y * triPoly a b c 7) / 2,
        c.clipped.surfaceSum (fun a b c => (areaVec a b c).z * triPoly a b c 8) / 2⟩ : V3 ℝ) := by
    have hb : workingPoint (ofClipped m cog rho grav rot z atCog lpp ap c).buoyancyCenter rot z =
        (c.clipped.evalPlain rho).cog := by
      simp only [ofClipped, workingPoint]
      rw [hrot.mulVec_transpose]
      ext <;> simp
    change (c.clipped.evalPlain rho).mass / rho ≠ 0 at hv
    rw [hb]
    show ((c.clipped.evalPlain rho).mass / rho) • _ = _
    rw [hdisp] at hv ⊢
    show c.clipped.volume • ((1 / (2 * c.clipped.volume)) • _ : V3 ℝ) = _
    rw [normalWeighted_flux _ hflat, smul_smul]
    ext <;> simp only [V3.smul_x, V3.smul_y, V3.smul_z] <;> field_simp <;> rfl
  intro immersed moment areas waterline
  have e : moment = _ := hmom
  rw [e]
  refine ⟨key.1, key.2.1, ?_⟩
  have h3 := key.2.2
  norm_num at h3 ⊢
  exact h3

lemma slabOcta_strictlyConvex : slabOcta.StrictlyConvexFaces := by
  have h : ∀ f ∈ slabOcta.faces, f.a = f.d ∧ areaVec (slabOcta.vert f.a) (slabOcta.vert f.b) (slabOcta.vert f.c) ≠ 0 := by
    decide +kernel
  intro f hf
  rw [if_pos (h f hf).1]
  exact (h f hf).2

/-- The hypotheses of C123 are met by `slabOcta`, which has corners in the slab of the tolerance but not on the free surface. -/
theorem slabOcta_meets_C123 (cog : V3 ℝ) (grav : ℝ) :
    let M := workingMesh slabOcta.real M3.one 0
    M.WF ∧ M.ClosedOriented ∧ M.StrictlyConvexFaces ∧ M.NoSlabSide ⟨⟨0, 0, 1⟩, 0⟩ (1 / 1000) ∧
    (∀ f ∈ M.faces, ∀ i ∈ f.toList, |(M.vert i).z| ≠ 1 / 1000) ∧ M.TolSeparated ⟨⟨0, 0, 1⟩, 0⟩ (1 / 1000) ∧
    (∃ f ∈ M.faces, ∃ i ∈ f.toList, (M.vert i).z ≠ 0 ∧ |(M.vert i).z| < 1 / 1000) ∧
    ∃ h, compute insArgsort slabOcta.real cog 1000 grav M3.one 0 false none false = .ok h := by
  intro M
  have hM : M = slabOcta.real := workingMesh_self _
  obtain ⟨h1, h2, h3, h4, h5, h6, h7, _, _, h10⟩ := slabOcta_meets_C96 cog grav
  refine ⟨h1, h2, ?_, h5, h6, h7, ?_, h10⟩
  · rw [hM]; exact slabOcta_strictlyConvex.real
  · rw [hM]
    have : ∃ f ∈ slabOcta.faces, ∃ i ∈ f.toList, (slabOcta.vert i).z ≠ 0 ∧ |(slabOcta.vert i).z| < 1 / 1000 := by decide +kernel
    obtain ⟨f, hf, i, hi, n0, hz⟩ := this
    have ht : (1 / 1000 : ℝ) = ((1 / 1000 : ℚ) : ℝ) := by push_cast; norm_num
    refine ⟨f, hf, i, hi, ?_, ?_⟩
    · rw [Mesh.real_vert]
      show (((slabOcta.vert i).z : ℚ) : ℝ) ≠ 0
      exact_mod_cast n0
    · rw [Mesh.real_vert, ht]
      show |(((slabOcta.vert i).z : ℚ) : ℝ)| < _
      exact_mod_cast hz

/-- `slabOcta` clipped by the free surface. -/
def slabOctaClipped : Mesh ℚ :=
  ⟨[⟨-1, 0, -1 / 3000⟩, ⟨0, -1, 0⟩, ⟨0, 0, -1⟩, ⟨0, 0, 1⟩, ⟨0, 10 / 11, 0⟩, ⟨0, 1, 1 / 10⟩, ⟨1, 0, 1 / 2000⟩],
   [⟨6, 2, 4, 6⟩, ⟨4, 2, 0, 4⟩, ⟨2, 1, 0, 2⟩, ⟨2, 6, 1, 2⟩]⟩

/-- The other hypotheses of C124 are met by `slabOcta`, with `R = 1`. -/
theorem slabOcta_meets_C124 (cog : V3 ℝ) (grav : ℝ) :
    let M := workingMesh slabOcta.real M3.one 0
    (∀ f ∈ M.faces, ∀ i ∈ f.toList, |(M.vert i).x| ≤ 1) ∧ (∀ f ∈ M.faces, ∀ i ∈ f.toList, |(M.vert i).y| ≤ 1) ∧
    (M3.one : M3 ℝ).IsRotation ∧
    ∃ h, compute insArgsort slabOcta.real cog 1000 grav M3.one 0 false none false = .ok h ∧ h.dispVolume ≠ 0 := by
  intro M
  have hM : M = slabOcta.real := workingMesh_self _
  have w : slabOcta.WF := by decide +kernel
  have h1 : ∃ c, clip insArgsort ⟨⟨0, 0, 1⟩, 0⟩ (1 / 1000) true slabOcta = .ok c ∧ c.closedPolygons ≠ [] ∧
      c.clipped = slabOctaClipped := by
    have h : (match clip insArgsort (⟨⟨0, 0, 1⟩, 0⟩ : Plane ℚ) (1 / 1000) true slabOcta with
        | .ok c => decide (c.closedPolygons ≠ [] ∧ c.clipped = slabOctaClipped)
        | .error _ => false) = true := by decide +kernel
    split at h
    · rename_i c hc
      simp only [decide_eq_true_eq] at h
      exact ⟨c, hc, h⟩
    · simp at h
  obtain ⟨c, hc, hne, hvol⟩ := h1
  have hx : ∀ f ∈ slabOcta.faces, ∀ i ∈ f.toList, |(slabOcta.vert i).x| ≤ 1 := by decide +kernel
  have hy : ∀ f ∈ slabOcta.faces, ∀ i ∈ f.toList, |(slabOcta.vert i).y| ≤ 1 := by decide +kernel
  rw [hM]
  refine ⟨?_, ?_, one_isRotation, ofClipped slabOcta.real cog 1000 grav M3.one 0 false none false (c.aff ratReal 0), ?_, ?_⟩
  · intro f hf i hi
    rw [Mesh.real_vert]
    show |(((slabOcta.vert i).x : ℚ) : ℝ)| ≤ 1
    exact_mod_cast hx f hf i hi
  · intro f hf i hi
    rw [Mesh.real_vert]
    show |(((slabOcta.vert i).y : ℚ) : ℝ)| ≤ 1
    exact_mod_cast hy f hf i hi
  · unfold compute
    rw [workingMesh_self, clip_real w hc]
    simp only
    rw [if_neg]
    exact hne
  · show 1000 * (c.clipped.aff ratReal 0).volume / 1000 ≠ 0
    have hcv : slabOctaClipped.StrictlyConvexFaces := by
      have h : ∀ f ∈ slabOctaClipped.faces, f.a = f.d ∧
          areaVec (slabOctaClipped.vert f.a) (slabOctaClipped.vert f.b) (slabOctaClipped.vert f.c) ≠ 0 := by
        decide +kernel
      intro f hf
      rw [if_pos (h f hf).1]
      exact (h f hf).2
    have hflat : (slabOctaClipped.aff ratReal 0).FlatFaces := StrictlyConvexFaces.flat hcv.real
    rw [hvol, volume_eq_signedVolume _ hflat]
    simp [slabOctaClipped, Mesh.signedVolume, Mesh.faceSignedVolume, Mesh.aff, affMap, Mesh.vert, tetVol, V3.dot, V3.cross]
    norm_num

end Hydro

end MM
