import Verif.Proofs.Stiffness
import Verif.Props.ClipSection
import Mathlib.Analysis.SpecialFunctions.Trigonometric.Bounds

/-!
# C80: the stiffness matrix is minus the derivative of the force and moments
-/

namespace MM
namespace Hydro

open Clipper

set_option linter.unusedSectionVars false
set_option linter.unusedSimpArgs false
set_option linter.unusedVariables false

lemma smallMotion_heave : SmallMotion (fun _ => 1) (fun t => t) where
  c0 := rfl
  s0 := rfl
  lipc x y := by simp
  lips x y := le_rfl
  dc := hasDerivAt_const _ _
  ds := hasDerivAt_id _

lemma smallMotion_rot : SmallMotion Real.cos Real.sin where
  c0 := Real.cos_zero
  s0 := Real.sin_zero
  lipc := Real.abs_cos_sub_cos_le
  lips := Real.abs_sin_sub_sin_le
  dc := by simpa using Real.hasDerivAt_cos 0
  ds := by simpa using Real.hasDerivAt_sin 0

lemma hda {f g : ℝ → ℝ} {a b : ℝ} (h : HasDerivAt f a 0) (hfg : ∀ t, g t = f t) (hab : b = a) : HasDerivAt g b 0 := by
  rw [hab, funext hfg]; exact h

lemma SmallMotion.sin_mul {co si : ℝ → ℝ} (hm : SmallMotion co si) {B : ℝ → ℝ} {B' : ℝ} (hB : HasDerivAt B B' 0) (h0 : B 0 = 0) :
    HasDerivAt (fun t => si t * B t) 0 0 := by
  have := hm.ds.mul hB
  rw [hm.s0, h0, mul_zero, zero_mul, zero_add] at this
  exact this

lemma SmallMotion.cos_mul {co si : ℝ → ℝ} (hm : SmallMotion co si) {B : ℝ → ℝ} {B' : ℝ} (hB : HasDerivAt B B' 0) :
    HasDerivAt (fun t => co t * B t) B' 0 := by
  have := hm.dc.mul hB
  rw [hm.c0, zero_mul, one_mul, zero_add] at this
  exact this

lemma rotX_isRotation (θ : ℝ) : (rotX θ).IsRotation := by
  have := Real.sin_sq_add_cos_sq θ
  constructor
  · simp [M3.mul, M3.one, M3.transpose, M3.c0, M3.c1, M3.c2, V3.dot, rotX]
    refine ⟨⟨by linarith, by ring⟩, by ring, by linarith⟩
  · simp [M3.mul, M3.one, M3.transpose, M3.c0, M3.c1, M3.c2, V3.dot, rotX]
    refine ⟨⟨by linarith, by ring⟩, by ring, by linarith⟩
  · simp [M3.det, V3.dot, V3.cross, rotX]; linarith

lemma rotY_isRotation (θ : ℝ) : (rotY θ).IsRotation := by
  have := Real.sin_sq_add_cos_sq θ
  constructor
  · simp [M3.mul, M3.one, M3.transpose, M3.c0, M3.c1, M3.c2, V3.dot, rotY]
    refine ⟨⟨by linarith, by ring⟩, by ring, by linarith⟩
  · simp [M3.mul, M3.one, M3.transpose, M3.c0, M3.c1, M3.c2, V3.dot, rotY]
    refine ⟨⟨by linarith, by ring⟩, by ring, by linarith⟩
  · simp [M3.det, V3.dot, V3.cross, rotY]; linarith

lemma one_isRotation : (M3.one : M3 ℝ).IsRotation := by
  constructor <;> simp [M3.mul, M3.one, M3.transpose, M3.c0, M3.c1, M3.c2, V3.dot, M3.det, V3.cross]

/-- Integral over a plane triangle at the origin of a product of affine functions. -/
lemma planeTri_aff (a b d a' b' d' : ℝ) (p q : V3 ℝ) (hp : p.z = 0) (hq : q.z = 0) :
    planeTriIntegral (fun x y => (a + b * x + d * y) * (a' + b' * x + d' * y)) (0, 0) (p.x, p.y) (q.x, q.y) =
      affFlux ⟨0, 0, 1⟩ (a, ⟨b, d, 0⟩) (a', ⟨b', d', 0⟩) 0 p q := by
  unfold planeTriIntegral
  have h : ∀ u v : ℝ, (a + b * (0 + u * (p.x - 0) + v * (q.x - 0)) + d * (0 + u * (p.y - 0) + v * (q.y - 0))) *
      (a' + b' * (0 + u * (p.x - 0) + v * (q.x - 0)) + d' * (0 + u * (p.y - 0) + v * (q.y - 0))) =
      (a + u * (b * p.x + d * p.y) + v * (b * q.x + d * q.y)) *
        (a' + u * (b' * p.x + d' * p.y) + v * (b' * q.x + d' * q.y)) := by
    intro u v; ring
  simp only [h]
  rw [planeTri_prod]
  simp [affFlux, affPoly, aff, areaVec, V3.dot, V3.cross, hp, hq]
  ring

lemma polygonsIntegral_edges (g : ℝ → ℝ → ℝ) (c : Clipped ℝ) : polygonsIntegral g (0, 0) (waterline c) =
    (c.polygonEdges.map (fun e => planeTriIntegral g (0, 0) (e.1.x, e.1.y) (e.2.x, e.2.y))).sum := by
  unfold polygonsIntegral waterline Clipped.polygonEdges
  rw [List.map_map, List.map_map, List.map_flatMap, sum_flatMap']
  congr 1
  apply List.map_congr_left
  intro l _
  simp only [Function.comp, polygonIntegral, chainPairs_map, List.map_map]
  rfl

section
variable {srt : (ℕ → ℝ) → List ℕ → List ℕ} (hsrt : IsArgsort srt) {tol : ℝ} (htol : 0 ≤ tol) {b : Bool} {m : Mesh ℝ}
  (hwf : m.WF) (hcl : m.ClosedOriented) (hpos : ∀ f ∈ m.faces, ∀ i ∈ f.toList, waterplane.Clear tol (m.vert i))
  (hsep : m.WellSeparated waterplane) (hcv : m.StrictlyConvexFaces) (hq : QuadsCross m) {c : Clipped ℝ} (hc : clip srt waterplane tol b m = .ok c)

lemma lowerSectionEdges_z {e : V3 ℝ × V3 ℝ} (he : e ∈ m.lowerSectionEdges waterplane) : e.1.z = 0 ∧ e.2.z = 0 := by
  obtain ⟨f, _, hs⟩ := List.mem_filterMap.1 he
  unfold Face.lowerSectionEdge at hs
  split at hs
  · rename_i e1 e2 h1 h2
    have c1 := List.find?_some h1
    have c2 := List.find?_some h2
    simp only [Bool.and_eq_true, decide_eq_true_eq] at c1 c2
    split_ifs at hs
    simp only [Option.some.injEq] at hs
    subst hs
    constructor
    · rw [← waterplane_dist]; exact cutPt_dist (by linarith [c1.1, c1.2])
    · rw [← waterplane_dist]; exact cutPt_dist (by linarith [c2.1, c2.2])
  · simp at hs

include hsrt htol hwf hcl hpos hsep hq hc hcv

/-- Flux through the clipped mesh of a field without divergence: minus the integral over the waterplane of its vertical
component. -/
lemma wet_lid (hpoly : c.polygonEdges.Perm (m.lowerSectionEdges waterplane)) (Ψ : V3 ℝ → V3 ℝ → V3 ℝ → ℝ) (g : ℝ → ℝ → ℝ)
    (hanti : ∀ p q, Ψ 0 p q = -Ψ 0 q p) (hfan : ∀ p q r, Ψ p q r = Ψ 0 p q + Ψ 0 q r + Ψ 0 r p)
    (hg : ∀ p q, p.z = 0 → q.z = 0 → Ψ 0 p q = planeTriIntegral g (0, 0) (p.x, p.y) (q.x, q.y)) :
    c.clipped.surfaceSum Ψ = -polygonsIntegral g (0, 0) (waterline c) := by
  rw [wet_flux_section hsrt htol hwf hpos hsep hcv hc hq hcl Ψ hanti hfan, polygonsIntegral_edges, (hpoly.map _).sum_eq]
  congr 2
  apply List.map_congr_left
  intro e he
  exact hg _ _ (lowerSectionEdges_z he).1 (lowerSectionEdges_z he).2

/-- The derivatives of the force and the moments, for a vertical displacement `a + b x + d y`. -/
lemma wet_derivs (hpoly : c.polygonEdges.Perm (m.lowerSectionEdges waterplane)) (xr yr a b d : ℝ) :
    let w : ℝ × V3 ℝ := (a, ⟨b, d, 0⟩)
    let S := fun k l => c.clipped.surfaceSum (affFlux k w l)
    let Q := c.clipped.surfaceSum (affFlux ⟨0, 0, 1⟩ (0, ⟨0, 0, 1⟩) (0, ⟨0, 0, 1⟩))
    S ⟨0, 0, 1⟩ (1, 0) = -polygonsIntegral (fun x y => (a + b * x + d * y) * (1 + 0 * x + 0 * y)) (0, 0) (waterline c) ∧
    S ⟨0, 0, 1⟩ (-yr, ⟨0, 1, 0⟩) - S ⟨0, 1, 0⟩ (0, ⟨0, 0, 1⟩) =
      -polygonsIntegral (fun x y => (a + b * x + d * y) * (-yr + 0 * x + 1 * y)) (0, 0) (waterline c) - d / 2 * Q ∧
    S ⟨1, 0, 0⟩ (0, ⟨0, 0, 1⟩) - S ⟨0, 0, 1⟩ (-xr, ⟨1, 0, 0⟩) =
      polygonsIntegral (fun x y => (a + b * x + d * y) * (-xr + 1 * x + 0 * y)) (0, 0) (waterline c) + b / 2 * Q := by
  intro w S Q
  have key := wet_lid hsrt htol hwf hcl hpos hsep hcv hq hc hpoly
  refine ⟨?_, ?_, ?_⟩
  · refine key _ _ ?_ ?_ ?_
    · intro p q; simp [w, affFlux, affPoly, aff, areaVec, V3.cross, V3.dot]; ring
    · intro p q r; simp [w, affFlux, affPoly, aff, areaVec, V3.cross, V3.dot]; ring
    · intro p q hp hq'; rw [planeTri_aff _ _ _ _ _ _ p q hp hq']; rfl
  · have h := key (fun p q r => affFlux ⟨0, 0, 1⟩ w (-yr, ⟨0, 1, 0⟩) p q r + (-1) * affFlux ⟨0, 1, 0⟩ w (0, ⟨0, 0, 1⟩) p q r +
      d / 2 * affFlux ⟨0, 0, 1⟩ (0, ⟨0, 0, 1⟩) (0, ⟨0, 0, 1⟩) p q r)
      (fun x y => (a + b * x + d * y) * (-yr + 0 * x + 1 * y))
      (by intro p q; simp [w, affFlux, affPoly, aff, areaVec, V3.cross, V3.dot]; ring)
      (by intro p q r; simp [w, affFlux, affPoly, aff, areaVec, V3.cross, V3.dot]; ring)
      (by
        intro p q hp hq'; rw [planeTri_aff _ _ _ _ _ _ p q hp hq']
        simp [w, affFlux, affPoly, aff, areaVec, V3.cross, V3.dot, hp, hq'])
    rw [surfaceSum_add, surfaceSum_add, surfaceSum_smul, surfaceSum_smul] at h
    simp only [S, Q]
    linarith
  · have h := key (fun p q r => affFlux ⟨0, 0, 1⟩ w (-xr, ⟨1, 0, 0⟩) p q r + (-1) * affFlux ⟨1, 0, 0⟩ w (0, ⟨0, 0, 1⟩) p q r +
      b / 2 * affFlux ⟨0, 0, 1⟩ (0, ⟨0, 0, 1⟩) (0, ⟨0, 0, 1⟩) p q r)
      (fun x y => (a + b * x + d * y) * (-xr + 1 * x + 0 * y))
      (by intro p q; simp [w, affFlux, affPoly, aff, areaVec, V3.cross, V3.dot]; ring)
      (by intro p q r; simp [w, affFlux, affPoly, aff, areaVec, V3.cross, V3.dot]; ring)
      (by
        intro p q hp hq'; rw [planeTri_aff _ _ _ _ _ _ p q hp hq']
        simp [w, affFlux, affPoly, aff, areaVec, V3.cross, V3.dot, hp, hq'])
    rw [surfaceSum_add, surfaceSum_add, surfaceSum_smul, surfaceSum_smul] at h
    simp only [S, Q]
    linarith

/-- The vertical force and the moments, the horizontal force and the moment about the vertical, at rest. -/
lemma wet_rest (xr yr : ℝ) : c.clipped.surfaceSum (zFlux ⟨1, 0, 0⟩ (1, 0)) = 0 ∧
    c.clipped.surfaceSum (zFlux ⟨0, 1, 0⟩ (1, 0)) = 0 ∧
    c.clipped.surfaceSum (zFlux ⟨0, 1, 0⟩ (-xr, ⟨1, 0, 0⟩)) - c.clipped.surfaceSum (zFlux ⟨1, 0, 0⟩ (-yr, ⟨0, 1, 0⟩)) = 0 := by
  have key := wet_flux_zero hsrt htol hwf hpos hsep hcv hc hq hcl
  obtain ⟨_, _, _, _, _, n1, n2, _⟩ := wet_relations hsrt htol hwf hcl hpos hsep hcv hc
  refine ⟨n1, n2, ?_⟩
  have h := key (fun p q r => zFlux ⟨0, 1, 0⟩ (-xr, ⟨1, 0, 0⟩) p q r + (-1) * zFlux ⟨1, 0, 0⟩ (-yr, ⟨0, 1, 0⟩) p q r)
    (by intro p q; simp [zFlux, zPoly, aff, areaVec, V3.cross, V3.dot]; ring)
    (by intro p q r; simp [zFlux, zPoly, aff, areaVec, V3.cross, V3.dot]; ring)
    (by intro p q hp hq'; simp [zFlux, zPoly, aff, areaVec, V3.cross, V3.dot, hp, hq'])
  rw [surfaceSum_add, surfaceSum_smul] at h
  linarith

end

/-- The balance of a moved body. -/
lemma balance_rigid {m : Mesh ℝ} (hwf : m.WF) {R : M3 ℝ} (hR : R.IsRotation) (ρ g mass xr yr t : ℝ) (G : V3 ℝ)
    (ζ : V3 ℝ → ℝ) (hζ : ∀ X, (rigid R ⟨xr, yr, 0⟩ t X).z = ζ X) :
    let f : V3 ℝ := ⟨bodySum m ζ ⟨1, 0, 0⟩ (1, 0), bodySum m ζ ⟨0, 1, 0⟩ (1, 0), bodySum m ζ ⟨0, 0, 1⟩ (1, 0)⟩
    let μ : V3 ℝ := ⟨bodySum m ζ ⟨0, 0, 1⟩ (-yr, ⟨0, 1, 0⟩) - bodySum m ζ ⟨0, 1, 0⟩ (0, ⟨0, 0, 1⟩),
        bodySum m ζ ⟨1, 0, 0⟩ (0, ⟨0, 0, 1⟩) - bodySum m ζ ⟨0, 0, 1⟩ (-xr, ⟨1, 0, 0⟩),
        bodySum m ζ ⟨0, 1, 0⟩ (-xr, ⟨1, 0, 0⟩) - bodySum m ζ ⟨1, 0, 0⟩ (-yr, ⟨0, 1, 0⟩)⟩
    balance ρ g mass ⟨xr, yr, 0⟩ (m.mapVertices (rigid R ⟨xr, yr, 0⟩ t)) G =
      ⟨ρ * g * R.r2.dot f - mass * g,
       ρ * g * (R.r0.dot μ - t * R.r1.dot f) - mass * g * (G.y - yr),
       ρ * g * (R.r1.dot μ + t * R.r0.dot f) + mass * g * (G.x - xr)⟩ := by
  intro f μ
  have hP : PlaneCont (fun X => hydrostaticPressure ρ g (rigid R ⟨xr, yr, 0⟩ t X)) := by
    intro p q r
    simp only [hydrostaticPressure_eq]
    simp only [rigid, M3.mulVec, V3.dot, V3.add_x, V3.add_y, V3.add_z, V3.smul_x, V3.smul_y, V3.smul_z, V3.sub_x, V3.sub_y,
      V3.sub_z]
    fun_prop
  obtain ⟨h1, h2⟩ := force_bodySum m ρ g ⟨xr, yr, 0⟩ R t ζ hζ
  simp only [neg_zero] at h2
  change _ = (ρ * g) • f at h1
  change _ = (ρ * g) • μ at h2
  unfold balance
  simp only
  rw [pressureMoment_rigid hwf hR _ _ _ hP, pressureForce_rigid hwf hR, h1, h2]
  clear_value f μ
  ext <;> simp [M3.mulVec, V3.dot, V3.cross] <;> ring

section
variable {srt : (ℕ → ℝ) → List ℕ → List ℕ} (hsrt : IsArgsort srt) {tol : ℝ} (htol : 0 ≤ tol) {b : Bool} {m : Mesh ℝ}
  (hwf : m.WF) (hcl : m.ClosedOriented) (hpos : ∀ f ∈ m.faces, ∀ i ∈ f.toList, waterplane.Clear tol (m.vert i))
  (hsep : m.WellSeparated waterplane) (hcv : m.StrictlyConvexFaces) {c : Clipped ℝ} (hc : clip srt waterplane tol b m = .ok c)
include hsrt htol hwf hcl hpos hsep hcv hc

/-- The derivatives of the balance. -/
lemma balance_derivs (hoff : ∀ f ∈ m.faces, ∃ i ∈ f.toList, (m.vert i).z ≠ 0) (hpoly : c.polygonEdges.Perm (m.lowerSectionEdges waterplane)) (ρ g mass xr yr : ℝ) (G : V3 ℝ) :
    let I := fun g : ℝ → ℝ → ℝ => polygonsIntegral g (0, 0) (waterline c)
    let Q := c.clipped.surfaceSum (affFlux ⟨0, 0, 1⟩ (0, ⟨0, 0, 1⟩) (0, ⟨0, 0, 1⟩))
    HasDerivZero (heaved ρ g mass ⟨xr, yr, 0⟩ m G)
      ⟨-(ρ * g * I (fun _ _ => 1)), -(ρ * g * I (fun _ y => y - yr)), ρ * g * I (fun x _ => x - xr)⟩ ∧
    HasDerivZero (rolled ρ g mass ⟨xr, yr, 0⟩ m G)
      ⟨-(ρ * g * I (fun _ y => y - yr)), -(ρ * g * (I (fun _ y => (y - yr) * (y - yr)) + Q / 2)) + mass * g * G.z,
        ρ * g * I (fun x y => (x - xr) * (y - yr))⟩ ∧
    HasDerivZero (pitched ρ g mass ⟨xr, yr, 0⟩ m G)
      ⟨ρ * g * I (fun x _ => x - xr), ρ * g * I (fun x y => (x - xr) * (y - yr)),
        -(ρ * g * (I (fun x _ => (x - xr) * (x - xr)) + Q / 2)) + mass * g * G.z⟩ := by
  intro I Q
  have hq := strictlyConvex_cross hcv
  obtain ⟨z1, z2, z3⟩ := wet_rest hsrt htol hwf hcl hpos hsep hcv hq hc xr yr
  have W := wetFlux_clip hsrt htol hwf hpos hsep hcv hc hq
  have D : ∀ {co si : ℝ → ℝ} (hm : SmallMotion co si) (w : ℝ × V3 ℝ) (k : V3 ℝ) (l : ℝ × V3 ℝ),
      HasDerivAt (fun θ => bodySum m (zeta co si w θ) k l) (c.clipped.surfaceSum (affFlux k w l)) 0 :=
    fun hm w k l => wet_hasDerivAt hsrt htol hwf hpos hsep hcv hc hq hoff hm k w l
  have V0 : ∀ {co si : ℝ → ℝ} (hm : SmallMotion co si) (w : ℝ × V3 ℝ) (k : V3 ℝ) (l : ℝ × V3 ℝ),
      bodySum m (zeta co si w 0) k l = c.clipped.surfaceSum (zFlux k l) := by
    intro co si hm w k l
    rw [← W]
    unfold bodySum wetFlux zeta
    simp [hm.c0, hm.s0]
  refine ⟨?_, ?_, ?_⟩
  · obtain ⟨d1, d2, d3⟩ := wet_derivs hsrt htol hwf hcl hpos hsep hcv hq hc hpoly xr yr 1 0 0
    have hb : ∀ t, heaved ρ g mass ⟨xr, yr, 0⟩ m G t = _ := fun t =>
      balance_rigid hwf one_isRotation ρ g mass xr yr t (rigid M3.one ⟨xr, yr, 0⟩ t G)
        (zeta (fun _ => 1) (fun t => t) (1, ⟨0, 0, 0⟩) t) (by
          intro X; simp [rigid, zeta, aff, M3.mulVec, M3.one, V3.dot])
    have dd := D smallMotion_heave (1, ⟨0, 0, 0⟩)
    have vv := V0 smallMotion_heave (1, ⟨0, 0, 0⟩)
    have e1 : I (fun x y => (1 + 0 * x + 0 * y) * (1 + 0 * x + 0 * y)) = I (fun _ _ => 1) := by
      congr 1; funext x y; ring
    have e2 : I (fun x y => (1 + 0 * x + 0 * y) * (-yr + 0 * x + 1 * y)) = I (fun _ y => y - yr) := by
      congr 1; funext x y; ring
    have e3 : I (fun x y => (1 + 0 * x + 0 * y) * (-xr + 1 * x + 0 * y)) = I (fun x _ => x - xr) := by
      congr 1; funext x y; ring
    refine ⟨?_, ?_, ?_⟩
    · have := ((dd ⟨0, 0, 1⟩ (1, 0)).const_mul (ρ * g)).sub_const (mass * g)
      have d := d1
      simp only at d
      rw [d] at this
      refine hda this (fun t => ?_) ?_
      · rw [hb]; simp [M3.one, V3.dot]
      · rw [← e1]; ring
    · have := ((((dd ⟨0, 0, 1⟩ (-yr, ⟨0, 1, 0⟩)).sub (dd ⟨0, 1, 0⟩ (0, ⟨0, 0, 1⟩))).sub
        (SmallMotion.sin_mul smallMotion_heave (dd ⟨0, 1, 0⟩ (1, 0)) (by rw [vv, z2]))).const_mul (ρ * g)).sub_const
          (mass * g * (G.y - yr))
      have d := d2
      simp only at d
      rw [d] at this
      refine hda this (fun t => ?_) ?_
      · rw [hb]; simp [M3.one, V3.dot, rigid, M3.mulVec]
      · rw [← e2]; ring
    · have := ((((dd ⟨1, 0, 0⟩ (0, ⟨0, 0, 1⟩)).sub (dd ⟨0, 0, 1⟩ (-xr, ⟨1, 0, 0⟩))).add
        (SmallMotion.sin_mul smallMotion_heave (dd ⟨1, 0, 0⟩ (1, 0)) (by rw [vv, z1]))).const_mul (ρ * g)).add_const
          (mass * g * (G.x - xr))
      have d := d3
      simp only at d
      rw [d] at this
      refine hda this (fun t => ?_) ?_
      · rw [hb]; simp [M3.one, V3.dot, rigid, M3.mulVec]
      · rw [← e3]; ring
  · obtain ⟨d1, d2, d3⟩ := wet_derivs hsrt htol hwf hcl hpos hsep hcv hq hc hpoly xr yr (-yr) 0 1
    have hb : ∀ t, rolled ρ g mass ⟨xr, yr, 0⟩ m G t = _ := fun t =>
      balance_rigid hwf (rotX_isRotation t) ρ g mass xr yr 0 (rigid (rotX t) ⟨xr, yr, 0⟩ 0 G)
        (zeta Real.cos Real.sin (-yr, ⟨0, 1, 0⟩) t) (by
          intro X; simp [rigid, zeta, aff, M3.mulVec, rotX, V3.dot]; ring)
    have dd := D smallMotion_rot (-yr, ⟨0, 1, 0⟩)
    have vv := V0 smallMotion_rot (-yr, ⟨0, 1, 0⟩)
    have e1 : I (fun x y => (-yr + 0 * x + 1 * y) * (1 + 0 * x + 0 * y)) = I (fun _ y => y - yr) := by
      congr 1; funext x y; ring
    have e2 : I (fun x y => (-yr + 0 * x + 1 * y) * (-yr + 0 * x + 1 * y)) = I (fun _ y => (y - yr) * (y - yr)) := by
      congr 1; funext x y; ring
    have e3 : I (fun x y => (-yr + 0 * x + 1 * y) * (-xr + 1 * x + 0 * y)) = I (fun x y => (x - xr) * (y - yr)) := by
      congr 1; funext x y; ring
    have gy : HasDerivAt (fun t => Real.cos t * (G.y - yr) - Real.sin t * G.z) (-G.z) 0 := by
      have := (smallMotion_rot.dc.mul_const (G.y - yr)).sub (smallMotion_rot.ds.mul_const G.z)
      exact hda this (fun t => rfl) (by ring)
    refine ⟨?_, ?_, ?_⟩
    · have := (((SmallMotion.sin_mul smallMotion_rot (dd ⟨0, 1, 0⟩ (1, 0)) (by rw [vv, z2])).add
        (SmallMotion.cos_mul smallMotion_rot (dd ⟨0, 0, 1⟩ (1, 0)))).const_mul (ρ * g)).sub_const (mass * g)
      have d := d1
      simp only at d
      rw [d] at this
      refine hda this (fun t => ?_) ?_
      · rw [hb]; simp [rotX, V3.dot]
      · rw [← e1]; ring
    · have := (((dd ⟨0, 0, 1⟩ (-yr, ⟨0, 1, 0⟩)).sub (dd ⟨0, 1, 0⟩ (0, ⟨0, 0, 1⟩))).const_mul (ρ * g)).sub
          (gy.const_mul (mass * g))
      have d := d2
      simp only at d
      rw [d] at this
      refine hda this (fun t => ?_) ?_
      · rw [hb]; simp [rotX, V3.dot, rigid, M3.mulVec]; left; ring
      · rw [← e2]; ring
    · have := (((SmallMotion.cos_mul smallMotion_rot ((dd ⟨1, 0, 0⟩ (0, ⟨0, 0, 1⟩)).sub (dd ⟨0, 0, 1⟩ (-xr, ⟨1, 0, 0⟩)))).sub
        (SmallMotion.sin_mul smallMotion_rot ((dd ⟨0, 1, 0⟩ (-xr, ⟨1, 0, 0⟩)).sub (dd ⟨1, 0, 0⟩ (-yr, ⟨0, 1, 0⟩)))
          (by simp only [Pi.sub_apply]; rw [vv, vv, z3]))).const_mul (ρ * g)).add_const (mass * g * (G.x - xr))
      have d := d3
      simp only at d
      rw [d] at this
      refine hda this (fun t => ?_) ?_
      · rw [hb]; simp [rotX, V3.dot, rigid, M3.mulVec]; left; ring
      · rw [← e3]; ring
  · obtain ⟨d1, d2, d3⟩ := wet_derivs hsrt htol hwf hcl hpos hsep hcv hq hc hpoly xr yr (-xr) 1 0
    have hb : ∀ t, pitched ρ g mass ⟨xr, yr, 0⟩ m G t = _ := fun t =>
      balance_rigid hwf (rotY_isRotation t) ρ g mass xr yr 0 (rigid (rotY t) ⟨xr, yr, 0⟩ 0 G)
        (zeta Real.cos Real.sin (xr, ⟨-1, 0, 0⟩) t) (by
          intro X; simp [rigid, zeta, aff, M3.mulVec, rotY, V3.dot]; ring)
    have dd := D smallMotion_rot (xr, ⟨-1, 0, 0⟩)
    have vv := V0 smallMotion_rot (xr, ⟨-1, 0, 0⟩)
    have e1 : I (fun x y => (-xr + 1 * x + 0 * y) * (1 + 0 * x + 0 * y)) = I (fun x _ => x - xr) := by
      congr 1; funext x y; ring
    have e2 : I (fun x y => (-xr + 1 * x + 0 * y) * (-yr + 0 * x + 1 * y)) = I (fun x y => (x - xr) * (y - yr)) := by
      congr 1; funext x y; ring
    have e3 : I (fun x y => (-xr + 1 * x + 0 * y) * (-xr + 1 * x + 0 * y)) = I (fun x _ => (x - xr) * (x - xr)) := by
      congr 1; funext x y; ring
    have hneg : ∀ k l, c.clipped.surfaceSum (affFlux k (xr, ⟨-1, 0, 0⟩) l) =
        -c.clipped.surfaceSum (affFlux k (-xr, ⟨1, 0, 0⟩) l) := by
      intro k l
      rw [← neg_one_mul (c.clipped.surfaceSum _), ← surfaceSum_smul]
      congr 1; funext p q r
      simp only [affFlux, affPoly, aff, V3.dot]; ring
    have gx : HasDerivAt (fun t => Real.cos t * (G.x - xr) + Real.sin t * G.z) G.z 0 := by
      have := (smallMotion_rot.dc.mul_const (G.x - xr)).add (smallMotion_rot.ds.mul_const G.z)
      exact hda this (fun t => rfl) (by ring)
    refine ⟨?_, ?_, ?_⟩
    · have := (((SmallMotion.cos_mul smallMotion_rot (dd ⟨0, 0, 1⟩ (1, 0))).sub
        (SmallMotion.sin_mul smallMotion_rot (dd ⟨1, 0, 0⟩ (1, 0)) (by rw [vv, z1]))).const_mul (ρ * g)).sub_const (mass * g)
      have d := d1
      simp only at d
      rw [hneg, d] at this
      refine hda this (fun t => ?_) ?_
      · rw [hb]; simp [rotY, V3.dot]; left; ring
      · rw [← e1]; ring
    · have := (((SmallMotion.cos_mul smallMotion_rot ((dd ⟨0, 0, 1⟩ (-yr, ⟨0, 1, 0⟩)).sub (dd ⟨0, 1, 0⟩ (0, ⟨0, 0, 1⟩)))).add
        (SmallMotion.sin_mul smallMotion_rot ((dd ⟨0, 1, 0⟩ (-xr, ⟨1, 0, 0⟩)).sub (dd ⟨1, 0, 0⟩ (-yr, ⟨0, 1, 0⟩)))
          (by simp only [Pi.sub_apply]; rw [vv, vv, z3]))).const_mul (ρ * g)).sub_const (mass * g * (G.y - yr))
      have d := d2
      simp only at d
      rw [hneg, hneg] at this
      refine hda this (fun t => ?_) ?_
      · rw [hb]; simp [rotY, V3.dot, rigid, M3.mulVec]
      · rw [← e2]; linear_combination (ρ * g) * d
    · have := (((dd ⟨1, 0, 0⟩ (0, ⟨0, 0, 1⟩)).sub (dd ⟨0, 0, 1⟩ (-xr, ⟨1, 0, 0⟩))).const_mul (ρ * g)).add
          (gx.const_mul (mass * g))
      have d := d3
      simp only at d
      rw [hneg, hneg] at this
      refine hda this (fun t => ?_) ?_
      · rw [hb]; simp [rotY, V3.dot, rigid, M3.mulVec]
      · rw [← e3]; linear_combination (ρ * g) * d

end

/-- **C80** (watertight hull with plane convex faces, none of them in the free surface; each corner on the free surface or
farther from it than the tolerance of the clipper; a simple waterline; mass equal to the displaced mass). The stiffness matrix returned by `compute_hydrostatics` is minus the derivative of the vertical
force and of the moments of gravity and of the pressure of the water with respect to heave, roll and pitch, about the origin or,
with `at_cog`, about the vertical of the buoyancy centre. (The coefficients below `1e-4` are set to zero.) Missing: the
roll-pitch coupling, for which the derivative is given here, and which is not the coefficient returned (`C80_coupling_fails`). -/
theorem C80_stiffness_partial (srt : (ℕ → ℝ) → List ℕ → List ℕ) (hsrt : IsArgsort srt) (m : Mesh ℝ) (cog : V3 ℝ)
    (rho grav : ℝ) (rot : M3 ℝ) (z : ℝ) (atCog : Bool) (lpp : Option ℝ) (ap : Bool) (h : HsData)
    (hwf : (workingMesh m rot z).WF) (hcl : (workingMesh m rot z).ClosedOriented)
    (hcv : (workingMesh m rot z).StrictlyConvexFaces)
    (hpos : ∀ f ∈ (workingMesh m rot z).faces, ∀ i ∈ f.toList,
      ((workingMesh m rot z).vert i).z = 0 ∨ 1 / 1000 < |((workingMesh m rot z).vert i).z|)
    (hoff : ∀ f ∈ (workingMesh m rot z).faces, ∃ i ∈ f.toList, ((workingMesh m rot z).vert i).z ≠ 0)
    (hsep : (workingMesh m rot z).WellSeparated ⟨⟨0, 0, 1⟩, 0⟩)
    (hone : (((workingMesh m rot z).lowerSectionEdges ⟨⟨0, 0, 1⟩, 0⟩).map Prod.fst).Nodup)
    (hrot : rot.IsRotation) (hrho : rho ≠ 0)
    (hh : compute srt m cog rho grav rot z atCog lpp ap = .ok h) (hvol : h.dispVolume ≠ 0) :
    let M := workingMesh m rot z
    let G := workingPoint cog rot z
    let B := workingPoint h.buoyancyCenter rot z
    let O : V3 ℝ := if atCog then ⟨B.x, B.y, 0⟩ else 0
    ∃ dHeave dRoll dPitch : V3 ℝ,
      HasDerivZero (heaved rho grav h.dispMass O M G) dHeave ∧
      HasDerivZero (rolled rho grav h.dispMass O M G) dRoll ∧
      HasDerivZero (pitched rho grav h.dispMass O M G) dPitch ∧
      h.stiffness.r0 = ⟨zeroTiny (-dHeave.x), zeroTiny (-dRoll.x), zeroTiny (-dPitch.x)⟩ ∧
      h.stiffness.r1.x = zeroTiny (-dHeave.y) ∧ h.stiffness.r1.y = zeroTiny (-dRoll.y) ∧
      h.stiffness.r2.x = zeroTiny (-dHeave.z) ∧ h.stiffness.r2.z = zeroTiny (-dPitch.z) ∧
      (∃ c, clip srt ⟨⟨0, 0, 1⟩, 0⟩ (1 / 1000) true M = .ok c ∧ dPitch.y = dRoll.z ∧
        dRoll.z = rho * grav * polygonsIntegral (fun x y => (x - O.x) * (y - O.y)) (0, 0) (waterline c)) := by
  obtain ⟨hsym, c, hc, _, _, hco⟩ := C47_stiffness srt m cog rho grav rot z atCog lpp ap h hh
  obtain ⟨c', hc', hne, rfl⟩ := compute_ok hh
  rw [hc] at hc'
  simp only [Except.ok.injEq] at hc'
  subst hc'
  intro M G B O
  have hq := strictlyConvex_cross hcv
  have htol : (0 : ℝ) ≤ 1 / 1000 := by norm_num
  have hpos' : ∀ f ∈ M.faces, ∀ i ∈ f.toList, waterplane.Clear (1 / 1000) (M.vert i) := fun f hf i hi =>
    waterplane_clear (hpos f hf i hi)
  have hsep' : M.WellSeparated waterplane := hsep
  have hc' : clip srt waterplane (1 / 1000) true M = .ok c := hc
  have hpoly : c.polygonEdges.Perm (M.lowerSectionEdges waterplane) :=
    (C75_polygons_on_plane_partial srt hsrt waterplane (1 / 1000) htol true M hwf hcl hcv hpos' hsep' hone c hc').2
  have hflat : c.clipped.FlatFaces := StrictlyConvexFaces.flat (clip_convex hsrt htol hwf
    (fun f hf i hi => clear_notAt (hpos' f hf i hi)) hq hsep' hcv hc')
  have hB : B = (c.clipped.evalPlain rho).cog := by
    simp only [B, ofClipped, workingPoint]
    rw [hrot.mulVec_transpose]
    ext <;> simp
  have hO : O = ⟨O.x, O.y, 0⟩ := by
    simp only [O]; cases atCog <;> rfl
  set V := (ofClipped m cog rho grav rot z atCog lpp ap c).dispVolume with hV
  have hmass : (ofClipped m cog rho grav rot z atCog lpp ap c).dispMass = rho * V := rfl
  have hVv : V = c.clipped.volume := by
    show rho * c.clipped.volume / rho = _
    field_simp
  have hQ : c.clipped.surfaceSum (affFlux ⟨0, 0, 1⟩ (0, ⟨0, 0, 1⟩) (0, ⟨0, 0, 1⟩)) / 2 =
      V * (c.clipped.evalPlain rho).cog.z := by
    have hcog : (c.clipped.evalPlain rho).cog = (1 / (2 * V)) •
        Mesh.normalWeighted c.clipped.facesProperties c.clipped.surfaceIntegrals 6 7 8 := by
      rw [hVv]; rfl
    rw [hcog, normalWeighted_flux _ hflat]
    simp only [V3.smul_z]
    have : (fun p q r : V3 ℝ => (areaVec p q r).z * triPoly p q r 8) =
        affFlux ⟨0, 0, 1⟩ (0, ⟨0, 0, 1⟩) (0, ⟨0, 0, 1⟩) := by
      funext p q r
      simp [affFlux, affPoly, aff, V3.dot, triPoly, pf1, pf2, pt2]; left; ring
    rw [this]
    field_simp
  obtain ⟨hA, k33, k34, k35, kk, _⟩ := hco (0, 0)
  obtain ⟨k44, k55⟩ := kk hvol
  have hxr : (if atCog then (c.clipped.evalPlain rho).cog.x else 0) = O.x := by
    simp only [O]; rw [hB]; cases atCog <;> rfl
  have hyr : (if atCog then (c.clipped.evalPlain rho).cog.y else 0) = O.y := by
    simp only [O]; rw [hB]; cases atCog <;> rfl
  have key := balance_derivs hsrt htol hwf hcl hpos' hsep' hcv hc' hoff hpoly rho grav (rho * V) O.x O.y G
  simp only at key
  rw [← hO] at key
  obtain ⟨j1, j2, j3⟩ := key
  rw [hxr] at k35 k55
  rw [hyr] at k34 k44
  change (ofClipped m cog rho grav rot z atCog lpp ap c).stiffness.r1.x = _ at k34
  change (ofClipped m cog rho grav rot z atCog lpp ap c).stiffness.r2.x = _ at k35
  refine ⟨_, _, _, j1, j2, j3, ?_, ?_, ?_, ?_, ?_, c, hc, rfl, rfl⟩
  · have e1 : (ofClipped m cog rho grav rot z atCog lpp ap c).stiffness.r0.y = _ := k34
    have e2 : (ofClipped m cog rho grav rot z atCog lpp ap c).stiffness.r0.z = _ := k35
    ext
    · rw [k33]; simp
    · rw [e1]; simp
    · rw [e2]
  · rw [k34]; simp
  · rw [k44]; simp only
    congr 1
    rw [hQ]; ring
  · rw [k35]
  · rw [k55]; simp only
    congr 1
    rw [hQ]; ring

/-- The rotations are those of the update of `full_equilibrium`. -/
lemma rotX_cardan (θ : ℝ) : rotX θ = cardanToRotmat θ 0 0 := by
  simp [rotX, cardanToRotmat]

lemma rotY_cardan (θ : ℝ) : rotY θ = cardanToRotmat 0 θ 0 := by
  simp [rotY, cardanToRotmat]

/-! ## The half immersed cube -/

lemma halfCube_crossesOnce : halfCube.real.CrossesOnce ⟨⟨0, 0, 1⟩, 0⟩ := by
  rw [← Plane.real_z]
  have h : ∀ e ∈ halfCube.directedEdges, ∀ e' ∈ halfCube.directedEdges,
      0 < (⟨⟨0, 0, 1⟩, 0⟩ : Plane ℚ).dist (halfCube.vert e.1) → (⟨⟨0, 0, 1⟩, 0⟩ : Plane ℚ).dist (halfCube.vert e.2) < 0 →
      0 < (⟨⟨0, 0, 1⟩, 0⟩ : Plane ℚ).dist (halfCube.vert e'.1) → (⟨⟨0, 0, 1⟩, 0⟩ : Plane ℚ).dist (halfCube.vert e'.2) < 0 →
      (⟨⟨0, 0, 1⟩, 0⟩ : Plane ℚ).cutPt (halfCube.vert e.1) (halfCube.vert e.2) =
        (⟨⟨0, 0, 1⟩, 0⟩ : Plane ℚ).cutPt (halfCube.vert e'.1) (halfCube.vert e'.2) → e = e' := by decide +kernel
  refine crossesOnce_of_list fun e he e' he' h1 h2 h3 h4 h5 => ?_
  simp only [Mesh.real_vert, Plane.real_dist, Plane.real_cutPt] at h1 h2 h3 h4 h5
  exact h e he e' he' (by exact_mod_cast h1) (by exact_mod_cast h2) (by exact_mod_cast h3) (by exact_mod_cast h4)
    (V3.real_inj.1 h5)

/-- The waterline of the half immersed cube is the unit square. -/
lemma halfCube_waterline : ∃ c, clip insArgsort ⟨⟨0, 0, 1⟩, 0⟩ (1 / 1000) true halfCube.real = .ok c ∧
    waterline c = [[(1, 0), (1, 1), (0, 1), (0, 0), (1, 0)]] := by
  have h : (match Clipper.clip insArgsort (⟨⟨0, 0, 1⟩, 0⟩ : Plane ℚ) (1 / 1000) true halfCube with
      | .ok c => decide (c.closedPolygons.map (fun l => l.map (fun i =>
          ((c.clippedCrown.vert i).x, (c.clippedCrown.vert i).y))) = [[(1, 0), (1, 1), (0, 1), (0, 0), (1, 0)]])
      | .error _ => false) = true := by decide +kernel
  split at h
  · rename_i c hc
    simp only [decide_eq_true_eq] at h
    refine ⟨c.aff ratReal 0, ?_, ?_⟩
    · exact clip_real (by decide +kernel) hc
    · unfold waterline
      have e : ∀ i, (((c.aff ratReal 0).clippedCrown.vert i).x, ((c.aff ratReal 0).clippedCrown.vert i).y) =
          (fun q : ℚ × ℚ => ((q.1 : ℝ), (q.2 : ℝ))) ((c.clippedCrown.vert i).x, (c.clippedCrown.vert i).y) := by
        intro i
        have : (c.aff ratReal 0).clippedCrown.vert i = (c.clippedCrown.vert i).real := Mesh.real_vert c.clippedCrown i
        rw [this]; rfl
      show c.closedPolygons.map (fun l => l.map (fun i => (((c.aff ratReal 0).clippedCrown.vert i).x,
        ((c.aff ratReal 0).clippedCrown.vert i).y))) = _
      simp only [e]
      have := congrArg (List.map (List.map (fun q : ℚ × ℚ => ((q.1 : ℝ), (q.2 : ℝ))))) h
      rw [List.map_map] at this
      have h2 : (fun l : List ℕ => l.map (fun i => (((c.clippedCrown.vert i).x : ℝ), ((c.clippedCrown.vert i).y : ℝ)))) =
          (List.map (fun q : ℚ × ℚ => ((q.1 : ℝ), (q.2 : ℝ)))) ∘ (fun l : List ℕ => l.map (fun i =>
            ((c.clippedCrown.vert i).x, (c.clippedCrown.vert i).y))) := by
        funext l; simp [Function.comp]
      rw [h2, this]
      simp
  · simp at h

/-- The half immersed cube, for every position of the gravity centre. -/
theorem halfCube_facts (cog : V3 ℝ) (grav : ℝ) (atCog : Bool) :
    (workingMesh halfCube.real M3.one 0).directedEdges.Nodup ∧
    (∀ e ∈ (workingMesh halfCube.real M3.one 0).directedEdges, e.swap ∈ (workingMesh halfCube.real M3.one 0).directedEdges) ∧
    (workingMesh halfCube.real M3.one 0).CrossesOnce ⟨⟨0, 0, 1⟩, 0⟩ ∧
    (workingMesh halfCube.real M3.one 0).WF ∧
    (workingMesh halfCube.real M3.one 0).StrictlyConvexFaces ∧
    (∀ f ∈ (workingMesh halfCube.real M3.one 0).faces, ∀ i ∈ f.toList,
      1 / 1000 < |((workingMesh halfCube.real M3.one 0).vert i).z|) ∧
    (workingMesh halfCube.real M3.one 0).WellSeparated ⟨⟨0, 0, 1⟩, 0⟩ ∧ (M3.one : M3 ℝ).IsRotation ∧
    ∃ h, compute insArgsort halfCube.real cog 1000 grav M3.one 0 atCog = .ok h ∧ h.dispVolume ≠ 0 := by
  obtain ⟨h1, _, h3, h4, h5, h6, _⟩ := halfCube_meets_C79 cog grav
  refine ⟨?_, ?_, ?_, h1, h3, h4, h5, h6, ?_⟩
  · rw [workingMesh_self]; show halfCube.directedEdges.Nodup; decide +kernel
  · rw [workingMesh_self]; show ∀ e ∈ halfCube.directedEdges, e.swap ∈ halfCube.directedEdges; decide +kernel
  · rw [workingMesh_self]; exact halfCube_crossesOnce
  · obtain ⟨h, hh⟩ := halfCube_compute cog 1000 grav atCog none false
    refine ⟨h, hh, ?_⟩
    obtain ⟨h', hh', hv, _⟩ := halfCube_hs cog 1000 grav (by norm_num)
    obtain ⟨c, hc, _, rfl⟩ := compute_ok hh
    obtain ⟨c', hc', _, rfl⟩ := compute_ok hh'
    rw [hc] at hc'
    simp only [Except.ok.injEq] at hc'
    subst hc'
    change (c.clipped.evalPlain 1000).mass / 1000 = 1 / 2 at hv
    show (c.clipped.evalPlain 1000).mass / 1000 ≠ 0
    rw [hv]; norm_num

/-- The hypotheses of C80 are met by the half immersed cube, for every position of the gravity centre. -/
theorem halfCube_meets_C80 (cog : V3 ℝ) (grav : ℝ) (atCog : Bool) :
    (workingMesh halfCube.real M3.one 0).WF ∧ (workingMesh halfCube.real M3.one 0).ClosedOriented ∧
    (workingMesh halfCube.real M3.one 0).StrictlyConvexFaces ∧
    (∀ f ∈ (workingMesh halfCube.real M3.one 0).faces, ∀ i ∈ f.toList,
      ((workingMesh halfCube.real M3.one 0).vert i).z = 0 ∨ 1 / 1000 < |((workingMesh halfCube.real M3.one 0).vert i).z|) ∧
    (∀ f ∈ (workingMesh halfCube.real M3.one 0).faces, ∃ i ∈ f.toList, ((workingMesh halfCube.real M3.one 0).vert i).z ≠ 0) ∧
    (workingMesh halfCube.real M3.one 0).WellSeparated ⟨⟨0, 0, 1⟩, 0⟩ ∧
    (((workingMesh halfCube.real M3.one 0).lowerSectionEdges ⟨⟨0, 0, 1⟩, 0⟩).map Prod.fst).Nodup ∧
    (M3.one : M3 ℝ).IsRotation ∧
    ∃ h, compute insArgsort halfCube.real cog 1000 grav M3.one 0 atCog = .ok h ∧ h.dispVolume ≠ 0 := by
  obtain ⟨h1, h2, _, h4, h5, h6, h7, h8, h9⟩ := halfCube_facts cog grav atCog
  refine ⟨h4, closedOriented_of_manifold h1 h2, h5, fun f hf i hi => .inr (h6 f hf i hi), ?_, h7, ?_, h8, h9⟩
  · intro f hf
    refine ⟨f.a, by simp [Face.toList], fun h => ?_⟩
    have := h6 f hf f.a (by simp [Face.toList])
    rw [h] at this
    norm_num at this
  · rw [workingMesh_self, ← Plane.real_z]
    exact lowerSection_nodup_real (by decide +kernel)

/-- The lower half of the octahedron. -/
def octaClipped : Mesh ℚ :=
  ⟨octaMesh.vertices, [⟨5, 2, 0, 5⟩, ⟨5, 1, 2, 5⟩, ⟨5, 3, 1, 5⟩, ⟨5, 0, 3, 5⟩]⟩

/-- The hypotheses of C80 are met by the octahedron too, with four vertices and four edges on the free surface. -/
theorem octa_meets_C80 (cog : V3 ℝ) (grav : ℝ) (atCog : Bool) :
    (workingMesh octaMesh.real M3.one 0).WF ∧ (workingMesh octaMesh.real M3.one 0).ClosedOriented ∧
    (workingMesh octaMesh.real M3.one 0).StrictlyConvexFaces ∧
    (∀ f ∈ (workingMesh octaMesh.real M3.one 0).faces, ∀ i ∈ f.toList,
      ((workingMesh octaMesh.real M3.one 0).vert i).z = 0 ∨ 1 / 1000 < |((workingMesh octaMesh.real M3.one 0).vert i).z|) ∧
    (∀ f ∈ (workingMesh octaMesh.real M3.one 0).faces, ∃ i ∈ f.toList, ((workingMesh octaMesh.real M3.one 0).vert i).z ≠ 0) ∧
    (workingMesh octaMesh.real M3.one 0).WellSeparated ⟨⟨0, 0, 1⟩, 0⟩ ∧
    (((workingMesh octaMesh.real M3.one 0).lowerSectionEdges ⟨⟨0, 0, 1⟩, 0⟩).map Prod.fst).Nodup ∧
    (octaMesh.real.vert 0).z = 0 ∧
    ∃ h, compute insArgsort octaMesh.real cog 1000 grav M3.one 0 atCog = .ok h ∧ h.dispVolume ≠ 0 := by
  rw [workingMesh_self]
  have w : octaMesh.WF := by decide +kernel
  have h1 : ∃ c, clip insArgsort ⟨⟨0, 0, 1⟩, 0⟩ (1 / 1000) true octaMesh = .ok c ∧ c.closedPolygons ≠ [] ∧
      c.clipped = octaClipped := by
    have h : (match clip insArgsort (⟨⟨0, 0, 1⟩, 0⟩ : Plane ℚ) (1 / 1000) true octaMesh with
        | .ok c => decide (c.closedPolygons ≠ [] ∧ c.clipped = octaClipped)
        | .error _ => false) = true := by decide +kernel
    split at h
    · rename_i c hc
      simp only [decide_eq_true_eq] at h
      exact ⟨c, hc, h⟩
    · simp at h
  obtain ⟨c, hc, hne, hvol⟩ := h1
  refine ⟨w.real, ?_, octaMesh_strictlyConvex.real, ?_, ?_, ?_, ?_, ?_,
    ofClipped octaMesh.real cog 1000 grav M3.one 0 atCog none false (c.aff ratReal 0), ?_, ?_⟩
  · exact Mesh.ClosedOriented.real (closedOriented_of_manifold (by decide +kernel) (by decide +kernel))
  · have : ∀ f ∈ octaMesh.faces, ∀ i ∈ f.toList, (octaMesh.vert i).z = 0 ∨ 1 / 1000 < |(octaMesh.vert i).z| := by
      decide +kernel
    intro f hf i hi
    rw [Mesh.real_vert]
    rcases this f hf i hi with h | h
    · left
      show (((octaMesh.vert i).z : ℚ) : ℝ) = 0
      rw [h]; simp
    · right
      have : ((1 / 1000 : ℚ) : ℝ) < ((|(octaMesh.vert i).z| : ℚ) : ℝ) := by exact_mod_cast h
      push_cast at this
      exact this
  · have : ∀ f ∈ octaMesh.faces, ∃ i ∈ f.toList, (octaMesh.vert i).z ≠ 0 := by decide +kernel
    intro f hf
    obtain ⟨i, hi, h⟩ := this f hf
    refine ⟨i, hi, ?_⟩
    rw [Mesh.real_vert]
    show (((octaMesh.vert i).z : ℚ) : ℝ) ≠ 0
    exact_mod_cast h
  · rw [← Plane.real_z]
    exact Mesh.WellSeparated.real (wellSeparated_of_list (by decide +kernel))
  · rw [← Plane.real_z]
    exact lowerSection_nodup_real (by decide +kernel)
  · rw [Mesh.real_vert]
    have : (octaMesh.vert 0).z = 0 := by decide +kernel
    show (((octaMesh.vert 0).z : ℚ) : ℝ) = 0
    rw [this]; simp
  · unfold compute
    rw [workingMesh_self, clip_real w hc]
    simp only
    rw [if_neg]
    exact hne
  · show 1000 * (c.clipped.aff ratReal 0).volume / 1000 ≠ 0
    have hv : (c.clipped.aff ratReal 0).volume = 2 / 3 := by
      rw [hvol, volume_eq]
      simp [octaClipped, octaMesh, Mesh.triPropsOf, Mesh.triIntegralsOf, triProps, Mesh.aff, affMap, ratReal_apply, Mesh.faceProps, Mesh.faceIntegrals, Face.isTri, Mesh.vert, V3.norm,
        V3.normSq, V3.cross, V3.dot, triIntegrals, triDelta, pf1]
      norm_num
      have h3 : (√3 : ℝ) ≠ 0 := by positivity
      field_simp
      norm_num
    rw [hv]; norm_num

/-- **C80 (violation).** On the half immersed cube, the pitch moment varies with roll by `-2250` per radian; the roll-pitch
coefficient of the stiffness matrix is `-1875`. -/
theorem C80_coupling_fails (cog : V3 ℝ) : ∃ h d, compute insArgsort halfCube.real cog 1000 9 = .ok h ∧
    HasDerivZero (rolled 1000 9 h.dispMass 0 halfCube.real cog) d ∧ -d.z = -2250 ∧ h.stiffness.r1.z = -1875 := by
  obtain ⟨h1, h2, h3, h4, h5, h6, h7, h8, h, hh, hv⟩ := halfCube_meets_C80 cog 9 false
  obtain ⟨d1, d2, d3, _, j2, _, _, _, _, _, _, c, hc, _, e⟩ := C80_stiffness_partial insArgsort insArgsort_isArgsort
    halfCube.real cog 1000 9 M3.one 0 false none false h h1 h2 h3 h4 h5 h6 h7 h8 (by norm_num) hh hv
  obtain ⟨c', hc', hw⟩ := halfCube_waterline
  rw [workingMesh_self] at hc j2
  rw [hc] at hc'
  simp only [Except.ok.injEq] at hc'
  subst hc'
  have hG : workingPoint cog M3.one 0 = cog := by
    ext <;> simp [workingPoint, M3.mulVec, M3.one, V3.dot]
  rw [hG] at j2
  refine ⟨h, d2, hh, j2, ?_, ?_⟩
  · rw [e, hw]
    simp only [polygonsIntegral, polygonIntegral, chainPairs, List.zip, List.zipWith, List.tail_cons, List.map_cons,
      List.map_nil, List.sum_cons, List.sum_nil, planeTriIntegral, Bool.false_eq_true, if_false, V3.zero_x, V3.zero_y, sub_zero,
      planeTri_prod]
    norm_num
  · obtain ⟨c', hc', _, rfl⟩ := compute_ok hh
    rw [workingMesh_self, hc] at hc'
    simp only [Except.ok.injEq] at hc'
    subst hc'
    have : polyVerts c.clippedCrown c.closedPolygons false (c.clipped.evalPlain 1000).cog = waterline c := by
      rw [polyVerts_eq]; simp
    simp only [ofClipped]
    rw [this, hw]
    simp only [sigmas, List.foldl_cons, List.foldl_nil, Sigmas.poly, Sigmas.step, Sigmas.scale, zeroTiny]
    norm_num

end Hydro
end MM
