import Verif.Proofs.Shapes
import Mathlib.Tactic.Positivity

/-!
# C39: inertia of standard shapes
-/

namespace MM

open Real MM.Shapes

/-- **C39, solids with flat faces.** -/
theorem C39_polyhedra (a b h l ρ : ℝ) (hh : 0 < h) :
    IsInertiaOf (rectangularPrism a b h ρ) (fun g => ρ * boxIntegral a b h g) ∧
    IsInertiaOf (cube a ρ) (fun g => ρ * boxIntegral a a a g) ∧
    IsInertiaOf (isocelesWedge b h l ρ) (fun g => ρ * isoWedgeIntegral b h l g) ∧
    IsInertiaOf (rightRectangularPyramid a b h ρ) (fun g => ρ * pyramidIntegral a b h g) := by
  refine ⟨?_, ?_, ?_, ?_⟩
  · exact (box_moments a b h).isInertiaOf ρ _ _ _ _ (by ring) (by ring) (by ring) (by ring)
  · exact (box_moments a a a).isInertiaOf ρ _ _ _ _ (by ring) (by ring) (by ring) (by ring)
  · exact (isoWedge_moments b h l hh.ne').isInertiaOf ρ _ _ _ _ (by ring) (by ring) (by ring) (by ring)
  · exact (pyramid_moments a b h hh.ne').isInertiaOf ρ _ _ _ _ (by ring) (by ring) (by ring) (by ring)

/-- **C39, solids of revolution and ellipsoids.** -/
theorem C39_round_solids (r R a b c l ρ : ℝ) (hr : 0 < r) (hrR : r < R) (hl : 0 < l) :
    IsInertiaOf (rightCircularCylinder R l ρ)
      (fun g => ρ * revIntegral 1 1 (-(l / 2)) (l / 2) (fun _ => 0) (fun _ => R) g) ∧
    IsInertiaOf (hollowRightCircularCylinder r R l ρ)
      (fun g => ρ * revIntegral 1 1 (-(l / 2)) (l / 2) (fun _ => r) (fun _ => R) g) ∧
    IsInertiaOf (ellipticalCylinder a b l ρ)
      (fun g => ρ * revIntegral a b (-(l / 2)) (l / 2) (fun _ => 0) (fun _ => 1) g) ∧
    IsInertiaOf (rightCircularCone R l ρ)
      (fun g => ρ * revIntegral 1 1 (-(l / 4)) (3 * l / 4) (fun _ => 0) (fun z => R * (3 / 4 - z / l)) g) ∧
    IsInertiaOf (sphere R ρ) (fun g => ρ * sphIntegral 1 1 1 0 0 R π g) ∧
    IsInertiaOf (hollowSphere r R ρ) (fun g => ρ * sphIntegral 1 1 1 0 r R π g) ∧
    IsInertiaOf (ellipsoid a b c ρ) (fun g => ρ * sphIntegral b c a 0 0 1 π g) ∧
    IsInertiaOf (torus R r ρ) (fun g => ρ * torusIntegral R r g) := by
  refine ⟨?_, ?_, ?_, ?_, ?_, ?_, ?_, ?_⟩
  · exact (cylinder_moments 1 1 l 0 R).isInertiaOf ρ _ _ _ _ (by ring) (by ring) (by ring) (by ring)
  · exact (cylinder_moments 1 1 l r R).isInertiaOf ρ _ _ _ _ (by ring) (by ring) (by ring) (by ring)
  · exact (cylinder_moments a b l 0 1).isInertiaOf ρ _ _ _ _ (by ring) (by ring) (by ring) (by ring)
  · exact (cone_moments R l hl.ne').isInertiaOf ρ _ _ _ _ (by ring) (by ring) (by ring) (by ring)
  · exact (ball_moments 1 1 1 0 R).isInertiaOf ρ _ _ _ _ (by ring) (by ring) (by ring) (by ring)
  · have h3 : R ^ 3 - r ^ 3 ≠ 0 := by
      have : r ^ 3 < R ^ 3 := pow_lt_pow_left₀ hrR hr.le (by norm_num)
      linarith
    refine (ball_moments 1 1 1 r R).isInertiaOf ρ _ _ _ _ (by ring) ?_ ?_ ?_ <;> field_simp <;> ring
  · exact (ball_moments b c a 0 1).isInertiaOf ρ _ _ _ _ (by ring) (by ring) (by ring) (by ring)
  · exact (torus_moments R r).isInertiaOf ρ _ _ _ _ (by ring) (by ring) (by ring) (by ring)

theorem slant (R H : ℝ) (hH : 0 < H) : √(1 + (R / H) ^ 2) = √(H ^ 2 + R ^ 2) / H := by
  have : 1 + (R / H) ^ 2 = (H ^ 2 + R ^ 2) / H ^ 2 := by field_simp
  rw [this, sqrt_div' _ (by positivity), sqrt_sq hH.le]

theorem cylShell_moments (R H : ℝ) : HasMoments (revShellIntegral (-(H / 2)) (H / 2) (fun _ => R) 0)
    (2 * π * R * H) 0 0 0 (π * R ^ 3 * H) (π * R ^ 3 * H) (π * R * H ^ 3 / 6) 0 0 0 := by
  intro k lx ly lz qxx qyy qzz qxy qxz qyz
  have := cone_shell_integral R 0 (-(H / 2)) (H / 2) k lx ly lz qxx qyy qzz qxy qxz qyz
  simp only [zero_mul, add_zero] at this
  rw [this]; norm_num; ring

/-- Lateral surface of a cylinder and its two discs. -/
noncomputable def closedCylinderIntegral (R H : ℝ) (g : V3 ℝ → ℝ) : ℝ :=
  revShellIntegral (-(H / 2)) (H / 2) (fun _ => R) 0 g + discIntegral R (H / 2) g + discIntegral R (-(H / 2)) g

theorem closedCylinder_moments (R H : ℝ) : HasMoments (closedCylinderIntegral R H) (2 * π * R * (R + H)) 0 0 0
    (π * R ^ 3 * H + π * R ^ 4 / 2) (π * R ^ 3 * H + π * R ^ 4 / 2)
    (π * R * H ^ 3 / 6 + π * R ^ 2 * H ^ 2 / 2) 0 0 0 := by
  intro k lx ly lz qxx qyy qzz qxy qxz qyz
  have h1 := cylShell_moments R H k lx ly lz qxx qyy qzz qxy qxz qyz
  have h2 := disc_moments R (H / 2) k lx ly lz qxx qyy qzz qxy qxz qyz
  have h3 := disc_moments R (-(H / 2)) k lx ly lz qxx qyy qzz qxy qxz qyz
  simp only [closedCylinderIntegral, h1, h2, h3]; ring

/-- **C39, thin shells.** The cone has its base circle at `z = -H/3`; the frustrum has its circle of radius
`R` at `z = -zg` with `zg = (H/3)(2r+R)/(r+R)` (altitudes of the centres of gravity documented in the code). -/
theorem C39_shells (r R H ρ th : ℝ) (hr : 0 < r) (hR : 0 < R) (hH : 0 < H) :
    IsInertiaOf (circularConeShell R H ρ th)
      (fun g => ρ * th * revShellIntegral (-(H / 3)) (2 * H / 3)
        (fun z => R + -(R / H) * (z - -(H / 3))) (-(R / H)) g) ∧
    IsInertiaOf (frustrumOfCircularConeShell r R H ρ th)
      (fun g => ρ * th * revShellIntegral (-(H / 3 * (2 * r + R) / (r + R)))
        (H - H / 3 * (2 * r + R) / (r + R))
        (fun z => R + (r - R) / H * (z - -(H / 3 * (2 * r + R) / (r + R)))) ((r - R) / H) g) ∧
    IsInertiaOf (lateralCylindricalShell R H ρ th)
      (fun g => ρ * th * revShellIntegral (-(H / 2)) (H / 2) (fun _ => R) 0 g) ∧
    IsInertiaOf (sphericalShell R ρ th) (fun g => ρ * th * sphShellIntegral R 0 π g) ∧
    IsInertiaOf (hemisphericalShell R ρ th) (fun g => ρ * th * sphShellIntegral R (R / 2) (π / 2) g) := by
  have hcyl := cylShell_moments R H
  refine ⟨?_, ?_, ?_, ?_, ?_⟩
  · have : HasMoments (revShellIntegral (-(H / 3)) (2 * H / 3)
        (fun z => R + -(R / H) * (z - -(H / 3))) (-(R / H))) (π * R * √(R ^ 2 + H ^ 2)) 0 0 0
        (π * R * √(R ^ 2 + H ^ 2) * R ^ 2 / 4) (π * R * √(R ^ 2 + H ^ 2) * R ^ 2 / 4)
        (π * R * √(R ^ 2 + H ^ 2) * H ^ 2 / 18) 0 0 0 := by
      intro k lx ly lz qxx qyy qzz qxy qxz qyz
      rw [cone_shell_integral, neg_sq, slant R H hH, add_comm (H ^ 2)]
      generalize √(R ^ 2 + H ^ 2) = L
      field_simp
      ring
    exact this.isInertiaOf (ρ * th) _ _ _ _ (by ring) (by ring) (by ring) (by ring)
  · have hrR : r + R ≠ 0 := by positivity
    have : HasMoments (revShellIntegral (-(H / 3 * (2 * r + R) / (r + R)))
        (H - H / 3 * (2 * r + R) / (r + R))
        (fun z => R + (r - R) / H * (z - -(H / 3 * (2 * r + R) / (r + R)))) ((r - R) / H))
        (π * (R + r) * √(H ^ 2 + (r - R) ^ 2)) 0 0 0
        (π * (R + r) * √(H ^ 2 + (r - R) ^ 2) * (R ^ 2 + r ^ 2) / 4)
        (π * (R + r) * √(H ^ 2 + (r - R) ^ 2) * (R ^ 2 + r ^ 2) / 4)
        (π * (R + r) * √(H ^ 2 + (r - R) ^ 2) * H ^ 2 * (1 + 2 * R * r / (R + r) ^ 2) / 18) 0 0 0 := by
      intro k lx ly lz qxx qyy qzz qxy qxz qyz
      rw [cone_shell_integral, slant (r - R) H hH]
      generalize √(H ^ 2 + (r - R) ^ 2) = L
      rw [add_comm R r]
      field_simp
      ring
    have e : (R - r) ^ 2 = (r - R) ^ 2 := by ring
    simp only [frustrumOfCircularConeShell, e]
    exact this.isInertiaOf (ρ * th) _ _ _ _ (by ring) (by ring) (by ring) (by ring)
  · exact hcyl.isInertiaOf (ρ * th) _ _ _ _ (by ring) (by ring) (by ring) (by ring)
  · exact (sphShell_moments R).isInertiaOf (ρ * th) _ _ _ _ (by ring) (by ring) (by ring) (by ring)
  · exact (hemiShell_moments R).isInertiaOf (ρ * th) _ _ _ _ (by ring) (by ring) (by ring) (by ring)

/-- **C39** for the right angle wedge, all but one product of inertia (missing: `xz`, see `C39_fails`). -/
theorem C39_right_angle_wedge_partial (b h l ρ : ℝ) (hb : 0 < b) :
    let op := fun g => ρ * rightWedgeIntegral b h l g
    let I := rightAngleWedge b h l ρ
    I.mass = op (fun _ => 1) ∧ op (fun p => p.x) = 0 ∧ op (fun p => p.y) = 0 ∧ op (fun p => p.z) = 0 ∧
    I.xx = op (fun p => p.y ^ 2 + p.z ^ 2) ∧ I.yy = op (fun p => p.x ^ 2 + p.z ^ 2) ∧
    I.zz = op (fun p => p.x ^ 2 + p.y ^ 2) ∧ I.xy = op (fun p => p.x * p.y) ∧
    I.yz = op (fun p => p.y * p.z) := by
  obtain ⟨a0, ax, ay, az, a1, a2, a3, a4, a5, a6⟩ := (rightWedge_moments b h l hb.ne').all
  simp only [a0, ax, ay, az, a1, a2, a3, a4, a6]
  simp only [rightAngleWedge, Shapes.mk, Inertia.init, Inertia.xx, Inertia.yy, Inertia.zz, Inertia.xy, Inertia.yz]
  refine ⟨?_, ?_, ?_, ?_, ?_, ?_, ?_, ?_, ?_⟩ <;> first | trivial | (ring; done)

/-- **C39** for the hemisphere: the mass (missing: the moments, see `C39_fails`). -/
theorem C39_hemisphere_partial (R ρ : ℝ) :
    (hemisphere R ρ).mass = ρ * sphIntegral 1 1 1 (3 * R / 8) 0 R (π / 2) (fun _ => 1) := by
  rw [(hemisphere_moments R).all.1]
  simp only [hemisphere, Shapes.mk, Inertia.init]

/-- **C39** for the total cylindrical shell: mass and `Izz` (missing: `Ixx` and `Iyy`, see `C39_fails`). -/
theorem C39_total_cylindrical_shell_partial (R H ρ th : ℝ) (hR : 0 < R) (hH : 0 < H) :
    (totalCylindricalShell R H ρ th).mass = ρ * th * closedCylinderIntegral R H (fun _ => 1) ∧
    (totalCylindricalShell R H ρ th).zz = ρ * th * closedCylinderIntegral R H (fun p => p.x ^ 2 + p.y ^ 2) := by
  obtain ⟨a0, ax, ay, az, a1, a2, a3, a4, a5, a6⟩ := (closedCylinder_moments R H).all
  have hRH : R + H ≠ 0 := by positivity
  rw [a0, a3]
  simp only [totalCylindricalShell, Shapes.mk, Inertia.init, Inertia.zz]
  constructor
  · trivial
  · field_simp; ring

/-- Three constructors are wrong, for all positive dimensions and densities. The hemisphere has
`Izz = 2/5 m R²` and `Ixx = 83/320 m R²` (exactly), the code has `0.26 m R²` for both; the right angle wedge
has a product of inertia `-m b h / 36` in the plane of its triangle, the code has `0`; the total cylindrical
shell has `Ixx = m (3R²(R+2H) + H²(3R+H)) / (12 (R+H))`, the code has `2` instead of `3`; as a consequence it
even violates the triangle inequality for flat cylinders. -/
theorem C39_fails :
    (∀ R ρ : ℝ, 0 < R → 0 < ρ →
      ρ * sphIntegral 1 1 1 (3 * R / 8) 0 R (π / 2) (fun p => p.x ^ 2 + p.y ^ 2) =
        2 / 5 * (hemisphere R ρ).mass * R ^ 2 ∧
      (hemisphere R ρ).zz ≠ ρ * sphIntegral 1 1 1 (3 * R / 8) 0 R (π / 2) (fun p => p.x ^ 2 + p.y ^ 2) ∧
      (hemisphere R ρ).xx ≠ ρ * sphIntegral 1 1 1 (3 * R / 8) 0 R (π / 2) (fun p => p.y ^ 2 + p.z ^ 2)) ∧
    (∀ b h l ρ : ℝ, 0 < b → 0 < h → 0 < l → 0 < ρ →
      (rightAngleWedge b h l ρ).xz ≠ ρ * rightWedgeIntegral b h l (fun p => p.x * p.z)) ∧
    (∀ R H ρ th : ℝ, 0 < R → 0 < H → 0 < ρ → 0 < th →
      ρ * th * closedCylinderIntegral R H (fun p => p.y ^ 2 + p.z ^ 2) =
        (totalCylindricalShell R H ρ th).mass * (3 * R ^ 2 * (R + 2 * H) + H ^ 2 * (3 * R + H)) /
          (12 * (R + H)) ∧
      (totalCylindricalShell R H ρ th).xx ≠
        ρ * th * closedCylinderIntegral R H (fun p => p.y ^ 2 + p.z ^ 2)) ∧
    (totalCylindricalShell 2 1 1 1).xx + (totalCylindricalShell 2 1 1 1).yy <
      (totalCylindricalShell 2 1 1 1).zz := by
  refine ⟨?_, ?_, ?_, ?_⟩
  · intro R ρ hR hρ
    obtain ⟨a0, ax, ay, az, a1, a2, a3, a4, a5, a6⟩ := (hemisphere_moments R).all
    have hpos : 0 < ρ * (π * R ^ 5) := by positivity
    rw [a3, a1]
    simp only [hemisphere, Shapes.mk, Inertia.init, Inertia.xx, Inertia.zz]
    refine ⟨by ring, ?_, ?_⟩
    · intro h; nlinarith
    · intro h; nlinarith
  · intro b h l ρ hb hh hl hρ
    obtain ⟨a0, ax, ay, az, a1, a2, a3, a4, a5, a6⟩ := (rightWedge_moments b h l hb.ne').all
    rw [a5]
    have hpos : 0 < ρ * (b ^ 2 * h ^ 2 * l / 72) := by positivity
    simp only [rightAngleWedge, Shapes.mk, Inertia.init, Inertia.xz]
    intro h; nlinarith
  · intro R H ρ th hR hH hρ hth
    obtain ⟨a0, ax, ay, az, a1, a2, a3, a4, a5, a6⟩ := (closedCylinder_moments R H).all
    have hRH : R + H ≠ 0 := by positivity
    rw [a1]
    simp only [totalCylindricalShell, Shapes.mk, Inertia.init, Inertia.xx]
    refine ⟨by field_simp; ring, ?_⟩
    intro h
    have hpos : 0 < ρ * th * (π * R) * (R ^ 2 * (R + 2 * H)) := by positivity
    have e : ρ * th * (2 * π * R * (R + H)) * (2 * R ^ 2 * (R + 2 * H) + H ^ 2 * (3 * R + H)) / 12 / (R + H) =
        ρ * th * (π * R) * (2 * R ^ 2 * (R + 2 * H) + H ^ 2 * (3 * R + H)) / 6 := by field_simp; ring
    rw [e] at h
    nlinarith
  · have hπ := pi_pos
    simp only [totalCylindricalShell, Shapes.mk, Inertia.init, Inertia.xx, Inertia.yy, Inertia.zz]
    norm_num
    nlinarith

/-- **C39, degenerate parameters.** Hollow bodies with zero inner radius are solid; elliptical bodies with
equal axes are circular; a prism with equal sides is a cube; a frustrum with zero radius is a cone and with
equal radii a cylinder. -/
theorem C39_degenerate (R a l H ρ th : ℝ) (hR : 0 < R) (hH : 0 < H) :
    hollowRightCircularCylinder 0 R l ρ = rightCircularCylinder R l ρ ∧
    hollowSphere 0 R ρ = sphere R ρ ∧
    ellipticalCylinder R R l ρ = rightCircularCylinder R l ρ ∧
    ellipsoid R R R ρ = sphere R ρ ∧
    rectangularPrism a a a ρ = cube a ρ ∧
    frustrumOfCircularConeShell 0 R H ρ th = circularConeShell R H ρ th ∧
    frustrumOfCircularConeShell R R H ρ th = lateralCylindricalShell R H ρ th := by
  have hmk : ∀ {a b c d a' b' c' d' : ℝ}, a = a' → b = b' → c = c' → d = d' →
      Shapes.mk a b c d = Shapes.mk a' b' c' d' := by rintro _ _ _ _ _ _ _ _ rfl rfl rfl rfl; rfl
  have hs : √(H ^ 2 + (R - R) ^ 2) = H := by
    rw [sub_self, zero_pow (by norm_num), add_zero, sqrt_sq hH.le]
  refine ⟨hmk ?_ ?_ ?_ ?_, hmk ?_ ?_ ?_ ?_, hmk ?_ ?_ ?_ ?_, hmk ?_ ?_ ?_ ?_, hmk ?_ ?_ ?_ ?_,
    hmk ?_ ?_ ?_ ?_, hmk ?_ ?_ ?_ ?_⟩
  · ring
  · ring
  · ring
  · ring
  · ring
  · field_simp; ring
  · field_simp; ring
  · field_simp; ring
  · ring
  · ring
  · ring
  · ring
  · ring
  · ring
  · ring
  · ring
  · ring
  · ring
  · ring
  · ring
  · rw [add_zero, sub_zero, add_comm (H ^ 2)]
  · rw [add_zero, sub_zero, add_comm (H ^ 2)]; ring
  · rw [add_zero, sub_zero, add_comm (H ^ 2)]; ring
  · rw [add_zero, sub_zero, add_comm (H ^ 2)]; ring
  · rw [hs]; ring
  · rw [hs]; field_simp; ring
  · rw [hs]; field_simp; ring
  · rw [hs]; ring

/-- Each diagonal moment is at most the sum of the two others. -/
def TriangleIneq (I : Inertia) : Prop := I.xx ≤ I.yy + I.zz ∧ I.yy ≤ I.xx + I.zz ∧ I.zz ≤ I.xx + I.yy

/-- **C39, triangle inequality**, for every constructor but the total cylindrical shell (see `C39_fails`). -/
theorem C39_triangle (r R a b c h l ρ th : ℝ) (hr : 0 < r) (hR : r < R) (ha : 0 < a) (hb : 0 < b) (hc : 0 < c)
    (hh : 0 < h) (hl : 0 < l) (hρ : 0 < ρ) (ht : 0 < th) :
    TriangleIneq (rightCircularCylinder R l ρ) ∧ TriangleIneq (hollowRightCircularCylinder r R l ρ) ∧
    TriangleIneq (rightCircularCone R l ρ) ∧ TriangleIneq (sphere R ρ) ∧ TriangleIneq (hollowSphere r R ρ) ∧
    TriangleIneq (hemisphere R ρ) ∧ TriangleIneq (ellipticalCylinder a b l ρ) ∧
    TriangleIneq (ellipsoid a b c ρ) ∧ TriangleIneq (torus R r ρ) ∧ TriangleIneq (rightAngleWedge b h l ρ) ∧
    TriangleIneq (isocelesWedge b h l ρ) ∧ TriangleIneq (rightRectangularPyramid a b h ρ) ∧
    TriangleIneq (cube a ρ) ∧ TriangleIneq (rectangularPrism a b h ρ) ∧
    TriangleIneq (circularConeShell R h ρ th) ∧ TriangleIneq (frustrumOfCircularConeShell r R h ρ th) ∧
    TriangleIneq (lateralCylindricalShell R h ρ th) ∧
    TriangleIneq (sphericalShell R ρ th) ∧ TriangleIneq (hemisphericalShell R ρ th) := by
  have hR0 : 0 < R := hr.trans hR
  -- one lemma: two equal moments and a third at most their sum
  have two : ∀ m x z : ℝ, 0 ≤ z → z ≤ 2 * x → TriangleIneq (Shapes.mk m x x z) := by
    intro m x z h0 h1
    refine ⟨?_, ?_, ?_⟩ <;> simp only [Shapes.mk, Inertia.init, Inertia.xx, Inertia.yy, Inertia.zz] <;> linarith
  have gen : ∀ m A B C : ℝ, 0 ≤ A → 0 ≤ B → 0 ≤ C → ∀ x y z, x = B + C → y = A + C → z = A + B →
      TriangleIneq (Shapes.mk m x y z) := by
    rintro m A B C hA hB hC x y z rfl rfl rfl
    refine ⟨?_, ?_, ?_⟩ <;> simp only [Shapes.mk, Inertia.init, Inertia.xx, Inertia.yy, Inertia.zz] <;> linarith
  have hRr2 : 0 < R ^ 2 - r ^ 2 := by nlinarith
  have hRr3 : 0 < R ^ 3 - r ^ 3 := by
    have : r ^ 3 < R ^ 3 := pow_lt_pow_left₀ hR hr.le (by norm_num)
    linarith
  have hRr5 : 0 < R ^ 5 - r ^ 5 := by
    have : r ^ 5 < R ^ 5 := pow_lt_pow_left₀ hR hr.le (by norm_num)
    linarith
  have hπ := pi_pos
  refine ⟨?_, ?_, ?_, ?_, ?_, ?_, ?_, ?_, ?_, ?_, ?_, ?_, ?_, ?_, ?_, ?_, ?_, ?_, ?_⟩
  · exact gen _ (ρ * (π * R ^ 2 * l) * R ^ 2 / 4) (ρ * (π * R ^ 2 * l) * R ^ 2 / 4)
      (ρ * (π * R ^ 2 * l) * l ^ 2 / 12) (by positivity) (by positivity) (by positivity) _ _ _
      (by ring) (by ring) (by ring)
  · exact gen _ (ρ * (π * l * (R ^ 2 - r ^ 2)) * (R ^ 2 + r ^ 2) / 4)
      (ρ * (π * l * (R ^ 2 - r ^ 2)) * (R ^ 2 + r ^ 2) / 4)
      (ρ * (π * l * (R ^ 2 - r ^ 2)) * l ^ 2 / 12) (by positivity) (by positivity) (by positivity) _ _ _
      (by ring) (by ring) (by ring)
  · exact gen _ (ρ * (π * R ^ 2 * l / 3) * 3 * R ^ 2 / 20) (ρ * (π * R ^ 2 * l / 3) * 3 * R ^ 2 / 20)
      (ρ * (π * R ^ 2 * l / 3) * 3 * l ^ 2 / 80) (by positivity) (by positivity) (by positivity) _ _ _
      (by ring) (by ring) (by ring)
  · exact two _ _ _ (by positivity) (by linarith [show 0 < 2 * (ρ * (4 * π * R ^ 3 / 3)) * R ^ 2 / 5 by positivity])
  · exact two _ _ _ (by positivity) (by
      linarith [show 0 < 2 * (ρ * (4 * π * (R ^ 3 - r ^ 3) / 3)) * (R ^ 5 - r ^ 5) / (R ^ 3 - r ^ 3) / 5 by positivity])
  · exact two _ _ _ (by positivity) (by linarith [show 0 < 26 / 100 * (ρ * (2 * π * R ^ 3 / 3)) * R ^ 2 by positivity])
  · exact gen _ (ρ * (π * a * b * l) * a ^ 2 / 4) (ρ * (π * a * b * l) * b ^ 2 / 4)
      (ρ * (π * a * b * l) * l ^ 2 / 12) (by positivity) (by positivity) (by positivity) _ _ _
      (by ring) (by ring) (by ring)
  · exact gen _ (ρ * (4 * π * a * b * c / 3) * b ^ 2 / 5) (ρ * (4 * π * a * b * c / 3) * c ^ 2 / 5)
      (ρ * (4 * π * a * b * c / 3) * a ^ 2 / 5) (by positivity) (by positivity) (by positivity) _ _ _
      (by ring) (by ring) (by ring)
  · exact gen _ (ρ * (2 * π ^ 2 * r ^ 2 * R) * (4 * R ^ 2 + 3 * r ^ 2) / 8)
      (ρ * (2 * π ^ 2 * r ^ 2 * R) * (2 * r ^ 2) / 8)
      (ρ * (2 * π ^ 2 * r ^ 2 * R) * (4 * R ^ 2 + 3 * r ^ 2) / 8) (by positivity) (by positivity) (by positivity) _ _ _
      (by ring) (by ring) (by ring)
  · exact gen _ (ρ * (b * h * l / 2) * b ^ 2 / 18) (ρ * (b * h * l / 2) * l ^ 2 / 12)
      (ρ * (b * h * l / 2) * h ^ 2 / 18) (by positivity) (by positivity) (by positivity) _ _ _
      (by ring) (by ring) (by ring)
  · exact gen _ (ρ * (b * h * l / 2) * b ^ 2 / 24) (ρ * (b * h * l / 2) * l ^ 2 / 12)
      (ρ * (b * h * l / 2) * h ^ 2 / 18) (by positivity) (by positivity) (by positivity) _ _ _
      (by ring) (by ring) (by ring)
  · exact gen _ (ρ * (a * b * h / 3) * a ^ 2 / 20) (ρ * (a * b * h / 3) * b ^ 2 / 20)
      (ρ * (a * b * h / 3) * 3 * h ^ 2 / 80) (by positivity) (by positivity) (by positivity) _ _ _
      (by ring) (by ring) (by ring)
  · exact two _ _ _ (by positivity) (by linarith [show 0 < ρ * a ^ 3 * a ^ 2 / 6 by positivity])
  · exact gen _ (ρ * (a * b * h) * a ^ 2 / 12) (ρ * (a * b * h) * b ^ 2 / 12)
      (ρ * (a * b * h) * h ^ 2 / 12) (by positivity) (by positivity) (by positivity) _ _ _
      (by ring) (by ring) (by ring)
  · have hL : 0 ≤ √(R ^ 2 + h ^ 2) := sqrt_nonneg _
    exact gen _ (ρ * th * (π * R * √(R ^ 2 + h ^ 2)) * R ^ 2 / 4) (ρ * th * (π * R * √(R ^ 2 + h ^ 2)) * R ^ 2 / 4)
      (ρ * th * (π * R * √(R ^ 2 + h ^ 2)) * h ^ 2 / 18) (by positivity) (by positivity) (by positivity) _ _ _
      (by ring) (by ring) (by ring)
  · have hL : 0 ≤ √(h ^ 2 + (R - r) ^ 2) := sqrt_nonneg _
    exact gen _ (ρ * th * (π * (R + r) * √(h ^ 2 + (R - r) ^ 2)) * (R ^ 2 + r ^ 2) / 4)
      (ρ * th * (π * (R + r) * √(h ^ 2 + (R - r) ^ 2)) * (R ^ 2 + r ^ 2) / 4)
      (ρ * th * (π * (R + r) * √(h ^ 2 + (R - r) ^ 2)) * h ^ 2 * (1 + 2 * R * r / (R + r) ^ 2) / 18)
      (by positivity) (by positivity) (by positivity) _ _ _ (by ring) (by ring) (by ring)
  · exact gen _ (ρ * th * (2 * π * R * h) * R ^ 2 / 2) (ρ * th * (2 * π * R * h) * R ^ 2 / 2)
      (ρ * th * (2 * π * R * h) * h ^ 2 / 12) (by positivity) (by positivity) (by positivity) _ _ _
      (by ring) (by ring) (by ring)
  · exact two _ _ _ (by positivity) (by linarith [show 0 < 2 * (ρ * th * (4 * π * R ^ 2)) * R ^ 2 / 3 by positivity])
  · exact two _ _ _ (by positivity) (by nlinarith [show 0 < ρ * th * (2 * π * R ^ 2) * R ^ 2 by positivity])

/-- The hypotheses of the theorems above are met, e.g. by the dimensions `1 < 2`. -/
example : (0 : ℝ) < 1 ∧ (1 : ℝ) < 2 ∧
    IsInertiaOf (hollowSphere 1 2 1) (fun g => 1 * sphIntegral 1 1 1 0 1 2 π g) :=
  ⟨one_pos, one_lt_two, (C39_round_solids 1 2 1 1 1 1 1 one_pos one_lt_two one_pos).2.2.2.2.2.1⟩

end MM
