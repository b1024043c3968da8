import Verif.Spec.Integrals
import Verif.Model.Inertia

/-!
# Specification: the homogeneous bodies of inertia.py

Each body is given by the integral over it, in its usual coordinates, placed with its centre of gravity at
the origin (`IsInertiaOf` also requires this).
-/

namespace MM

open MeasureTheory Real

/-- `I` is the inertia of a distribution of matter whose centre of gravity is the origin, expressed there.
`integral g` is the integral of `g` against the mass. -/
def IsInertiaOf (I : Inertia) (integral : (V3 ℝ → ℝ) → ℝ) : Prop :=
  I.mass = integral (fun _ => 1) ∧
  integral (fun p => p.x) = 0 ∧ integral (fun p => p.y) = 0 ∧ integral (fun p => p.z) = 0 ∧
  I.cog = 0 ∧ I.point = 0 ∧ I.mat = inertiaMatrix integral

/-- Box `|x| ≤ a/2, |y| ≤ b/2, |z| ≤ h/2`. -/
noncomputable def boxIntegral (a b h : ℝ) (g : V3 ℝ → ℝ) : ℝ :=
  ∫ x in (-(a / 2))..(a / 2), ∫ y in (-(b / 2))..(b / 2), ∫ z in (-(h / 2))..(h / 2), g ⟨x, y, z⟩

/-- Prism of axis `y`, `|y| ≤ l/2`, whose section is the right triangle with right angle at
`(x, z) = (-b/3, -h/3)` and legs `b` along `x` and `h` along `z`. -/
noncomputable def rightWedgeIntegral (b h l : ℝ) (g : V3 ℝ → ℝ) : ℝ :=
  ∫ y in (-(l / 2))..(l / 2), ∫ x in (-(b / 3))..(2 * b / 3),
    ∫ z in (-(h / 3))..(-(h / 3) + h * (2 / 3 - x / b)), g ⟨x, y, z⟩

/-- Prism of axis `y`, `|y| ≤ l/2`, whose section is the isosceles triangle with base `b` on `z = -h/3` and
apex `z = 2h/3`. -/
noncomputable def isoWedgeIntegral (b h l : ℝ) (g : V3 ℝ → ℝ) : ℝ :=
  ∫ y in (-(l / 2))..(l / 2), ∫ z in (-(h / 3))..(2 * h / 3),
    ∫ x in (-(b / 2 * (2 / 3 - z / h)))..(b / 2 * (2 / 3 - z / h)), g ⟨x, y, z⟩

/-- Pyramid with base `a × b` on `z = -h/4` and apex `z = 3h/4`. -/
noncomputable def pyramidIntegral (a b h : ℝ) (g : V3 ℝ → ℝ) : ℝ :=
  ∫ z in (-(h / 4))..(3 * h / 4), ∫ x in (-(a / 2 * (3 / 4 - z / h)))..(a / 2 * (3 / 4 - z / h)),
    ∫ y in (-(b / 2 * (3 / 4 - z / h)))..(b / 2 * (3 / 4 - z / h)), g ⟨x, y, z⟩

/-- Solid of axis `z` between the altitudes `z0` and `z1`; the section at altitude `z` is the ring
`rin z ≤ r ≤ rout z`, stretched by `a` along `x` and `b` along `y`. -/
noncomputable def revIntegral (a b z0 z1 : ℝ) (rin rout : ℝ → ℝ) (g : V3 ℝ → ℝ) : ℝ :=
  ∫ z in z0..z1, ∫ r in (rin z)..(rout z), ∫ θ in (0 : ℝ)..(2 * π),
    g ⟨a * (r * cos θ), b * (r * sin θ), z⟩ * (a * b * r)

/-- Part `φ ≤ Φ` of the shell `r0 ≤ r ≤ r1` of spherical coordinates (`φ` from the axis `z`), stretched by
`a b c` and lowered by `d`. -/
noncomputable def sphIntegral (a b c d r0 r1 Φ : ℝ) (g : V3 ℝ → ℝ) : ℝ :=
  ∫ r in r0..r1, ∫ φ in (0 : ℝ)..Φ, ∫ θ in (0 : ℝ)..(2 * π),
    g ⟨a * (r * sin φ * cos θ), b * (r * sin φ * sin θ), c * (r * cos φ) - d⟩ *
      (a * b * c * (r ^ 2 * sin φ))

/-- Torus of axis `y`. -/
noncomputable def torusIntegral (C a : ℝ) (g : V3 ℝ → ℝ) : ℝ :=
  ∫ r in (0 : ℝ)..a, ∫ φ in (0 : ℝ)..(2 * π), ∫ θ in (0 : ℝ)..(2 * π),
    g ⟨(C + r * cos φ) * sin θ, r * sin φ, (C + r * cos φ) * cos θ⟩ * (r * (C + r * cos φ))

/-- Surface of revolution of axis `z` between the altitudes `z0` and `z1` with radius `ρ z` of constant
slope `s`. -/
noncomputable def revShellIntegral (z0 z1 : ℝ) (ρ : ℝ → ℝ) (s : ℝ) (g : V3 ℝ → ℝ) : ℝ :=
  ∫ z in z0..z1, ∫ θ in (0 : ℝ)..(2 * π), g ⟨ρ z * cos θ, ρ z * sin θ, z⟩ * (ρ z * √(1 + s ^ 2))

/-- Disc of radius `R` and axis `z` at altitude `h`. -/
noncomputable def discIntegral (R h : ℝ) (g : V3 ℝ → ℝ) : ℝ :=
  ∫ r in (0 : ℝ)..R, ∫ θ in (0 : ℝ)..(2 * π), g ⟨r * cos θ, r * sin θ, h⟩ * r

/-- Part `φ ≤ Φ` of the sphere of radius `R`, lowered by `d`. -/
noncomputable def sphShellIntegral (R d Φ : ℝ) (g : V3 ℝ → ℝ) : ℝ :=
  ∫ φ in (0 : ℝ)..Φ, ∫ θ in (0 : ℝ)..(2 * π),
    g ⟨R * sin φ * cos θ, R * sin φ * sin θ, R * cos φ - d⟩ * (R ^ 2 * sin φ)

end MM
