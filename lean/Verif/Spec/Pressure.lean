import Verif.Spec.Integrals

/-!
# Specification: force and moment of a pressure field on a surface

`- ∫ P n dS` and `- ∫ P X × n dS` over the triangles of a mesh, `n` being the outward normal.
-/

namespace MM

open MeasureTheory

/-- Integral of `f` over the reference triangle `u, v ≥ 0, u + v ≤ 1`, mapped on the triangle `p q r`. The surface integral
of `f n` (`n` unit normal) over the triangle is this number times `areaVec p q r`. -/
noncomputable def refInt (f : V3 ℝ → ℝ) (p q r : V3 ℝ) : ℝ :=
  ∫ u in (0 : ℝ)..1, ∫ v in (0 : ℝ)..(1 - u), f (p + u • (q - p) + v • (r - p))

/-- `∫ f n dS` over the mesh. -/
noncomputable def Mesh.normalIntegral (m : Mesh ℝ) (f : V3 ℝ → ℝ) : V3 ℝ :=
  ⟨m.surfaceSum (fun p q r => (areaVec p q r).x * refInt f p q r),
   m.surfaceSum (fun p q r => (areaVec p q r).y * refInt f p q r),
   m.surfaceSum (fun p q r => (areaVec p q r).z * refInt f p q r)⟩

/-- Force of the pressure `P` on the mesh: `- ∫ P n dS`. -/
noncomputable def Mesh.pressureForce (m : Mesh ℝ) (P : V3 ℝ → ℝ) : V3 ℝ := -m.normalIntegral P

/-- Moment about the origin of the pressure `P` on the mesh: `- ∫ P X × n dS`. -/
noncomputable def Mesh.pressureMoment (m : Mesh ℝ) (P : V3 ℝ → ℝ) : V3 ℝ :=
  -⟨(m.normalIntegral (fun X => P X * X.y)).z - (m.normalIntegral (fun X => P X * X.z)).y,
    (m.normalIntegral (fun X => P X * X.z)).x - (m.normalIntegral (fun X => P X * X.x)).z,
    (m.normalIntegral (fun X => P X * X.x)).y - (m.normalIntegral (fun X => P X * X.y)).x⟩

/-- Hydrostatic pressure under the free surface `z = 0`, no pressure above. -/
noncomputable def hydrostaticPressure (ρ g : ℝ) (X : V3 ℝ) : ℝ := if X.z < 0 then -(ρ * g * X.z) else 0

end MM
