import Verif.Spec.Pressure
import Verif.Model.Mesh
import Mathlib.Analysis.SpecialFunctions.Trigonometric.Deriv

/-!
# Specification: equilibrium of a floating body, and its variation with small motions
-/

namespace MM

/-- Rotation of angle `θ` about the axis `x`. -/
noncomputable def rotX (θ : ℝ) : M3 ℝ := ⟨⟨1, 0, 0⟩, ⟨0, Real.cos θ, -Real.sin θ⟩, ⟨0, Real.sin θ, Real.cos θ⟩⟩

/-- Rotation of angle `θ` about the axis `y`. -/
noncomputable def rotY (θ : ℝ) : M3 ℝ := ⟨⟨Real.cos θ, 0, Real.sin θ⟩, ⟨0, 1, 0⟩, ⟨-Real.sin θ, 0, Real.cos θ⟩⟩

/-- Rigid motion: the rotation `R` about the point `O`, then a vertical translation `t`. -/
def rigid (R : M3 ℝ) (O : V3 ℝ) (t : ℝ) (X : V3 ℝ) : V3 ℝ := O + R.mulVec (X - O) + ⟨0, 0, t⟩

/-- Vertical force, and moments about the axes parallel to `x` and `y` through `O`, applied on a body of mass `mass` and
gravity centre `G`, whose hull is the mesh `m`, by gravity and by the pressure of the water under `z = 0`. -/
noncomputable def balance (ρ g mass : ℝ) (O : V3 ℝ) (m : Mesh ℝ) (G : V3 ℝ) : V3 ℝ :=
  let F := m.pressureForce (hydrostaticPressure ρ g)
  let M := m.pressureMoment (hydrostaticPressure ρ g) - O.cross F
  let W : V3 ℝ := ⟨0, 0, -(mass * g)⟩
  let N := (G - O).cross W
  ⟨F.z + W.z, M.x + N.x, M.y + N.y⟩

/-- `d` is the derivative at `0` of `f`, component by component. -/
def HasDerivZero (f : ℝ → V3 ℝ) (d : V3 ℝ) : Prop :=
  HasDerivAt (fun t => (f t).x) d.x 0 ∧ HasDerivAt (fun t => (f t).y) d.y 0 ∧ HasDerivAt (fun t => (f t).z) d.z 0

/-- The balance of the body moved by a heave `t`. -/
noncomputable def heaved (ρ g mass : ℝ) (O : V3 ℝ) (m : Mesh ℝ) (G : V3 ℝ) (t : ℝ) : V3 ℝ :=
  balance ρ g mass O (m.mapVertices (rigid M3.one O t)) (rigid M3.one O t G)

/-- The balance of the body moved by a roll `t` about `O`. -/
noncomputable def rolled (ρ g mass : ℝ) (O : V3 ℝ) (m : Mesh ℝ) (G : V3 ℝ) (t : ℝ) : V3 ℝ :=
  balance ρ g mass O (m.mapVertices (rigid (rotX t) O 0)) (rigid (rotX t) O 0 G)

/-- The balance of the body moved by a pitch `t` about `O`. -/
noncomputable def pitched (ρ g mass : ℝ) (O : V3 ℝ) (m : Mesh ℝ) (G : V3 ℝ) (t : ℝ) : V3 ℝ :=
  balance ρ g mass O (m.mapVertices (rigid (rotY t) O 0)) (rigid (rotY t) O 0 G)

end MM
