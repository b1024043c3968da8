import Verif.Model.ScaleFl
import Mathlib.Data.Real.Basic

/-!
# Specification: the factors of a sequence of scalings
-/

namespace MM

/-- The factors of a call along the three axes. -/
def Scaling.factors1 : Scaling ℝ → V3 ℝ
  | .all a => ⟨a, a, a⟩
  | .alongX a => ⟨a, 1, 1⟩
  | .alongY a => ⟨1, a, 1⟩
  | .alongZ a => ⟨1, 1, a⟩

/-- The factors of calls done one after the other: the products, axis by axis. -/
def Scaling.factors (l : List (Scaling ℝ)) : V3 ℝ :=
  ⟨(l.map fun s => s.factors1.x).prod, (l.map fun s => s.factors1.y).prod, (l.map fun s => s.factors1.z).prod⟩

/-- The point whose coordinates are multiplied by `f`. -/
def V3.stretch (f v : V3 ℝ) : V3 ℝ := ⟨f.x * v.x, f.y * v.y, f.z * v.z⟩

end MM
