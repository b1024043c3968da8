import Verif.Model.Mmio

/-!
# Specification: what a file gives back
-/

namespace MM.Io

/-- `y` is `x` rounded to six decimals. -/
def Rounded6 (x y : ℚ) : Prop := (∃ k : ℤ, y * 10 ^ 6 = k) ∧ |y - x| ≤ 1 / 2 / 10 ^ 6

/-- `y` is `x` with the first seven significant digits. -/
def Rounded7Digits (x y : ℚ) : Prop := |y - x| ≤ 1 / 2 / 10 ^ 6 * |x|

/-- `y` is `x` with the first six significant digits. -/
def Rounded6Digits (x y : ℚ) : Prop := |y - x| ≤ 1 / 2 / 10 ^ 5 * |x|

/-- The row of a vertices array gives a point. -/
def RowOf (R : ℚ → ℚ → Prop) (v : V3 ℚ) (row : List ℚ) : Prop :=
  ∃ x y z, row = [x, y, z] ∧ R v.x x ∧ R v.y y ∧ R v.z z

/-- The arrays are those of the mesh: the same faces, the vertices in the same order with coordinates related by `R`. -/
def GivesBack (R : ℚ → ℚ → Prop) (m : Mesh ℚ) (l : Loaded) : Prop :=
  List.Forall₂ (RowOf R) m.vertices l.vertices ∧
    l.faces = m.faces.map (fun f => [(f.a : ℤ), (f.b : ℤ), (f.c : ℤ), (f.d : ℤ)])

end MM.Io
