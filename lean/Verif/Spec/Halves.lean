import Verif.Spec.Integrals

/-!
# Specification: the two sides of a plane
-/

namespace MM

/-- The function `g` restricted to the points strictly under the plane: zero elsewhere. The integral of `p.below g` over a
solid is the integral of `g` over the part of the solid that is under the plane. -/
noncomputable def Plane.below (p : Plane ℝ) (g : V3 ℝ → ℝ) (X : V3 ℝ) : ℝ := if X.dot p.normal < p.c then g X else 0

/-- The function `g` restricted to the points of the plane. -/
noncomputable def Plane.within (p : Plane ℝ) (g : V3 ℝ → ℝ) (X : V3 ℝ) : ℝ := if X.dot p.normal = p.c then g X else 0

/-- `g` is a polynomial of degree at most two in the coordinates, written as a sum of products of affine functions
`(a + n . X) (a' + n' . X)`: `1`, `x`, `x y`, `y^2 + z^2`, … -/
def Quadratic (g : V3 ℝ → ℝ) : Prop :=
  ∃ L : List ((ℝ × V3 ℝ) × (ℝ × V3 ℝ)), ∀ X, g X = (L.map (fun t => (t.1.1 + t.1.2.dot X) * (t.2.1 + t.2.2.dot X))).sum

end MM
