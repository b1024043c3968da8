import Mathlib.Algebra.Order.Field.Basic
import Mathlib.Algebra.Order.Group.Abs
import Verif.Model.Vec

/-!
# Specification: rounding

What is known of the rounding of a floating-point arithmetic, without underflow nor overflow: it does not change the order,
it is symmetric, and its relative error is at most `u` (`2 ^ -53` for doubles; sums and differences of doubles do not
underflow: those which are small are exact).
-/

namespace MM

/-- A rounding with a relative error at most `u`. -/
structure IsRounding {K : Type*} [Field K] [LinearOrder K] (u : K) (rnd : K → K) : Prop where
  mono : ∀ x y, x ≤ y → rnd x ≤ rnd y
  odd : ∀ x, rnd (-x) = -rnd x
  near : ∀ x, |rnd x - x| ≤ u * |x|

/-- The sum of the absolute values of the terms of a scalar product. -/
def absDot {K : Type*} [Field K] [LinearOrder K] (a b : V3 K) : K := |a.x * b.x| + |a.y * b.y| + |a.z * b.z|

/-- A function which computes scalar products with a relative error at most `g`, with respect to the sum of the absolute
values of the terms. -/
def IsDot {K : Type*} [Field K] [LinearOrder K] (g : K) (dot : V3 K → V3 K → K) : Prop :=
  ∀ a b : V3 K, |dot a b - (a.x * b.x + a.y * b.y + a.z * b.z)| ≤ g * absDot a b

end MM
