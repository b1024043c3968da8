import Verif.Spec.Connectivity
import Mathlib.MeasureTheory.Integral.IntervalIntegral.Basic

/-!
# Specification: integrals over plane polygons
-/

namespace MM

open MeasureTheory

/-- Integral of `g` over the oriented plane triangle `o p q`: the signed Jacobian times the integral over the reference
triangle. -/
noncomputable def planeTriIntegral (g : ℝ → ℝ → ℝ) (o p q : ℝ × ℝ) : ℝ :=
  ((p.1 - o.1) * (q.2 - o.2) - (q.1 - o.1) * (p.2 - o.2)) *
    ∫ u in (0 : ℝ)..1, ∫ v in (0 : ℝ)..(1 - u),
      g (o.1 + u * (p.1 - o.1) + v * (q.1 - o.1)) (o.2 + u * (p.2 - o.2) + v * (q.2 - o.2))

/-- Integral of `g` over the region enclosed by the closed polygon `l` (first vertex repeated at the end), counted positive
when it is run anticlockwise: the sum of the integrals over the signed triangles joining `o` to its sides. -/
noncomputable def polygonIntegral (g : ℝ → ℝ → ℝ) (o : ℝ × ℝ) (l : List (ℝ × ℝ)) : ℝ :=
  ((chainPairs l).map (fun e => planeTriIntegral g o e.1 e.2)).sum

/-- The first vertex is repeated at the end. -/
def ClosedPolygon {α : Type*} (l : List α) : Prop := l ≠ [] ∧ l.head? = l.getLast?

/-- Integral over several polygons. -/
noncomputable def polygonsIntegral (g : ℝ → ℝ → ℝ) (o : ℝ × ℝ) (ls : List (List (ℝ × ℝ))) : ℝ :=
  (ls.map (polygonIntegral g o)).sum

end MM
