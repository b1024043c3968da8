import Verif.Model.Inertia
import Verif.Model.VolumeFl

/-!
# Model of the change of reduction point of an inertia in floating point

Every operation is followed by a rounding `rnd`; `dot` is `np.dot` of two vectors.
-/

namespace MM

/-- The sum of two matrices with roundings. -/
def M3.addFl {K : Type*} [Add K] (rnd : K → K) (A B : M3 K) : M3 K :=
  ⟨⟨rnd (A.r0.x + B.r0.x), rnd (A.r0.y + B.r0.y), rnd (A.r0.z + B.r0.z)⟩,
   ⟨rnd (A.r1.x + B.r1.x), rnd (A.r1.y + B.r1.y), rnd (A.r1.z + B.r1.z)⟩,
   ⟨rnd (A.r2.x + B.r2.x), rnd (A.r2.y + B.r2.y), rnd (A.r2.z + B.r2.z)⟩⟩

namespace Inertia

section
variable (rnd : ℝ → ℝ) (dot : V3 ℝ → V3 ℝ → ℝ)

/-- `_huygens_transport` (inertia.py:134-136). (The products by the terms of `np.eye(3)` are exact.) -/
noncomputable def huygensFl (I : Inertia) : M3 ℝ :=
  let d := subFl rnd I.cog I.point
  let s := dot d d
  ⟨⟨rnd (I.mass * rnd (s - rnd (d.x * d.x))), rnd (I.mass * rnd (0 - rnd (d.x * d.y))), rnd (I.mass * rnd (0 - rnd (d.x * d.z)))⟩,
   ⟨rnd (I.mass * rnd (0 - rnd (d.y * d.x))), rnd (I.mass * rnd (s - rnd (d.y * d.y))), rnd (I.mass * rnd (0 - rnd (d.y * d.z)))⟩,
   ⟨rnd (I.mass * rnd (0 - rnd (d.z * d.x))), rnd (I.mass * rnd (0 - rnd (d.z * d.y))), rnd (I.mass * rnd (s - rnd (d.z * d.z)))⟩⟩

/-- `shift_at_cog` and `at_cog` (inertia.py:91-103, 117-123). -/
noncomputable def shiftAtCogFl (I : Inertia) : Inertia := { I with mat := I.mat.addFl rnd (I.huygensFl rnd dot), point := I.cog }

/-- `reduction_point` setter (inertia.py:83-89). -/
noncomputable def setReductionPointFl (I : Inertia) (p : V3 ℝ) : Inertia :=
  let matAtCog := (I.shiftAtCogFl rnd dot).mat
  let J := { I with point := p }
  { J with mat := matAtCog.addFl rnd (J.huygensFl rnd dot) }

end
end Inertia
end MM
