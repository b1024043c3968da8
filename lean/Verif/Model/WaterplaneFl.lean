import Verif.Model.Hydrostatics

/-!
# Model of the line sums of the waterplane in floating point

Every operation of hydrostatics.py:50-105 is followed by a rounding `rnd`; the additions are those of the loop, in its order (the
numbers are numpy scalars: no sum is reordered).
-/

namespace MM
namespace Hydro

variable {K : Type*} [Field K]

/-- The body of the inner loop (hydrostatics.py:78-88). -/
def Sigmas.stepFl (rnd : K → K) (s : Sigmas K) (a b : K × K) : Sigmas K :=
  let dx := rnd (b.1 - a.1)
  let dy := rnd (b.2 - a.2)
  let px := rnd (a.1 + b.1)
  let py := rnd (a.2 + b.2)
  { s0 := rnd (s.s0 + rnd (dy * px))
    s1 := rnd (s.s1 + rnd (dy * rnd (rnd (px * px) - rnd (a.1 * b.1))))
    s2 := rnd (s.s2 + rnd (dx * rnd (rnd (py * py) - rnd (a.2 * b.2))))
    s3 := rnd (s.s3 + rnd (dy * rnd (rnd (rnd (rnd (py * px) * px) + rnd (rnd (a.2 * a.1) * a.1)) + rnd (rnd (b.2 * b.1) * b.1))))
    s4 := rnd (s.s4 + rnd (rnd (dy * rnd (rnd (a.1 * a.1) + rnd (b.1 * b.1))) * px))
    s5 := rnd (s.s5 + rnd (rnd (dx * rnd (rnd (a.2 * a.2) + rnd (b.2 * b.2))) * py)) }

/-- The inner loop over the vertices of a polygon (hydrostatics.py:76-90). -/
def Sigmas.polyFl (rnd : K → K) (s : Sigmas K) : List (K × K) → Sigmas K
  | a :: b :: l => Sigmas.polyFl rnd (s.stepFl rnd a b) (b :: l)
  | _ => s

/-- The divisions after the loop (hydrostatics.py:100-105). -/
def Sigmas.scaleFl (rnd : K → K) (s : Sigmas K) : Sigmas K :=
  ⟨rnd (s.s0 / 2), rnd (s.s1 / 6), rnd (s.s2 / -6), rnd (s.s3 / 24), rnd (s.s4 / 12), rnd (s.s5 / -12)⟩

/-- `sigma0` … `sigma5` at the end (hydrostatics.py:51-105). -/
def sigmasFl (rnd : K → K) (polys : List (List (K × K))) : Sigmas K :=
  (polys.foldl (Sigmas.polyFl rnd) ⟨0, 0, 0, 0, 0, 0⟩).scaleFl rnd

end Hydro
end MM
