import Verif.Model.WaterplaneFl
import Verif.Model.InertiaQuadFl

/-!
# Model of the coefficients of `compute_hydrostatics` in floating point

Every operation is followed by a rounding `rnd`; the changes of sign are exact.
-/

namespace MM
namespace Hydro

/-- The entries of the dictionary of `compute_hydrostatics` that are derived from the mass and the centre of the immersed volume and from the
line sums (hydrostatics.py:158-205), and the coordinates of the centre of flotation before it is brought back in the frame of the
input mesh (hydrostatics.py:140-141). -/
structure Coeffs where
  dispVolume : ℝ
  dispMass : ℝ
  waterplaneArea : ℝ
  transversalRadius : ℝ
  longitudinalRadius : ℝ
  transversalHeight : ℝ
  longitudinalHeight : ℝ
  stiffness : M3 ℝ
  xf : ℝ
  yf : ℝ

/-- hydrostatics.py:48 and 107-141, 168-177, with `at_cog` false, from `inertia.mass`, `zb`, `wcog[2]` and the sums. -/
noncomputable def coeffsFl (rnd : ℝ → ℝ) (rho grav mass zb zcog : ℝ) (s : Sigmas ℝ) : Coeffs :=
  let vol := rnd (mass / rho)
  let rhog := rnd (rho * grav)
  let s33 := rnd (rhog * s.s0)
  let s34 := rnd (rhog * s.s2)
  let s35 := rnd (-rhog * s.s1)
  let s45 := rnd (-rhog * s.s3)
  let rt := rnd (s.s5 / vol)
  let rl := rnd (s.s4 / vol)
  let a := rnd (zcog - zb)
  let ht := rnd (rt - a)
  let hl := rnd (rl - a)
  let s44 := rnd (rnd (rhog * vol) * ht)
  let s55 := rnd (rnd (rhog * vol) * hl)
  { dispVolume := vol
    dispMass := rnd (rho * vol)
    waterplaneArea := s.s0
    transversalRadius := rt
    longitudinalRadius := rl
    transversalHeight := ht
    longitudinalHeight := hl
    stiffness := ⟨⟨zeroTiny s33, zeroTiny s34, zeroTiny s35⟩, ⟨zeroTiny s34, zeroTiny s44, zeroTiny s45⟩,
      ⟨zeroTiny s35, zeroTiny s45, zeroTiny s55⟩⟩
    xf := rnd (-s35 / s33)
    yf := rnd (s34 / s33) }

/-- `h` may be the result of `compute_hydrostatics` (hydrostatics.py:39-177) once the mesh is clipped, for some order of the sums over the
faces; `zcog` is `wcog[2]`, `nrm` is `np.linalg.norm` of a row. -/
def HydroFl (rnd : ℝ → ℝ) (nrm : V3 ℝ → ℝ) (c : Clipper.Clipped ℝ) (rho grav zcog : ℝ) (h : Coeffs) : Prop :=
  ∃ r, c.clipped.PlainAllFl rnd nrm rho r ∧
    h = coeffsFl rnd rho grav r.mass r.cog.z zcog (sigmasFl rnd (polyVerts c.clippedCrown c.closedPolygons false 0))

end Hydro
end MM
