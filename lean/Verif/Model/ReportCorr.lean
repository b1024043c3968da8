import Verif.Model.Hydrostatics
import Verif.Model.Rotations

/-!
# Model of `hydrostatics.py`: corrections printed by `get_hydrostatic_report`
-/

namespace MM.Hydro

open MM

/-- `math.degrees`, `math.radians` -/
noncomputable def degrees (x : ℝ) : ℝ := x * 180 / Real.pi
noncomputable def radians (x : ℝ) : ℝ := x * Real.pi / 180

/-- hydrostatics.py:396-399: the three numbers of section `[1]` of the report: vertical correction, heel, trim (degrees). -/
noncomputable def reportCorrections (h : HsData) : ℝ × ℝ × ℝ :=
  let c := rotmatToCardan h.rotmatEq
  (h.zEq, degrees c.1, degrees c.2.1)

end MM.Hydro
