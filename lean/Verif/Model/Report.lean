import Verif.Model.Mmio

/-!
# Model of `hydrostatics.py`: text of `get_hydrostatic_report`

The numbers are floats, that is rationals. `math.sqrt` is a parameter; the two angles, computed by `rotmat_to_cardan` and
`math.degrees`, are given (`Model/ReportCorr.lean`). Infinite values and NaN are not modelled.
-/

namespace MM.Report

open MM MM.Io

/-- The entries of `hs_data` used by the report (hydrostatics.py:158-203). -/
structure Data where
  zEq : ℚ
  grav : ℚ
  rhoWater : ℚ
  waterplaneArea : ℚ
  waterplaneCenter : V3 ℚ
  wetSurfaceArea : ℚ
  dispVolume : ℚ
  dispMass : ℚ
  buoyancyCenter : V3 ℚ
  cog : V3 ℚ
  draught : ℚ
  lengthOverallSubmerged : ℚ
  breadthOverallSubmerged : ℚ
  lengthAtWaterline : ℚ
  forwardPerpendicular : ℚ
  trustLpp : Bool
  lpp : ℚ
  transversalRadius : ℚ
  longitudinalRadius : ℚ
  transversalHeight : ℚ
  longitudinalHeight : ℚ
  stiffness : M3 ℚ
  ixx : ℚ
  iyy : ℚ
  izz : ℚ

/-- `dtype`: `'f'` or `'E'`. -/
inductive Dtype
  | f
  | E
deriving DecidableEq

/-- `'{: .{precision}{dtype}}'.format(x)`: a blank in place of the sign of a non negative number. -/
def number (t : Dtype) (precision : ℕ) (x : ℚ) : Str :=
  let s := match t with
    | .f => fixedStr precision x
    | .E => sciStr precision x
  if x < 0 then s else ' ' :: s

/-- `'{:-<45}'.format(s)` -/
def padDash (s : Str) : Str := s ++ List.replicate (45 - s.length) '-'

/-- `'{:<10}'.format(s)` -/
def padR (w : ℕ) (s : Str) : Str := s ++ List.replicate (w - s.length) ' '

/-- What `msg +=` appends. -/
inductive Item
  /-- a text -/
  | raw (s : Str)
  /-- `build_line(text, data, precision, dtype)` for a number (hydrostatics.py:371-375) -/
  | num (text : String) (data : ℚ) (precision : ℕ) (dtype : Dtype)
  /-- `build_line(text, data, precision)` for an array of three numbers (hydrostatics.py:378-384) -/
  | vec (text : String) (data : V3 ℚ) (precision : ℕ)

/-- `str(text).upper()` of an ASCII text. -/
def upper (s : String) : Str := s.toList.map Char.toUpper

/-- `build_line` (hydrostatics.py:367-389). -/
def Item.str : Item → Str
  | .raw s => s
  | .num text x p t => '\t' :: (padDash (upper text) ++ (">  ".toList ++ (number t p x ++ nl)))
  | .vec text v p => '\t' :: (padDash (upper text) ++ (">  ".toList ++
      ([v.x, v.y, v.z].flatMap (fun x => padR 10 (number .f p x)) ++ nl)))

/-- `hspace()` (hydrostatics.py:364-365). -/
def hspace : Item := .raw nl

/-- The items up to the forward perpendicular (hydrostatics.py:393-419). -/
def part1 (version : Str) (heel trim : ℚ) (d : Data) : List Item :=
  [.raw ("HYDROSTATIC REPORT (Meshmagick version ".toList ++ version ++ ")\n".toList), hspace,
   .raw "[1]\tCorrections made on initial mesh:\n".toList,
   .num "Z correction (M)" d.zEq 3 .f,
   .num "Heel correction (deg)" heel 3 .f,
   .num "Trim correction (deg)" trim 3 .f,
   hspace,
   .num "Gravity acceleration (M/S**2)" d.grav 2 .f,
   .num "Density of water (kg/M**3)" d.rhoWater 1 .f,
   hspace,
   .num "Waterplane area (M**2)" d.waterplaneArea 1 .f,
   .vec "Waterplane center (M)" d.waterplaneCenter 3,
   .num "Wetted Surface Area (M**2)" d.wetSurfaceArea 1 .f,
   .num "Displacement volume (M**3)" d.dispVolume 3 .f,
   .num "Displacement mass (tons)" (d.dispMass / 1000) 3 .f,
   .vec "Buoyancy center (M)" d.buoyancyCenter 3,
   .vec "Center of gravity (M)" d.cog 3,
   hspace,
   .num "Draft (M)" d.draught 3 .f,
   .num "Length overall submerged (M)" d.lengthOverallSubmerged 2 .f,
   .num "Breadth overall submerged (M)" d.breadthOverallSubmerged 2 .f,
   .num "Length at Waterline LWL (M)" d.lengthAtWaterline 2 .f,
   .num "Forward perpendicular FP (M)" d.forwardPerpendicular 2 .f]

/-- hydrostatics.py:420-425. -/
def lppPart (d : Data) : List Item :=
  if d.trustLpp then [.num "Length between perpendiculars Lpp (M)" d.lpp 2 .f]
  else [.num "[2] Length between perpendiculars Lpp (M)" d.lpp 2 .f]

/-- hydrostatics.py:427-432. -/
def part2 (d : Data) : List Item :=
  [hspace,
   .num "Transversal metacentric radius (M)" d.transversalRadius 3 .f,
   .num "Longitudinal metacentric radius (M)" d.longitudinalRadius 3 .f,
   .num "Transversal metacentric height GMt (M)" d.transversalHeight 3 .f,
   .num "Longitudinal metacentric height GMl (M)" d.longitudinalHeight 3 .f]

/-- hydrostatics.py:433-436. -/
def warnings (d : Data) : List Item :=
  (if d.transversalHeight < 0 then [.raw "\t<<<  TRANSVERSALLY UNSTABLE  >>>\n".toList] else []) ++
  (if d.longitudinalHeight < 0 then [.raw "\t<<<  LONGITUDINALLY UNSTABLE  >>>\n".toList] else [])

/-- hydrostatics.py:438-447. -/
def part3 (d : Data) : List Item :=
  [hspace,
   .raw "\tHYDROSTATIC STIFFNESS COEFFICIENTS (at COG horiz. Pos.):\n".toList,
   .num "K33 (N/M)" d.stiffness.r0.x 4 .E,
   .num "K34 (N)" d.stiffness.r0.y 4 .E,
   .num "K35 (N)" d.stiffness.r0.z 4 .E,
   .num "K44 (N.M)" d.stiffness.r1.y 4 .E,
   .num "K45 (N.M)" d.stiffness.r1.z 4 .E,
   .num "K55 (N.M)" d.stiffness.r2.z 4 .E,
   hspace]

/-- hydrostatics.py:448-451. -/
def inertiaTitle (d : Data) : List Item :=
  if d.trustLpp then [.raw "\tINERTIAS from standard approximations: [Rxx = 0.3 B; Ryy = Rzz = 0.25 Lpp]\n".toList]
  else [.raw "[2]\tINERTIAS from standard approximations: [Rxx = 0.3 B; Ryy = Rzz = 0.25 Lpp]\n".toList]

/-- hydrostatics.py:453-478. The constants `0.3` and `0.25` are exact here. -/
def part4 (sqrt : ℚ → ℚ) (d : Data) : List Item :=
  let rxx := 3 / 10 * d.breadthOverallSubmerged
  let ryyzz := 1 / 4 * d.lpp
  [.num "Rxx (M)" rxx 3 .f,
   .num "Ryy (M)" ryyzz 3 .f,
   .num "Rzz (M)" ryyzz 3 .f,
   .num "Ixx" (rxx ^ 2 * d.dispMass) 3 .E,
   .num "Iyy" (ryyzz ^ 2 * d.dispMass) 3 .E,
   .num "Izz" (ryyzz ^ 2 * d.dispMass) 3 .E,
   hspace,
   .raw "\tINERTIAS from homogeneous immersed hull approximation:\n".toList,
   .num "Rxx" (sqrt (d.ixx / d.dispMass)) 3 .f,
   .num "Ryy" (sqrt (d.iyy / d.dispMass)) 3 .f,
   .num "Rzz" (sqrt (d.izz / d.dispMass)) 3 .f,
   .num "Ixx" d.ixx 3 .E,
   .num "Iyy" d.iyy 3 .E,
   .num "Izz" d.izz 3 .E,
   hspace, hspace,
   .raw "NOTES\n".toList,
   .raw "=====\n".toList,
   .raw "[1] To get computed hydrostatic equilibrium position from initial mesh, corrections must be \n".toList,
   .raw "    applied in the following order:\n".toList,
   .raw "    \t* First rotations around initial X & Y axes w.r.t initial frame origin\n".toList,
   .raw "    \t* Second Z translation along initial Z-axis (not the one obtained after the rotations)\n".toList]

/-- hydrostatics.py:479-482: the text has no end of line. -/
def note2 (d : Data) : List Item :=
  if d.trustLpp then [] else
    [.raw "[2] Not enough information to get a trusted Lpp. It has been approximated by Lwl instead.\n".toList,
     .raw "    It has an influence on the Iyy and Izz inertias calculated from standard approximations.\n".toList]

/-- The end of the last note. -/
def lastNote (d : Data) : Str := if d.trustLpp then [] else "    To get more accurate results, please specify a Lpp.".toList

/-- The items of the report in the order of the code (hydrostatics.py:393-481). -/
def items (version : Str) (sqrt : ℚ → ℚ) (heel trim : ℚ) (d : Data) : List Item :=
  part1 version heel trim d ++ lppPart d ++ part2 d ++ warnings d ++ part3 d ++ inertiaTitle d ++ part4 sqrt d ++ note2 d

/-- `get_hydrostatic_report(hs_data)` (hydrostatics.py:356-484). -/
def report (version : Str) (sqrt : ℚ → ℚ) (heel trim : ℚ) (d : Data) : Str :=
  (items version sqrt heel trim d).flatMap Item.str ++ lastNote d

end MM.Report
