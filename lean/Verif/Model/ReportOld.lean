import Verif.Model.Report

/-!
# Model of `hydrostatics_old.py`: text of `get_hydrostatic_report`

The numbers are floats, that is rationals: infinite values, NaN and the negative zero are not modelled.
-/

namespace MM.ReportOld

open MM MM.Io MM.Report

/-- What the report prints: the entries of `hs_data` (hydrostatics_old.py:678-703) and the attributes of the object. -/
structure Data where
  gravity : ℚ
  rhoWater : ℚ
  waterplaneArea : ℚ
  flotationCenter : V3 ℚ
  wetSurfaceArea : ℚ
  dispVolume : ℚ
  dispMass : ℚ
  buoyCenter : V3 ℚ
  gravityCenter : V3 ℚ
  draught : ℚ
  los : ℚ
  bos : ℚ
  lwl : ℚ
  fp : ℚ
  breadth : ℚ
  transversalRadius : ℚ
  longitudinalRadius : ℚ
  gmX : ℚ
  gmY : ℚ
  stiffness : M3 ℚ
  ixx : ℚ
  ixy : ℚ
  ixz : ℚ
  iyy : ℚ
  iyz : ℚ
  izz : ℚ
  residual : V3 ℚ
  mg : ℚ
  reltol : ℚ

/-- `'{:-<40}'.format(s)` -/
def padDash40 (s : Str) : Str := s ++ List.replicate (40 - s.length) '-'

/-- What `msg +=` appends. -/
inductive Item
  /-- a text -/
  | raw (s : Str)
  /-- `build_line(text, data, precision, dtype)` for a number (hydrostatics_old.py:1208-1213) -/
  | num (text : String) (data : ℚ) (precision : ℕ) (dtype : Dtype)
  /-- `build_line(text, data, precision, dtype)` for an array: `format` of an array raises `TypeError`
  (hydrostatics_old.py:1216-1221) -/
  | arr (text : String) (data : List ℚ) (precision : ℕ) (dtype : Dtype)

/-- `build_line` (hydrostatics_old.py:1204-1226). -/
def Item.str : Item → Str
  | .raw s => s
  | .num text x p t => '\t' :: (padDash40 (upper text) ++ (">  ".toList ++ (number t p x ++ nl)))
  | .arr text xs p t => '\t' :: (padDash40 (upper text) ++ (">  ".toList ++
      (xs.flatMap (fun x => padR 10 (number t p x)) ++ nl)))

/-- `hspace()` (hydrostatics_old.py:1201-1202). -/
def hspace : Item := .raw nl

/-- The components of a vector. -/
def comps (v : V3 ℚ) : List ℚ := [v.x, v.y, v.z]

/-- `_scale` (hydrostatics_old.py:759-765). -/
def scale (d : Data) : V3 ℚ := ⟨d.mg, d.mg * d.breadth, d.mg * d.lwl⟩

/-- `self.residual / self._scale` (hydrostatics_old.py:1282). numpy returns an infinite value or NaN for a null scale: not modelled. -/
def relative (d : Data) : V3 ℚ :=
  ⟨d.residual.x / (scale d).x, d.residual.y / (scale d).y, d.residual.z / (scale d).z⟩

/-- hydrostatics_old.py:1230-1247. -/
def part1 (d : Data) : List Item :=
  [.raw nl,
   hspace,
   .num "Gravity acceleration (M/S**2)" d.gravity 2 .f,
   .num "Density of water (kg/M**3)" d.rhoWater 1 .f,
   hspace,
   .num "Waterplane area (M**2)" d.waterplaneArea 1 .f,
   .arr "Waterplane center (M)" [d.flotationCenter.x, d.flotationCenter.y] 3 .f,
   .num "Wet area (M**2)" d.wetSurfaceArea 1 .f,
   .num "Displacement volume (M**3)" d.dispVolume 3 .f,
   .num "Displacement mass (tons)" (d.dispMass / 1000) 3 .f,
   .arr "Buoyancy center (M)" (comps d.buoyCenter) 3 .f,
   .arr "Center of gravity (M)" (comps d.gravityCenter) 3 .f]

/-- hydrostatics_old.py:1247-1258. -/
def part2 (d : Data) : List Item :=
  [hspace,
   .num "Draught (M)" d.draught 3 .f,
   .num "Length overall submerged (M)" d.los 2 .f,
   .num "Breadth overall submerged (M)" d.bos 2 .f,
   .num "Length at Waterline LWL (M)" d.lwl 2 .f,
   .num "Forward perpendicular (M)" d.fp 2 .f,
   hspace,
   .num "Transversal metacentric radius (M)" d.transversalRadius 3 .f,
   .num "Transversal metacentric height GMt (M)" d.gmX 3 .f,
   .num "Longitudinal metacentric radius (M)" d.longitudinalRadius 3 .f,
   .num "Longitudinal metacentric height GMl (M)" d.gmY 3 .f]

/-- hydrostatics_old.py:1260-1277. -/
def part3 (d : Data) : List Item :=
  [hspace,
   .raw "\tHYDROSTATIC STIFFNESS COEFFICIENTS:\n".toList,
   .num "K33 (N/M)" d.stiffness.r0.x 4 .E,
   .num "K34 (N)" d.stiffness.r0.y 4 .E,
   .num "K35 (N)" d.stiffness.r0.z 4 .E,
   .num "K44 (N.M)" d.stiffness.r1.y 4 .E,
   .num "K45 (N.M)" d.stiffness.r1.z 4 .E,
   .num "K55 (N.M)" d.stiffness.r2.z 4 .E,
   hspace,
   .raw "\tINERTIAS:\n".toList,
   .num "Ixx" d.ixx 3 .E,
   .num "Ixy" d.ixy 3 .E,
   .num "Ixz" d.ixz 3 .E,
   .num "Iyy" d.iyy 3 .E,
   .num "Iyz" d.iyz 3 .E,
   .num "Izz" d.izz 3 .E]

/-- hydrostatics_old.py:1279-1283. -/
def part4 (d : Data) : List Item :=
  [hspace,
   .raw "\tRESIDUALS:\n".toList,
   .arr "Absolute" (comps d.residual) 3 .E,
   .arr "Relative" (comps (relative d)) 3 .E,
   .num "Relative tolerance" d.reltol 1 .E]

/-- The items of the report in the order of the code. -/
def items (d : Data) : List Item := part1 d ++ part2 d ++ part3 d ++ part4 d

/-- `get_hydrostatic_report()` (hydrostatics_old.py:1193-1297). -/
def report (d : Data) : Str := (items d).flatMap Item.str

end MM.ReportOld
