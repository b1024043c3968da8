import Verif.Model.Inertia

/-!
# Model of the shape constructors of inertia.py

`density` and `thickness` are explicit arguments (the defaults are only call-site values).
-/

namespace MM.Shapes

open Real (pi sqrt)

/-- Last line of every constructor: `RigidBodyInertia(mass, [0, 0, 0], Ixx, Iyy, Izz, 0, 0, 0)`. -/
def mk (mass xx yy zz : ℝ) : Inertia := Inertia.init mass 0 xx yy zz 0 0 0

/-- inertia.py:228-242 -/
noncomputable def rightCircularCylinder (radius length density : ℝ) : Inertia :=
  let vol := pi * radius ^ 2 * length
  let mass := density * vol
  let ixx := mass * (3 * radius ^ 2 + length ^ 2) / 12
  mk mass ixx ixx (mass * radius ^ 2 / 2)

/-- inertia.py:245-260 -/
noncomputable def hollowRightCircularCylinder (intRadius extRadius length density : ℝ) : Inertia :=
  let vol := pi * length * (extRadius ^ 2 - intRadius ^ 2)
  let mass := density * vol
  let R2r2 := extRadius ^ 2 + intRadius ^ 2
  let ixx := mass * (3 * R2r2 + length ^ 2) / 12
  mk mass ixx ixx (mass * R2r2 / 2)

/-- inertia.py:263-281 -/
noncomputable def rightCircularCone (radius length density : ℝ) : Inertia :=
  let vol := pi * radius ^ 2 * length / 3
  let mass := density * vol
  let ixx := 3 * mass * (radius ^ 2 + length ^ 2 / 4) / 20
  mk mass ixx ixx (3 * mass * radius ^ 2 / 10)

/-- inertia.py:284-296 -/
noncomputable def sphere (radius density : ℝ) : Inertia :=
  let vol := 4 * pi * radius ^ 3 / 3
  let mass := density * vol
  let ixx := 2 * mass * radius ^ 2 / 5
  mk mass ixx ixx ixx

/-- inertia.py:299-311 -/
noncomputable def hollowSphere (intRadius extRadius density : ℝ) : Inertia :=
  let vol := 4 * pi * (extRadius ^ 3 - intRadius ^ 3) / 3
  let mass := density * vol
  let ixx := 2 * mass * (extRadius ^ 5 - intRadius ^ 5) / (extRadius ^ 3 - intRadius ^ 3) / 5
  mk mass ixx ixx ixx

/-- inertia.py:314-331 -/
noncomputable def hemisphere (radius density : ℝ) : Inertia :=
  let vol := 2 * pi * radius ^ 3 / 3
  let mass := density * vol
  let ixx := 26 / 100 * mass * radius ^ 2
  mk mass ixx ixx ixx

/-- inertia.py:334-356 -/
noncomputable def ellipticalCylinder (a b length density : ℝ) : Inertia :=
  let vol := pi * a * b * length
  let mass := density * vol
  mk mass (mass * (3 * b ^ 2 + length ^ 2) / 12) (mass * (3 * a ^ 2 + length ^ 2) / 12)
    (mass * (a ^ 2 + b ^ 2) / 4)

/-- inertia.py:359-380 -/
noncomputable def ellipsoid (a b c density : ℝ) : Inertia :=
  let vol := 4 * pi * a * b * c / 3
  let mass := density * vol
  mk mass (mass * (a ^ 2 + c ^ 2) / 5) (mass * (a ^ 2 + b ^ 2) / 5) (mass * (b ^ 2 + c ^ 2) / 5)

/-- inertia.py:383-396 -/
noncomputable def torus (chordRadius tubeRadius density : ℝ) : Inertia :=
  let vol := 2 * pi ^ 2 * tubeRadius ^ 2 * chordRadius
  let mass := density * vol
  let ixx := mass * (4 * chordRadius ^ 2 + 5 * tubeRadius ^ 2) / 8
  mk mass ixx (mass * (4 * chordRadius ^ 2 + 3 * tubeRadius ^ 2) / 4) ixx

/-- inertia.py:400-415 -/
noncomputable def rightAngleWedge (base height length density : ℝ) : Inertia :=
  let vol := base * height * length / 2
  let mass := density * vol
  mk mass (mass * (2 * height ^ 2 + 3 * length ^ 2) / 36) (mass * (base ^ 2 + height ^ 2) / 18)
    (mass * (2 * base ^ 2 + 3 * length ^ 2) / 36)

/-- inertia.py:418-433 -/
noncomputable def isocelesWedge (base height length density : ℝ) : Inertia :=
  let vol := base * height * length / 2
  let mass := density * vol
  mk mass (mass * (2 * height ^ 2 + 3 * length ^ 2) / 36) (mass * (4 * height ^ 2 + 3 * base ^ 2) / 72)
    (mass * (2 * length ^ 2 + base ^ 2) / 24)

/-- inertia.py:436-455 -/
noncomputable def rightRectangularPyramid (a b height density : ℝ) : Inertia :=
  let vol := a * b * height / 3
  let mass := density * vol
  mk mass (mass * (b ^ 2 + 3 * height ^ 2 / 4) / 20) (mass * (a ^ 2 + 3 * height ^ 2 / 4) / 20)
    (mass * (a ^ 2 + b ^ 2) / 20)

/-- inertia.py:458-470 -/
noncomputable def cube (a density : ℝ) : Inertia :=
  let vol := a ^ 3
  let mass := density * vol
  let ixx := mass * a ^ 2 / 6
  mk mass ixx ixx ixx

/-- inertia.py:473-494 -/
noncomputable def rectangularPrism (a b h density : ℝ) : Inertia :=
  let vol := a * b * h
  let mass := density * vol
  mk mass (mass * (b ^ 2 + h ^ 2) / 12) (mass * (a ^ 2 + h ^ 2) / 12) (mass * (a ^ 2 + b ^ 2) / 12)

/-- inertia.py:497-516 -/
noncomputable def circularConeShell (R height density thickness : ℝ) : Inertia :=
  let surface := pi * R * sqrt (R ^ 2 + height ^ 2)
  let sigma := density * thickness
  let mass := sigma * surface
  let ixx := mass * (R ^ 2 + 2 * height ^ 2 / 9) / 4
  mk mass ixx ixx (mass * R ^ 2 / 2)

/-- inertia.py:519-538 -/
noncomputable def frustrumOfCircularConeShell (r R height density thickness : ℝ) : Inertia :=
  let surface := pi * (R + r) * sqrt (height ^ 2 + (R - r) ^ 2)
  let sigma := density * thickness
  let mass := sigma * surface
  let ixx := mass * (R ^ 2 + r ^ 2) / 4 + mass * height ^ 2 * (1 + 2 * R * r / (R + r) ^ 2) / 18
  mk mass ixx ixx (mass * (R ^ 2 + r ^ 2) / 2)

/-- inertia.py:541-556 -/
noncomputable def lateralCylindricalShell (R H density thickness : ℝ) : Inertia :=
  let surface := 2 * pi * R * H
  let sigma := density * thickness
  let mass := sigma * surface
  let ixx := mass * (R ^ 2 + H ^ 2 / 6) / 2
  mk mass ixx ixx (mass * R ^ 2)

/-- inertia.py:559-574 -/
noncomputable def totalCylindricalShell (R H density thickness : ℝ) : Inertia :=
  let surface := 2 * pi * R * (R + H)
  let sigma := density * thickness
  let mass := sigma * surface
  let ixx := mass * (2 * R ^ 2 * (R + 2 * H) + H ^ 2 * (3 * R + H)) / 12 / (R + H)
  mk mass ixx ixx (mass * R ^ 2 * ((R + 2 * H) / (R + H)) / 2)

/-- inertia.py:577-590 -/
noncomputable def sphericalShell (R density thickness : ℝ) : Inertia :=
  let surface := 4 * pi * R ^ 2
  let sigma := density * thickness
  let mass := sigma * surface
  let ixx := 2 * mass * R ^ 2 / 3
  mk mass ixx ixx ixx

/-- inertia.py:593-611 -/
noncomputable def hemisphericalShell (R density thickness : ℝ) : Inertia :=
  let surface := 2 * pi * R ^ 2
  let sigma := density * thickness
  let mass := sigma * surface
  let ixx := 5 * mass * R ^ 2 / 12
  mk mass ixx ixx (2 * mass * R ^ 2 / 3)

end MM.Shapes
