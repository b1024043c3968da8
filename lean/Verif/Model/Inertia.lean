import Verif.Model.FaceProps
import Mathlib.Analysis.SpecialFunctions.Trigonometric.Basic

/-!
# Model of inertia.py and of the inertia methods of `Mesh`

Numbers are reals; divisions by zero (numpy gives `inf`/`nan`) are Lean's `x / 0 = 0`, hence the theorems
assume the denominators are not zero.
-/

namespace MM

/-- `RigidBodyInertia` (inertia.py:18-58): mass, centre of gravity, reduction point, matrix.  Printing
(`__str__`) is not modelled. -/
@[ext] structure Inertia where
  mass : ℝ
  cog : V3 ℝ
  point : V3 ℝ
  mat : M3 ℝ

namespace Inertia

/-- `RigidBodyInertia.__init__` (inertia.py:42-58); `point = none` means the centre of gravity. -/
def init (mass : ℝ) (cog : V3 ℝ) (xx yy zz yz xz xy : ℝ) (point : Option (V3 ℝ) := none) : Inertia :=
  { mass := mass, cog := cog, point := point.getD cog,
    mat := ⟨⟨xx, -xy, -xz⟩, ⟨-xy, yy, -yz⟩, ⟨-xz, -yz, zz⟩⟩ }

/-- `_huygens_transport` (inertia.py:137-139). -/
def huygens (I : Inertia) : M3 ℝ :=
  let d := I.cog - I.point
  ⟨⟨I.mass * (d.dot d - d.x * d.x), I.mass * (0 - d.x * d.y), I.mass * (0 - d.x * d.z)⟩,
   ⟨I.mass * (0 - d.y * d.x), I.mass * (d.dot d - d.y * d.y), I.mass * (0 - d.y * d.z)⟩,
   ⟨I.mass * (0 - d.z * d.x), I.mass * (0 - d.z * d.y), I.mass * (d.dot d - d.z * d.z)⟩⟩

/-- `shift_at_cog` (inertia.py:119-125). The transport term is added. -/
def shiftAtCog (I : Inertia) : Inertia := { I with mat := I.mat.add I.huygens, point := I.cog }

/-- `at_cog` (inertia.py:92-104): a shifted copy. -/
def atCog (I : Inertia) : Inertia := I.shiftAtCog

/-- `reduction_point` setter (inertia.py:84-90). -/
def setReductionPoint (I : Inertia) (p : V3 ℝ) : Inertia :=
  let matAtCog := I.atCog.mat
  let J := { I with point := p }
  { J with mat := matAtCog.add J.huygens }

/-- `set_cog` (inertia.py:106-117). -/
def setCog (I : Inertia) (g : V3 ℝ) : Inertia := { I with cog := g }

/-- `is_at_cog` (inertia.py:127-135). -/
def isAtCog (I : Inertia) : Prop := I.point = I.cog

/-- The accessors `xx yy zz yz xz xy` (inertia.py:141-200). -/
def xx (I : Inertia) : ℝ := I.mat.r0.x
def yy (I : Inertia) : ℝ := I.mat.r1.y
def zz (I : Inertia) : ℝ := I.mat.r2.z
def yz (I : Inertia) : ℝ := -I.mat.r1.z
def xz (I : Inertia) : ℝ := -I.mat.r0.z
def xy (I : Inertia) : ℝ := -I.mat.r0.y

end Inertia

namespace Mesh

/-- `eval_plain_mesh_inertias` (mesh.py:1953-1990) of a mesh without cached values. -/
noncomputable def evalPlain (m : Mesh ℝ) (ρ : ℝ) : Inertia :=
  let volume := m.volume
  let mass := ρ * volume
  let s := normalWeighted m.facesProperties m.surfaceIntegrals 6 7 8
  let cog := (1 / (2 * volume)) • s
  let c := normalWeighted m.facesProperties m.surfaceIntegrals 9 10 11
  let d := normalWeighted m.facesProperties m.surfaceIntegrals 12 13 14
  Inertia.init mass cog (ρ * (c.y + c.z) / 3) (ρ * (c.x + c.z) / 3) (ρ * (c.x + c.y) / 3)
    (ρ * d.y / 2) (ρ * d.z / 2) (ρ * d.x / 2) (some 0)

/-- `eval_shell_mesh_inertias` (mesh.py:1992-2026) of a mesh without cached values. -/
noncomputable def evalShell (m : Mesh ℝ) (ρ thickness : ℝ) : Inertia :=
  let sd := ρ * thickness
  let surface := m.totalArea
  let mass := sd * surface
  let s := m.totalIntegrals
  let cog : V3 ℝ := (1 / surface) • ⟨s 0, s 1, s 2⟩
  Inertia.init mass cog (sd * (s 7 + s 8)) (sd * (s 6 + s 8)) (sd * (s 6 + s 7))
    (sd * s 3) (sd * s 4) (sd * s 5) (some 0)

end Mesh
end MM
