import Verif.Model.AreaFl
import Verif.Model.InertiaQuadFl

/-!
# Model of the inertia of a shell in floating point

As in `Model/VolumeFl.lean`: every operation is followed by a rounding `rnd`, the terms are added in any order, `nrm` is
`np.linalg.norm` of a row.
-/

namespace MM

variable {K : Type*} [Field K] [LinearOrder K]

section
variable (rnd : K → K)

/-- `6.*p0.y*p0.z + 3*(p1.y*p1.z + p2.y*p2.z) - p0.y*f1.z - p0.z*f1.y` (mesh.py:2090-2092) for two coordinates of the three points. -/
def prodFl (y0 y1 y2 z0 z1 z2 : K) : K :=
  rnd (rnd (rnd (rnd (rnd (6 * y0) * z0) + rnd (3 * rnd (rnd (y1 * z1) + rnd (y2 * z2)))) - rnd (y0 * f1Fl rnd z0 z1 z2)) -
    rnd (z0 * f1Fl rnd y0 y1 y2))

namespace Mesh

/-- A row of the integrals of a face (mesh.py:1881-1908), from its polynomial on a triangle and its divisor: a quadrangle is the sum of
two triangles. -/
def rowFl (nrm : V3 K → K) (m : Mesh K) (fl : V3 K → V3 K → V3 K → K) (q : K) (f : Face) : K :=
  let p0 := m.vert f.a
  let p1 := m.vert f.b
  let p2 := m.vert f.c
  let p3 := m.vert f.d
  if f.a = f.d then integralFl rnd nrm (triCrossFl rnd p0 p1 p2) (fl p0 p1 p2) q
  else rnd (integralFl rnd nrm (triCrossFl rnd p0 p1 p2) (fl p0 p1 p2) q +
    integralFl rnd nrm (triCrossFl rnd p0 p2 p3) (fl p0 p2 p3) q)

/-- `s` may be the sum of a row of `get_surface_integrals()` (mesh.py:2015). -/
def RowSumFl (nrm : V3 K → K) (m : Mesh K) (fl : V3 K → V3 K → V3 K → K) (q s : K) : Prop :=
  SumFl rnd (m.faces.map (m.rowFl rnd nrm fl q)) s

/-- `r` may be the result of `eval_shell_mesh_inertias(rho, thickness)` (mesh.py:2008-2026). -/
def ShellFl (nrm : V3 K → K) (m : Mesh K) (rho thickness : K) (r : Plain K) : Prop :=
  ∃ A s0 s1 s2 s3 s4 s5 s6 s7 s8, m.AreaFl rnd nrm A ∧
    m.RowSumFl rnd nrm (fun p q r => f1Fl rnd p.x q.x r.x) 6 s0 ∧ m.RowSumFl rnd nrm (fun p q r => f1Fl rnd p.y q.y r.y) 6 s1 ∧
    m.RowSumFl rnd nrm (fun p q r => f1Fl rnd p.z q.z r.z) 6 s2 ∧
    m.RowSumFl rnd nrm (fun p q r => prodFl rnd p.y q.y r.y p.z q.z r.z) 12 s3 ∧
    m.RowSumFl rnd nrm (fun p q r => prodFl rnd p.x q.x r.x p.z q.z r.z) 12 s4 ∧
    m.RowSumFl rnd nrm (fun p q r => prodFl rnd p.x q.x r.x p.y q.y r.y) 12 s5 ∧
    m.RowSumFl rnd nrm (fun p q r => f2Fl rnd p.x q.x r.x) 12 s6 ∧ m.RowSumFl rnd nrm (fun p q r => f2Fl rnd p.y q.y r.y) 12 s7 ∧
    m.RowSumFl rnd nrm (fun p q r => f2Fl rnd p.z q.z r.z) 12 s8 ∧
    r = { mass := rnd (rnd (rho * thickness) * A)
          cog := ⟨rnd (s0 / A), rnd (s1 / A), rnd (s2 / A)⟩
          xx := rnd (rnd (rho * thickness) * rnd (s7 + s8))
          yy := rnd (rnd (rho * thickness) * rnd (s6 + s8))
          zz := rnd (rnd (rho * thickness) * rnd (s6 + s7))
          yz := rnd (rnd (rho * thickness) * s3)
          xz := rnd (rnd (rho * thickness) * s4)
          xy := rnd (rnd (rho * thickness) * s5) }

end Mesh
end
end MM
