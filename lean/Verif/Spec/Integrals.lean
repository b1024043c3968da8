import Verif.Spec.Closed
import Mathlib.MeasureTheory.Integral.IntervalIntegral.Basic
import Mathlib.Analysis.Real.Sqrt

/-!
# Specification: integrals over triangles and tetrahedra

Both are defined by the usual change of variables from the reference triangle and tetrahedron, with the
interval integral of Mathlib.
-/

namespace MM

open MeasureTheory

/-- Surface integral of `f` over the triangle `p q r`: the Jacobian `|(q - p) × (r - p)|` times the integral
over the reference triangle `u, v ≥ 0, u + v ≤ 1`. -/
noncomputable def triangleIntegral (f : V3 ℝ → ℝ) (p q r : V3 ℝ) : ℝ :=
  Real.sqrt ((q - p).cross (r - p)).normSq *
    ∫ u in (0 : ℝ)..1, ∫ v in (0 : ℝ)..(1 - u), f (p + u • (q - p) + v • (r - p))

/-- Volume integral of `f` over the oriented tetrahedron `0 p q r`: the signed Jacobian `det (p, q, r)`
times the integral over the reference tetrahedron. -/
noncomputable def coneIntegral (f : V3 ℝ → ℝ) (p q r : V3 ℝ) : ℝ :=
  p.dot (q.cross r) *
    ∫ u in (0 : ℝ)..1, ∫ v in (0 : ℝ)..(1 - u), ∫ w in (0 : ℝ)..(1 - u - v), f (u • p + v • q + w • r)

/-- Volume integral of `f` over the oriented tetrahedron `o p q r`. -/
noncomputable def tetIntegral (f : V3 ℝ → ℝ) (o p q r : V3 ℝ) : ℝ :=
  coneIntegral (fun x => f (o + x)) (p - o) (q - o) (r - o)

/-- Sum over a face of a quantity attached to oriented triangles; a quadrangle `a b c d` is `a b c` and
`a c d`. -/
noncomputable def Mesh.faceSum (m : Mesh ℝ) (T : V3 ℝ → V3 ℝ → V3 ℝ → ℝ) (f : Face) : ℝ :=
  if f.a = f.d then T (m.vert f.a) (m.vert f.b) (m.vert f.c)
  else T (m.vert f.a) (m.vert f.b) (m.vert f.c) + T (m.vert f.a) (m.vert f.c) (m.vert f.d)

/-- Sum over the faces of a mesh of a quantity attached to oriented triangles. -/
noncomputable def Mesh.surfaceSum (m : Mesh ℝ) (T : V3 ℝ → V3 ℝ → V3 ℝ → ℝ) : ℝ :=
  (m.faces.map (m.faceSum T)).sum

/-- Integral of `g` over the solid delimited by the mesh: the sum of the integrals over the signed
tetrahedra joining the apex `o` to the faces. -/
noncomputable def Mesh.solidIntegral (m : Mesh ℝ) (o : V3 ℝ) (g : V3 ℝ → ℝ) : ℝ :=
  m.surfaceSum (tetIntegral g o)

/-- Integral of `g` over the faces. -/
noncomputable def Mesh.shellIntegral (m : Mesh ℝ) (g : V3 ℝ → ℝ) : ℝ :=
  m.surfaceSum (triangleIntegral g)

/-- Inertia matrix about the origin of a distribution of matter with the given integral operator. -/
def inertiaMatrix (integral : (V3 ℝ → ℝ) → ℝ) : M3 ℝ :=
  ⟨⟨integral (fun p => p.y ^ 2 + p.z ^ 2), -integral (fun p => p.x * p.y), -integral (fun p => p.x * p.z)⟩,
   ⟨-integral (fun p => p.x * p.y), integral (fun p => p.x ^ 2 + p.z ^ 2), -integral (fun p => p.y * p.z)⟩,
   ⟨-integral (fun p => p.x * p.z), -integral (fun p => p.y * p.z), integral (fun p => p.x ^ 2 + p.y ^ 2)⟩⟩

end MM
