import Verif.Model.Vec
import Verif.Model.Mesh

/-!
# Specification: the integrals over a body delimited by triangles, and the sizes of their terms

The flux form of the integrals over a body: `∫ x² n_x dS`, ... on a triangle, and the same expressions with absolute values, which
measure the size of the numbers involved in the computation.
-/

namespace MM

variable {K : Type*} [Field K] [LinearOrder K]

/-- A value computed in floating point: `x` is within `((1 + u) ^ n - 1) * A` of the exact value `y`, which is at most `A`. -/
def Err (u : K) (n : ℕ) (A x y : K) : Prop := |y| ≤ A ∧ |x - y| ≤ ((1 + u) ^ n - 1) * A

/-- Sums of all the products of one, two, three of the three numbers. -/
def h1 (a b c : K) : K := a + b + c
def h2 (a b c : K) : K := a ^ 2 + b ^ 2 + c ^ 2 + a * b + b * c + a * c
def h3 (a b c : K) : K := a ^ 3 + b ^ 3 + c ^ 3 + a ^ 2 * b + a ^ 2 * c + b ^ 2 * a + b ^ 2 * c + c ^ 2 * a + c ^ 2 * b + a * b * c
/-- The mixed products: sixty times the mean of `y x²` on a triangle. -/
def hmix (y0 y1 y2 a b c : K) : K :=
  y0 * (h2 a b c + a * (h1 a b c + a)) + y1 * (h2 a b c + b * (h1 a b c + b)) + y2 * (h2 a b c + c * (h1 a b c + c))

/-- `(q - p) ∧ (r - p)`, twice the area vector. -/
def areaV (p q r : V3 K) : V3 K := (q - p).cross (r - p)

/-- The vector product with absolute values. -/
def absCross (a b : V3 K) : V3 K :=
  ⟨|a.y| * |b.z| + |a.z| * |b.y|, |a.z| * |b.x| + |a.x| * |b.z|, |a.x| * |b.y| + |a.y| * |b.x|⟩
def absAreaV (p q r : V3 K) : V3 K := absCross (q - p) (r - p)

/-- Fluxes through a triangle: `∫ x n_x`, `∫ y n_y`, `∫ z n_z`; the same with squares, cubes; `∫ x² y n_x`, `∫ y² z n_y`,
`∫ z² x n_z`. -/
def flux1 (p q r : V3 K) : V3 K :=
  ⟨(areaV p q r).x * h1 p.x q.x r.x / 6, (areaV p q r).y * h1 p.y q.y r.y / 6, (areaV p q r).z * h1 p.z q.z r.z / 6⟩
def flux2 (p q r : V3 K) : V3 K :=
  ⟨(areaV p q r).x * h2 p.x q.x r.x / 12, (areaV p q r).y * h2 p.y q.y r.y / 12, (areaV p q r).z * h2 p.z q.z r.z / 12⟩
def flux3 (p q r : V3 K) : V3 K :=
  ⟨(areaV p q r).x * h3 p.x q.x r.x / 20, (areaV p q r).y * h3 p.y q.y r.y / 20, (areaV p q r).z * h3 p.z q.z r.z / 20⟩
def fluxMix (p q r : V3 K) : V3 K :=
  ⟨(areaV p q r).x * hmix p.y q.y r.y p.x q.x r.x / 60, (areaV p q r).y * hmix p.z q.z r.z p.y q.y r.y / 60,
    (areaV p q r).z * hmix p.x q.x r.x p.z q.z r.z / 60⟩

/-- The same with absolute values. -/
def size1 (p q r : V3 K) : V3 K :=
  ⟨(absAreaV p q r).x * h1 |p.x| |q.x| |r.x| / 6, (absAreaV p q r).y * h1 |p.y| |q.y| |r.y| / 6,
    (absAreaV p q r).z * h1 |p.z| |q.z| |r.z| / 6⟩
def size2 (p q r : V3 K) : V3 K :=
  ⟨(absAreaV p q r).x * h2 |p.x| |q.x| |r.x| / 12, (absAreaV p q r).y * h2 |p.y| |q.y| |r.y| / 12,
    (absAreaV p q r).z * h2 |p.z| |q.z| |r.z| / 12⟩
def size3 (p q r : V3 K) : V3 K :=
  ⟨(absAreaV p q r).x * h3 |p.x| |q.x| |r.x| / 20, (absAreaV p q r).y * h3 |p.y| |q.y| |r.y| / 20,
    (absAreaV p q r).z * h3 |p.z| |q.z| |r.z| / 20⟩
def sizeMix (p q r : V3 K) : V3 K :=
  ⟨(absAreaV p q r).x * hmix |p.y| |q.y| |r.y| |p.x| |q.x| |r.x| / 60,
    (absAreaV p q r).y * hmix |p.z| |q.z| |r.z| |p.y| |q.y| |r.y| / 60,
    (absAreaV p q r).z * hmix |p.x| |q.x| |r.x| |p.z| |q.z| |r.z| / 60⟩

/-- The sum over the faces of a function of their first three corners. -/
def Mesh.triSum (m : Mesh K) (g : V3 K → V3 K → V3 K → K) : K :=
  (m.faces.map (fun f => g (m.vert f.a) (m.vert f.b) (m.vert f.c))).sum

end MM
