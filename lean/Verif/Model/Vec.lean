import Mathlib.Algebra.Module.Basic
import Mathlib.Algebra.Field.Basic
import Mathlib.Algebra.Order.Field.Basic
import Mathlib.Algebra.Order.Ring.Abs
import Mathlib.Tactic.Ring
import Mathlib.Tactic.Abel
import Mathlib.Tactic.FinCases
import Mathlib.Tactic.Linarith

/-!
# Vectors and matrices of dimension three

Model of the numpy `(3,)` and `(3, 3)` float arrays used everywhere in meshmagick.
A vector has three coordinates in `K`; `K` stands for the Python floats (idealised as an exact
ordered field or as `ℝ`, see DESIGN.md).
-/

namespace MM

/-- A numpy array of shape `(3,)`: one vertex, one normal, one centre... -/
@[ext]
structure V3 (K : Type*) where
  x : K
  y : K
  z : K
deriving DecidableEq, Repr

namespace V3

variable {K : Type*}

section Ring
variable [CommRing K]

instance : Zero (V3 K) := ⟨⟨0, 0, 0⟩⟩
instance : Add (V3 K) := ⟨fun u v => ⟨u.x + v.x, u.y + v.y, u.z + v.z⟩⟩
instance : Sub (V3 K) := ⟨fun u v => ⟨u.x - v.x, u.y - v.y, u.z - v.z⟩⟩
instance : Neg (V3 K) := ⟨fun u => ⟨-u.x, -u.y, -u.z⟩⟩
instance : SMul K (V3 K) := ⟨fun a u => ⟨a * u.x, a * u.y, a * u.z⟩⟩
instance : SMul ℕ (V3 K) := ⟨fun a u => ⟨a • u.x, a • u.y, a • u.z⟩⟩
instance : SMul ℤ (V3 K) := ⟨fun a u => ⟨a • u.x, a • u.y, a • u.z⟩⟩

set_option linter.unusedSectionVars false

@[simp] theorem zero_x : (0 : V3 K).x = 0 := rfl
@[simp] theorem zero_y : (0 : V3 K).y = 0 := rfl
@[simp] theorem zero_z : (0 : V3 K).z = 0 := rfl
@[simp] theorem add_x (u v : V3 K) : (u + v).x = u.x + v.x := rfl
@[simp] theorem add_y (u v : V3 K) : (u + v).y = u.y + v.y := rfl
@[simp] theorem add_z (u v : V3 K) : (u + v).z = u.z + v.z := rfl
@[simp] theorem sub_x (u v : V3 K) : (u - v).x = u.x - v.x := rfl
@[simp] theorem sub_y (u v : V3 K) : (u - v).y = u.y - v.y := rfl
@[simp] theorem sub_z (u v : V3 K) : (u - v).z = u.z - v.z := rfl
@[simp] theorem neg_x (u : V3 K) : (-u).x = -u.x := rfl
@[simp] theorem neg_y (u : V3 K) : (-u).y = -u.y := rfl
@[simp] theorem neg_z (u : V3 K) : (-u).z = -u.z := rfl
@[simp] theorem smul_x (a : K) (u : V3 K) : (a • u).x = a * u.x := rfl
@[simp] theorem smul_y (a : K) (u : V3 K) : (a • u).y = a * u.y := rfl
@[simp] theorem smul_z (a : K) (u : V3 K) : (a • u).z = a * u.z := rfl
@[simp] theorem nsmul_x (a : ℕ) (u : V3 K) : (a • u).x = a • u.x := rfl
@[simp] theorem nsmul_y (a : ℕ) (u : V3 K) : (a • u).y = a • u.y := rfl
@[simp] theorem nsmul_z (a : ℕ) (u : V3 K) : (a • u).z = a • u.z := rfl
@[simp] theorem zsmul_x (a : ℤ) (u : V3 K) : (a • u).x = a • u.x := rfl
@[simp] theorem zsmul_y (a : ℤ) (u : V3 K) : (a • u).y = a • u.y := rfl
@[simp] theorem zsmul_z (a : ℤ) (u : V3 K) : (a • u).z = a • u.z := rfl

theorem coords_injective : Function.Injective (fun u : V3 K => (u.x, u.y, u.z)) := by
  intro u v h
  simp only [Prod.mk.injEq] at h
  exact V3.ext h.1 h.2.1 h.2.2

instance : AddCommGroup (V3 K) where
  add_assoc u v w := by ext <;> simp [add_assoc]
  zero_add u := by ext <;> simp
  add_zero u := by ext <;> simp
  add_comm u v := by ext <;> simp [add_comm]
  neg_add_cancel u := by ext <;> simp
  sub_eq_add_neg u v := by ext <;> simp [sub_eq_add_neg]
  nsmul := fun n u => n • u
  nsmul_zero u := by ext <;> simp
  nsmul_succ n u := by ext <;> simp [add_mul]
  zsmul := fun n u => n • u
  zsmul_zero' u := by ext <;> simp
  zsmul_succ' n u := by ext <;> simp [add_mul]
  zsmul_neg' n u := by ext <;> simp [Int.negSucc_eq] <;> ring

instance : Module K (V3 K) where
  one_smul u := by ext <;> simp
  mul_smul a b u := by ext <;> simp [mul_assoc]
  smul_zero a := by ext <;> simp
  smul_add a u v := by ext <;> simp [mul_add]
  add_smul a b u := by ext <;> simp [add_mul]
  zero_smul u := by ext <;> simp

/-- `np.dot(u, v)` on 3-vectors. -/
def dot (u v : V3 K) : K := u.x * v.x + u.y * v.y + u.z * v.z

/-- `np.cross(u, v)` on 3-vectors. -/
def cross (u v : V3 K) : V3 K :=
  ⟨u.y * v.z - u.z * v.y, u.z * v.x - u.x * v.z, u.x * v.y - u.y * v.x⟩

/-- Squared euclidean norm. -/
def normSq (u : V3 K) : K := dot u u

end Ring

/-- `k`-th coordinate, `v[k]`. -/
def coord (u : V3 K) : Fin 3 → K
  | 0 => u.x
  | 1 => u.y
  | 2 => u.z

@[simp] theorem coord_zero (u : V3 K) : u.coord 0 = u.x := rfl
@[simp] theorem coord_one (u : V3 K) : u.coord 1 = u.y := rfl
@[simp] theorem coord_two (u : V3 K) : u.coord 2 = u.z := rfl

/-- The vector with given coordinates. -/
def ofCoord (f : Fin 3 → K) : V3 K := ⟨f 0, f 1, f 2⟩

@[simp] theorem ofCoord_coord (u : V3 K) : ofCoord u.coord = u := rfl
@[simp] theorem coord_ofCoord (f : Fin 3 → K) : (ofCoord f).coord = f := by
  funext i
  match i with
  | 0 => rfl
  | 1 => rfl
  | 2 => rfl

theorem coord_inj {u v : V3 K} : u.coord = v.coord ↔ u = v := by
  constructor
  · intro h; rw [← ofCoord_coord u, h, ofCoord_coord]
  · rintro rfl; rfl

end V3

/-- A numpy array of shape `(3, 3)`, row by row. -/
@[ext]
structure M3 (K : Type*) where
  r0 : V3 K
  r1 : V3 K
  r2 : V3 K
deriving DecidableEq, Repr

namespace M3

variable {K : Type*} [CommRing K]

/-- `np.eye(3)` -/
def one : M3 K := ⟨⟨1, 0, 0⟩, ⟨0, 1, 0⟩, ⟨0, 0, 1⟩⟩

/-- Columns. -/
def c0 (m : M3 K) : V3 K := ⟨m.r0.x, m.r1.x, m.r2.x⟩
def c1 (m : M3 K) : V3 K := ⟨m.r0.y, m.r1.y, m.r2.y⟩
def c2 (m : M3 K) : V3 K := ⟨m.r0.z, m.r1.z, m.r2.z⟩

/-- `m.T` -/
def transpose (m : M3 K) : M3 K := ⟨m.c0, m.c1, m.c2⟩

/-- `np.dot(m, v)` -/
def mulVec (m : M3 K) (v : V3 K) : V3 K := ⟨m.r0.dot v, m.r1.dot v, m.r2.dot v⟩

/-- `np.dot(m, n)` -/
def mul (m n : M3 K) : M3 K :=
  ⟨⟨m.r0.dot n.c0, m.r0.dot n.c1, m.r0.dot n.c2⟩,
   ⟨m.r1.dot n.c0, m.r1.dot n.c1, m.r1.dot n.c2⟩,
   ⟨m.r2.dot n.c0, m.r2.dot n.c1, m.r2.dot n.c2⟩⟩

/-- `m + n` -/
def add (m n : M3 K) : M3 K := ⟨m.r0 + n.r0, m.r1 + n.r1, m.r2 + n.r2⟩

/-- `a * m` -/
def smul (a : K) (m : M3 K) : M3 K := ⟨a • m.r0, a • m.r1, a • m.r2⟩

/-- Determinant. -/
def det (m : M3 K) : K := m.r0.dot (m.r1.cross m.r2)

/-- Proper rotation: orthogonal with determinant one. -/
structure IsRotation (m : M3 K) : Prop where
  orth : m.transpose.mul m = one
  orth' : m.mul m.transpose = one
  det_one : m.det = 1

end M3

end MM
