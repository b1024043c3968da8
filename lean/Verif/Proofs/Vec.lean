import Verif.Model.Vec
import Mathlib.Tactic.LinearCombination

/-!
# Algebra of `V3` and `M3`
-/

namespace MM

set_option linter.unusedSectionVars false

variable {K : Type*} [CommRing K]

namespace V3

theorem dot_comm (u v : V3 K) : u.dot v = v.dot u := by simp only [dot]; ring
theorem dot_add (u v w : V3 K) : u.dot (v + w) = u.dot v + u.dot w := by simp [dot]; ring
theorem add_dot (u v w : V3 K) : (u + v).dot w = u.dot w + v.dot w := by simp [dot]; ring
theorem dot_sub (u v w : V3 K) : u.dot (v - w) = u.dot v - u.dot w := by simp [dot]; ring
theorem sub_dot (u v w : V3 K) : (u - v).dot w = u.dot w - v.dot w := by simp [dot]; ring
theorem dot_smul (a : K) (u v : V3 K) : u.dot (a • v) = a * u.dot v := by simp [dot]; ring
theorem smul_dot (a : K) (u v : V3 K) : (a • u).dot v = a * u.dot v := by simp [dot]; ring
theorem dot_neg (u v : V3 K) : u.dot (-v) = - u.dot v := by simp [dot]; ring
theorem neg_dot (u v : V3 K) : (-u).dot v = - u.dot v := by simp [dot]; ring
@[simp] theorem zero_dot (u : V3 K) : (0 : V3 K).dot u = 0 := by simp [dot]
@[simp] theorem dot_zero (u : V3 K) : u.dot 0 = 0 := by simp [dot]

theorem cross_add (u v w : V3 K) : u.cross (v + w) = u.cross v + u.cross w := by
  ext <;> simp [cross] <;> ring
theorem add_cross (u v w : V3 K) : (u + v).cross w = u.cross w + v.cross w := by
  ext <;> simp [cross] <;> ring
theorem cross_sub (u v w : V3 K) : u.cross (v - w) = u.cross v - u.cross w := by
  ext <;> simp [cross] <;> ring
theorem sub_cross (u v w : V3 K) : (u - v).cross w = u.cross w - v.cross w := by
  ext <;> simp [cross] <;> ring
theorem smul_cross (a : K) (u v : V3 K) : (a • u).cross v = a • u.cross v := by
  ext <;> simp [cross] <;> ring
theorem cross_smul (a : K) (u v : V3 K) : u.cross (a • v) = a • u.cross v := by
  ext <;> simp [cross] <;> ring
theorem cross_anticomm (u v : V3 K) : u.cross v = - v.cross u := by
  ext <;> simp [cross] <;> ring
@[simp] theorem cross_self (u : V3 K) : u.cross u = 0 := by
  ext <;> simp [cross] <;> ring
@[simp] theorem zero_cross (u : V3 K) : (0 : V3 K).cross u = 0 := by ext <;> simp [cross]
@[simp] theorem cross_zero (u : V3 K) : u.cross 0 = 0 := by ext <;> simp [cross]
theorem neg_cross (u v : V3 K) : (-u).cross v = - u.cross v := by ext <;> simp [cross] <;> ring
theorem cross_neg (u v : V3 K) : u.cross (-v) = - u.cross v := by ext <;> simp [cross] <;> ring

@[simp] theorem normSq_neg (u : V3 K) : (-u).normSq = u.normSq := by simp [normSq, dot]
theorem normSq_smul (a : K) (u : V3 K) : (a • u).normSq = a ^ 2 * u.normSq := by
  simp [normSq, dot]; ring
@[simp] theorem normSq_zero : (0 : V3 K).normSq = 0 := by simp [normSq]
theorem normSq_sub_comm (u v : V3 K) : (u - v).normSq = (v - u).normSq := by
  simp [normSq, dot]; ring

theorem normSq_cross (u v : V3 K) : (u.cross v).normSq = u.normSq * v.normSq - (u.dot v) ^ 2 := by
  simp [normSq, dot, cross]; ring

theorem normSq_nonneg [LinearOrder K] [IsStrictOrderedRing K] (u : V3 K) : 0 ≤ u.normSq := by
  simp only [normSq, dot]; nlinarith [mul_self_nonneg u.x, mul_self_nonneg u.y, mul_self_nonneg u.z]

theorem normSq_eq_zero [LinearOrder K] [IsStrictOrderedRing K] {u : V3 K} : u.normSq = 0 ↔ u = 0 := by
  constructor
  · intro h
    simp only [normSq, dot] at h
    have hx := mul_self_nonneg u.x
    have hy := mul_self_nonneg u.y
    have hz := mul_self_nonneg u.z
    ext
    · exact mul_self_eq_zero.1 (by linarith)
    · exact mul_self_eq_zero.1 (by linarith)
    · exact mul_self_eq_zero.1 (by linarith)
  · rintro rfl; simp

theorem list_sum_x (l : List (V3 K)) : l.sum.x = (l.map V3.x).sum := by
  induction l with
  | nil => rfl
  | cons a l ih => simp [ih]
theorem list_sum_y (l : List (V3 K)) : l.sum.y = (l.map V3.y).sum := by
  induction l with
  | nil => rfl
  | cons a l ih => simp [ih]
theorem list_sum_z (l : List (V3 K)) : l.sum.z = (l.map V3.z).sum := by
  induction l with
  | nil => rfl
  | cons a l ih => simp [ih]
theorem list_sum_dot (l : List (V3 K)) (u : V3 K) : l.sum.dot u = (l.map (fun v => v.dot u)).sum := by
  induction l with
  | nil => simp
  | cons a l ih => simp [add_dot, ih]

end V3

namespace M3

@[simp] theorem one_mulVec (v : V3 K) : (one : M3 K).mulVec v = v := by
  ext <;> simp [one, mulVec, V3.dot]
theorem mul_mulVec (m n : M3 K) (v : V3 K) : (m.mul n).mulVec v = m.mulVec (n.mulVec v) := by
  ext <;> simp [mul, mulVec, V3.dot, c0, c1, c2] <;> ring
theorem mulVec_add (m : M3 K) (u v : V3 K) : m.mulVec (u + v) = m.mulVec u + m.mulVec v := by
  ext <;> simp [mulVec, V3.dot_add]
theorem mulVec_sub (m : M3 K) (u v : V3 K) : m.mulVec (u - v) = m.mulVec u - m.mulVec v := by
  ext <;> simp [mulVec, V3.dot_sub]
theorem mulVec_smul (m : M3 K) (a : K) (v : V3 K) : m.mulVec (a • v) = a • m.mulVec v := by
  ext <;> simp [mulVec, V3.dot_smul]
theorem dot_mulVec (m : M3 K) (u v : V3 K) : u.dot (m.mulVec v) = (m.transpose.mulVec u).dot v := by
  simp [mulVec, V3.dot, transpose, c0, c1, c2]; ring
@[simp] theorem transpose_transpose (m : M3 K) : m.transpose.transpose = m := rfl

theorem IsRotation.dot_mulVec {m : M3 K} (h : m.IsRotation) (u v : V3 K) :
    (m.mulVec u).dot (m.mulVec v) = u.dot v := by
  rw [M3.dot_mulVec, ← mul_mulVec, h.orth, one_mulVec]

theorem IsRotation.normSq_mulVec {m : M3 K} (h : m.IsRotation) (u : V3 K) :
    (m.mulVec u).normSq = u.normSq := h.dot_mulVec u u

theorem IsRotation.transpose {m : M3 K} (h : m.IsRotation) : m.transpose.IsRotation where
  orth := h.orth'
  orth' := h.orth
  det_one := by
    rw [← h.det_one]; simp [det, V3.dot, V3.cross, M3.transpose, c0, c1, c2]; ring

theorem IsRotation.transpose_mulVec {m : M3 K} (h : m.IsRotation) (u : V3 K) :
    m.transpose.mulVec (m.mulVec u) = u := by rw [← mul_mulVec, h.orth, one_mulVec]

theorem IsRotation.mulVec_transpose {m : M3 K} (h : m.IsRotation) (u : V3 K) :
    m.mulVec (m.transpose.mulVec u) = u := by rw [← mul_mulVec, h.orth', one_mulVec]

/-- Rows of a rotation form a direct basis. -/
theorem IsRotation.rows {m : M3 K} (h : m.IsRotation) :
    m.r1.cross m.r2 = m.r0 ∧ m.r2.cross m.r0 = m.r1 ∧ m.r0.cross m.r1 = m.r2 := by
  have key : ∀ w : V3 K, m.transpose.mulVec (m.mulVec w) = w := h.transpose_mulVec
  have d := h.det_one
  refine ⟨?_, ?_, ?_⟩
  · rw [← key (m.r1.cross m.r2)]
    have e : m.mulVec (m.r1.cross m.r2) = ⟨m.det, 0, 0⟩ := by
      ext <;> simp [mulVec, det, V3.dot, V3.cross] <;> ring
    rw [e, d]; ext <;> simp [mulVec, M3.transpose, V3.dot, c0, c1, c2]
  · rw [← key (m.r2.cross m.r0)]
    have e : m.mulVec (m.r2.cross m.r0) = ⟨0, m.det, 0⟩ := by
      ext <;> simp [mulVec, det, V3.dot, V3.cross] <;> ring
    rw [e, d]; ext <;> simp [mulVec, M3.transpose, V3.dot, c0, c1, c2]
  · rw [← key (m.r0.cross m.r1)]
    have e : m.mulVec (m.r0.cross m.r1) = ⟨0, 0, m.det⟩ := by
      ext <;> simp [mulVec, det, V3.dot, V3.cross] <;> ring
    rw [e, d]; ext <;> simp [mulVec, M3.transpose, V3.dot, c0, c1, c2]

theorem IsRotation.cross_mulVec {m : M3 K} (h : m.IsRotation) (u v : V3 K) :
    (m.mulVec u).cross (m.mulVec v) = m.mulVec (u.cross v) := by
  have gen : ∀ a b u v : V3 K, a.dot u * b.dot v - b.dot u * a.dot v = (a.cross b).dot (u.cross v) := by
    intro a b u v; simp [V3.dot, V3.cross]; ring
  obtain ⟨h0, h1, h2⟩ := h.rows
  ext
  · show m.r1.dot u * m.r2.dot v - m.r2.dot u * m.r1.dot v = m.r0.dot (u.cross v)
    rw [gen, h0]
  · show m.r2.dot u * m.r0.dot v - m.r0.dot u * m.r2.dot v = m.r1.dot (u.cross v)
    rw [gen, h1]
  · show m.r0.dot u * m.r1.dot v - m.r1.dot u * m.r0.dot v = m.r2.dot (u.cross v)
    rw [gen, h2]

end M3
end MM
