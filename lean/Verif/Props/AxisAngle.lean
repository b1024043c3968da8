import Verif.Model.AxisAngle
import Verif.Spec.AxisAngle
import Verif.Props.Rotations

/-!
# Axis and angle of a rotation matrix (C114)
-/

namespace MM

open Real

/-- What a matrix that turns the vectors is. -/
lemma matrix_of_turned {r : M3 ℝ} {n : V3 ℝ} {a : ℝ} (h : ∀ v, r.mulVec v = turned n a v) :
    r = ⟨⟨cos a + (1 - cos a) * (n.x * n.x), (1 - cos a) * (n.x * n.y) - sin a * n.z,
        (1 - cos a) * (n.x * n.z) + sin a * n.y⟩,
      ⟨(1 - cos a) * (n.x * n.y) + sin a * n.z, cos a + (1 - cos a) * (n.y * n.y),
        (1 - cos a) * (n.y * n.z) - sin a * n.x⟩,
      ⟨(1 - cos a) * (n.x * n.z) - sin a * n.y, (1 - cos a) * (n.y * n.z) + sin a * n.x,
        cos a + (1 - cos a) * (n.z * n.z)⟩⟩ := by
  obtain ⟨⟨a1, a2, a3⟩, ⟨b1, b2, b3⟩, ⟨c1, c2, c3⟩⟩ := r
  have h1 := h ⟨1, 0, 0⟩
  have h2 := h ⟨0, 1, 0⟩
  have h3 := h ⟨0, 0, 1⟩
  simp only [M3.mulVec, turned, V3.dot, V3.cross, V3.ext_iff, V3.add_x, V3.add_y, V3.add_z, V3.smul_x, V3.smul_y,
    V3.smul_z] at h1 h2 h3
  obtain ⟨h11, h12, h13⟩ := h1
  obtain ⟨h21, h22, h23⟩ := h2
  obtain ⟨h31, h32, h33⟩ := h3
  simp only [M3.mk.injEq, V3.mk.injEq]
  refine ⟨⟨?_, ?_, ?_⟩, ⟨?_, ?_, ?_⟩, ⟨?_, ?_, ?_⟩⟩ <;> linarith

/-- **C114 (any rotation).** For the matrix of the rotation of an angle `a`, `0 < a < π`, about a unit axis, the function
returns this angle and this axis. -/
theorem C114_recovers (r : M3 ℝ) (n : V3 ℝ) (a : ℝ) (hn : n.normSq = 1) (h0 : 0 < a) (h1 : a < π)
    (h : ∀ v, r.mulVec v = turned n a v) : axisAngleFromRotmat r = .ok (a, n) := by
  have hr := matrix_of_turned h
  subst hr
  have hn' : n.x * n.x + n.y * n.y + n.z * n.z = 1 := hn
  have hx : (cos a + (1 - cos a) * (n.x * n.x) + (cos a + (1 - cos a) * (n.y * n.y)) +
      (cos a + (1 - cos a) * (n.z * n.z)) - 1) * (1 / 2) = cos a := by
    linear_combination ((1 - cos a) / 2) * hn'
  have hs : 0 < sin a := sin_pos_of_pos_of_lt_pi h0 h1
  unfold axisAngleFromRotmat
  simp only [hx]
  rw [if_neg (by have := neg_one_le_cos a; have := cos_le_one a; push_neg; constructor <;> linarith),
    arccos_cos h0.le h1.le, if_neg (by positivity)]
  congr 2
  ext <;> simp only [V3.smul_x, V3.smul_y, V3.smul_z] <;> field_simp <;> ring

lemma quat_turned {q0 q1 q2 q3 : ℝ} (hu : q0 * q0 + q1 * q1 + q2 * q2 + q3 * q3 = 1) (h0 : 0 < q0) (h1 : q0 * q0 < 1) :
    ∃ a n, 0 < a ∧ a < π ∧ n.normSq = 1 ∧ ∀ v, (quatMat ⟨q0, q1, q2, q3⟩).mulVec v = turned n a v := by
  set L := √(1 - q0 * q0) with hL
  have hL0 : 0 < L := Real.sqrt_pos.2 (by linarith)
  have hL2 : L * L = 1 - q0 * q0 := Real.mul_self_sqrt (by linarith)
  have hc : cos (arccos (2 * (q0 * q0) - 1)) = 2 * (q0 * q0) - 1 := cos_arccos (by nlinarith) (by nlinarith)
  have hs : sin (arccos (2 * (q0 * q0) - 1)) = 2 * (q0 * L) := by
    rw [sin_arccos, show 1 - (2 * (q0 * q0) - 1) ^ 2 = (2 * (q0 * L)) ^ 2 by
      rw [show (2 * (q0 * L)) ^ 2 = 4 * (q0 * q0) * (L * L) by ring, hL2]; ring]
    exact Real.sqrt_sq (by positivity)
  refine ⟨arccos (2 * (q0 * q0) - 1), (1 / L) • ⟨q1, q2, q3⟩, ?_, ?_, ?_, ?_⟩
  · exact arccos_pos.2 (by nlinarith)
  · refine lt_of_le_of_ne (arccos_le_pi _) fun h => ?_
    rw [h, cos_pi] at hc
    nlinarith
  · have : q1 * q1 + q2 * q2 + q3 * q3 = L * L := by rw [hL2]; linarith
    show (1 / L * q1) * (1 / L * q1) + (1 / L * q2) * (1 / L * q2) + (1 / L * q3) * (1 / L * q3) = 1
    field_simp
    nlinarith
  · intro v
    have e2 : (1 - (2 * (q0 * q0) - 1)) = 2 * (L * L) := by rw [hL2]; ring
    unfold turned
    rw [hc, hs, e2]
    ext <;> simp only [M3.mulVec, quatMat, V3.dot, V3.cross, V3.add_x, V3.add_y, V3.add_z, V3.smul_x, V3.smul_y,
      V3.smul_z] <;> field_simp <;> ring

/-- **C114 (every matrix).** For a rotation matrix which is not symmetric, the function returns an angle strictly between 0
and π and a unit vector, and the matrix turns every vector by this angle about this vector. For a symmetric one (no
rotation, or half turns) it raises an error. -/
theorem C114_axis_angle (r : M3 ℝ) (hr : r.IsRotation) :
    (r.transpose ≠ r → ∃ a n, axisAngleFromRotmat r = .ok (a, n) ∧ 0 < a ∧ a < π ∧ n.normSq = 1 ∧
      ∀ v, r.mulVec v = turned n a v) ∧
    (r.transpose = r → axisAngleFromRotmat r = .error .zeroDivision) := by
  obtain ⟨q0, q1, q2, q3, hu, rfl⟩ : ∃ q0 q1 q2 q3 : ℝ, q0 * q0 + q1 * q1 + q2 * q2 + q3 * q3 = 1 ∧
      r = quatMat ⟨q0, q1, q2, q3⟩ :=
    ⟨_, _, _, _, rotmatToQuat_unit r hr, (quatMat_rotmatToQuat r hr).symm⟩
  have hsym : (quatMat ⟨q0, q1, q2, q3⟩).transpose = quatMat ⟨q0, q1, q2, q3⟩ ↔
      q0 * q1 = 0 ∧ q0 * q2 = 0 ∧ q0 * q3 = 0 := by
    simp only [M3.transpose, M3.c0, M3.c1, M3.c2, quatMat, M3.mk.injEq, V3.mk.injEq]
    constructor
    · rintro ⟨⟨-, h1, h2⟩, ⟨-, -, h3⟩, -⟩
      refine ⟨?_, ?_, ?_⟩ <;> linarith
    · rintro ⟨h1, h2, h3⟩
      refine ⟨⟨?_, ?_, ?_⟩, ⟨?_, ?_, ?_⟩, ⟨?_, ?_, ?_⟩⟩ <;> first | trivial | linarith
  constructor
  · intro hne
    have hq0 : q0 ≠ 0 := by
      rintro rfl
      exact hne (hsym.2 (by simp))
    have hlt : q0 * q0 < 1 := by
      by_contra hge
      have hz : q1 * q1 + q2 * q2 + q3 * q3 ≤ 0 := by linarith
      have z1 : q1 = 0 := by nlinarith [mul_self_nonneg q1, mul_self_nonneg q2, mul_self_nonneg q3]
      have z2 : q2 = 0 := by nlinarith [mul_self_nonneg q1, mul_self_nonneg q2, mul_self_nonneg q3]
      have z3 : q3 = 0 := by nlinarith [mul_self_nonneg q1, mul_self_nonneg q2, mul_self_nonneg q3]
      exact hne (hsym.2 (by simp [z1, z2, z3]))
    obtain ⟨a, n, h1, h2, h3, h4⟩ : ∃ a n, 0 < a ∧ a < π ∧ n.normSq = 1 ∧
        ∀ v, (quatMat ⟨q0, q1, q2, q3⟩).mulVec v = turned n a v := by
      rcases lt_or_gt_of_ne hq0 with h | h
      · have := quat_turned (q0 := -q0) (q1 := -q1) (q2 := -q2) (q3 := -q3) (by linarith) (by linarith) (by linarith)
        rwa [show (⟨-q0, -q1, -q2, -q3⟩ : Quat) = -⟨q0, q1, q2, q3⟩ from rfl, quatMat_neg] at this
      · exact quat_turned hu h hlt
    exact ⟨a, n, C114_recovers _ n a h3 h1 h2 h4, h1, h2, h3, h4⟩
  · intro h
    obtain ⟨h1, h2, h3⟩ := hsym.1 h
    unfold axisAngleFromRotmat
    have hx : ((q0 * q0 + q1 * q1) * 2 - 1 + ((q0 * q0 + q2 * q2) * 2 - 1) + ((q0 * q0 + q3 * q3) * 2 - 1) - 1) * (1 / 2) =
        2 * (q0 * q0) - 1 := by linear_combination hu
    simp only [quatMat, hx]
    by_cases hq0 : q0 = 0
    · subst hq0
      norm_num
    · have z1 : q1 = 0 := (mul_eq_zero.1 h1).resolve_left hq0
      have z2 : q2 = 0 := (mul_eq_zero.1 h2).resolve_left hq0
      have z3 : q3 = 0 := (mul_eq_zero.1 h3).resolve_left hq0
      subst z1 z2 z3
      have : q0 * q0 = 1 := by linarith
      rw [this]
      norm_num

/-- The hypotheses of C114 are met: the matrix exchanging the axes turns by 120 degrees, and is not symmetric. -/
theorem thirdTurn_meets_C114 : (⟨⟨0, 0, 1⟩, ⟨1, 0, 0⟩, ⟨0, 1, 0⟩⟩ : M3 ℝ).IsRotation ∧
    (⟨⟨0, 0, 1⟩, ⟨1, 0, 0⟩, ⟨0, 1, 0⟩⟩ : M3 ℝ).transpose ≠ ⟨⟨0, 0, 1⟩, ⟨1, 0, 0⟩, ⟨0, 1, 0⟩⟩ ∧
    (M3.one : M3 ℝ).IsRotation ∧ (M3.one : M3 ℝ).transpose = M3.one := by
  refine ⟨by apply M3.isRotation_of <;> norm_num, ?_, by unfold M3.one; apply M3.isRotation_of <;> norm_num, rfl⟩
  intro h
  have := congrArg (fun m : M3 ℝ => m.r0.y) h
  simp [M3.transpose, M3.c0, M3.c1, M3.c2] at this

end MM
