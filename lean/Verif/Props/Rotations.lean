import Verif.Proofs.Rotations
import Mathlib.Tactic.FieldSimp
import Mathlib.Tactic.Positivity

/-!
# Properties C34–C37: rotations
-/

namespace MM

set_option linter.unusedSectionVars false

open Real

theorem isClose_self (a : ℝ) : IsClose a a := by unfold IsClose; simp; positivity

theorem Quat.isUnit_of_normSq {q : Quat} (h : q.normSq = 1) : q.isUnit := by
  unfold Quat.isUnit; rw [h, Real.sqrt_one]; exact isClose_self 1

theorem V3.isUnit_of_normSq {v : V3 ℝ} (h : v.normSq = 1) : v.isUnit := by
  unfold V3.isUnit V3.norm; rw [h, Real.sqrt_one]; exact isClose_self 1

/-! ## C34 -/

theorem cardan_isRotation (phi theta psi : ℝ) : (cardanToRotmat phi theta psi).IsRotation := by
  have h1 := sin_sq_add_cos_sq phi
  have h2 := sin_sq_add_cos_sq theta
  have h3 := sin_sq_add_cos_sq psi
  unfold cardanToRotmat
  generalize sin phi = sp, cos phi = cp, sin theta = st, cos theta = ct, sin psi = ss, cos psi = cs at *
  apply M3.isRotation_of <;> grind

theorem quatMat_isRotation (q : Quat) (h : q.normSq = 1) : (quatMat q).IsRotation := by
  obtain ⟨a, b, c, d⟩ := q
  simp only [Quat.normSq] at h
  unfold quatMat
  apply M3.isRotation_of <;> grind

theorem axisAngle_unit (n : V3 ℝ) (hn : n.normSq = 1) (a : ℝ) :
    ∃ q, axisAngleToQuat n a = .ok q ∧ q.normSq = 1 := by
  refine ⟨_, by unfold axisAngleToQuat; rw [if_pos (V3.isUnit_of_normSq hn)], ?_⟩
  have h1 := sin_sq_add_cos_sq (1 / 2 * a)
  simp only [Quat.normSq]
  simp only [V3.normSq, V3.dot] at hn
  generalize sin (1 / 2 * a) = s, cos (1 / 2 * a) = c at *
  grind

theorem rodrigues_isRotation (tx ty : ℝ) : (rodrigues tx ty).IsRotation := by
  unfold rodrigues
  simp only
  by_cases h : Real.sqrt (tx * tx + ty * ty) = 0
  · simp only [h, if_true]
    apply M3.isRotation_of <;> norm_num
  · simp only [h, if_false]
    have hs : Real.sqrt (tx * tx + ty * ty) * Real.sqrt (tx * tx + ty * ty) = tx * tx + ty * ty :=
      Real.mul_self_sqrt (by nlinarith [mul_self_nonneg tx, mul_self_nonneg ty])
    have h1 := sin_sq_add_cos_sq (Real.sqrt (tx * tx + ty * ty))
    generalize Real.sqrt (tx * tx + ty * ty) = th at *
    have hn : (tx / th) * (tx / th) + (ty / th) * (ty / th) = 1 := by
      field_simp; linarith
    generalize tx / th = nx, ty / th = ny, sin th = s, cos th = c at *
    apply M3.isRotation_of <;> grind

theorem cardanOld_isRotation (phi theta : ℝ) : (cardanOld phi theta).IsRotation := by
  have h1 := sin_sq_add_cos_sq phi
  have h2 := sin_sq_add_cos_sq theta
  unfold cardanOld
  generalize sin phi = sp, cos phi = cp, sin theta = st, cos theta = ct at *
  apply M3.isRotation_of <;> grind

/-- **C34.** All the rotation matrices built by the package are orthogonal with determinant one: cardan
angles (used by `Mesh.rotate`), unit quaternions, unit axis and any angle, and the two conventions of
`_get_rotation_matrix`; and unit inputs are never rejected. -/
theorem C34_rotation_matrices :
    (∀ phi theta psi, (cardanToRotmat phi theta psi).IsRotation) ∧
    (∀ q : Quat, q.normSq = 1 → ∃ r, quatToRotmat q = .ok r ∧ r.IsRotation) ∧
    (∀ (n : V3 ℝ) (a : ℝ), n.normSq = 1 → ∃ r, axisAngleToRotmat n a = .ok r ∧ r.IsRotation) ∧
    (∀ (tx ty : ℝ) (s : String) (r : M3 ℝ), getRotationMatrix tx ty s = .ok r → r.IsRotation) := by
  refine ⟨cardan_isRotation, ?_, ?_, ?_⟩
  · intro q hq
    exact ⟨quatMat q, by unfold quatToRotmat; rw [if_pos (Quat.isUnit_of_normSq hq)],
      quatMat_isRotation q hq⟩
  · intro n a hn
    obtain ⟨q, hq, hu⟩ := axisAngle_unit n hn a
    refine ⟨quatMat q, ?_, quatMat_isRotation q hu⟩
    rw [axisAngleToRotmat, hq]
    show quatToRotmat q = _
    unfold quatToRotmat; rw [if_pos (Quat.isUnit_of_normSq hu)]
  · intro tx ty s r h
    unfold getRotationMatrix at h
    split_ifs at h
    · cases h; exact rodrigues_isRotation tx ty
    · cases h; exact cardanOld_isRotation tx ty

/-! ## C35 -/

theorem cos_atan2 {x y l : ℝ} (hl : 0 < l) (h : x * x + y * y = l * l) : l * cos (atan2 y x) = x := by
  have hn : ‖(⟨x, y⟩ : ℂ)‖ = l := by
    rw [Complex.norm_def, Complex.normSq_apply]
    simp only
    rw [h, Real.sqrt_mul_self hl.le]
  have := Complex.norm_mul_cos_arg (⟨x, y⟩ : ℂ)
  rw [hn] at this
  exact this

theorem sin_atan2 {x y l : ℝ} (hl : 0 < l) (h : x * x + y * y = l * l) : l * sin (atan2 y x) = y := by
  have hn : ‖(⟨x, y⟩ : ℂ)‖ = l := by
    rw [Complex.norm_def, Complex.normSq_apply]
    simp only
    rw [h, Real.sqrt_mul_self hl.le]
  have := Complex.norm_mul_sin_arg (⟨x, y⟩ : ℂ)
  rw [hn] at this
  exact this

theorem atan2_polar {l t : ℝ} (hl : 0 < l) (h1 : -π < t) (h2 : t ≤ π) :
    atan2 (l * sin t) (l * cos t) = t := by
  unfold atan2
  have : (⟨l * cos t, l * sin t⟩ : ℂ) = l * (Complex.cos t + Complex.sin t * Complex.I) := by
    apply Complex.ext
    · simp [Complex.cos_ofReal_re, Complex.sin_ofReal_im]
    · simp [Complex.sin_ofReal_re, Complex.cos_ofReal_im]
  rw [this]
  exact Complex.arg_mul_cos_add_sin_mul_I hl ⟨h1, h2⟩

theorem unit_row_one {g h i : ℝ} (e : g * g + h * h + i * i = 1) (hg : 1 ≤ g) :
    g = 1 ∧ h = 0 ∧ i = 0 := by
  have h1 := mul_self_nonneg h
  have h2 := mul_self_nonneg i
  have hg1 : g = 1 := by nlinarith
  subst hg1
  exact ⟨rfl, mul_self_eq_zero.1 (by linarith), mul_self_eq_zero.1 (by linarith)⟩

theorem unit_row_neg_one {g h i : ℝ} (e : g * g + h * h + i * i = 1) (hg : g ≤ -1) :
    g = -1 ∧ h = 0 ∧ i = 0 := by
  have := unit_row_one (g := -g) (h := h) (i := i) (by linarith) (by linarith)
  exact ⟨by linarith [this.1], this.2⟩

/-- **C35.** Going from a rotation matrix to cardan angles and back is the identity for every rotation
matrix, gimbal lock included; and going from angles in the principal ranges to a matrix and back is the
identity. -/
theorem C35_cardan_round_trip :
    (∀ r : M3 ℝ, r.IsRotation →
      cardanToRotmat (rotmatToCardan r).1 (rotmatToCardan r).2.1 (rotmatToCardan r).2.2 = r) ∧
    (∀ phi theta psi : ℝ, -π < phi → phi ≤ π → -(π / 2) < theta → theta < π / 2 → -π < psi → psi ≤ π →
      rotmatToCardan (cardanToRotmat phi theta psi) = (phi, theta, psi)) := by
  constructor
  · rintro ⟨⟨a, b, c⟩, ⟨d, e, f⟩, ⟨g, h, i⟩⟩ hr
    have H := hr.eqs
    simp only at H
    obtain ⟨ca, cb, cc, cd, ce, cf, cg, ch, ci, r0, r1, r2, k0, k1, k2, r01, r02, r12, k01, k02, k12⟩ := H
    unfold rotmatToCardan
    simp only
    by_cases h1 : g < 1
    · by_cases h2 : -1 < g
      · simp only [h1, h2, if_true]
        have hsin : sin (arcsin (-g)) = -g := Real.sin_arcsin (by linarith) (by linarith)
        have hpos : 0 < 1 - g * g := by nlinarith
        have hcos : cos (arcsin (-g)) = Real.sqrt (1 - g * g) := by
          rw [Real.cos_arcsin]; congr 1; ring
        have hl : 0 < Real.sqrt (1 - g * g) := Real.sqrt_pos.2 hpos
        have hll : Real.sqrt (1 - g * g) * Real.sqrt (1 - g * g) = 1 - g * g :=
          Real.mul_self_sqrt hpos.le
        have c1 := cos_atan2 (x := a) (y := d) hl (by rw [hll]; linarith)
        have s1 := sin_atan2 (x := a) (y := d) hl (by rw [hll]; linarith)
        have c2 := cos_atan2 (x := i) (y := h) hl (by rw [hll]; linarith)
        have s2 := sin_atan2 (x := i) (y := h) hl (by rw [hll]; linarith)
        have C := (cardan_isRotation (atan2 h i) (arcsin (-g)) (atan2 d a)).eqs
        unfold cardanToRotmat at C ⊢
        simp only [hsin, hcos] at C ⊢
        generalize Real.sqrt (1 - g * g) = l, cos (atan2 h i) = cp, sin (atan2 h i) = sp,
          cos (atan2 d a) = cs, sin (atan2 d a) = ss at *
        have hb : sp * -g * cs - cp * ss = b := by
          have : l * l * (sp * -g * cs - cp * ss - b) = 0 := by
            have e1 : l * l * (sp * -g * cs - cp * ss) = -g * h * a - i * d := by
              rw [← c1, ← s1, ← c2, ← s2]; ring
            have e2 : l * l * b = -g * h * a - i * d := by rw [hll]; grind
            linarith
          have := (mul_eq_zero.1 this).resolve_left (mul_pos hl hl).ne'
          linarith
        have hc : cp * -g * cs + sp * ss = c := by
          have : l * l * (cp * -g * cs + sp * ss - c) = 0 := by
            have e1 : l * l * (cp * -g * cs + sp * ss) = -g * i * a + h * d := by
              rw [← c1, ← s1, ← c2, ← s2]; ring
            have e2 : l * l * c = -g * i * a + h * d := by rw [hll]; grind
            linarith
          have := (mul_eq_zero.1 this).resolve_left (mul_pos hl hl).ne'
          linarith
        have he : sp * -g * ss + cp * cs = e := by
          have : l * l * (sp * -g * ss + cp * cs - e) = 0 := by
            have e1 : l * l * (sp * -g * ss + cp * cs) = -g * h * d + i * a := by
              rw [← c1, ← s1, ← c2, ← s2]; ring
            have e2 : l * l * e = -g * h * d + i * a := by rw [hll]; grind
            linarith
          have := (mul_eq_zero.1 this).resolve_left (mul_pos hl hl).ne'
          linarith
        have hf : cp * -g * ss - sp * cs = f := by
          have : l * l * (cp * -g * ss - sp * cs - f) = 0 := by
            have e1 : l * l * (cp * -g * ss - sp * cs) = -g * i * d - h * a := by
              rw [← c1, ← s1, ← c2, ← s2]; ring
            have e2 : l * l * f = -g * i * d - h * a := by rw [hll]; grind
            linarith
          have := (mul_eq_zero.1 this).resolve_left (mul_pos hl hl).ne'
          linarith
        rw [hb, hc, he, hf, c1, s1, c2, s2, neg_neg]
      · simp only [h1, h2, if_true, if_false]
        obtain ⟨-, hh, hi⟩ := unit_row_neg_one r2 (not_lt.1 h2)
        obtain ⟨hg, ha, hd⟩ := unit_row_neg_one (show g * g + a * a + d * d = 1 by linarith) (not_lt.1 h2)
        subst hg hh hi ha hd
        clear ca ce ci r01 r02 r12 k01 k02 k12
        have cc' := cos_atan2 (x := e) (y := -f) one_pos (by linarith)
        have ss' := sin_atan2 (x := e) (y := -f) one_pos (by linarith)
        unfold cardanToRotmat
        simp only [Real.cos_neg, Real.sin_neg, one_div, Real.cos_zero, Real.sin_zero,
          show (2:ℝ)⁻¹ * π = π / 2 by ring, Real.cos_pi_div_two, Real.sin_pi_div_two]
        rw [one_mul] at cc' ss'
        rw [cc', ss']
        simp only [M3.mk.injEq, V3.mk.injEq]
        refine ⟨⟨?_, ?_, ?_⟩, ⟨?_, ?_, ?_⟩, ⟨?_, ?_, ?_⟩⟩ <;> first | trivial | linarith
    · simp only [h1, if_false]
      obtain ⟨-, hh, hi⟩ := unit_row_one r2 (not_lt.1 h1)
      obtain ⟨hg, ha, hd⟩ := unit_row_one (show g * g + a * a + d * d = 1 by linarith) (not_lt.1 h1)
      subst hg hh hi ha hd
      clear ca ce ci r01 r02 r12 k01 k02 k12
      have cc' := cos_atan2 (x := e) (y := -f) one_pos (by linarith)
      have ss' := sin_atan2 (x := e) (y := -f) one_pos (by linarith)
      unfold cardanToRotmat
      simp only [Real.cos_neg, Real.sin_neg, one_div, Real.cos_zero, Real.sin_zero,
        show (2:ℝ)⁻¹ * π = π / 2 by ring, Real.cos_pi_div_two, Real.sin_pi_div_two]
      rw [one_mul] at cc' ss'
      rw [cc', ss']
      simp only [M3.mk.injEq, V3.mk.injEq]
      refine ⟨⟨?_, ?_, ?_⟩, ⟨?_, ?_, ?_⟩, ⟨?_, ?_, ?_⟩⟩ <;> linarith
  · intro phi theta psi h1 h2 h3 h4 h5 h6
    have hc : 0 < cos theta := Real.cos_pos_of_mem_Ioo ⟨h3, h4⟩
    have hs := sin_sq_add_cos_sq theta
    unfold rotmatToCardan cardanToRotmat
    simp only
    have i1 : -sin theta < 1 := by nlinarith
    have i2 : -sin theta > -1 := by nlinarith
    simp only [i1, i2, if_true, neg_neg]
    rw [Real.arcsin_sin h3.le h4.le, atan2_polar hc h1 h2, atan2_polar hc h5 h6]

/-! ## C36 -/

/-- The numbers `4 q_i q_j` determine the matrix. -/
theorem quatMat_of_products {q : Quat} {a b c d e f g h i : ℝ}
    (h00 : 4 * (q.q0 * q.q0) = 1 + a + e + i) (h11 : 4 * (q.q1 * q.q1) = 1 + a - e - i)
    (h22 : 4 * (q.q2 * q.q2) = 1 - a + e - i) (h33 : 4 * (q.q3 * q.q3) = 1 - a - e + i)
    (h01 : 4 * (q.q0 * q.q1) = h - f) (h02 : 4 * (q.q0 * q.q2) = c - g)
    (h03 : 4 * (q.q0 * q.q3) = d - b) (h12 : 4 * (q.q1 * q.q2) = d + b)
    (h13 : 4 * (q.q1 * q.q3) = g + c) (h23 : 4 * (q.q2 * q.q3) = h + f) :
    quatMat q = ⟨⟨a, b, c⟩, ⟨d, e, f⟩, ⟨g, h, i⟩⟩ := by
  unfold quatMat
  simp only [M3.mk.injEq, V3.mk.injEq]
  refine ⟨⟨?_, ?_, ?_⟩, ⟨?_, ?_, ?_⟩, ⟨?_, ?_, ?_⟩⟩ <;> linarith

/-- Products of `x s'`, `y s'` with `s' = 1/2/s`, `s^2 = p > 0`. -/
theorem quat_prod {p s x y w : ℝ} (hs : 0 < s) (hss : s * s = p) (h : x * y = p * w) :
    4 * ((x * (1 / 2 / s)) * (y * (1 / 2 / s))) = w := by
  have hs' := hs.ne'
  field_simp
  rw [mul_assoc, h, ← hss]; ring

theorem quat_prod_l {s x : ℝ} (hs : 0 < s) : 4 * ((1 / 2 * s) * (x * (1 / 2 / s))) = x := by
  have hs' := hs.ne'
  field_simp
  ring

theorem quat_prod_r {s x : ℝ} (hs : 0 < s) : 4 * ((x * (1 / 2 / s)) * (1 / 2 * s)) = x := by
  have hs' := hs.ne'
  field_simp
  ring

theorem quat_prod_p {p s : ℝ} (hss : s * s = p) : 4 * ((1 / 2 * s) * (1 / 2 * s)) = p := by
  rw [← hss]; ring

/-- The quaternion of a rotation matrix has the right products, whichever branch is taken. -/
theorem rotmatToQuat_products (a b c d e f g h i : ℝ) (H : RotEqs a b c d e f g h i) :
    let q := rotmatToQuat ⟨⟨a, b, c⟩, ⟨d, e, f⟩, ⟨g, h, i⟩⟩
    (4 * (q.q0 * q.q0) = 1 + a + e + i ∧ 4 * (q.q1 * q.q1) = 1 + a - e - i ∧
     4 * (q.q2 * q.q2) = 1 - a + e - i ∧ 4 * (q.q3 * q.q3) = 1 - a - e + i) ∧
    (4 * (q.q0 * q.q1) = h - f ∧ 4 * (q.q0 * q.q2) = c - g ∧ 4 * (q.q0 * q.q3) = d - b ∧
     4 * (q.q1 * q.q2) = d + b ∧ 4 * (q.q1 * q.q3) = g + c ∧ 4 * (q.q2 * q.q3) = h + f) := by
  obtain ⟨⟨p1, p2, p3, p4, p5, p6⟩, ⟨q1, q2, q3, q4, q5⟩, ⟨s1, s2, s3, s4⟩, ⟨t1, t2, t3⟩⟩ := H.rank_one
  intro q
  by_cases htr : a + e + i ≥ 0
  · have hq : q = ⟨1 / 2 * √(a + e + i + 1), (h - f) * (1 / 2 / √(a + e + i + 1)),
        (c - g) * (1 / 2 / √(a + e + i + 1)), (d - b) * (1 / 2 / √(a + e + i + 1))⟩ := by
      simp only [q, rotmatToQuat, htr, if_true]
    rw [hq]
    have hs : 0 < √(a + e + i + 1) := Real.sqrt_pos.2 (by linarith)
    have hss : √(a + e + i + 1) * √(a + e + i + 1) = 1 + a + e + i := by
      rw [Real.mul_self_sqrt (by linarith)]; ring
    generalize √(a + e + i + 1) = s at *
    exact ⟨⟨quat_prod_p hss, quat_prod hs hss p1, quat_prod hs hss p2, quat_prod hs hss p3⟩,
      ⟨quat_prod_l hs, quat_prod_l hs, quat_prod_l hs, quat_prod hs hss p4, quat_prod hs hss p5,
        quat_prod hs hss p6⟩⟩
  · have hneg : a + e + i < 0 := not_le.1 htr
    have case0 : e ≤ a → i ≤ a → q = ⟨(h - f) * (1 / 2 / √(a - e - i + 1)), 1 / 2 * √(a - e - i + 1),
        (b + d) * (1 / 2 / √(a - e - i + 1)), (g + c) * (1 / 2 / √(a - e - i + 1))⟩ := by
      intro h1 h2
      simp [q, rotmatToQuat, htr, not_lt.2 h1, not_lt.2 h2]
    have case1 : a < e → i ≤ e → q = ⟨(c - g) * (1 / 2 / √(e - i - a + 1)),
        (b + d) * (1 / 2 / √(e - i - a + 1)), 1 / 2 * √(e - i - a + 1),
        (f + h) * (1 / 2 / √(e - i - a + 1))⟩ := by
      intro h1 h2
      simp [q, rotmatToQuat, htr, h1, not_lt.2 h2]
    have case2 : (a < e ∧ e < i) ∨ (e ≤ a ∧ a < i) → q = ⟨(d - b) * (1 / 2 / √(i - a - e + 1)),
        (g + c) * (1 / 2 / √(i - a - e + 1)), (f + h) * (1 / 2 / √(i - a - e + 1)),
        1 / 2 * √(i - a - e + 1)⟩ := by
      rintro (⟨h1, h2⟩ | ⟨h1, h2⟩)
      · simp [q, rotmatToQuat, htr, h1, h2]
      · simp [q, rotmatToQuat, htr, not_lt.2 h1, h2]
    have cases3 : (e ≤ a ∧ i ≤ a) ∨ (a < e ∧ i ≤ e) ∨ ((a < e ∧ e < i) ∨ (e ≤ a ∧ a < i)) := by
      rcases le_or_gt e a with h1 | h1
      · rcases le_or_gt i a with h2 | h2
        · exact Or.inl ⟨h1, h2⟩
        · exact Or.inr (Or.inr (Or.inr ⟨h1, h2⟩))
      · rcases le_or_gt i e with h2 | h2
        · exact Or.inr (Or.inl ⟨h1, h2⟩)
        · exact Or.inr (Or.inr (Or.inl ⟨h1, h2⟩))
    rcases cases3 with ⟨h1, h2⟩ | ⟨h1, h2⟩ | h12
    · rw [case0 h1 h2]
      have hp : 0 < a - e - i + 1 := by linarith
      have hs := Real.sqrt_pos.2 hp
      have hss : √(a - e - i + 1) * √(a - e - i + 1) = 1 + a - e - i := by
        rw [Real.mul_self_sqrt hp.le]; ring
      generalize √(a - e - i + 1) = s at *
      rw [show b + d = d + b by ring]
      exact ⟨⟨quat_prod hs hss (by linarith), quat_prod_p hss, quat_prod hs hss q1, quat_prod hs hss q2⟩,
        ⟨quat_prod_r hs, quat_prod hs hss q3, quat_prod hs hss q4, quat_prod_l hs, quat_prod_l hs,
          quat_prod hs hss q5⟩⟩
    · rw [case1 h1 h2]
      have hp : 0 < e - i - a + 1 := by linarith
      have hs := Real.sqrt_pos.2 hp
      have hss : √(e - i - a + 1) * √(e - i - a + 1) = 1 - a + e - i := by
        rw [Real.mul_self_sqrt hp.le]; ring
      generalize √(e - i - a + 1) = s at *
      rw [show b + d = d + b by ring, show f + h = h + f by ring]
      exact ⟨⟨quat_prod hs hss (by linarith), quat_prod hs hss (by linarith), quat_prod_p hss,
        quat_prod hs hss s1⟩,
        ⟨quat_prod hs hss s2, quat_prod_r hs, quat_prod hs hss s3, quat_prod_r hs, quat_prod hs hss s4,
          quat_prod_l hs⟩⟩
    · rw [case2 h12]
      have hp : 0 < i - a - e + 1 := by rcases h12 with ⟨h1, h2⟩ | ⟨h1, h2⟩ <;> linarith
      have hs := Real.sqrt_pos.2 hp
      have hss : √(i - a - e + 1) * √(i - a - e + 1) = 1 - a - e + i := by
        rw [Real.mul_self_sqrt hp.le]; ring
      generalize √(i - a - e + 1) = s at *
      rw [show f + h = h + f by ring]
      exact ⟨⟨quat_prod hs hss (by linarith), quat_prod hs hss (by linarith),
        quat_prod hs hss (by linarith), quat_prod_p hss⟩,
        ⟨quat_prod hs hss t1, quat_prod hs hss t2, quat_prod_r hs, quat_prod hs hss t3, quat_prod_r hs,
          quat_prod_r hs⟩⟩

theorem rotmatToQuat_unit (r : M3 ℝ) (hr : r.IsRotation) : (rotmatToQuat r).normSq = 1 := by
  obtain ⟨⟨a, b, c⟩, ⟨d, e, f⟩, ⟨g, h, i⟩⟩ := r
  have := (rotmatToQuat_products a b c d e f g h i hr.eqs).1
  simp only [Quat.normSq]; linarith [this.1, this.2.1, this.2.2.1, this.2.2.2]

theorem quatMat_rotmatToQuat (r : M3 ℝ) (hr : r.IsRotation) : quatMat (rotmatToQuat r) = r := by
  obtain ⟨⟨a, b, c⟩, ⟨d, e, f⟩, ⟨g, h, i⟩⟩ := r
  obtain ⟨⟨h1, h2, h3, h4⟩, ⟨h5, h6, h7, h8, h9, h10⟩⟩ := rotmatToQuat_products a b c d e f g h i hr.eqs
  exact quatMat_of_products h1 h2 h3 h4 h5 h6 h7 h8 h9 h10

/-- Two quaternions with the same products are equal or opposite. -/
theorem Quat.eq_or_neg {p q : Quat} (hp : p.normSq = 1)
    (h00 : p.q0 * p.q0 = q.q0 * q.q0) (h11 : p.q1 * p.q1 = q.q1 * q.q1)
    (h22 : p.q2 * p.q2 = q.q2 * q.q2) (h33 : p.q3 * p.q3 = q.q3 * q.q3)
    (h01 : p.q0 * p.q1 = q.q0 * q.q1) (h02 : p.q0 * p.q2 = q.q0 * q.q2) (h03 : p.q0 * p.q3 = q.q0 * q.q3)
    (h12 : p.q1 * p.q2 = q.q1 * q.q2) (h13 : p.q1 * p.q3 = q.q1 * q.q3) (h23 : p.q2 * p.q3 = q.q2 * q.q3) :
    p = q ∨ p = -q := by
  obtain ⟨a, b, c, d⟩ := p
  obtain ⟨a', b', c', d'⟩ := q
  simp only [Quat.normSq] at *
  have key : ∀ {x x' y y' : ℝ}, x * y = x' * y' → x * x = x' * x' → x ≠ 0 →
      (x = x' → y = y') ∧ (x = -x' → y = -y') := by
    intro x x' y y' h1 h2 hx
    constructor
    · rintro rfl; exact mul_left_cancel₀ hx h1
    · intro hx'; subst hx'
      have : x' ≠ 0 := by intro h; apply hx; rw [h, neg_zero]
      have : x' * (-y) = x' * y' := by linarith
      have := mul_left_cancel₀ ‹x' ≠ 0› this
      linarith
  show _ ∨ _ = (⟨-a', -b', -c', -d'⟩ : Quat)
  by_cases h0 : a = 0
  · by_cases h1 : b = 0
    · by_cases h2 : c = 0
      · have h3 : d ≠ 0 := by rintro rfl; subst h0 h1 h2; norm_num at hp
        subst h0 h1 h2
        have ha' : a' = 0 := by nlinarith
        have hb' : b' = 0 := by nlinarith
        have hc' : c' = 0 := by nlinarith
        subst ha' hb' hc'
        rcases mul_self_eq_mul_self_iff.1 h33 with h | h
        · left; rw [h]
        · right; simp [h]
      · subst h0 h1
        have ha' : a' = 0 := by nlinarith
        have hb' : b' = 0 := by nlinarith
        subst ha' hb'
        rcases mul_self_eq_mul_self_iff.1 h22 with h | h
        · left; rw [(key h23 h22 h2).1 h, h]
        · right; rw [(key h23 h22 h2).2 h, h]; simp
    · subst h0
      have ha' : a' = 0 := by nlinarith
      subst ha'
      rcases mul_self_eq_mul_self_iff.1 h11 with h | h
      · left; rw [(key h12 h11 h1).1 h, (key h13 h11 h1).1 h, h]
      · right; rw [(key h12 h11 h1).2 h, (key h13 h11 h1).2 h, h]; simp
  · rcases mul_self_eq_mul_self_iff.1 h00 with h | h
    · left; rw [(key h01 h00 h0).1 h, (key h02 h00 h0).1 h, (key h03 h00 h0).1 h, h]
    · right; rw [(key h01 h00 h0).2 h, (key h02 h00 h0).2 h, (key h03 h00 h0).2 h, h]

theorem quatMat_neg (q : Quat) : quatMat (-q) = quatMat q := by
  obtain ⟨a, b, c, d⟩ := q
  show quatMat ⟨-a, -b, -c, -d⟩ = _
  simp [quatMat]

theorem cardanToQuat_unit (phi theta psi : ℝ) : (cardanToQuat phi theta psi).normSq = 1 := by
  have h1 := sin_sq_add_cos_sq (1 / 2 * phi)
  have h2 := sin_sq_add_cos_sq (1 / 2 * theta)
  have h3 := sin_sq_add_cos_sq (1 / 2 * psi)
  unfold cardanToQuat Quat.normSq
  simp only
  generalize sin (1 / 2 * phi) = sp, cos (1 / 2 * phi) = cp, sin (1 / 2 * theta) = st,
    cos (1 / 2 * theta) = ct, sin (1 / 2 * psi) = ss, cos (1 / 2 * psi) = cs at *
  grind

theorem quatMat_cardan (phi theta psi : ℝ) :
    quatMat (cardanToQuat phi theta psi) = cardanToRotmat phi theta psi := by
  have e : ∀ x : ℝ, cos x = cos (1 / 2 * x) ^ 2 - sin (1 / 2 * x) ^ 2 ∧
      sin x = 2 * sin (1 / 2 * x) * cos (1 / 2 * x) := by
    intro x
    have h : x = 2 * (1 / 2 * x) := by ring
    constructor
    · conv_lhs => rw [h, Real.cos_two_mul']
    · conv_lhs => rw [h, Real.sin_two_mul]
  have h1 := sin_sq_add_cos_sq (1 / 2 * phi)
  have h2 := sin_sq_add_cos_sq (1 / 2 * theta)
  have h3 := sin_sq_add_cos_sq (1 / 2 * psi)
  unfold cardanToQuat cardanToRotmat quatMat
  simp only
  rw [(e phi).1, (e phi).2, (e theta).1, (e theta).2, (e psi).1, (e psi).2]
  generalize sin (1 / 2 * phi) = sp, cos (1 / 2 * phi) = cp, sin (1 / 2 * theta) = st,
    cos (1 / 2 * theta) = ct, sin (1 / 2 * psi) = ss, cos (1 / 2 * psi) = cs at *
  simp only [M3.mk.injEq, V3.mk.injEq]
  refine ⟨⟨?_, ?_, ?_⟩, ⟨?_, ?_, ?_⟩, ⟨?_, ?_, ?_⟩⟩ <;> grind

/-- **C36.** Matrix → quaternion → matrix is the identity for every rotation matrix (whichever branch is
taken); quaternion → matrix → quaternion gives back a unit quaternion up to its sign; opposite quaternions
give the same matrix; cardan → quaternion → matrix agrees with cardan → matrix. -/
theorem C36_quaternions :
    (∀ r : M3 ℝ, r.IsRotation → quatToRotmat (rotmatToQuat r) = .ok r) ∧
    (∀ q : Quat, q.normSq = 1 → ∃ r, quatToRotmat q = .ok r ∧
      (rotmatToQuat r = q ∨ rotmatToQuat r = -q)) ∧
    (∀ q : Quat, quatToRotmat (-q) = quatToRotmat q) ∧
    (∀ phi theta psi, quatToRotmat (cardanToQuat phi theta psi) =
      .ok (cardanToRotmat phi theta psi)) := by
  refine ⟨?_, ?_, ?_, ?_⟩
  · intro r hr
    unfold quatToRotmat
    rw [if_pos (Quat.isUnit_of_normSq (rotmatToQuat_unit r hr)), quatMat_rotmatToQuat r hr]
  · intro q hq
    refine ⟨quatMat q, by unfold quatToRotmat; rw [if_pos (Quat.isUnit_of_normSq hq)], ?_⟩
    have hr := quatMat_isRotation q hq
    have hu := rotmatToQuat_unit _ hr
    have hm := quatMat_rotmatToQuat _ hr
    generalize rotmatToQuat (quatMat q) = p at hu hm
    simp only [quatMat, M3.mk.injEq, V3.mk.injEq] at hm
    obtain ⟨⟨m1, m2, m3⟩, ⟨m4, m5, m6⟩, ⟨m7, m8, m9⟩⟩ := hm
    simp only [Quat.normSq] at hu hq
    apply Quat.eq_or_neg hu <;> linarith
  · intro q
    have hn : (-q).normSq = q.normSq := by
      show (-q.q0) * (-q.q0) + (-q.q1) * (-q.q1) + (-q.q2) * (-q.q2) + (-q.q3) * (-q.q3) = _
      simp [Quat.normSq]
    unfold quatToRotmat Quat.isUnit
    rw [hn, quatMat_neg]
  · intro phi theta psi
    unfold quatToRotmat
    rw [if_pos (Quat.isUnit_of_normSq (cardanToQuat_unit phi theta psi)), quatMat_cardan]

/-! ## C37 -/

/-- **C37 (what holds).** Unit quaternion → axis-angle → quaternion is the identity as soon as
`1 - q0^2 > 1e-8`, the axis found is a unit vector and the angle is in `[0, 2π]`; axis-angle → quaternion →
axis-angle is the identity for angles in `(0, 2π)` with `sin^2(a/2) > 1e-8`. Missing: below that threshold
the rotation is replaced by the identity (`C37_fails`). -/
theorem C37_axis_angle_partial :
    (∀ q : Quat, q.normSq = 1 → 1 / 100000000 < 1 - q.q0 * q.q0 →
      ∃ n a, quatToAxisAngle q = .ok (n, a) ∧ n.normSq = 1 ∧ 0 ≤ a ∧ a ≤ 2 * π ∧
        axisAngleToQuat n a = .ok q) ∧
    (∀ (n : V3 ℝ) (a : ℝ), n.normSq = 1 → 0 < a → a < 2 * π → 1 / 100000000 < sin (a / 2) ^ 2 →
      ∃ q, axisAngleToQuat n a = .ok q ∧ quatToAxisAngle q = .ok (n, a)) := by
  constructor
  · rintro ⟨q0, q1, q2, q3⟩ hq hd
    simp only at hd
    have hd0 : 0 < 1 - q0 * q0 := by linarith
    have hnc : ¬ IsClose (1 - q0 * q0) 0 := by
      unfold IsClose
      rw [sub_zero, abs_of_pos hd0, abs_zero]; linarith
    have hs : 0 < √(1 - q0 * q0) := Real.sqrt_pos.2 hd0
    have hss : √(1 - q0 * q0) * √(1 - q0 * q0) = 1 - q0 * q0 := Real.mul_self_sqrt hd0.le
    have hn : ((1 / √(1 - q0 * q0)) • (⟨q1, q2, q3⟩ : V3 ℝ)).normSq = 1 := by
      rw [V3.normSq_smul]
      simp only [Quat.normSq] at hq
      simp only [V3.normSq, V3.dot]
      rw [one_div, inv_pow, sq, hss]
      rw [inv_mul_eq_one₀ hd0.ne']
      linarith
    refine ⟨(1 / √(1 - q0 * q0)) • (⟨q1, q2, q3⟩ : V3 ℝ), 2 * arccos q0, ?_, hn, ?_, ?_, ?_⟩
    · unfold quatToAxisAngle
      rw [if_pos (Quat.isUnit_of_normSq hq)]
      simp only
      rw [if_neg hnc, if_neg (not_lt.2 hd0.le)]
    · have := Real.arccos_nonneg q0; linarith
    · have := Real.arccos_le_pi q0; linarith
    · unfold axisAngleToQuat
      rw [if_pos (V3.isUnit_of_normSq hn)]
      simp only [Except.ok.injEq, Quat.mk.injEq]
      have e : (1 / 2 : ℝ) * (2 * arccos q0) = arccos q0 := by ring
      have hq0 : -1 ≤ q0 ∧ q0 ≤ 1 := by constructor <;> nlinarith
      rw [e, Real.cos_arccos hq0.1 hq0.2, Real.sin_arccos]
      have e2 : √(1 - q0 ^ 2) = √(1 - q0 * q0) := by rw [sq]
      rw [e2]
      simp only [V3.smul_x, V3.smul_y, V3.smul_z]
      clear hn hnc e2
      generalize √(1 - q0 * q0) = s at *
      refine ⟨trivial, ?_, ?_, ?_⟩ <;> field_simp
  · intro n a hn h0 h2 hth
    obtain ⟨q, hq, hu⟩ := axisAngle_unit n hn a
    refine ⟨q, hq, ?_⟩
    unfold axisAngleToQuat at hq
    rw [if_pos (V3.isUnit_of_normSq hn)] at hq
    simp only [Except.ok.injEq] at hq
    have e : (1 / 2 : ℝ) * a = a / 2 := by ring
    rw [e] at hq
    have hsc := sin_sq_add_cos_sq (a / 2)
    have hd : 1 - q.q0 * q.q0 = sin (a / 2) ^ 2 := by
      rw [← hq]; simp only; linarith
    have hspos : 0 < sin (a / 2) := Real.sin_pos_of_pos_of_lt_pi (by linarith) (by linarith)
    have hnc : ¬ IsClose (1 - q.q0 * q.q0) 0 := by
      unfold IsClose
      rw [hd, sub_zero, abs_of_nonneg (sq_nonneg _), abs_zero]; linarith
    unfold quatToAxisAngle
    rw [if_pos (Quat.isUnit_of_normSq hu)]
    simp only
    rw [if_neg hnc, if_neg (by rw [hd]; exact not_lt.2 (sq_nonneg _)), hd, Real.sqrt_sq hspos.le]
    rw [← hq]
    simp only [Except.ok.injEq, Prod.mk.injEq]
    constructor
    · ext <;> simp <;> field_simp
    · rw [Real.arccos_cos (by linarith) (by linarith)]; ring

/-- **C37 (violation).** The unit quaternion `(sqrt(1 - 1e-8), 1e-4, 0, 0)`, a rotation of about `2e-4` rad
about `x`, is converted to the zero angle: its conversion back is the identity rotation. -/
theorem C37_fails : ∃ q : Quat, q.normSq = 1 ∧ quatToAxisAngle q = .ok (⟨0, 0, 1⟩, 0) ∧
    axisAngleToQuat ⟨0, 0, 1⟩ 0 = .ok ⟨1, 0, 0, 0⟩ ∧ quatMat q ≠ quatMat ⟨1, 0, 0, 0⟩ := by
  have hs : √(1 - 1 / 100000000) * √(1 - 1 / 100000000) = (1 - 1 / 100000000 : ℝ) :=
    Real.mul_self_sqrt (by norm_num)
  refine ⟨⟨√(1 - 1 / 100000000), 1 / 10000, 0, 0⟩, ?_, ?_, ?_, ?_⟩
  · simp only [Quat.normSq, hs]; norm_num
  · unfold quatToAxisAngle
    rw [if_pos (Quat.isUnit_of_normSq (by simp only [Quat.normSq, hs]; norm_num))]
    simp only
    rw [if_pos]
    unfold IsClose
    rw [sub_zero, hs, abs_zero, show (1 - (1 - 1 / 100000000) : ℝ) = 1 / 100000000 by ring]
    norm_num
  · unfold axisAngleToQuat
    rw [if_pos (V3.isUnit_of_normSq (by simp [V3.normSq, V3.dot]))]
    simp
  · intro h
    have := congrArg (fun m : M3 ℝ => m.r1.y) h
    simp only [quatMat, hs] at this
    norm_num at this

/-! ## Non-vacuity -/

/-- A rotation that is not diagonal: the cyclic permutation of the axes (a third of a turn). -/
example : (⟨⟨0, 0, 1⟩, ⟨1, 0, 0⟩, ⟨0, 1, 0⟩⟩ : M3 ℝ).IsRotation := by
  apply M3.isRotation_of <;> norm_num
/-- Gimbal lock case. -/
example : (⟨⟨0, 0, -1⟩, ⟨0, 1, 0⟩, ⟨1, 0, 0⟩⟩ : M3 ℝ).IsRotation := by
  apply M3.isRotation_of <;> norm_num
example : (⟨1 / 2, 1 / 2, -1 / 2, 1 / 2⟩ : Quat).normSq = 1 ∧
    (1 : ℝ) / 100000000 < 1 - (1 / 2) * (1 / 2) := by
  constructor
  · simp only [Quat.normSq]; norm_num
  · norm_num
example : (⟨2 / 3, 1 / 3, -2 / 3⟩ : V3 ℝ).normSq = 1 := by simp only [V3.normSq, V3.dot]; norm_num

end MM
