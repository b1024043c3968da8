import Verif.Proofs.Io

/-!
# Printing again a number that was printed with a mantissa and an exponent
-/

namespace MM.Io

lemma roundEven_eq {q : ℚ} {k : ℤ} (h : |q - k| < 1 / 2) : roundEven q = k := by
  have h1 := roundEven_spec q
  have h2 : |((roundEven q - k : ℤ) : ℚ)| < 1 := by
    push_cast
    calc |(roundEven q : ℚ) - k| = |((roundEven q : ℚ) - q) + (q - k)| := by ring_nf
      _ ≤ |(roundEven q : ℚ) - q| + |q - k| := abs_add_le _ _
      _ < 1 := by linarith
  have h3 : |roundEven q - k| < 1 := by exact_mod_cast h2
  have := Int.abs_lt_one_iff.1 h3
  omega

/-- The mantissa printed has `dec + 1` digits. -/
lemma sciParts_range (dec : ℕ) {x : ℚ} (hx : x ≠ 0) : 10 ^ dec ≤ (sciParts dec x).1 ∧ (sciParts dec x).1 < 10 ^ (dec + 1) := by
  have hx0 : 0 < |x| := abs_pos.2 hx
  unfold sciParts
  rw [if_neg hx]
  simp only
  have hle : (10 : ℚ) ^ Int.log 10 |x| ≤ |x| := by
    have := Int.zpow_log_le_self (R := ℚ) (b := 10) (by norm_num) hx0
    exact_mod_cast this
  have hlt : |x| < (10 : ℚ) ^ (Int.log 10 |x| + 1) := by
    have := Int.lt_zpow_succ_log_self (R := ℚ) (b := 10) (by norm_num) |x|
    exact_mod_cast this
  generalize Int.log 10 |x| = e at *
  have hp : (0 : ℚ) < 10 ^ ((dec : ℤ) - e) := by positivity
  obtain ⟨q, hq⟩ : ∃ q : ℚ, q = |x| * 10 ^ ((dec : ℤ) - e) := ⟨_, rfl⟩
  have q1 : (10 : ℚ) ^ dec ≤ q := by
    have := mul_le_mul_of_nonneg_right hle hp.le
    rw [← zpow_add₀ (by norm_num), ← hq, add_sub_cancel, zpow_natCast] at this
    exact this
  have q2 : q < (10 : ℚ) ^ (dec + 1) := by
    have := mul_lt_mul_of_pos_right hlt hp
    rw [← zpow_add₀ (by norm_num), ← hq, show e + 1 + ((dec : ℤ) - e) = ((dec + 1 : ℕ) : ℤ) by push_cast; ring, zpow_natCast] at this
    exact this
  rw [← hq]
  have h := abs_le.1 (roundEven_spec q)
  have hq0 : 0 ≤ q := le_trans (by positivity) q1
  have ht := roundEven_toNat hq0
  have r1 : 10 ^ dec ≤ (roundEven q).toNat := by
    have : ((10 ^ dec : ℕ) : ℚ) < ((roundEven q).toNat : ℚ) + 1 := by rw [ht]; push_cast; linarith
    have : 10 ^ dec < (roundEven q).toNat + 1 := by exact_mod_cast this
    omega
  have r2 : (roundEven q).toNat ≤ 10 ^ (dec + 1) := by
    have : ((roundEven q).toNat : ℚ) < ((10 ^ (dec + 1) : ℕ) : ℚ) + 1 := by rw [ht]; push_cast; linarith
    have : (roundEven q).toNat < 10 ^ (dec + 1) + 1 := by exact_mod_cast this
    omega
  split
  · exact ⟨le_rfl, Nat.pow_lt_pow_right (by norm_num) (by omega)⟩
  · exact ⟨r1, lt_of_le_of_ne r2 (by assumption)⟩

lemma log_eq {a : ℚ} {e : ℤ} (h1 : (10 : ℚ) ^ e ≤ a) (h2 : a < 10 ^ (e + 1)) : Int.log 10 a = e := by
  have ha : 0 < a := lt_of_lt_of_le (by positivity) h1
  have l1 : e ≤ Int.log 10 a := (Int.zpow_le_iff_le_log (by norm_num) ha).1 (by exact_mod_cast h1)
  have l2 : Int.log 10 a < e + 1 := (Int.lt_zpow_iff_log_lt (by norm_num) ha).1 (by exact_mod_cast h2)
  omega

/-- A number near `m 10 ^ (E - dec)`, where `m` has `dec + 1` digits, is printed with the mantissa `m` and the exponent `E`. -/
lemma sciParts_eq {dec m : ℕ} {E : ℤ} {ε x : ℚ} (hε : 0 ≤ ε) (h : ε * 10 ^ (dec + 1) < 1 / 2) (m1 : 10 ^ dec ≤ m)
    (m2 : m < 10 ^ (dec + 1)) (hx : |(|x| - m * 10 ^ (E - (dec : ℤ)))| ≤ ε * (m * 10 ^ (E - (dec : ℤ)))) : sciParts dec x = (m, E) := by
  have hp : (0 : ℚ) < 10 ^ (E - (dec : ℤ)) := by positivity
  have m1' : (10 : ℚ) ^ dec ≤ m := by exact_mod_cast m1
  have m2' : (m : ℚ) + 1 ≤ 10 ^ (dec + 1) := by exact_mod_cast m2
  have d0 : (0 : ℚ) < 10 ^ dec := by positivity
  have hm : (0 : ℚ) < m := lt_of_lt_of_le d0 m1'
  have εm : ε * m < 1 / 2 := lt_of_le_of_lt (mul_le_mul_of_nonneg_left (by linarith) hε) h
  have ε1 : ε * 10 ^ dec < 1 / 20 := by rw [pow_succ] at h; linarith
  obtain ⟨q, hq⟩ : ∃ q : ℚ, q = |x| * 10 ^ ((dec : ℤ) - E) := ⟨_, rfl⟩
  have hx2 : |x| = q * 10 ^ (E - (dec : ℤ)) := by
    rw [hq, mul_assoc, ← zpow_add₀ (by norm_num)]; simp
  rw [hx2, ← sub_mul, abs_mul, abs_of_pos hp, ← mul_assoc] at hx
  have hqm : |q - m| ≤ ε * m := le_of_mul_le_mul_right hx hp
  have hq' := abs_le.1 hqm
  have hq0 : 0 < q := by
    have : ε * m ≤ 1 / 2 * m := by
      have : ε ≤ 1 / 2 := by
        have : (1 : ℚ) ≤ 10 ^ (dec + 1) := one_le_pow₀ (by norm_num)
        nlinarith
      exact mul_le_mul_of_nonneg_right this hm.le
    linarith
  have hxne : x ≠ 0 := by
    intro h
    rw [h, abs_zero] at hx2
    exact (mul_pos hq0 hp).ne hx2
  unfold sciParts
  rw [if_neg hxne]
  by_cases hc : (10 : ℚ) ^ dec ≤ q
  · have hlog : Int.log 10 |x| = E := by
      apply log_eq
      · rw [hx2]
        have := mul_le_mul_of_nonneg_right hc hp.le
        rw [← zpow_natCast, ← zpow_add₀ (by norm_num), add_sub_cancel] at this
        exact this
      · rw [hx2]
        have : q < 10 ^ (dec + 1) := by linarith
        have := mul_lt_mul_of_pos_right this hp
        rw [← zpow_natCast, ← zpow_add₀ (by norm_num), show ((dec + 1 : ℕ) : ℤ) + (E - dec) = E + 1 by push_cast; ring] at this
        exact this
    simp only [hlog, ← hq]
    have hr : roundEven q = (m : ℤ) := roundEven_eq (by push_cast; exact lt_of_le_of_lt hqm εm)
    rw [hr, Int.toNat_natCast, if_neg (by omega)]
  · push Not at hc
    have hmm : m = 10 ^ dec := by
      have : (m : ℚ) < 10 ^ dec + 1 := by linarith
      have : m < 10 ^ dec + 1 := by exact_mod_cast this
      omega
    have hmq : (m : ℚ) = 10 ^ dec := by rw [hmm]; push_cast; rfl
    have hlog : Int.log 10 |x| = E - 1 := by
      apply log_eq
      · rw [hx2]
        have h1 : (10 : ℚ) ^ ((dec : ℤ) - 1) ≤ q := by
          rw [zpow_sub₀ (by norm_num), zpow_natCast, zpow_one]
          have : ε * m ≤ 1 / 2 * m := by
            have : ε ≤ 1 / 2 := by
              have : (1 : ℚ) ≤ 10 ^ (dec + 1) := one_le_pow₀ (by norm_num)
              nlinarith
            exact mul_le_mul_of_nonneg_right this hm.le
          rw [hmq] at this hq'
          linarith
        have := mul_le_mul_of_nonneg_right h1 hp.le
        rw [← zpow_add₀ (by norm_num), show (dec : ℤ) - 1 + (E - dec) = E - 1 by ring] at this
        exact this
      · rw [hx2, sub_add_cancel]
        have := mul_lt_mul_of_pos_right hc hp
        rw [← zpow_natCast, ← zpow_add₀ (by norm_num), add_sub_cancel] at this
        exact this
    have e10 : |x| * 10 ^ ((dec : ℤ) - (E - 1)) = q * 10 := by
      rw [hq, mul_assoc, ← zpow_add_one₀ (by norm_num)]
      congr 2; ring
    simp only [hlog, e10]
    have hr : roundEven (q * 10) = ((10 ^ (dec + 1) : ℕ) : ℤ) := by
      apply roundEven_eq
      push_cast
      rw [pow_succ, ← sub_mul, abs_mul, abs_of_pos (by norm_num : (0 : ℚ) < 10), ← hmq]
      rw [← hmq] at ε1
      linarith
    rw [hr, Int.toNat_natCast, if_pos rfl, hmm]
    simp

/-- A number printed, read with a small relative error and printed again: the same number is printed. -/
theorem sciVal_read {dec : ℕ} {ε x y : ℚ} (hε : 0 ≤ ε) (h : ε * 10 ^ (dec + 1) < 1 / 2) (hy : |y - sciVal dec x| ≤ ε * |sciVal dec x|) :
    sciVal dec y = sciVal dec x := by
  by_cases hx : x = 0
  · have h0 : sciVal dec x = 0 := by subst hx; simp [sciVal, sciParts]
    rw [h0, sub_zero, abs_zero, mul_zero] at hy
    rw [h0, abs_nonpos_iff.1 hy]
    simp [sciVal, sciParts]
  obtain ⟨m1, m2⟩ := sciParts_range dec hx
  have hv : |sciVal dec x| = (sciParts dec x).1 * 10 ^ ((sciParts dec x).2 - (dec : ℤ)) := by
    unfold sciVal
    rw [abs_mul, abs_mul, abs_sgn, one_mul, Nat.abs_cast, abs_of_pos (by positivity)]
  have hpos : 0 < |sciVal dec x| := by
    rw [hv]
    have : 0 < (sciParts dec x).1 := lt_of_lt_of_le (by positivity) m1
    positivity
  have ε1 : ε < 1 := by
    have : (1 : ℚ) ≤ 10 ^ (dec + 1) := one_le_pow₀ (by norm_num)
    nlinarith
  have hparts : sciParts dec y = sciParts dec x := by
    rw [sciParts_eq (m := (sciParts dec x).1) (E := (sciParts dec x).2) hε h m1 m2]
    rw [← hv]
    exact (abs_abs_sub_abs_le _ _).trans hy
  have hsx : sgn (sciVal dec x) = sgn x := by
    have : sciVal dec x = sgn x * |sciVal dec x| := by rw [hv]; unfold sciVal; ring
    unfold sgn at this ⊢
    by_cases h : x < 0
    · rw [if_pos h] at this ⊢; rw [if_pos (by linarith)]
    · rw [if_neg h] at this ⊢; rw [if_neg (by linarith)]
  have hsy : sgn y = sgn (sciVal dec x) := by
    have hlt : |y - sciVal dec x| < |sciVal dec x| := lt_of_le_of_lt hy (by nlinarith)
    unfold sgn
    by_cases h : sciVal dec x < 0
    · rw [if_pos h]
      rw [abs_of_neg h] at hlt
      rw [if_pos (by linarith [(abs_lt.1 hlt).2])]
    · rw [if_neg h]
      rw [abs_of_nonneg (not_lt.1 h)] at hlt
      rw [if_neg (by linarith [(abs_lt.1 hlt).1])]
  unfold sciVal at hsx hsy ⊢
  rw [hparts, hsy, hsx]

end MM.Io
