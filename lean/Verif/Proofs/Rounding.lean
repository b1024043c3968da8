import Verif.Spec.Rounding
import Mathlib.Data.Int.Log
import Mathlib.Data.Rat.Floor
import Mathlib.Algebra.Order.Ring.Rat
import Mathlib.Tactic.Linarith
import Mathlib.Tactic.NormNum
import Mathlib.Tactic.FieldSimp
import Mathlib.Tactic.Ring

/-!
# The rounding of binary floating-point numbers is a rounding

Rounding of rationals to the nearest number with a significand of `p` bits, ties to even, with an unbounded exponent.
-/

namespace MM

/-- The nearest integer, ties to even. -/
def nearestEven (y : ℚ) : ℤ :=
  if Int.fract y < 1 / 2 then ⌊y⌋ else if 1 / 2 < Int.fract y then ⌊y⌋ + 1
  else if ⌊y⌋ % 2 = 0 then ⌊y⌋ else ⌊y⌋ + 1

/-- The nearest number with a significand of `p` bits, ties to even. -/
def roundBits (p : ℕ) (x : ℚ) : ℚ :=
  nearestEven (x / 2 ^ (Int.log 2 |x| + 1 - p)) * 2 ^ (Int.log 2 |x| + 1 - p)

lemma nearestEven_near (y : ℚ) : |(nearestEven y : ℚ) - y| ≤ 1 / 2 := by
  have h1 := Int.floor_add_fract y
  have h2 := Int.fract_nonneg y
  have h3 := Int.fract_lt_one y
  unfold nearestEven
  rw [abs_le]
  split_ifs <;> push_cast <;> constructor <;> linarith

lemma nearestEven_int (n : ℤ) : nearestEven n = n := by
  simp [nearestEven]

lemma nearestEven_mono {x y : ℚ} (h : x ≤ y) : nearestEven x ≤ nearestEven y := by
  have hb : ∀ z, ⌊z⌋ ≤ nearestEven z ∧ nearestEven z ≤ ⌊z⌋ + 1 := by
    intro z
    unfold nearestEven
    split_ifs <;> constructor <;> omega
  have hf := Int.floor_mono h
  rcases hf.lt_or_eq with hlt | heq
  · have := (hb x).2; have := (hb y).1; omega
  · have h1 := Int.floor_add_fract x
    have h2 := Int.floor_add_fract y
    have h3 : Int.fract x ≤ Int.fract y := by
      rw [heq] at h1; linarith
    unfold nearestEven
    rw [heq]
    split_ifs <;> first | omega | (exfalso; linarith)

lemma nearestEven_neg (y : ℚ) : nearestEven (-y) = -nearestEven y := by
  by_cases hy : Int.fract y = 0
  · have : y = (⌊y⌋ : ℤ) := by
      have := Int.floor_add_fract y
      rw [hy] at this; linarith
    rw [this, ← Int.cast_neg, nearestEven_int, nearestEven_int]
  · have h1 : Int.fract (-y) = 1 - Int.fract y := Int.fract_neg hy
    have h2 : ⌊-y⌋ = -⌊y⌋ - 1 := by
      have a := Int.floor_add_fract y
      have b := Int.floor_add_fract (-y)
      have : ((⌊-y⌋ : ℤ) : ℚ) = ((-⌊y⌋ - 1 : ℤ) : ℚ) := by push_cast; linarith
      exact_mod_cast this
    unfold nearestEven
    rw [h1, h2]
    split_ifs <;> first | omega | (exfalso; linarith)

lemma roundBits_neg (p : ℕ) (x : ℚ) : roundBits p (-x) = -roundBits p x := by
  unfold roundBits
  rw [abs_neg, neg_div, nearestEven_neg]
  push_cast
  ring

lemma two_zpow_pos (e : ℤ) : (0 : ℚ) < 2 ^ e := zpow_pos (by norm_num) e

lemma roundBits_near (p : ℕ) (x : ℚ) : |roundBits p x - x| ≤ 1 / 2 ^ p * |x| := by
  rcases eq_or_ne x 0 with rfl | hx
  · have : nearestEven (0 : ℚ) = 0 := by simpa using nearestEven_int 0
    simp [roundBits, this]
  · have hpos : 0 < |x| := abs_pos.2 hx
    have hlog : (2 : ℚ) ^ Int.log 2 |x| ≤ |x| := by
      simpa using Int.zpow_log_le_self (b := 2) (by norm_num) hpos
    unfold roundBits
    set e := Int.log 2 |x| + 1 - (p : ℤ) with he
    have hz := two_zpow_pos e
    have h1 := nearestEven_near (x / 2 ^ e)
    have h2 : (nearestEven (x / 2 ^ e) : ℚ) * 2 ^ e - x = (nearestEven (x / 2 ^ e) - x / 2 ^ e) * 2 ^ e := by
      field_simp
    have h3 : (2 : ℚ) ^ e = 2 ^ Int.log 2 |x| * 2 / 2 ^ p := by
      rw [he, zpow_sub₀ (by norm_num), zpow_add₀ (by norm_num), zpow_natCast, zpow_one]
    have hp : (0 : ℚ) < 2 ^ p := by positivity
    rw [h2, abs_mul, abs_of_pos hz]
    calc |(nearestEven (x / 2 ^ e) : ℚ) - x / 2 ^ e| * 2 ^ e ≤ 1 / 2 * 2 ^ e := by
          exact mul_le_mul_of_nonneg_right h1 hz.le
      _ = 1 / 2 ^ p * 2 ^ Int.log 2 |x| := by rw [h3]; field_simp
      _ ≤ 1 / 2 ^ p * |x| := mul_le_mul_of_nonneg_left hlog (by positivity)

lemma roundBits_mono_pos {p : ℕ} (hp : 1 ≤ p) {x y : ℚ} (hx : 0 < x) (h : x ≤ y) : roundBits p x ≤ roundBits p y := by
  have hy : 0 < y := hx.trans_le h
  have hl : Int.log 2 x ≤ Int.log 2 y := Int.log_mono_right hx h
  unfold roundBits
  rw [abs_of_pos hx, abs_of_pos hy]
  rcases hl.lt_or_eq with hlt | heq
  · have e1 : x / 2 ^ (Int.log 2 x + 1 - (p : ℤ)) ≤ ((2 ^ p : ℤ) : ℚ) := by
      rw [div_le_iff₀ (two_zpow_pos _)]
      have hx2 : x < 2 ^ (Int.log 2 x + 1) := by
        simpa using Int.lt_zpow_succ_log_self (b := 2) (by norm_num) x
      refine hx2.le.trans (le_of_eq ?_)
      push_cast
      rw [← zpow_natCast, ← zpow_add₀ (by norm_num)]
      congr 1; ring
    have e2 : ((2 ^ (p - 1) : ℤ) : ℚ) ≤ y / 2 ^ (Int.log 2 y + 1 - (p : ℤ)) := by
      rw [le_div_iff₀ (two_zpow_pos _)]
      have hy2 : (2 : ℚ) ^ Int.log 2 y ≤ y := by
        simpa using Int.zpow_log_le_self (b := 2) (by norm_num) hy
      refine le_trans (le_of_eq ?_) hy2
      push_cast
      rw [← zpow_natCast, ← zpow_add₀ (by norm_num)]
      congr 1; push_cast [hp]; ring
    have f1 := nearestEven_mono e1
    have f2 := nearestEven_mono e2
    rw [nearestEven_int] at f1 f2
    have g1 : (nearestEven (x / 2 ^ (Int.log 2 x + 1 - (p : ℤ))) : ℚ) ≤ 2 ^ p := by exact_mod_cast f1
    have g2 : (2 : ℚ) ^ (p - 1) ≤ nearestEven (y / 2 ^ (Int.log 2 y + 1 - (p : ℤ))) := by exact_mod_cast f2
    calc _ ≤ (2 : ℚ) ^ p * 2 ^ (Int.log 2 x + 1 - (p : ℤ)) := mul_le_mul_of_nonneg_right g1 (two_zpow_pos _).le
      _ = 2 ^ (Int.log 2 x + 1) := by
        rw [← zpow_natCast, ← zpow_add₀ (by norm_num)]; congr 1; ring
      _ ≤ 2 ^ Int.log 2 y := zpow_le_zpow_right₀ (by norm_num) hlt
      _ = (2 : ℚ) ^ (p - 1) * 2 ^ (Int.log 2 y + 1 - (p : ℤ)) := by
        rw [← zpow_natCast, ← zpow_add₀ (by norm_num)]; congr 1; push_cast [hp]; ring
      _ ≤ _ := mul_le_mul_of_nonneg_right g2 (two_zpow_pos _).le
  · rw [heq]
    refine mul_le_mul_of_nonneg_right ?_ (two_zpow_pos _).le
    have := nearestEven_mono (div_le_div_of_nonneg_right h (two_zpow_pos (Int.log 2 y + 1 - (p : ℤ))).le)
    exact_mod_cast this

lemma roundBits_zero (p : ℕ) : roundBits p 0 = 0 := by
  have := roundBits_near p 0
  simpa using this

lemma roundBits_nonneg {p : ℕ} (hp : 1 ≤ p) {x : ℚ} (hx : 0 ≤ x) : 0 ≤ roundBits p x := by
  have h := (abs_le.1 (roundBits_near p x)).1
  rw [abs_of_nonneg hx] at h
  have h1 : 1 / (2 : ℚ) ^ p ≤ 1 := by
    rw [div_le_one (by positivity)]; exact one_le_pow₀ (by norm_num)
  nlinarith

lemma roundBits_mono {p : ℕ} (hp : 1 ≤ p) {x y : ℚ} (h : x ≤ y) : roundBits p x ≤ roundBits p y := by
  rcases lt_trichotomy x 0 with hx | rfl | hx
  · rcases lt_or_ge y 0 with hy | hy
    · have := roundBits_mono_pos hp (x := -y) (y := -x) (by linarith) (by linarith)
      rw [roundBits_neg, roundBits_neg] at this
      linarith
    · have h1 := roundBits_nonneg hp (x := -x) (by linarith)
      rw [roundBits_neg] at h1
      have h2 := roundBits_nonneg hp hy
      linarith
  · rw [roundBits_zero]; exact roundBits_nonneg hp h
  · exact roundBits_mono_pos hp hx h

/-- The rounding to `p` bits is a rounding with relative error at most `2 ^ -p`. -/
theorem roundBits_isRounding {p : ℕ} (hp : 1 ≤ p) : IsRounding (1 / 2 ^ p) (roundBits p) :=
  ⟨fun _ _ h => roundBits_mono hp h, roundBits_neg p, roundBits_near p⟩

end MM
