import Verif.Model.Text
import Mathlib.Tactic.Positivity
import Mathlib.Tactic.LinearCombination
import Mathlib.Tactic.FieldSimp
import Mathlib.Tactic.IntervalCases
import Mathlib.Algebra.Order.Field.Power

/-!
# Formatting then parsing gives back the printed value
-/

namespace MM

/-! ### Digits -/

theorem isDigit_digitChar {d : ℕ} (h : d < 10) : isDigit (digitChar d) = true := by
  interval_cases d <;> decide

theorem digitVal_digitChar {d : ℕ} (h : d < 10) : digitVal (digitChar d) = d := by
  interval_cases d <;> decide

theorem natStrF_stable (n : ℕ) : ∀ f, n ≤ f → natStrF f n = natStr n := by
  induction n using Nat.strong_induction_on with
  | _ n ih =>
    intro f hf
    rcases Nat.lt_or_ge n 10 with h | h
    · unfold natStr
      cases f <;> cases n <;> simp_all [natStrF]
    · obtain ⟨f', rfl⟩ : ∃ f', f = f' + 1 := ⟨f - 1, by omega⟩
      obtain ⟨n', rfl⟩ : ∃ n', n = n' + 1 := ⟨n - 1, by omega⟩
      have h' : ¬ n' + 1 < 10 := by omega
      unfold natStr
      simp only [natStrF, if_neg h']
      rw [ih ((n' + 1) / 10) (by omega) f' (by omega), ih ((n' + 1) / 10) (by omega) n' (by omega)]

theorem natStr_lt {n : ℕ} (h : n < 10) : natStr n = [digitChar n] := by
  unfold natStr; cases n <;> simp_all [natStrF]

theorem natStr_ge {n : ℕ} (h : 10 ≤ n) : natStr n = natStr (n / 10) ++ [digitChar (n % 10)] := by
  obtain ⟨n', rfl⟩ : ∃ n', n = n' + 1 := ⟨n - 1, by omega⟩
  conv_lhs => unfold natStr
  simp only [natStrF]
  rw [if_neg (by omega), natStrF_stable _ _ (by omega)]

/-- All characters are digits. -/
def AllDigits (s : Str) : Prop := ∀ c ∈ s, isDigit c = true

theorem natStr_digits (n : ℕ) : AllDigits (natStr n) := by
  induction n using Nat.strong_induction_on with
  | _ n ih =>
    rcases Nat.lt_or_ge n 10 with h | h
    · rw [natStr_lt h]; intro c hc; simp at hc; rw [hc]; exact isDigit_digitChar h
    · rw [natStr_ge h]; intro c hc
      rcases List.mem_append.1 hc with h' | h'
      · exact ih _ (by omega) c h'
      · simp at h'; rw [h']; exact isDigit_digitChar (by omega)

theorem natStr_ne_nil (n : ℕ) : natStr n ≠ [] := by
  rcases Nat.lt_or_ge n 10 with h | h
  · simp [natStr_lt h]
  · simp [natStr_ge h]

theorem natStr_length {n k : ℕ} (hk : 1 ≤ k) (h : n < 10 ^ k) : (natStr n).length ≤ k := by
  induction k generalizing n with
  | zero => omega
  | succ k ih =>
    rcases Nat.lt_or_ge n 10 with h' | h'
    · simp [natStr_lt h']
    · rw [natStr_ge h']
      have hk1 : 1 ≤ k := by
        rcases Nat.eq_zero_or_pos k with rfl | h1
        · simp at h; omega
        · exact h1
      have := @ih (n / 10) hk1 (by rw [pow_succ] at h; omega)
      simp; omega

theorem digitsW_length (k r : ℕ) : (digitsW k r).length = k := by
  induction k generalizing r with
  | zero => rfl
  | succ k ih => simp [digitsW, ih]

theorem digitsW_digits (k r : ℕ) : AllDigits (digitsW k r) := by
  induction k generalizing r with
  | zero => intro c hc; simp [digitsW] at hc
  | succ k ih =>
    intro c hc
    rw [digitsW] at hc
    rcases List.mem_append.1 hc with h' | h'
    · exact ih _ c h'
    · simp at h'; rw [h']; exact isDigit_digitChar (by omega)

theorem digitsVal_append (s t : Str) : digitsVal (s ++ t) = digitsVal s * 10 ^ t.length + digitsVal t := by
  induction t using List.reverseRecOn with
  | nil => simp [digitsVal]
  | append_singleton t c ih =>
    have h1 : ∀ u : Str, digitsVal (u ++ [c]) = 10 * digitsVal u + digitVal c := by
      intro u; simp [digitsVal]
    rw [← List.append_assoc, h1, h1, ih, List.length_append]
    simp [pow_succ]; ring

theorem digitsVal_singleton (c : Char) : digitsVal [c] = digitVal c := by simp [digitsVal]

theorem digitsVal_natStr (n : ℕ) : digitsVal (natStr n) = n := by
  induction n using Nat.strong_induction_on with
  | _ n ih =>
    rcases Nat.lt_or_ge n 10 with h | h
    · rw [natStr_lt h, digitsVal_singleton, digitVal_digitChar h]
    · rw [natStr_ge h, digitsVal_append, ih _ (by omega), digitsVal_singleton, digitVal_digitChar (by omega)]
      simp; omega

theorem digitsVal_digitsW (k r : ℕ) : digitsVal (digitsW k r) = r % 10 ^ k := by
  induction k generalizing r with
  | zero => simp [digitsW, digitsVal, Nat.mod_one]
  | succ k ih =>
    rw [digitsW, digitsVal_append, ih, digitsVal_singleton, digitVal_digitChar (by omega)]
    rw [pow_succ', Nat.mod_mul]
    simp; ring

/-! ### Words -/

/-- A word: not empty, without blanks. -/
def Word (s : Str) : Prop := s ≠ [] ∧ ∀ c ∈ s, isSpace c = false

/-- Only blanks. -/
def Blank (s : Str) : Prop := ∀ c ∈ s, isSpace c = true

/-- Empty, or starts with a blank. -/
def Breaks (s : Str) : Prop := s = [] ∨ ∃ c t, s = c :: t ∧ isSpace c = true

theorem splitAux_word {w : Str} (hw : ∀ c ∈ w, isSpace c = false) (cur r : Str) :
    splitAux cur (w ++ r) = splitAux (w.reverse ++ cur) r := by
  induction w generalizing cur with
  | nil => rfl
  | cons c w ih =>
    have hc := hw c (by simp)
    simp only [List.cons_append, splitAux, hc]
    rw [if_neg (by simp), ih (fun c hc => hw c (by simp [hc]))]
    simp

theorem split_blank {s : Str} (hs : Blank s) (r : Str) : split (s ++ r) = split r := by
  induction s with
  | nil => rfl
  | cons c s ih =>
    have hc := hs c (by simp)
    have := ih (fun c hc => hs c (by simp [hc]))
    simp only [split, List.cons_append, splitAux, hc] at this ⊢
    simpa using this

/-- The first word of a text. -/
theorem split_tok {s w r : Str} (hs : Blank s) (hw : Word w) (hr : Breaks r) :
    split (s ++ (w ++ r)) = w :: split r := by
  rw [split_blank hs]
  unfold split
  rw [splitAux_word hw.2]
  have hne : w.reverse ++ [] ≠ [] := by simpa using hw.1
  rcases hr with rfl | ⟨c, t, rfl, hc⟩
  · simp only [splitAux]; rw [if_neg hne]; simp
  · simp only [splitAux, hc, if_true]
    rw [if_neg hne]; simp

theorem blank_spaces (n : ℕ) : Blank (List.replicate n ' ') := by
  intro c hc; rw [List.eq_of_mem_replicate hc]; rfl

/-- The first word, written with a right justification. -/
theorem split_padL {w : Str} (k : ℕ) {r : Str} (hw : Word w) (hr : Breaks r) :
    split (padL k w ++ r) = w :: split r := by
  unfold padL
  rw [List.append_assoc]
  exact split_tok (blank_spaces _) hw hr

theorem breaks_padL {w : Str} {k : ℕ} (h : w.length < k) (r : Str) : Breaks (padL k w ++ r) := by
  obtain ⟨j, hj⟩ : ∃ j, k - w.length = j + 1 := ⟨k - w.length - 1, by omega⟩
  right
  refine ⟨' ', List.replicate j ' ' ++ w ++ r, ?_, rfl⟩
  unfold padL
  rw [hj, List.replicate_succ]; simp

theorem breaks_cons {c : Char} (h : isSpace c = true) (r : Str) : Breaks (c :: r) := Or.inr ⟨c, r, rfl, h⟩

theorem split_nl : split ['\n'] = [] := by decide

/-! ### Lines -/

/-- No end of line. -/
def Plain (s : Str) : Prop := ∀ c ∈ s, c ≠ '\n'

theorem linesAux_plain {s : Str} (hs : Plain s) (cur r : Str) :
    linesAux cur (s ++ r) = linesAux (s.reverse ++ cur) r := by
  induction s generalizing cur with
  | nil => rfl
  | cons c s ih =>
    have hc := hs c (by simp)
    simp only [List.cons_append, linesAux, if_neg hc]
    rw [ih (fun c hc => hs c (by simp [hc]))]
    simp

theorem linesOf_line {s : Str} (hs : Plain s) (r : Str) :
    linesOf (s ++ '\n' :: r) = (s ++ ['\n']) :: linesOf r := by
  unfold linesOf
  rw [linesAux_plain hs]
  simp [linesAux]

theorem Plain.append {s t : Str} (hs : Plain s) (ht : Plain t) : Plain (s ++ t) := by
  intro c hc
  rcases List.mem_append.1 hc with h | h
  · exact hs c h
  · exact ht c h

theorem Word.plain {w : Str} (h : Word w) : Plain w := by
  intro c hc he
  have := h.2 c hc
  rw [he] at this; exact absurd this (by decide)

theorem plain_padL {w : Str} (k : ℕ) (h : Plain w) : Plain (padL k w) := by
  apply Plain.append _ h
  intro c hc; rw [List.eq_of_mem_replicate hc]; decide

/-! ### The printed numbers are words -/

theorem digit_visible {c : Char} (h : isDigit c = true) : isSpace c = false := by
  simp only [isDigit, Bool.and_eq_true, decide_eq_true_eq] at h
  simp only [isSpace, Bool.or_eq_false_iff, Bool.and_eq_false_iff, decide_eq_false_iff_not]
  refine ⟨?_, Or.inr (by omega)⟩
  rw [beq_eq_false_iff_ne]; rintro rfl; exact absurd h.1 (by decide)

theorem AllDigits.visible {s : Str} (h : AllDigits s) : ∀ c ∈ s, isSpace c = false :=
  fun c hc => digit_visible (h c hc)

theorem natStr_word (n : ℕ) : Word (natStr n) := ⟨natStr_ne_nil n, (natStr_digits n).visible⟩

theorem signStr_visible (x : ℚ) : ∀ c ∈ signStr x, isSpace c = false := by
  unfold signStr; split <;> simp; decide

theorem expStr_visible (e : ℤ) : ∀ c ∈ expStr e, isSpace c = false := by
  intro c hc
  unfold expStr at hc
  rcases List.mem_cons.1 hc with rfl | hc
  · split <;> decide
  · split at hc
    · rcases List.mem_cons.1 hc with rfl | hc
      · decide
      · exact (natStr_digits _).visible c hc
    · exact (natStr_digits _).visible c hc

theorem fixedStr_word (dec : ℕ) (x : ℚ) : Word (fixedStr dec x) := by
  refine ⟨by simp [fixedStr], ?_⟩
  intro c hc
  simp only [fixedStr, List.mem_append, List.mem_cons] at hc
  rcases hc with (h | h) | h | h
  · exact signStr_visible x c h
  · exact (natStr_digits _).visible c h
  · rw [h]; decide
  · exact (digitsW_digits _ _).visible c h

theorem sciStr_word (dec : ℕ) (x : ℚ) : Word (sciStr dec x) := by
  refine ⟨by simp [sciStr], ?_⟩
  intro c hc
  simp only [sciStr, List.mem_append, List.mem_cons] at hc
  rcases hc with (h | h) | h | h | h | h
  · exact signStr_visible x c h
  · exact (natStr_digits _).visible c h
  · rw [h]; decide
  · exact (digitsW_digits _ _).visible c h
  · rw [h]; decide
  · exact expStr_visible _ c h

/-! ### Parsing what was printed -/

theorem stripSign_digits {s : Str} (h : AllDigits s) (r : Str) (hne : s ≠ []) :
    stripSign (s ++ r) = (false, s ++ r) := by
  cases s with
  | nil => exact absurd rfl hne
  | cons c s =>
    have hc := h c (by simp)
    unfold stripSign
    split
    · rename_i h1; simp at h1; rw [h1.1] at hc; exact absurd hc (by decide)
    · rename_i h1; simp at h1; rw [h1.1] at hc; exact absurd hc (by decide)
    · rfl

theorem all_of_allDigits {s : Str} (h : AllDigits s) : s.all isDigit = true := by
  rw [List.all_eq_true]; exact h

theorem parseInt_digits {s : Str} (h : AllDigits s) (hne : s ≠ []) : parseInt s = some (digitsVal s : ℤ) := by
  have := stripSign_digits h [] hne
  rw [List.append_nil] at this
  simp only [parseInt, this]
  rw [if_pos ⟨hne, all_of_allDigits h⟩]; simp

/-- `int(str(n)) = n` -/
theorem parseInt_natStr (n : ℕ) : parseInt (natStr n) = some (n : ℤ) := by
  rw [parseInt_digits (natStr_digits n) (natStr_ne_nil n), digitsVal_natStr]

theorem parseInt_expStr (e : ℤ) : parseInt (expStr e) = some e := by
  have key : ∀ n : ℕ, AllDigits (if n < 10 then '0' :: natStr n else natStr n) ∧
      (if n < 10 then '0' :: natStr n else natStr n) ≠ [] ∧
      digitsVal (if n < 10 then '0' :: natStr n else natStr n) = n := by
    intro n
    split
    · refine ⟨?_, by simp, ?_⟩
      · intro c hc
        rcases List.mem_cons.1 hc with rfl | hc
        · decide
        · exact natStr_digits _ c hc
      · have : ('0' :: natStr n) = ['0'] ++ natStr n := rfl
        rw [this, digitsVal_append, digitsVal_natStr, digitsVal_singleton]
        simp [digitVal]
    · exact ⟨natStr_digits _, natStr_ne_nil _, digitsVal_natStr _⟩
  obtain ⟨h1, h2, h3⟩ := key e.natAbs
  unfold expStr parseInt
  rcases lt_or_ge e 0 with he | he
  · rw [if_pos he]
    simp only [stripSign]
    rw [if_pos ⟨h2, all_of_allDigits h1⟩, h3]
    rw [if_pos trivial]; congr 1; omega
  · rw [if_neg (not_lt.2 he)]
    simp only [stripSign]
    rw [if_pos ⟨h2, all_of_allDigits h1⟩, h3]
    rw [if_neg (by simp)]; congr 1; omega

theorem takeWhile_digits {s r : Str} (h : AllDigits s) (hr : ∀ c t, r = c :: t → isDigit c = false) :
    (s ++ r).takeWhile isDigit = s ∧ (s ++ r).dropWhile isDigit = r := by
  induction s with
  | nil =>
    cases r with
    | nil => simp
    | cons c t => simp [hr c t rfl]
  | cons c s ih =>
    have := ih (fun c hc => h c (by simp [hc]))
    simp [h c (by simp), this]

/-- A printed number: sign, digits, point, digits, and nothing or an exponent. -/
theorem parseFloat_printed (neg : Bool) {ip fp : Str} (h1 : AllDigits ip) (hne : ip ≠ []) (h2 : AllDigits fp)
    (e : Option ℤ) :
    parseFloat ((if neg then ['-'] else []) ++ ip ++ '.' :: (fp ++ (e.elim [] fun e => 'E' :: expStr e))) =
      some ((if neg then -1 else 1) * (digitsVal (ip ++ fp) : ℚ) * 10 ^ (e.getD 0 - (fp.length : ℤ))) := by
  have hs : stripSign ((if neg then ['-'] else []) ++ ip ++ '.' :: (fp ++ (e.elim [] fun e => 'E' :: expStr e))) =
      (neg, ip ++ '.' :: (fp ++ (e.elim [] fun e => 'E' :: expStr e))) := by
    cases neg
    · simpa using stripSign_digits h1 _ hne
    · rfl
  have ht := takeWhile_digits h1 (r := '.' :: (fp ++ (e.elim [] fun e => 'E' :: expStr e)))
    (by intro c t h; cases h; decide)
  have ht2 := takeWhile_digits h2 (r := (e.elim [] fun e => 'E' :: expStr e))
    (by intro c t h; cases e with
      | none => simp at h
      | some e => simp at h; rw [← h.1]; decide)
  unfold parseFloat
  simp only [hs, ht.1, ht.2, ht2.1, ht2.2]
  rw [if_neg (by simp [hne])]
  cases e with
  | none => simp
  | some e => simp [parseInt_expStr]

/-! ### Rounding -/

theorem roundEven_spec (q : ℚ) : |(roundEven q : ℚ) - q| ≤ 1 / 2 := by
  unfold roundEven
  have h1 := Int.floor_le q
  have h2 := Int.lt_floor_add_one q
  simp only
  split
  · rw [abs_le]; constructor <;> linarith
  · split
    · push_cast; rw [abs_le]; constructor <;> linarith
    · split
      · rw [abs_le]; constructor <;> linarith
      · push_cast; rw [abs_le]; constructor <;> linarith

theorem roundEven_nonneg {q : ℚ} (h : 0 ≤ q) : 0 ≤ roundEven q := by
  have h1 : 0 ≤ ⌊q⌋ := Int.floor_nonneg.2 h
  unfold roundEven
  simp only
  split
  · exact h1
  · split
    · omega
    · split <;> omega

theorem roundEven_toNat {q : ℚ} (h : 0 ≤ q) : ((roundEven q).toNat : ℚ) = (roundEven q : ℚ) := by
  have := Int.toNat_of_nonneg (roundEven_nonneg h)
  exact_mod_cast congrArg (Int.cast (R := ℚ)) this

/-- The sign of a number. -/
def sgn (x : ℚ) : ℚ := if x < 0 then -1 else 1

theorem sgn_mul_abs (x : ℚ) : sgn x * |x| = x := by
  unfold sgn; split
  · rw [abs_of_neg (by assumption)]; ring
  · rw [abs_of_nonneg (by linarith)]; ring

theorem abs_sgn (x : ℚ) : |sgn x| = 1 := by unfold sgn; split <;> simp

/-- The value printed by `'%.{dec}f'`. -/
def fixedVal (dec : ℕ) (x : ℚ) : ℚ := sgn x * (fixedUnits dec x : ℚ) / 10 ^ dec

/-- The value printed by `'%.{dec}E'`. -/
def sciVal (dec : ℕ) (x : ℚ) : ℚ := sgn x * ((sciParts dec x).1 : ℚ) * 10 ^ ((sciParts dec x).2 - (dec : ℤ))

theorem signStr_eq (x : ℚ) : signStr x = (if decide (x < 0) then ['-'] else []) := by simp [signStr]

theorem parseFloat_fixedStr (dec : ℕ) (x : ℚ) : parseFloat (fixedStr dec x) = some (fixedVal dec x) := by
  have := parseFloat_printed (decide (x < 0)) (natStr_digits (fixedUnits dec x / 10 ^ dec)) (natStr_ne_nil _)
    (digitsW_digits dec (fixedUnits dec x % 10 ^ dec)) none
  simp only [Option.elim, List.append_nil, Option.getD_none, digitsW_length] at this
  unfold fixedStr
  simp only
  rw [signStr_eq, this, digitsVal_append, digitsVal_natStr, digitsVal_digitsW, digitsW_length, Nat.mod_mod,
    Nat.div_add_mod']
  simp [fixedVal, sgn, div_eq_mul_inv]

theorem parseFloat_sciStr (dec : ℕ) (x : ℚ) : parseFloat (sciStr dec x) = some (sciVal dec x) := by
  have := parseFloat_printed (decide (x < 0)) (natStr_digits ((sciParts dec x).1 / 10 ^ dec)) (natStr_ne_nil _)
    (digitsW_digits dec ((sciParts dec x).1 % 10 ^ dec)) (some (sciParts dec x).2)
  simp only [Option.elim, Option.getD_some, digitsW_length] at this
  unfold sciStr
  simp only
  rw [signStr_eq, this, digitsVal_append, digitsVal_natStr, digitsVal_digitsW, digitsW_length, Nat.mod_mod,
    Nat.div_add_mod']
  simp [sciVal, sgn]

/-- `'%.{dec}f'` prints a multiple of `10 ^ -dec` nearest to the number. -/
theorem fixedVal_near (dec : ℕ) (x : ℚ) : |fixedVal dec x - x| ≤ 1 / 2 / 10 ^ dec := by
  have hp : (0 : ℚ) < 10 ^ dec := by positivity
  have h0 : (0 : ℚ) ≤ |x| * 10 ^ dec := by positivity
  have h := roundEven_spec (|x| * 10 ^ dec)
  have e : fixedVal dec x - x = sgn x * ((roundEven (|x| * 10 ^ dec) : ℚ) - |x| * 10 ^ dec) / 10 ^ dec := by
    unfold fixedVal fixedUnits
    rw [roundEven_toNat h0]
    have := sgn_mul_abs x
    field_simp
    linear_combination 10 ^ dec * this
  rw [e, abs_div, abs_mul, abs_sgn, one_mul, abs_of_pos hp]
  gcongr

/-- `'%.{dec}E'` prints the number with a relative error of at most half a unit of the last digit. -/
theorem sciVal_near (dec : ℕ) (x : ℚ) : |sciVal dec x - x| ≤ 1 / 2 / 10 ^ dec * |x| := by
  by_cases hx : x = 0
  · subst hx; simp [sciVal, sciParts]
  have hx0 : 0 < |x| := abs_pos.2 hx
  set e := Int.log 10 |x| with he
  obtain ⟨q, hq⟩ : ∃ q : ℚ, q = |x| * 10 ^ ((dec : ℤ) - e) := ⟨_, rfl⟩
  have hq0 : 0 ≤ q := by rw [hq]; positivity
  have h := roundEven_spec q
  have hval : sciVal dec x = sgn x * ((roundEven q).toNat : ℚ) * 10 ^ (e - (dec : ℤ)) := by
    unfold sciVal sciParts
    rw [if_neg hx]
    simp only [← he, ← hq]
    split
    · rename_i hm
      rw [hm]
      push_cast
      rw [mul_assoc, mul_assoc]; congr 1
      rw [← zpow_natCast, ← zpow_natCast, ← zpow_add₀ (by norm_num), ← zpow_add₀ (by norm_num)]
      congr 1; push_cast; ring
    · rfl
  have hle : (10 : ℚ) ^ e ≤ |x| := by
    have := Int.zpow_log_le_self (R := ℚ) (b := 10) (by norm_num) hx0
    exact_mod_cast this
  have hx2 : q * 10 ^ (e - (dec : ℤ)) = |x| := by
    rw [hq, mul_assoc, ← zpow_add₀ (by norm_num)]; simp
  have hdiff : sciVal dec x - x = sgn x * (((roundEven q : ℤ) : ℚ) - q) * 10 ^ (e - (dec : ℤ)) := by
    rw [hval, roundEven_toNat hq0]
    linear_combination sgn_mul_abs x + sgn x * hx2
  have hpos : (0 : ℚ) < 10 ^ (e - (dec : ℤ)) := by positivity
  rw [hdiff, abs_mul, abs_mul, abs_sgn, one_mul, abs_of_pos hpos]
  calc |((roundEven q : ℤ) : ℚ) - q| * 10 ^ (e - (dec : ℤ)) ≤ 1 / 2 * 10 ^ (e - (dec : ℤ)) := by gcongr
    _ = 1 / 2 / 10 ^ dec * 10 ^ e := by rw [zpow_sub₀ (by norm_num), zpow_natCast]; ring
    _ ≤ _ := by gcongr

/-! ### Lengths -/

theorem signStr_length (x : ℚ) : (signStr x).length ≤ 1 := by unfold signStr; split <;> simp

/-- Length of a number printed with `'%.{dec}f'`. -/
theorem fixedStr_length {dec k : ℕ} {x : ℚ} (hk : 1 ≤ k) (h : |x| < 10 ^ k - 1 / 2 / 10 ^ dec) :
    (fixedStr dec x).length ≤ (if x < 0 then 1 else 0) + k + 1 + dec := by
  have hp : (0 : ℚ) < 10 ^ dec := by positivity
  have hq : fixedUnits dec x / 10 ^ dec < 10 ^ k := by
    rw [Nat.div_lt_iff_lt_mul (by positivity)]
    have h0 : (0 : ℚ) ≤ |x| * 10 ^ dec := by positivity
    have h1 := (abs_le.1 (roundEven_spec (|x| * 10 ^ dec))).2
    have : (fixedUnits dec x : ℚ) < 10 ^ k * 10 ^ dec := by
      unfold fixedUnits
      rw [roundEven_toNat h0]
      have : |x| * 10 ^ dec < 10 ^ k * 10 ^ dec - 1 / 2 := by
        have := mul_lt_mul_of_pos_right h hp
        rw [sub_mul, div_mul_cancel₀ _ hp.ne'] at this
        exact this
      linarith
    exact_mod_cast this
  have hn := natStr_length hk hq
  have hs : (signStr x).length = if x < 0 then 1 else 0 := by unfold signStr; split <;> simp
  simp only [fixedStr, List.length_append, List.length_cons, digitsW_length, hs]
  omega

/-- The order of magnitude of floating point numbers. -/
def FloatRange (x : ℚ) : Prop := x = 0 ∨ (10 : ℚ) ^ (-(400 : ℤ)) ≤ |x| ∧ |x| < 10 ^ (400 : ℤ)

theorem sciParts_exp {dec : ℕ} {x : ℚ} (h : FloatRange x) : (sciParts dec x).2.natAbs < 10 ^ 3 := by
  unfold sciParts
  rcases h with rfl | ⟨h1, h2⟩
  · simp
  · have hx : |x| ≠ 0 := by
      have : (0 : ℚ) < 10 ^ (-(400 : ℤ)) := by positivity
      exact (lt_of_lt_of_le this h1).ne'
    have hx0 : 0 < |x| := lt_of_le_of_ne (abs_nonneg _) hx.symm
    rw [if_neg (by intro h; simp [h] at hx)]
    have l1 : -400 ≤ Int.log 10 |x| := by
      rw [← Int.zpow_le_iff_le_log (by norm_num) hx0]; exact_mod_cast h1
    have l2 : Int.log 10 |x| < 400 := by
      rw [← Int.lt_zpow_iff_log_lt (by norm_num) hx0]; exact_mod_cast h2
    simp only
    split <;> simp only <;> omega

theorem sciParts_mantissa (dec : ℕ) (x : ℚ) : (sciParts dec x).1 / 10 ^ dec < 10 := by
  rw [Nat.div_lt_iff_lt_mul (by positivity)]
  have hp : 0 < 10 ^ dec := by positivity
  unfold sciParts
  split
  · simp only; omega
  · rename_i hx
    have hx0 : 0 < |x| := abs_pos.2 hx
    simp only
    split
    · simp only; omega
    · rename_i hm
      simp only
      set e := Int.log 10 |x|
      have hlt : |x| < 10 ^ (e + 1) := by
        have := Int.lt_zpow_succ_log_self (R := ℚ) (b := 10) (by norm_num) |x|
        exact_mod_cast this
      have hq : |x| * 10 ^ ((dec : ℤ) - e) < 10 ^ (dec + 1) := by
        calc |x| * 10 ^ ((dec : ℤ) - e) < 10 ^ (e + 1) * 10 ^ ((dec : ℤ) - e) := by
              gcongr
          _ = 10 ^ (dec + 1) := by
              rw [← zpow_add₀ (by norm_num), ← zpow_natCast]; congr 1; push_cast; ring
      have h0 : (0 : ℚ) ≤ |x| * 10 ^ ((dec : ℤ) - e) := by positivity
      have h1 := (abs_le.1 (roundEven_spec (|x| * 10 ^ ((dec : ℤ) - e)))).2
      have h2 : ((roundEven (|x| * 10 ^ ((dec : ℤ) - e))).toNat : ℚ) < 10 ^ (dec + 1) + 1 := by
        rw [roundEven_toNat h0]; linarith
      have h3 : (roundEven (|x| * 10 ^ ((dec : ℤ) - e))).toNat < 10 ^ (dec + 1) + 1 := by exact_mod_cast h2
      rw [pow_succ] at h3 hm
      omega

/-- Length of a number printed with `'%.{dec}E'`. -/
theorem sciStr_length {dec : ℕ} {x : ℚ} (h : FloatRange x) :
    (sciStr dec x).length ≤ dec + 8 := by
  have h1 : (natStr ((sciParts dec x).1 / 10 ^ dec)).length ≤ 1 :=
    natStr_length le_rfl (by simpa using sciParts_mantissa dec x)
  have h2 := natStr_length (k := 3) (by norm_num) (sciParts_exp (dec := dec) h)
  have h3 := signStr_length x
  have h4 : (expStr (sciParts dec x).2).length ≤ 4 := by
    unfold expStr
    split <;> split <;> simp_all
    all_goals
      rename_i h5
      rw [natStr_lt h5]; simp
  simp only [sciStr, List.length_append, List.length_cons, digitsW_length]
  omega

end MM
