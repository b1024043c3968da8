import Verif.Spec.ConversionAny
import Verif.Props.ConversionSci

/-!
# Saving and loading several times in any of seven formats (C140)

A number with six decimals that is below 1 has at most six significant digits, and a number with seven significant digits that is not below 1 has at
most six decimals: a number that has been printed in both ways does not change any more.
-/

namespace MM.Io

/-- A number with six decimals. -/
def InF (y : ℚ) : Prop := ∃ k : ℤ, y * 10 ^ 6 = k

/-- A number with seven significant digits. -/
def InS (y : ℚ) : Prop := ∃ x, y = sciVal 6 x

lemma InF.fix (x : ℚ) : InF (fixedVal 6 x) := (rounded6_fixedVal x).1

lemma fix_near {ε b r y : ℚ} (hε : 0 ≤ ε) (hb : ε * b < 1 / 2 / 10 ^ 6) (hy : InF y) (hyb : |y| ≤ b) (hr : |r - y| ≤ ε * |y|) :
    fixedVal 6 r = y :=
  rounded6_unique hy ((hr.trans (mul_le_mul_of_nonneg_left hyb hε)).trans_lt hb) (rounded6_fixedVal _)

lemma sci_near {ε r y : ℚ} (hε : 0 ≤ ε) (h : ε * 10 ^ 7 < 1 / 2) (hy : InS y) (hr : |r - y| ≤ ε * |y|) : sciVal 6 r = y := by
  obtain ⟨x, rfl⟩ := hy
  exact sciVal_read hε h hr

/-- A number printed with an exponent which is not negative has at most six decimals. -/
lemma inF_of_exp {x : ℚ} (h : 0 ≤ (sciParts 6 x).2) : InF (sciVal 6 x) := by
  obtain ⟨e, he⟩ := Int.eq_ofNat_of_zero_le h
  refine ⟨(if x < 0 then -1 else 1) * ((sciParts 6 x).1 * 10 ^ e : ℕ), ?_⟩
  unfold sciVal sgn
  rw [he]
  push_cast
  rw [zpow_sub₀ (by norm_num)]
  have : ((10 : ℚ) ^ (6 : ℤ)) = 10 ^ 6 := by norm_num
  rw [this, zpow_natCast]
  split_ifs <;> push_cast <;> field_simp

/-- A number at least 1 is printed with an exponent which is not negative. -/
lemma exp_nonneg {x : ℚ} (h : 1 ≤ |x|) : 0 ≤ (sciParts 6 x).2 := by
  have hx : x ≠ 0 := by rintro rfl; norm_num at h
  have hl : 0 ≤ Int.log 10 |x| := (Int.zpow_le_iff_le_log (b := 10) (by norm_num) (abs_pos.2 hx)).1 (by simpa using h)
  unfold sciParts
  rw [if_neg hx]
  simp only
  split
  · simp only; omega
  · exact hl

lemma inF_of_inS {y : ℚ} (hy : InS y) (h : 1 ≤ |y|) : InF y := by
  have := sci_near (ε := 0) le_rfl (by norm_num) hy (r := y) (by simp)
  rw [← this]
  exact inF_of_exp (exp_nonneg h)

lemma inS_of_inF {y : ℚ} (hy : InF y) (h : |y| ≤ 1) : InS y := by
  refine ⟨y, ?_⟩
  by_cases h0 : y = 0
  · subst h0; simp [sciVal, sciParts]
  obtain ⟨k, hk⟩ := hy
  have hkn : |y| * 10 ^ 6 = (k.natAbs : ℚ) := by
    rw [Nat.cast_natAbs, Int.cast_abs, ← hk, abs_mul]
    norm_num
  obtain ⟨n, hn⟩ : ∃ n, n = k.natAbs := ⟨_, rfl⟩
  rw [← hn] at hkn
  have n0 : n ≠ 0 := by
    rintro rfl
    have : |y| = 0 := by push_cast at hkn; linarith
    exact h0 (abs_eq_zero.1 this)
  have n1 : n ≤ 10 ^ 6 := by
    have : (n : ℚ) ≤ (10 ^ 6 : ℕ) := by rw [← hkn]; push_cast; linarith
    exact_mod_cast this
  obtain ⟨a, ha⟩ : ∃ a, a = Nat.log 10 n := ⟨_, rfl⟩
  have a1 : 10 ^ a ≤ n := by rw [ha]; exact Nat.pow_log_le_self 10 n0
  have a2 : n < 10 ^ (a + 1) := by rw [ha]; exact Nat.lt_pow_succ_log_self (by norm_num) n
  have a3 : a ≤ 6 := (Nat.pow_le_pow_iff_right (by norm_num)).1 (a1.trans n1)
  have e6 : 10 ^ a * 10 ^ (6 - a) = 10 ^ 6 := by rw [← pow_add]; congr 1; omega
  have hy2 : |y| = (n * 10 ^ (6 - a) : ℕ) * 10 ^ (-((6 - a : ℕ) : ℤ) - ((6 : ℕ) : ℤ)) := by
    push_cast
    rw [zpow_sub₀ (by norm_num), zpow_neg, zpow_natCast, ← hkn]
    have : ((10 : ℚ) ^ (6 : ℤ)) = 10 ^ 6 := by norm_num
    rw [this]
    field_simp
  have hp : sciParts 6 y = (n * 10 ^ (6 - a), -((6 - a : ℕ) : ℤ)) := by
    refine sciParts_eq (ε := 0) le_rfl (by norm_num) ?_ ?_ ?_
    · rw [← e6]; exact Nat.mul_le_mul_right _ a1
    · calc n * 10 ^ (6 - a) < 10 ^ (a + 1) * 10 ^ (6 - a) := Nat.mul_lt_mul_of_pos_right a2 (by positivity)
        _ = 10 * (10 ^ a * 10 ^ (6 - a)) := by ring
        _ = 10 ^ (6 + 1) := by rw [e6]; norm_num
    · rw [← hy2]; simp
  unfold sciVal
  rw [hp]
  simp only
  rw [mul_assoc]
  have := sgn_mul_abs y
  rw [hy2] at this
  exact this.symm

/-- What a coordinate `x` may have become. -/
def Kept (ε x r : ℚ) : Prop := r = x ∨ ∃ y, |r - y| ≤ ε * |y| ∧
  ((InF y ∧ |y - x| ≤ 1 / 2 / 10 ^ 6) ∨ (InS y ∧ |y - x| ≤ 1 / 2 / 10 ^ 6 * |x|) ∨
    (InF y ∧ InS y ∧ |y - x| ≤ 6 / 10 ^ 7 + 6 / 10 ^ 7 * |x|))

variable {ε b x r : ℚ} {read : ℚ → ℚ}

lemma Kept.bound (hx : |x| ≤ b) (hb' : b ≤ 9999990) {y : ℚ}
    (h : (InF y ∧ |y - x| ≤ 1 / 2 / 10 ^ 6) ∨ (InS y ∧ |y - x| ≤ 1 / 2 / 10 ^ 6 * |x|) ∨
      (InF y ∧ InS y ∧ |y - x| ≤ 6 / 10 ^ 7 + 6 / 10 ^ 7 * |x|)) : |y - x| ≤ 6 / 10 ^ 7 + 6 / 10 ^ 7 * |x| ∧ |y| ≤ b + 7 := by
  have x0 := abs_nonneg x
  have k : |y - x| ≤ 6 / 10 ^ 7 + 6 / 10 ^ 7 * |x| := by
    rcases h with ⟨-, h⟩ | ⟨-, h⟩ | ⟨-, -, h⟩ <;> norm_num at h ⊢ <;> linarith
  refine ⟨k, ?_⟩
  have := (abs_le.1 ((abs_abs_sub_abs_le _ _).trans k)).2
  norm_num at this
  linarith

lemma Kept.near (hε : 0 ≤ ε) (h7 : ε * 10 ^ 7 < 1 / 2) (hx : |x| ≤ b) (hb' : b ≤ 9999990) (h : Kept ε x r) :
    |r - x| ≤ 1 / 10 ^ 6 + 1 / 10 ^ 6 * |x| := by
  have x0 := abs_nonneg x
  rcases h with rfl | ⟨y, hr, h⟩
  · rw [sub_self, abs_zero]; positivity
  · have k := (Kept.bound hx hb' h).1
    have yx := (abs_le.1 ((abs_abs_sub_abs_le _ _).trans k)).2
    have : ε * |y| ≤ 1 / 2 / 10 ^ 7 * |y| := mul_le_mul_of_nonneg_right (by linarith) (abs_nonneg _)
    have t : |r - x| ≤ |r - y| + |y - x| := by
      calc |r - x| = |(r - y) + (y - x)| := by ring_nf
        _ ≤ _ := abs_add_le _ _
    norm_num at *
    linarith [abs_nonneg x]

lemma Kept.fix (hε : 0 ≤ ε) (h7 : ε * 10 ^ 7 < 1 / 2) (hx : |x| ≤ b) (hb' : b ≤ 9999990) (hb : ε * (b + 7) < 1 / 2 / 10 ^ 6)
    (hread : ∀ x, |read x - x| ≤ ε * |x|) (h : Kept ε x r) : Kept ε x (read (fixedVal 6 r)) := by
  have x0 := abs_nonneg x
  right
  rcases h with rfl | ⟨y, hr, h⟩
  · exact ⟨_, hread _, .inl ⟨InF.fix _, (rounded6_fixedVal _).2⟩⟩
  · obtain ⟨k, yb⟩ := Kept.bound hx hb' h
    by_cases hF : InF y
    · rw [fix_near hε hb hF yb hr]
      exact ⟨y, hread _, h⟩
    · -- seven digits, below 1
      have hS : InS y ∧ |y - x| ≤ 1 / 2 / 10 ^ 6 * |x| := by
        rcases h with h | h | h
        · exact absurd h.1 hF
        · exact h
        · exact absurd h.1 hF
      have hy1 : |y| < 1 := by
        by_contra hc
        exact hF (inF_of_inS hS.1 (not_lt.1 hc))
      have hd := (rounded6_fixedVal r).2
      have hεy : ε * |y| ≤ 1 / 2 / 10 ^ 7 * |y| := mul_le_mul_of_nonneg_right (by linarith) (abs_nonneg _)
      have hle : |fixedVal 6 r| ≤ 1 := by
        obtain ⟨j, hj⟩ := InF.fix r
        have h1 := (abs_le.1 ((abs_abs_sub_abs_le _ _).trans hd)).2
        have h2 := (abs_le.1 ((abs_abs_sub_abs_le _ _).trans hr)).2
        have h3 : |fixedVal 6 r| * 10 ^ 6 < 10 ^ 6 + 1 := by
          norm_num at *
          linarith [abs_nonneg x]
        have h4 : |fixedVal 6 r| * 10 ^ 6 = ((|j| : ℤ) : ℚ) := by
          rw [Int.cast_abs, ← hj, abs_mul]; norm_num
        rw [h4] at h3
        have h5 : |j| < 10 ^ 6 + 1 := by exact_mod_cast h3
        have h6 : |j| ≤ 10 ^ 6 := by omega
        have h7 : ((|j| : ℤ) : ℚ) ≤ 10 ^ 6 := by exact_mod_cast h6
        rw [← h4] at h7
        linarith
      refine ⟨_, hread _, .inr (.inr ⟨InF.fix _, inS_of_inF (InF.fix _) hle, ?_⟩)⟩
      have t : |fixedVal 6 r - x| ≤ |fixedVal 6 r - r| + |r - y| + |y - x| := by
        calc |fixedVal 6 r - x| = |(fixedVal 6 r - r) + (r - y) + (y - x)| := by ring_nf
          _ ≤ _ := (abs_add_le _ _).trans (add_le_add_left (abs_add_le _ _) _)
      have h1 := hS.2
      norm_num at *
      linarith [abs_nonneg x]

lemma Kept.sci (hε : 0 ≤ ε) (h7 : ε * 10 ^ 7 < 1 / 2) (hx : |x| ≤ b) (hb' : b ≤ 9999990)
    (hread : ∀ x, |read x - x| ≤ ε * |x|) (h : Kept ε x r) : Kept ε x (read (sciVal 6 r)) := by
  have x0 := abs_nonneg x
  right
  rcases h with rfl | ⟨y, hr, h⟩
  · exact ⟨_, hread _, .inr (.inl ⟨⟨_, rfl⟩, sciVal_near 6 _⟩)⟩
  · obtain ⟨k, yb⟩ := Kept.bound hx hb' h
    by_cases hS : InS y
    · rw [sci_near hε h7 hS hr]
      exact ⟨y, hread _, h⟩
    · -- six decimals, above 1
      have hF : InF y ∧ |y - x| ≤ 1 / 2 / 10 ^ 6 := by
        rcases h with h | h | h
        · exact h
        · exact absurd h.1 hS
        · exact absurd h.2.1 hS
      have hy1 : 1 < |y| := by
        by_contra hc
        exact hS (inS_of_inF hF.1 (not_lt.1 hc))
      have hy2 : 1 + 1 / 10 ^ 6 ≤ |y| := by
        obtain ⟨j, hj⟩ := hF.1
        have h4 : |y| * 10 ^ 6 = ((|j| : ℤ) : ℚ) := by
          rw [Int.cast_abs, ← hj, abs_mul]; norm_num
        have h5 : (10 : ℚ) ^ 6 < ((|j| : ℤ) : ℚ) := by rw [← h4]; linarith
        have h6 : 10 ^ 6 < |j| := by exact_mod_cast h5
        have h7 : 10 ^ 6 + 1 ≤ |j| := by omega
        have h8 : (10 : ℚ) ^ 6 + 1 ≤ ((|j| : ℤ) : ℚ) := by exact_mod_cast h7
        rw [← h4] at h8
        norm_num at *
        linarith [abs_nonneg x]
      have hεy : ε * |y| ≤ 1 / 2 / 10 ^ 7 * |y| := mul_le_mul_of_nonneg_right (by linarith) (abs_nonneg _)
      have hr1 := abs_le.1 ((abs_abs_sub_abs_le _ _).trans hr)
      have hr2 : 1 ≤ |r| := by
        norm_num at *
        linarith [abs_nonneg x]
      refine ⟨_, hread _, .inr (.inr ⟨inF_of_exp (exp_nonneg hr2), ⟨_, rfl⟩, ?_⟩)⟩
      have t : |sciVal 6 r - x| ≤ |sciVal 6 r - r| + |r - y| + |y - x| := by
        calc |sciVal 6 r - x| = |(sciVal 6 r - r) + (r - y) + (y - x)| := by ring_nf
          _ ≤ _ := (abs_add_le _ _).trans (add_le_add_left (abs_add_le _ _) _)
      have h1 := hF.2
      have h2 := sciVal_near 6 r
      have yx := (abs_le.1 ((abs_abs_sub_abs_le _ _).trans h1)).2
      norm_num at *
      linarith [abs_nonneg x]

lemma Kept.float (hε : 0 ≤ ε) (h7 : ε * 10 ^ 7 < 1 / 2) (hx : |x| ≤ b) (hb' : b ≤ 9999990) (hd : DoubleRange x) (h : Kept ε x r) :
    FloatRange r := by
  rcases h with rfl | ⟨y, hr, h⟩
  · exact hd.float
  have yb := (Kept.bound hx hb' h).2
  by_cases hy : y = 0
  · left
    rw [hy, abs_zero, mul_zero, sub_zero] at hr
    exact abs_nonpos_iff.1 hr
  right
  have hεy : ε * |y| ≤ 1 / 2 / 10 ^ 7 * |y| := mul_le_mul_of_nonneg_right (by linarith) (abs_nonneg _)
  have hr1 := abs_le.1 ((abs_abs_sub_abs_le _ _).trans hr)
  have ylow : (10 : ℚ) ^ (-(331 : ℤ)) ≤ |y| := by
    have hFy : InF y → (10 : ℚ) ^ (-(331 : ℤ)) ≤ |y| := by
      rintro ⟨j, hj⟩
      have h4 : |y| * 10 ^ 6 = ((|j| : ℤ) : ℚ) := by
        rw [Int.cast_abs, ← hj, abs_mul]; norm_num
      have j0 : j ≠ 0 := by
        rintro rfl
        simp [hy] at hj
      have j1 : 1 ≤ |j| := Int.one_le_abs j0
      have j2 : (1 : ℚ) ≤ ((|j| : ℤ) : ℚ) := by exact_mod_cast j1
      rw [← h4] at j2
      refine le_trans (by decide +kernel : (10 : ℚ) ^ (-(331 : ℤ)) ≤ 1 / 10 ^ 6) ?_
      norm_num at *
      linarith
    rcases h with h | h | h
    · exact hFy h.1
    · rcases hd with rfl | ⟨a, -⟩
      · have := h.2
        rw [abs_zero, mul_zero, sub_zero] at this
        exact absurd (abs_nonpos_iff.1 this) hy
      · have k := (abs_le.1 ((abs_abs_sub_abs_le _ _).trans h.2)).1
        have q : (10 : ℚ) ^ (-(331 : ℤ)) ≤ 10 ^ (-(330 : ℤ)) / 2 := by decide +kernel
        generalize (10 : ℚ) ^ (-(331 : ℤ)) = p at *
        generalize (10 : ℚ) ^ (-(330 : ℤ)) = s at *
        norm_num at k
        linarith [abs_nonneg x]
    · exact hFy h.1
  constructor
  · have q : (10 : ℚ) ^ (-(400 : ℤ)) ≤ 10 ^ (-(331 : ℤ)) / 2 := by decide +kernel
    generalize (10 : ℚ) ^ (-(331 : ℤ)) = p at *
    generalize (10 : ℚ) ^ (-(400 : ℤ)) = s at *
    norm_num at hεy hr1
    linarith [abs_nonneg y]
  · have q : (10 : ℚ) ^ (8 : ℕ) < 10 ^ (400 : ℤ) := by decide +kernel
    refine lt_trans ?_ q
    norm_num at hεy hr1 ⊢
    linarith [abs_nonneg y]

lemma Kept.mar (hε : 0 ≤ ε) (hb : ε * (b + 7) < 1 / 2 / 10 ^ 6) (hx : |x| ≤ b) (hb' : b ≤ 9999990) (h : Kept ε x r) : MarRange r := by
  have k : |r| ≤ 9999999 := by
    rcases h with rfl | ⟨y, hr, h⟩
    · linarith
    · have yb := (Kept.bound hx hb' h).2
      have hr1 := (abs_le.1 ((abs_abs_sub_abs_le _ _).trans hr)).2
      have := mul_le_mul_of_nonneg_left yb hε
      norm_num at hb
      linarith
  have := abs_le.1 k
  exact ⟨by linarith, by linarith⟩

/-- What a point may have become. -/
def PointKept (ε : ℚ) (v w : V3 ℚ) : Prop := Kept ε v.x w.x ∧ Kept ε v.y w.y ∧ Kept ε v.z w.z

/-- **C140.** A mesh is saved and loaded any number of times, each time in MAR, NEM, VTK, OBJ, NAT, HST or TEC, by programs of the
relative precision `ε`. Whatever the sequence of formats and programs: it can be carried out, it ends with the same faces, and each
coordinate `x` ends within `10⁻⁶ (1 + |x|)` of its first value, however long the sequence. -/
theorem C140_any_formats (m : Mesh ℚ) (b ε : ℚ) (hε : 0 ≤ ε) (h7 : ε * 10 ^ 7 < 1 / 2) (hb : ε * (b + 7) < 1 / 2 / 10 ^ 6) (hb' : b ≤ 9999990)
    (hm : ∀ v ∈ m.vertices, Within b v) (hd : ∀ v ∈ m.vertices, DoubleRange v.x ∧ DoubleRange v.y ∧ DoubleRange v.z)
    (hi : ∀ f ∈ m.faces, ∀ i ∈ f.toList, i + 1 < 10 ^ 9) (hv : 3 ≤ m.nv) (hf : 4 ≤ m.nf) (hf' : m.nf < 100000)
    (hnd : ∀ f ∈ m.faces, (around f).Nodup) (stages : List (Stage ⊕ SciStage)) (hs : ∀ s ∈ stages, AnyPrecise ε s) :
    (∃ m', AnyHistory stages m m') ∧
    ∀ m', AnyHistory stages m m' → m'.faces = m.faces ∧ List.Forall₂ (NearTo (1 / 10 ^ 6) (1 / 10 ^ 6)) m.vertices m'.vertices := by
  have hfne : m.faces ≠ [] := by
    intro h
    simp [Mesh.nf, h] at hf
  suffices key : ∀ (stages : List (Stage ⊕ SciStage)) (m1 : Mesh ℚ), (∀ s ∈ stages, AnyPrecise ε s) → m1.faces = m.faces →
      List.Forall₂ (fun v w => v ∈ m.vertices ∧ PointKept ε v w) m.vertices m1.vertices → (∃ m', AnyHistory stages m1 m') ∧
      ∀ m', AnyHistory stages m1 m' → m'.faces = m.faces ∧ List.Forall₂ (fun v w => v ∈ m.vertices ∧ PointKept ε v w) m.vertices m'.vertices by
    obtain ⟨h1, h2⟩ := key stages m hs rfl (List.forall₂_same.2 fun v hv => ⟨hv, .inl rfl, .inl rfl, .inl rfl⟩)
    refine ⟨h1, fun m' h => ⟨(h2 m' h).1, (h2 m' h).2.imp ?_⟩⟩
    rintro v w ⟨h, k1, k2, k3⟩
    obtain ⟨b1, b2, b3⟩ := hm v h
    exact ⟨k1.near hε h7 b1 hb', k2.near hε h7 b2 hb', k3.near hε h7 b3 hb'⟩
  intro stages
  induction stages with
  | nil =>
    intro m1 _ e1 e2
    refine ⟨⟨m1, .nil _⟩, ?_⟩
    rintro m' ⟨⟩
    exact ⟨e1, e2⟩
  | cons s l ih =>
    intro m1 hs e1 e2
    have hp := hs s List.mem_cons_self
    have hmem : ∀ w ∈ m1.vertices, ∃ v ∈ m.vertices, PointKept ε v w := by
      intro w hw
      obtain ⟨i, hi, rfl⟩ := List.getElem_of_mem hw
      have := (List.forall₂_iff_get.1 e2).2 i (by rw [e2.length_eq]; exact hi) hi
      exact ⟨_, this⟩
    have n1 : m1.nv = m.nv := e2.length_eq.symm
    have n2 : m1.nf = m.nf := by simp [Mesh.nf, e1]
    have step : ∃ g : V3 ℚ → V3 ℚ, (∀ v w, v ∈ m.vertices → PointKept ε v w → PointKept ε v (g w)) ∧
        ∀ m', AnyReloaded s m1 m' ↔ m' = ⟨m1.vertices.map g, m1.faces⟩ := by
      cases s with
      | inl s =>
        refine ⟨fun w => readPoint s.read (fixPoint w), ?_, ?_⟩
        · rintro v w h ⟨k1, k2, k3⟩
          obtain ⟨b1, b2, b3⟩ := hm v h
          exact ⟨k1.fix hε h7 b1 hb' hb hp.1, k2.fix hε h7 b2 hb' hb hp.1, k3.fix hε h7 b3 hb' hb hp.1⟩
        · intro m'
          have : FitsMAR m1 := by
            refine ⟨fun w hw => ?_, e1 ▸ hi⟩
            obtain ⟨v, h, k1, k2, k3⟩ := hmem w hw
            obtain ⟨b1, b2, b3⟩ := hm v h
            exact ⟨k1.mar hε hb b1 hb', k2.mar hε hb b2 hb', k3.mar hε hb b3 hb'⟩
          have := reloaded_iff (m' := m') hp this (e1 ▸ hfne) (e1 ▸ hnd)
          rw [List.map_map] at this
          exact this
      | inr s =>
        refine ⟨fun w => readPoint s.read (sciPoint w), ?_, ?_⟩
        · rintro v w h ⟨k1, k2, k3⟩
          obtain ⟨b1, b2, b3⟩ := hm v h
          exact ⟨k1.sci hε h7 b1 hb' hp.1, k2.sci hε h7 b2 hb' hp.1, k3.sci hε h7 b3 hb' hp.1⟩
        · intro m'
          have : Usual m1 := by
            refine ⟨fun w hw => ?_, e1 ▸ hi⟩
            obtain ⟨v, h, k1, k2, k3⟩ := hmem w hw
            obtain ⟨b1, b2, b3⟩ := hm v h
            obtain ⟨d1, d2, d3⟩ := hd v h
            exact ⟨k1.float hε h7 b1 hb' d1, k2.float hε h7 b2 hb' d2, k3.float hε h7 b3 hb' d3⟩
          have := sciReloaded_iff (m' := m') hp this (n1 ▸ hv) (n2 ▸ hf) (n2 ▸ hf')
          rw [List.map_map] at this
          exact this
    obtain ⟨g, hg, hr⟩ := step
    obtain ⟨⟨m2, x1⟩, x2⟩ := ih ⟨m1.vertices.map g, m1.faces⟩ (fun t ht => hs t (List.mem_cons_of_mem _ ht)) e1 (by
      simp only
      rw [List.forall₂_map_right_iff]
      exact e2.imp fun v w h => ⟨h.1, hg v w h.1 h.2⟩)
    refine ⟨⟨m2, .cons ((hr _).2 rfl) x1⟩, ?_⟩
    rintro m' (_ | ⟨h1, h2⟩)
    rw [(hr _).1 h1] at h2
    exact x2 m' h2

/-- The box meets the hypotheses: a history of three stages, in VTK, NAT and MAR. -/
theorem boxSample_meets_C140 : ∃ m', AnyHistory [.inl ⟨.vtk "today".toList, fun x => x + x / 2 ^ 53⟩, .inr ⟨.nat, fun x => x - x / 2 ^ 53⟩,
    .inl ⟨.mar, id⟩] boxSample m' ∧ m'.faces = boxSample.faces ∧
      List.Forall₂ (NearTo (1 / 10 ^ 6) (1 / 10 ^ 6)) boxSample.vertices m'.vertices := by
  obtain ⟨h1, h2, h3, h4, h5, h6, h7, h8, h9⟩ := boxSample_meets_C139
  obtain ⟨-, -, g1, -, -, g4, -, -⟩ := boxSample_meets_C134
  obtain ⟨⟨m', hm⟩, k⟩ := C140_any_formats boxSample 6 (1 / 2 ^ 53) h1 h2 (by norm_num) (by norm_num) g1 h3 h4 h5 h6 h7 g4
    [.inl ⟨.vtk "today".toList, fun x => x + x / 2 ^ 53⟩, .inr ⟨.nat, fun x => x - x / 2 ^ 53⟩, .inl ⟨.mar, id⟩] (by
      intro s hs
      simp only [List.mem_cons, List.not_mem_nil, or_false] at hs
      rcases hs with rfl | rfl | rfl
      · refine ⟨fun x => ?_, by decide⟩
        exact h8.1 x
      · exact h9
      · refine ⟨fun x => ?_, trivial⟩
        simp only [id, sub_self, abs_zero]
        positivity)
  exact ⟨m', hm, k m' hm⟩

end MM.Io
