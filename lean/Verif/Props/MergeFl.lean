import Verif.Model.MergeFl
import Verif.Proofs.Rounding
import Verif.Props.Merge

/-!
# Merging with rounded differences (C117)
-/

namespace MM

variable {K : Type*} [Field K] [LinearOrder K] [IsStrictOrderedRing K] {d : ℕ}

/-- Two tests which agree on the differences of the values give the same sub-levels. -/
lemma splitRunsFl_eq {rnd : K → K} {atol a : K} {val : ℕ → K} (S : Set K)
    (h : ∀ x ∈ S, ∀ y ∈ S, |rnd (x - y)| > atol ↔ |x - y| > a) (is : List ℕ) :
    ∀ (vref : K) (cur : List ℕ), vref ∈ S → (∀ i ∈ is, val i ∈ S) →
      splitRunsFl rnd atol val vref cur is = splitRuns a val vref cur is := by
  induction is with
  | nil => intro vref cur _ _; rfl
  | cons i is ih =>
    intro vref cur hv hi
    have h0 := h (val i) (hi i (by simp)) vref hv
    have hi' : ∀ j ∈ is, val j ∈ S := fun j hj => hi j (by simp [hj])
    simp only [splitRunsFl, splitRuns]
    by_cases hc : |val i - vref| > a
    · rw [if_pos hc, if_pos (h0.2 hc), ih _ _ (hi i (by simp)) hi']
    · rw [if_neg hc, if_neg (fun hf => hc (h0.1 hf)), ih _ _ hv hi']

lemma splitLevelFl_eq {rnd : K → K} {srt : (ℕ → K) → List ℕ → List ℕ} {atol a : K} {val : ℕ → K} (S : Set K)
    (h : ∀ x ∈ S, ∀ y ∈ S, |rnd (x - y)| > atol ↔ |x - y| > a) (hS : ∀ i, val i ∈ S) (g : List ℕ) :
    splitLevelFl rnd srt atol val g = splitLevel srt a val g := by
  unfold splitLevelFl splitLevel
  split
  · cases srt val g with
    | nil => rfl
    | cons i is => exact splitRunsFl_eq S h _ _ _ (hS _) fun i _ => hS i
  · rfl

lemma mergeLoopFl_eq {rnd : K → K} {srt : (ℕ → K) → List ℕ → List ℕ} {atol a : K} {arr : List (Fin d → K)} (S : Set K)
    (h : ∀ x ∈ S, ∀ y ∈ S, |rnd (x - y)| > atol ↔ |x - y| > a) (hS : ∀ dim i, colVal arr dim i ∈ S)
    (dims : List (Fin d)) : ∀ levels, mergeLoopFl rnd srt atol arr dims levels = mergeLoop srt a arr dims levels := by
  induction dims with
  | nil => intro levels; rfl
  | cons dim dims ih =>
    intro levels
    have e : splitLevelFl rnd srt atol (colVal arr dim) = splitLevel srt a (colVal arr dim) := by
      funext g; exact splitLevelFl_eq S h (hS dim) g
    simp only [mergeLoopFl, mergeLoop, e, ih]

/-- A finite set with the values of the columns. -/
lemma colVal_finite (arr : List (Fin d → K)) : ∃ S : List K, ∀ dim i, colVal arr dim i ∈ S := by
  refine ⟨0 :: arr.flatMap fun r => (List.finRange d).map r, fun dim i => ?_⟩
  unfold colVal
  cases h : arr[i]? with
  | none => exact List.mem_cons_self
  | some r =>
    exact List.mem_cons_of_mem _ (List.mem_flatMap.2
      ⟨r, List.mem_of_getElem? h, List.mem_map.2 ⟨dim, List.mem_finRange _, rfl⟩⟩)

lemma rounding_abs {u : K} {rnd : K → K} (hr : IsRounding u rnd) (x : K) : |rnd x| = rnd |x| := by
  have h0 : rnd 0 = 0 := by
    have := hr.near 0
    simpa using this
  rcases le_total 0 x with h | h
  · rw [abs_of_nonneg h, abs_of_nonneg (by rw [← h0]; exact hr.mono _ _ h)]
  · rw [abs_of_nonpos h, abs_of_nonpos (by rw [← h0]; exact hr.mono _ _ h), hr.odd]

lemma exists_max_of_list (P : K → Prop) (l : List K) (x : K) (hx : P x) :
    ∃ a, P a ∧ x ≤ a ∧ ∀ y ∈ l, P y → y ≤ a := by
  classical
  induction l with
  | nil => exact ⟨x, hx, le_rfl, by simp⟩
  | cons z l ih =>
    obtain ⟨a, ha, hxa, hm⟩ := ih
    by_cases hz : P z ∧ a ≤ z
    · refine ⟨z, hz.1, hxa.trans hz.2, fun y hy hp => ?_⟩
      rcases List.mem_cons.1 hy with rfl | hy
      · exact le_rfl
      · exact (hm y hy hp).trans hz.2
    · refine ⟨a, ha, hxa, fun y hy hp => ?_⟩
      rcases List.mem_cons.1 hy with rfl | hy
      · by_contra hc
        exact hz ⟨hp, (not_le.1 hc).le⟩
      · exact hm y hy hp

/-- **C117.** With a rounded subtraction, `merge_duplicate_rows` gives, for every array and every tolerance which is itself
a floating-point number, exactly the result of the exact algorithm for some tolerance `a` between the one asked for and
this one divided by `1 - u`. So every theorem about the exact algorithm says something of the rounded one. -/
theorem C117_as_exact (u : K) (rnd : K → K) (hr : IsRounding u rnd) (srt : (ℕ → K) → List ℕ → List ℕ) (atol : K)
    (h0 : 0 ≤ atol) (ha : rnd atol = atol) (arr : List (Fin d → K)) :
    ∃ a, atol ≤ a ∧ (1 - u) * a ≤ atol ∧
      mergeDuplicateRowsFl rnd srt atol arr = mergeDuplicateRows srt a arr := by
  obtain ⟨S, hS⟩ := colVal_finite arr
  obtain ⟨a, hP, hle, hmax⟩ := exists_max_of_list (fun x => rnd x ≤ atol)
    (S.flatMap fun p => S.map fun q => |p - q|) atol ha.le
  have ha0 : 0 ≤ a := h0.trans hle
  refine ⟨a, hle, ?_, ?_⟩
  · have h1 := hr.near a
    rw [abs_of_nonneg ha0] at h1
    have h2 := (abs_le.1 h1).1
    nlinarith
  · have key : ∀ x ∈ {x | x ∈ S}, ∀ y ∈ {x | x ∈ S}, |rnd (x - y)| > atol ↔ |x - y| > a := by
      intro x hx y hy
      rw [rounding_abs hr]
      constructor
      · intro h
        by_contra hc
        exact absurd ((hr.mono _ _ (not_lt.1 hc)).trans hP) (not_le.2 h)
      · intro h
        by_contra hc
        exact absurd (hmax _ (List.mem_flatMap.2 ⟨x, hx, List.mem_map.2 ⟨y, hy, rfl⟩⟩) (not_lt.1 hc)) (not_le.2 h)
    unfold mergeDuplicateRowsFl mergeDuplicateRows
    rw [mergeLoopFl_eq {x | x ∈ S} key hS]
    cases mergeLoop srt a arr (List.finRange d) [List.range arr.length] <;> rfl

/-- **C117.** With a rounded subtraction: rows which get the same number differ in every coordinate by at most the tolerance
divided by `1 - u`, and so do a row and the one which replaces it; identical rows get the same number and the rows of the
result are pairwise distinct; an array whose rows differ pairwise by more than this is returned unchanged; the rows get
numbers of rows of the result, and every row of the result is one of the array. -/
theorem C117_rounded_merge (u : K) (hu : u < 1) (rnd : K → K) (hr : IsRounding u rnd)
    (srt : (ℕ → K) → List ℕ → List ℕ) (hsrt : IsArgsort srt) (atol : K) (h0 : 0 ≤ atol) (ha : rnd atol = atol)
    (arr : List (Fin d → K)) (hne : arr ≠ []) :
    ∃ r, mergeDuplicateRowsFl rnd srt atol arr = .ok r ∧
      (∀ (i j : ℕ) (p q : Fin d → K) (id : ℕ), arr[i]? = some p → arr[j]? = some q → r.newID[i]? = some id →
        r.newID[j]? = some id → ∀ k, |p k - q k| ≤ atol / (1 - u)) ∧
      (∀ (i : ℕ) (p : Fin d → K) (id : ℕ) (w : Fin d → K), arr[i]? = some p → r.newID[i]? = some id →
        r.rows[id]? = some w → ∀ k, |p k - w k| ≤ atol / (1 - u)) ∧
      (∀ (i j : ℕ) (p : Fin d → K), arr[i]? = some p → arr[j]? = some p → r.newID[i]? = r.newID[j]?) ∧
      r.rows.Nodup ∧
      ((∀ (i j : ℕ) (p q : Fin d → K), arr[i]? = some p → arr[j]? = some q → i ≠ j →
          ∃ k, atol / (1 - u) < |p k - q k|) → r.rows = arr ∧ r.newID = List.range arr.length) ∧
      r.newID.length = arr.length ∧
      (∀ i < arr.length, ∃ id, r.newID[i]? = some id ∧ id < r.rows.length) ∧
      (∀ id < r.rows.length, ∃ i < arr.length, r.newID[i]? = some id ∧ r.rows[id]? = arr[i]?) := by
  obtain ⟨a, hle, hub, heq⟩ := C117_as_exact u rnd hr srt atol h0 ha arr
  have ha0 : 0 ≤ a := h0.trans hle
  have hub' : a ≤ atol / (1 - u) := by
    rw [le_div_iff₀ (by linarith)]
    linarith
  obtain ⟨r, hok, hlen, hin, honto, -⟩ := (C03_renumbering_total_in_range_onto srt hsrt a ha0 arr).2 hne
  obtain ⟨h1, h2⟩ := C01_merged_rows_within_tolerance srt hsrt a ha0 arr r hok
  obtain ⟨h3, h4, h5⟩ := C02_exact_duplicates_merged srt hsrt a ha0 arr r hok
  refine ⟨r, heq.trans hok, fun i j p q id hi hj hi' hj' k => (h1 i j p q id hi hj hi' hj' k).trans hub',
    fun i p id w hi hi' hw k => (h2 i p id w hi hi' hw k).trans hub', h3, h4, fun h => h5 fun i j p q hi hj hij hall => ?_,
    hlen, hin, honto⟩
  obtain ⟨k, hk⟩ := h i j p q hi hj hij
  exact absurd ((hall k).trans hub') (not_le.2 hk)


/-- Doubles: three points of which the first two are at the tolerance `1` of each other up to the rounding. -/
def roundedRows : List (Fin 2 → ℚ) :=
  [row2 1 0, row2 (-(1 / 2 ^ 54)) 0, row2 5 (1 / 2)]

/-- The hypotheses of `C117_rounded_merge` are met by the rounding of doubles, with the tolerance `1` (and with the double
nearest to `1e-8`), and rows are merged. -/
theorem doubles_meet_C117 :
    IsRounding (1 / 2 ^ 53) (roundBits 53) ∧ roundBits 53 1 = 1 ∧
      roundBits 53 (3022314549036573 / 2 ^ 78) = 3022314549036573 / 2 ^ 78 ∧
      roundBits 53 (1 / 100000000) = 3022314549036573 / 2 ^ 78 ∧
      (mergeDuplicateRowsFl (roundBits 53) insArgsort 1 roundedRows).toOption.map (·.newID) = some [0, 0, 1] := by
  refine ⟨roundBits_isRounding (by norm_num), ?_, ?_, ?_, ?_⟩ <;> decide +kernel

/-- The exact tolerance is not kept: these two rows of doubles get the same number although they differ by more than the
tolerance. -/
theorem C117_tolerance_exceeded :
    ∃ r, mergeDuplicateRowsFl (roundBits 53) insArgsort 1 roundedRows = .ok r ∧ r.newID[0]? = some 0 ∧
      r.newID[1]? = some 0 ∧ 1 < |row2 1 0 0 - row2 (-(1 / 2 ^ 54)) 0 0| := by
  have h : (mergeDuplicateRowsFl (roundBits 53) insArgsort 1 roundedRows).toOption.map (·.newID) = some [0, 0, 1] := by
    decide +kernel
  cases hr : mergeDuplicateRowsFl (roundBits 53) insArgsort 1 roundedRows with
  | error e => rw [hr] at h; cases h
  | ok r =>
    rw [hr] at h
    have h' : r.newID = [0, 0, 1] := by simpa [Except.toOption] using h
    refine ⟨r, rfl, by rw [h']; rfl, by rw [h']; rfl, by decide +kernel⟩

end MM
