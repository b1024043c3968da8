import Verif.Proofs.MergeStable
import Verif.Props.MergeFl

/-!
# Merging rows known up to an error (C120)
-/

namespace MM

variable {K : Type*} [Field K] [LinearOrder K] [IsStrictOrderedRing K] {d : ℕ}

lemma nearCols_of_gap {atol atol' e : K} (he : 0 ≤ e) {arr arr' : List (Fin d → K)} (hlen : arr.length = arr'.length)
    (hnear : ∀ (i : ℕ) (p p' : Fin d → K), arr[i]? = some p → arr'[i]? = some p' → ∀ k, |p k - p' k| ≤ e)
    (hgap : ∀ (i j : ℕ) (p q : Fin d → K), arr[i]? = some p → arr[j]? = some q → ∀ k,
      |p k - q k| + 2 * e ≤ atol ∨ atol' + 2 * e < |p k - q k|) {a' : K} (h1 : atol ≤ a') (h2 : a' ≤ atol') (dim : Fin d) :
    NearCols arr.length atol a' (colVal arr dim) (colVal arr' dim) := by
  refine ⟨e, atol - 2 * e, atol' + 2 * e, he, by linarith, by linarith, by linarith, by linarith, ?_, ?_⟩
  · intro i hi
    have e1 : arr[i]? = some arr[i] := List.getElem?_eq_getElem hi
    have e2 : arr'[i]? = some arr'[i] := List.getElem?_eq_getElem (hlen ▸ hi)
    rw [colVal_eq e1, colVal_eq e2]
    exact hnear i _ _ e1 e2 dim
  · intro i hi j hj
    have e1 : arr[i]? = some arr[i] := List.getElem?_eq_getElem hi
    have e2 : arr[j]? = some arr[j] := List.getElem?_eq_getElem hj
    rw [colVal_eq e1, colVal_eq e2]
    rcases hgap i j _ _ e1 e2 dim with h | h
    · left; linarith
    · right; exact h

/-- **C120.** Let `arr'` be an array whose rows are those of `arr` up to an error `e` in every coordinate, and suppose that no
difference of two values of a column of `arr` is near the tolerance. Then merging `arr'` with rounded differences, and any
argsort, gives the same numbers as merging `arr` exactly. The rows of the results differ by at most `atol + e`, and by at
most `e` when the rows of `arr` with the same number are equal. -/
theorem C120_stable (u : K) (hu : u < 1) (hu0 : 0 ≤ u) (rnd : K → K) (hr : IsRounding u rnd)
    (srt srt' : (ℕ → K) → List ℕ → List ℕ) (hsrt : IsArgsort srt) (hsrt' : IsArgsort srt') (atol e : K) (h0 : 0 ≤ atol)
    (he : 0 ≤ e) (ha : rnd atol = atol) (arr arr' : List (Fin d → K)) (hne : arr ≠ []) (hlen : arr.length = arr'.length)
    (hnear : ∀ (i : ℕ) (p p' : Fin d → K), arr[i]? = some p → arr'[i]? = some p' → ∀ k, |p k - p' k| ≤ e)
    (hgap : ∀ (i j : ℕ) (p q : Fin d → K), arr[i]? = some p → arr[j]? = some q → ∀ k,
      |p k - q k| + 2 * e ≤ atol ∨ atol / (1 - u) + 2 * e < |p k - q k|) :
    ∃ r r', mergeDuplicateRows srt atol arr = .ok r ∧ mergeDuplicateRowsFl rnd srt' atol arr' = .ok r' ∧
      r'.newID = r.newID ∧ r'.rows.length = r.rows.length ∧
      (∀ (id : ℕ) (w w' : Fin d → K), r.rows[id]? = some w → r'.rows[id]? = some w' → ∀ k, |w k - w' k| ≤ atol + e) ∧
      ((∀ (i j : ℕ) (p q : Fin d → K), arr[i]? = some p → arr[j]? = some q → r.newID[i]? = r.newID[j]? → p = q) →
        ∀ (id : ℕ) (w w' : Fin d → K), r.rows[id]? = some w → r'.rows[id]? = some w' → ∀ k, |w k - w' k| ≤ e) := by
  obtain ⟨a, hle, hub, heq⟩ := C117_as_exact u rnd hr srt' atol h0 ha arr'
  have hub' : a ≤ atol / (1 - u) := by
    rw [le_div_iff₀ (by linarith)]
    linarith
  obtain ⟨r, r', hr1, hr2, hid, hl, hrows⟩ := merge_stable h0 (h0.trans hle) hsrt hsrt' hne hlen
    (nearCols_of_gap he hlen hnear hgap hle hub')
  obtain ⟨c1, -⟩ := C01_merged_rows_within_tolerance srt hsrt atol h0 arr r hr1
  have main : ∀ (id : ℕ) (w w' : Fin d → K), r.rows[id]? = some w → r'.rows[id]? = some w' → ∃ (i j : ℕ) (q : Fin d → K),
      r.newID[i]? = some id ∧ r.newID[j]? = some id ∧ arr[i]? = some w ∧ arr[j]? = some q ∧ ∀ k, |q k - w' k| ≤ e := by
    intro id w w' hw hw'
    obtain ⟨i, j, h1, h2, h3, h4⟩ := hrows id (List.getElem?_eq_some_iff.1 hw).1
    rw [hw] at h3
    rw [hw'] at h4
    have hj : j < arr.length := by rw [hlen]; exact (List.getElem?_eq_some_iff.1 h4.symm).1
    have e1 : arr[j]? = some arr[j] := List.getElem?_eq_getElem hj
    exact ⟨i, j, arr[j], h1, h2, h3.symm, e1, hnear j _ _ e1 h4.symm⟩
  refine ⟨r, r', hr1, heq.trans hr2, hid, hl, fun id w w' hw hw' k => ?_, fun hsep id w w' hw hw' k => ?_⟩
  · obtain ⟨i, j, q, h1, h2, h3, h4, h5⟩ := main id w w' hw hw'
    calc |w k - w' k| = |(w k - q k) + (q k - w' k)| := by rw [sub_add_sub_cancel]
      _ ≤ _ := (abs_add_le _ _).trans (add_le_add (c1 i j w q id h3 h4 h1 h2 k) (h5 k))
  · obtain ⟨i, j, q, h1, h2, h3, h4, h5⟩ := main id w w' hw hw'
    rw [hsep i j w q h3 h4 (h1.trans h2.symm)]
    exact h5 k

/-- Three exact points, the last two being equal. -/
def exactRows : List (Fin 2 → ℚ) := [row2 0 0, row2 (3 / 2) (1 / 3), row2 (3 / 2) (1 / 3)]

/-- The same points in doubles, computed in two ways. -/
def computedRows : List (Fin 2 → ℚ) :=
  [row2 0 0, row2 (3 / 2) (roundBits 53 (1 / 3)), row2 (3 / 2) (roundBits 53 (1 / 3) + 1 / 2 ^ 54)]

lemma rows_near_of {l l' : List (Fin d → K)} {e : K} (z : Fin d → K)
    (h : ∀ i : Fin l.length, ∀ k, |l[i] k - (l'[(i : ℕ)]?.getD z) k| ≤ e) :
    ∀ (i : ℕ) (p p' : Fin d → K), l[i]? = some p → l'[i]? = some p' → ∀ k, |p k - p' k| ≤ e := by
  intro i p p' hp hp' k
  obtain ⟨hi, rfl⟩ := List.getElem?_eq_some_iff.1 hp
  have := h ⟨i, hi⟩ k
  simp only [hp'] at this
  exact this

lemma rows_gap_of {l : List (Fin d → K)} {e a b : K}
    (h : ∀ i : Fin l.length, ∀ j : Fin l.length, ∀ k, |l[i] k - l[j] k| + 2 * e ≤ a ∨ b + 2 * e < |l[i] k - l[j] k|) :
    ∀ (i j : ℕ) (p q : Fin d → K), l[i]? = some p → l[j]? = some q → ∀ k,
      |p k - q k| + 2 * e ≤ a ∨ b + 2 * e < |p k - q k| := by
  intro i j p q hp hq
  obtain ⟨hi, rfl⟩ := List.getElem?_eq_some_iff.1 hp
  obtain ⟨hj, rfl⟩ := List.getElem?_eq_some_iff.1 hq
  exact h ⟨i, hi⟩ ⟨j, hj⟩

/-- The hypotheses of C120 are met, in doubles and with the tolerance `1`, and rows are merged. -/
theorem rows_meet_C120 :
    IsRounding (1 / 2 ^ 53) (roundBits 53) ∧ roundBits 53 1 = 1 ∧ exactRows.length = computedRows.length ∧
      (∀ (i : ℕ) (p p' : Fin 2 → ℚ), exactRows[i]? = some p → computedRows[i]? = some p' → ∀ k, |p k - p' k| ≤ 1 / 2 ^ 52) ∧
      (∀ (i j : ℕ) (p q : Fin 2 → ℚ), exactRows[i]? = some p → exactRows[j]? = some q → ∀ k,
        |p k - q k| + 2 * (1 / 2 ^ 52) ≤ 1 ∨ 1 / (1 - 1 / 2 ^ 53) + 2 * (1 / 2 ^ 52) < |p k - q k|) ∧
      (mergeDuplicateRowsFl (roundBits 53) insArgsort 1 computedRows).toOption.map (·.newID) = some [0, 1, 1] := by
  exact ⟨roundBits_isRounding (by norm_num), by decide +kernel, rfl, rows_near_of (row2 0 0) (by decide +kernel),
    rows_gap_of (by decide +kernel), by decide +kernel⟩

/-- The gap is needed: two rows of doubles which differ in the last bit, where the exact rows are equal, get two numbers as
soon as another row is at the tolerance of them in one coordinate. -/
theorem C120_gap_needed :
    (mergeDuplicateRows insArgsort 1 [row2 0 0, row2 (1 : ℚ) 7, row2 1 7]).toOption.map (·.newID) = some [0, 1, 1] ∧
      (mergeDuplicateRowsFl (roundBits 53) insArgsort 1 [row2 0 0, row2 1 7, row2 (1 + 1 / 2 ^ 52) 7]).toOption.map
        (·.newID) = some [0, 1, 2] := by
  constructor <;> decide +kernel

end MM
