import Verif.Proofs.Merge
import Mathlib.Algebra.Order.Ring.Rat
import Mathlib.Tactic.NormNum
import Mathlib.Data.List.TakeWhile

/-!
# Properties C01–C04: `tools.merge_duplicate_rows`

`arr[i]? = some u` reads "row number `i` of the input exists and is `u`".
All theorems quantify over every sorting behaviour `srt` allowed by `IsArgsort`.
-/

namespace MM

set_option linter.unusedSectionVars false

variable {K : Type*} [Field K] [LinearOrder K] [IsStrictOrderedRing K] {d : ℕ}

/-- The insertion sort used in the examples is one of the allowed behaviours of `argsort`. -/
theorem insArgsort_isArgsort : IsArgsort (K := K) insArgsort := by
  intro val l
  induction l with
  | nil => simp [insArgsort]
  | cons a l ih =>
    have hstep : insArgsort val (a :: l) =
      (insArgsort val l).takeWhile (fun j => decide (val j < val a)) ++
        a :: (insArgsort val l).dropWhile (fun j => decide (val j < val a)) := rfl
    rw [hstep]
    obtain ⟨h1, h2⟩ := ih
    constructor
    · refine List.perm_middle.trans ?_
      rw [List.takeWhile_append_dropWhile]
      exact List.Perm.cons a h1
    · have hsplit := List.takeWhile_append_dropWhile (p := fun j => decide (val j < val a))
        (l := insArgsort val l)
      rw [← hsplit] at h2
      rw [List.pairwise_append] at h2 ⊢
      obtain ⟨p1, p2, p3⟩ := h2
      have hdrop : ∀ j ∈ (insArgsort val l).dropWhile (fun j => decide (val j < val a)),
          val a ≤ val j := by
        rcases hd : (insArgsort val l).dropWhile (fun j => decide (val j < val a)) with _ | ⟨b, bs⟩
        · simp
        · have hb : ¬ (decide (val b < val a) = true) := by
            have := List.head_dropWhile_not (p := fun j => decide (val j < val a))
              (l := insArgsort val l) (by simp [hd])
            simp only [hd, List.head_cons] at this
            simpa using this
          have hb' : val a ≤ val b := by simpa using hb
          rw [hd] at p2
          intro j hj
          rcases List.mem_cons.1 hj with rfl | hj
          · exact hb'
          · exact hb'.trans ((List.pairwise_cons.1 p2).1 j hj)
      refine ⟨p1, List.pairwise_cons.2 ⟨hdrop, p2⟩, ?_⟩
      intro i hi j hj
      have hia : val i < val a := by
        simpa using List.mem_takeWhile_imp hi
      rcases List.mem_cons.1 hj with rfl | hj
      · exact hia.le
      · exact p3 i hi j hj

/-- **C01.** Two rows that receive the same new index differ by at most `atol` in every coordinate, and
each row differs from the output row that replaces it by at most `atol` in every coordinate. -/
theorem C01_merged_rows_within_tolerance (srt : (ℕ → K) → List ℕ → List ℕ) (hsrt : IsArgsort srt)
    (atol : K) (h0 : 0 ≤ atol) (arr : List (Fin d → K)) (r : Merged K d)
    (h : mergeDuplicateRows srt atol arr = .ok r) :
    (∀ (i j : ℕ) (u v : Fin d → K) (id : ℕ), arr[i]? = some u → arr[j]? = some v → r.newID[i]? = some id →
      r.newID[j]? = some id → ∀ k, |u k - v k| ≤ atol) ∧
    (∀ (i : ℕ) (u : Fin d → K) (id : ℕ) (w : Fin d → K), arr[i]? = some u → r.newID[i]? = some id → r.rows[id]? = some w →
      ∀ k, |u k - w k| ≤ atol) := by
  by_cases hne : arr = []
  · subst hne; constructor <;> intros <;> simp at *
  obtain ⟨r', hr', hcase⟩ := merge_cases hsrt h0 arr hne
  rw [h] at hr'
  cases hr'
  rcases hcase with ⟨_, hr1, hr2⟩ | ⟨L, hL, hok, hlen, hlen', hrep, hid⟩
  · rw [hr1, hr2]
    constructor
    · intro i j u v id hu hv hi hj k
      have e1 : i = id := by
        have := List.getElem?_eq_some_iff.1 hi
        obtain ⟨_, h⟩ := this; simpa using h
      have e2 : j = id := by
        have := List.getElem?_eq_some_iff.1 hj
        obtain ⟨_, h⟩ := this; simpa using h
      subst e1 e2
      rw [hu] at hv; cases hv; simpa using h0
    · intro i u id w hu hi hw k
      have e1 : i = id := by
        have := List.getElem?_eq_some_iff.1 hi
        obtain ⟨_, h⟩ := this; simpa using h
      subst e1
      rw [hu] at hw; cases hw; simpa using h0
  · have hclose := mergeLoop_close hsrt h0 arr _ _ (fun _ => False) (by simp) L hL
    have key : ∀ (i : ℕ) (u : Fin d → K) (id : ℕ), arr[i]? = some u → r.newID[i]? = some id →
        ∃ g, L[id]? = some g ∧ i ∈ g := by
      intro i u id hu hi
      have hi' : i < arr.length := (List.getElem?_eq_some_iff.1 hu).1
      obtain ⟨l, g, hg, hig⟩ := hok.exists_level hi'
      have := hid l g hg i hig
      rw [this] at hi; cases hi
      exact ⟨g, hg, hig⟩
    constructor
    · intro i j u v id hu hv hi hj k
      obtain ⟨g, hg, hig⟩ := key i u id hu hi
      obtain ⟨g', hg', hjg⟩ := key j v id hv hj
      rw [hg] at hg'; cases hg'
      have := hclose g (List.mem_of_getElem? hg) i hig j hjg k (Or.inr (List.mem_finRange k))
      rwa [colVal_eq hu, colVal_eq hv] at this
    · intro i u id w hu hi hw k
      obtain ⟨g, hg, hig⟩ := key i u id hu hi
      obtain ⟨j, hjg, hj⟩ := hrep id g hg
      rw [hw] at hj
      have := hclose g (List.mem_of_getElem? hg) i hig j hjg k (Or.inr (List.mem_finRange k))
      rwa [colVal_eq hu, colVal_eq hj.symm] at this

/-- **C03.** The merge succeeds on every non empty array (and raises on an empty one); the returned
index array has one entry per input row, every entry is a row number of the output, every output row is
hit, and every output row is one of the input rows. -/
theorem C03_renumbering_total_in_range_onto (srt : (ℕ → K) → List ℕ → List ℕ) (hsrt : IsArgsort srt)
    (atol : K) (h0 : 0 ≤ atol) (arr : List (Fin d → K)) :
    (arr = [] → mergeDuplicateRows srt atol arr = .error .indexError) ∧
    (arr ≠ [] → ∃ r, mergeDuplicateRows srt atol arr = .ok r ∧
      r.newID.length = arr.length ∧
      (∀ i < arr.length, ∃ id, r.newID[i]? = some id ∧ id < r.rows.length) ∧
      (∀ id < r.rows.length, ∃ i < arr.length, r.newID[i]? = some id ∧
        r.rows[id]? = arr[i]?) ∧
      r.rows.length ≤ arr.length) := by
  constructor
  · rintro rfl
    have hloop : ∀ dims : List (Fin d), mergeLoop srt atol [] dims [[]] = some [[]] := by
      intro dims
      induction dims with
      | nil => rfl
      | cons k ks ih => simpa [mergeLoop, splitLevel] using ih
    simp [mergeDuplicateRows, hloop, levelReps, Except.map]
  · intro hne
    obtain ⟨r, hr, hcase⟩ := merge_cases hsrt h0 arr hne
    refine ⟨r, hr, ?_⟩
    rcases hcase with ⟨_, hr1, hr2⟩ | ⟨L, hL, hok, hlen, hlen', hrep, hid⟩
    · rw [hr1, hr2]
      refine ⟨by simp, fun i hi => ⟨i, by simp [hi], hi⟩, fun i hi => ⟨i, hi, by simp [hi], rfl⟩,
        le_refl _⟩
    · refine ⟨hlen', ?_, ?_, ?_⟩
      · intro i hi
        obtain ⟨l, g, hg, hig⟩ := hok.exists_level hi
        exact ⟨l, hid l g hg i hig, by rw [hlen]; exact (List.getElem?_eq_some_iff.1 hg).1⟩
      · intro id hlt
        rw [hlen] at hlt
        have hg : L[id]? = some L[id] := List.getElem?_eq_getElem hlt
        obtain ⟨i, hi, hrow⟩ := hrep id _ hg
        exact ⟨i, hok.lt (List.mem_of_getElem? hg) hi, hid id _ hg i hi, hrow⟩
      · rw [hlen]
        have h1 : (L.map List.length).sum = arr.length := by
          rw [← List.length_flatten]; simpa using hok.perm.length_eq
        have h2 : ∀ M : List (List ℕ), (∀ g ∈ M, g ≠ []) → M.length ≤ (M.map List.length).sum := by
          intro M hM
          induction M with
          | nil => simp
          | cons g gs ih =>
            have := ih (fun g hg => hM g (by simp [hg]))
            have := List.length_pos_iff.2 (hM g (by simp))
            simp; omega
        have := h2 L hok.ne_nil
        omega

/-- Two rows are within the tolerance: every coordinate differs by at most `atol`. -/
def Near (atol : K) (u v : Fin d → K) : Prop := ∀ k, |u k - v k| ≤ atol

/-- Rows related by a relation that the cuts cannot separate get the same index. -/
theorem merge_related_same_id (srt : (ℕ → K) → List ℕ → List ℕ) (hsrt : IsArgsort srt)
    (atol : K) (h0 : 0 ≤ atol) (arr : List (Fin d → K)) (r : Merged K d)
    (h : mergeDuplicateRows srt atol arr = .ok r) (E : ℕ → ℕ → Prop)
    (hsymm : ∀ i j, E i j → E j i)
    (hE : ∀ k, ∀ h < arr.length, ∀ i < arr.length, ∀ j < arr.length, E i j →
      |colVal arr k i - colVal arr k h| ≤ atol → |colVal arr k j - colVal arr k h| ≤ atol)
    (i j : ℕ) (hi : i < arr.length) (hj : j < arr.length) (hij : E i j) :
    r.newID[i]? = r.newID[j]? := by
  have hne : arr ≠ [] := by rintro rfl; simp at hi
  obtain ⟨r', hr', hcase⟩ := merge_cases hsrt h0 arr hne
  rw [h] at hr'; cases hr'
  have hcl := mergeLoop_closed hsrt h0 arr E hsymm (List.finRange d) (fun k _ => hE k)
    [List.range arr.length] (initLevels_ok _ (List.length_pos_iff.2 hne)) (initLevels_closed E _)
  rcases hcase with ⟨hn, hr1, hr2⟩ | ⟨L, hL, hok, hlen, hlen', hrep, hid⟩
  · rw [hn] at hcl
    rw [hcl i hi j hj hij]
  · rw [hL] at hcl
    obtain ⟨l, g, hg, hig⟩ := hok.exists_level hi
    have hjg := hcl g (List.mem_of_getElem? hg) i hig j hj hij
    rw [hid l g hg i hig, hid l g hg j hjg]

theorem mergeLoop_some_length (srt : (ℕ → K) → List ℕ → List ℕ) (atol : K)
    (arr : List (Fin d → K)) (dims : List (Fin d)) : ∀ levels L,
    mergeLoop srt atol arr dims levels = some L → (dims = [] ∧ L = levels) ∨ L.length ≠ arr.length := by
  induction dims with
  | nil => intro levels L h; simp [mergeLoop] at h; exact Or.inl ⟨rfl, h.symm⟩
  | cons k ks ih =>
    intro levels L h
    simp only [mergeLoop] at h
    split at h
    · simp at h
    · rename_i hne
      rcases ih _ _ h with ⟨rfl, rfl⟩ | h'
      · exact Or.inr hne
      · exact Or.inr h'

theorem merge_separated_identity (srt : (ℕ → K) → List ℕ → List ℕ) (hsrt : IsArgsort srt)
    (atol : K) (h0 : 0 ≤ atol) (arr : List (Fin d → K)) (hne : arr ≠ [])
    (hsep : ∀ (i j : ℕ) (u v : Fin d → K), arr[i]? = some u → arr[j]? = some v → i ≠ j → ¬ Near atol u v) :
    mergeDuplicateRows srt atol arr = .ok ⟨arr, List.range arr.length⟩ := by
  obtain ⟨r, hr, hcase⟩ := merge_cases hsrt h0 arr hne
  rw [hr]
  rcases hcase with ⟨hn, hr1, hr2⟩ | ⟨L, hL, hok, hlen, hlen', hrep, hid⟩
  · cases r; simp_all
  · have hclose := mergeLoop_close hsrt h0 arr _ _ (fun _ => False) (by simp) L hL
    have hsing : ∀ g ∈ L, g.length = 1 := by
      intro g hg
      match g, hok.ne_nil g hg, hok.perm.nodup_iff.2 List.nodup_range with
      | [a], _, _ => rfl
      | a :: b :: t, _, hnd =>
        exfalso
        have ha := hok.lt hg (i := a) (by simp)
        have hb := hok.lt hg (i := b) (by simp)
        have hab : a ≠ b := by
          have := (List.nodup_flatten.1 hnd).1 _ hg
          simp at this; exact this.1.1
        refine hsep a b arr[a] arr[b] (List.getElem?_eq_getElem ha) (List.getElem?_eq_getElem hb)
          hab ?_
        intro k
        have := hclose _ hg a (by simp) b (by simp) k (Or.inr (List.mem_finRange k))
        rwa [colVal_eq (List.getElem?_eq_getElem ha), colVal_eq (List.getElem?_eq_getElem hb)] at this
    have hLlen : L.length = arr.length := by
      have h1 : (L.map List.length).sum = arr.length := by
        rw [← List.length_flatten]; simpa using hok.perm.length_eq
      have h2 : L.map List.length = List.replicate L.length 1 := by
        rw [List.eq_replicate_iff]
        refine ⟨by simp, ?_⟩
        intro b hb
        obtain ⟨g, hg, rfl⟩ := List.mem_map.1 hb
        exact hsing g hg
      rw [h2] at h1; simpa using h1
    rcases mergeLoop_some_length _ _ _ _ _ _ hL with ⟨_, hLe⟩ | h'
    · -- no dimension at all: a single row
      subst hLe
      have hlen1 : arr.length = 1 := by simpa using hLlen.symm
      obtain ⟨a, rfl⟩ := List.length_eq_one_iff.1 hlen1
      have h1 := hid 0 [0] (by simp) 0 (by simp)
      obtain ⟨i, hi, h2⟩ := hrep 0 [0] (by simp)
      simp at hi; subst hi
      have hrows : r.rows = [a] := by
        obtain ⟨b, hb⟩ := List.length_eq_one_iff.1 (by simpa using hlen : r.rows.length = 1)
        rw [hb] at h2 ⊢; simpa using h2
      have hids : r.newID = [0] := by
        obtain ⟨b, hb⟩ := List.length_eq_one_iff.1 (by simpa using hlen' : r.newID.length = 1)
        rw [hb] at h1 ⊢; simpa using h1
      cases r; simp_all
    · exact absurd hLlen h'

/-- **C02.** Identical rows always receive the same index, the rows of the result are pairwise distinct,
and an array whose rows are pairwise not within the tolerance is returned unchanged with the identity
renumbering. -/
theorem C02_exact_duplicates_merged (srt : (ℕ → K) → List ℕ → List ℕ) (hsrt : IsArgsort srt)
    (atol : K) (h0 : 0 ≤ atol) (arr : List (Fin d → K)) (r : Merged K d)
    (h : mergeDuplicateRows srt atol arr = .ok r) :
    (∀ (i j : ℕ) (u : Fin d → K), arr[i]? = some u → arr[j]? = some u → r.newID[i]? = r.newID[j]?) ∧
    r.rows.Nodup ∧
    ((∀ (i j : ℕ) (u v : Fin d → K), arr[i]? = some u → arr[j]? = some v → i ≠ j → ¬ ∀ k, |u k - v k| ≤ atol) →
      r.rows = arr ∧ r.newID = List.range arr.length) := by
  have hne : arr ≠ [] := by
    rintro rfl
    rw [(C03_renumbering_total_in_range_onto srt hsrt atol h0 _).1 rfl] at h
    cases h
  have hdup : ∀ (i j : ℕ) (u : Fin d → K), arr[i]? = some u → arr[j]? = some u → r.newID[i]? = r.newID[j]? := by
    intro i j u hi hj
    refine merge_related_same_id srt hsrt atol h0 arr r h (fun i j => arr[i]? = arr[j]?)
      (fun i j h => h.symm) ?_ i j (List.getElem?_eq_some_iff.1 hi).1
      (List.getElem?_eq_some_iff.1 hj).1 (by rw [hi, hj])
    intro k a _ b _ c _ hbc hb
    have : colVal arr k b = colVal arr k c := by simp only [colVal, hbc]
    rwa [← this]
  refine ⟨hdup, ?_, ?_⟩
  · obtain ⟨r', hr', _, _, honto, _⟩ := (C03_renumbering_total_in_range_onto srt hsrt atol h0 arr).2 hne
    rw [h] at hr'; cases hr'
    rw [List.nodup_iff_injective_get]
    intro a b hab
    obtain ⟨i, _, hi1, hi2⟩ := honto a a.2
    obtain ⟨j, _, hj1, hj2⟩ := honto b b.2
    have ea : r.rows[(a : ℕ)]? = some (r.rows.get a) := by simp
    have eb : r.rows[(b : ℕ)]? = some (r.rows.get b) := by simp
    rw [ea] at hi2; rw [eb, ← hab] at hj2
    have := hdup i j _ hi2.symm hj2.symm
    rw [hi1, hj1] at this
    exact Fin.ext (by simpa using this)
  · intro hsep
    have := merge_separated_identity srt hsrt atol h0 arr hne hsep
    rw [h] at this; cases this
    exact ⟨rfl, rfl⟩

/-- **C04 (partial).** Full statement wanted: after the merge no two remaining rows are within the
tolerance and merging again changes nothing. It is false in general (`C04_completeness_fails`,
`C04_idempotence_fails`). It holds when, coordinate by coordinate, being within the tolerance is
transitive on the rows of the array (well separated clusters): then two rows get the same index exactly
when they are within the tolerance, and a second merge is the identity. -/
theorem C04_complete_idempotent_partial (srt : (ℕ → K) → List ℕ → List ℕ) (hsrt : IsArgsort srt)
    (atol : K) (h0 : 0 ≤ atol) (arr : List (Fin d → K)) (r : Merged K d)
    (h : mergeDuplicateRows srt atol arr = .ok r)
    (htrans : ∀ u ∈ arr, ∀ v ∈ arr, ∀ w ∈ arr, ∀ k,
      |u k - v k| ≤ atol → |v k - w k| ≤ atol → |u k - w k| ≤ atol) :
    (∀ (i j : ℕ) (u v : Fin d → K), arr[i]? = some u → arr[j]? = some v →
      (r.newID[i]? = r.newID[j]? ↔ ∀ k, |u k - v k| ≤ atol)) ∧
    mergeDuplicateRows srt atol r.rows = .ok ⟨r.rows, List.range r.rows.length⟩ := by
  have hne : arr ≠ [] := by
    rintro rfl
    rw [(C03_renumbering_total_in_range_onto srt hsrt atol h0 _).1 rfl] at h
    cases h
  obtain ⟨r', hr', hlen, hrange, honto, _⟩ :=
    (C03_renumbering_total_in_range_onto srt hsrt atol h0 arr).2 hne
  rw [h] at hr'; cases hr'
  have hiff : ∀ (i j : ℕ) (u v : Fin d → K), arr[i]? = some u → arr[j]? = some v →
      (r.newID[i]? = r.newID[j]? ↔ ∀ k, |u k - v k| ≤ atol) := by
    intro i j u v hu hv
    constructor
    · intro hid
      obtain ⟨id, h1, _⟩ := hrange i (List.getElem?_eq_some_iff.1 hu).1
      exact (C01_merged_rows_within_tolerance srt hsrt atol h0 arr r h).1 i j u v id hu hv h1
        (hid ▸ h1)
    · intro hnear
      refine merge_related_same_id srt hsrt atol h0 arr r h
        (fun i j => ∀ (u v : Fin d → K), arr[i]? = some u → arr[j]? = some v → Near atol u v) ?_ ?_ i j
        (List.getElem?_eq_some_iff.1 hu).1 (List.getElem?_eq_some_iff.1 hv).1 ?_
      · intro i j hij u v hu hv k
        rw [abs_sub_comm]
        exact hij v u hv hu k
      · intro k a ha b hb c hc hbc hclose
        have ea := List.getElem?_eq_getElem ha
        have eb := List.getElem?_eq_getElem hb
        have ec := List.getElem?_eq_getElem hc
        rw [colVal_eq ea, colVal_eq eb] at hclose
        rw [colVal_eq ea, colVal_eq ec]
        have := hbc _ _ eb ec k
        rw [abs_sub_comm] at this
        exact htrans _ (List.getElem_mem hc) _ (List.getElem_mem hb) _ (List.getElem_mem ha) k
          this hclose
      · intro u' v' hu' hv'
        rw [hu] at hu'; rw [hv] at hv'; cases hu'; cases hv'
        exact hnear
  refine ⟨hiff, ?_⟩
  have hrne : r.rows ≠ [] := by
    intro hnil
    have hpos : 0 < arr.length := List.length_pos_iff.2 hne
    obtain ⟨id, _, hlt⟩ := hrange 0 hpos
    rw [hnil] at hlt; simp at hlt
  refine merge_separated_identity srt hsrt atol h0 r.rows hrne ?_
  intro a b u v ha hb hab hnear
  obtain ⟨i, _, hi1, hi2⟩ := honto a (List.getElem?_eq_some_iff.1 ha).1
  obtain ⟨j, _, hj1, hj2⟩ := honto b (List.getElem?_eq_some_iff.1 hb).1
  rw [ha] at hi2; rw [hb] at hj2
  have := (hiff i j u v hi2.symm hj2.symm).2 hnear
  rw [hi1, hj1] at this
  exact hab (by simpa using this)

/-- Rows of the counterexamples, as 2-columns arrays. -/
def row2 (a b : ℚ) : Fin 2 → ℚ := fun k => if k = 0 then a else b

/-- **C04 violated (completeness).** With tolerance 10, merging the rows `(0,1)`, `(9,0)`, `(11,0)` leaves
two rows that are within the tolerance of each other. -/
theorem C04_completeness_fails :
    ∃ (arr : List (Fin 2 → ℚ)) (r : Merged ℚ 2), mergeDuplicateRows insArgsort 10 arr = .ok r ∧
      ∃ (i j : ℕ) (u v : Fin 2 → ℚ), i ≠ j ∧ r.rows[i]? = some u ∧ r.rows[j]? = some v ∧ ∀ k, |u k - v k| ≤ 10 := by
  refine ⟨[row2 0 1, row2 9 0, row2 11 0], ⟨[row2 9 0, row2 11 0], [0, 0, 1]⟩, ?_, ?_⟩
  · have : (mergeDuplicateRows insArgsort 10 [row2 0 1, row2 9 0, row2 11 0]) =
      .ok (Merged.mk [row2 9 0, row2 11 0] [0, 0, 1]) := by
      have hl : mergeLoop insArgsort 10 [row2 0 1, row2 9 0, row2 11 0] (List.finRange 2)
        [List.range 3] = some [[1, 0], [2]] := by decide +kernel
      have : [row2 0 1, row2 9 0, row2 11 0].length = 3 := rfl
      simp only [mergeDuplicateRows, this, hl]
      rfl
    exact this
  · refine ⟨0, 1, row2 9 0, row2 11 0, by decide, rfl, rfl, ?_⟩
    decide +kernel

/-- **C04 violated (idempotence).** Merging again the result of the previous example merges more rows. -/
theorem C04_idempotence_fails :
    ∃ (arr : List (Fin 2 → ℚ)) (r r' : Merged ℚ 2), mergeDuplicateRows insArgsort 10 arr = .ok r ∧
      mergeDuplicateRows insArgsort 10 r.rows = .ok r' ∧ r'.rows.length < r.rows.length := by
  refine ⟨[row2 0 1, row2 9 0, row2 11 0], ⟨[row2 9 0, row2 11 0], [0, 0, 1]⟩,
    ⟨[row2 9 0], [0, 0]⟩, ?_, ?_, by decide⟩
  · have hl : mergeLoop insArgsort 10 [row2 0 1, row2 9 0, row2 11 0] (List.finRange 2)
        [List.range 3] = some [[1, 0], [2]] := by decide +kernel
    have : [row2 0 1, row2 9 0, row2 11 0].length = 3 := rfl
    simp only [mergeDuplicateRows, this, hl]
    rfl
  · have hl : mergeLoop insArgsort 10 [row2 9 0, row2 11 0] (List.finRange 2)
        [List.range 2] = some [[0, 1]] := by decide +kernel
    have : [row2 9 0, row2 11 0].length = 2 := rfl
    simp only [mergeDuplicateRows, this, hl]
    rfl

/-! Non-vacuity: a concrete array in which two rows are merged meets the hypotheses of C01–C03, and the
clusters of the partial theorem exist. -/
example : IsArgsort (K := ℚ) insArgsort := insArgsort_isArgsort
example : mergeLoop insArgsort (1 : ℚ) [row2 0 0, row2 5 0, row2 0 1] (List.finRange 2)
    [List.range 3] = some [[0, 2], [1]] := by decide +kernel
example : ∀ u ∈ [row2 0 0, row2 5 0, row2 0 1], ∀ v ∈ [row2 0 0, row2 5 0, row2 0 1],
    ∀ w ∈ [row2 0 0, row2 5 0, row2 0 1], ∀ k, |u k - v k| ≤ (1 : ℚ) → |v k - w k| ≤ 1 →
      |u k - w k| ≤ 1 := by decide +kernel

end MM
