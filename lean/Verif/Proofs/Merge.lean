import Verif.Model.Merge
import Mathlib.Algebra.BigOperators.Group.List.Basic
import Mathlib.Data.List.Nodup

/-! Helper lemmas on `mergeDuplicateRows`. -/

namespace MM

set_option linter.unusedSectionVars false

variable {K : Type*} [Field K] [LinearOrder K] [IsStrictOrderedRing K] {d : ℕ}

theorem splitRuns_flatten (atol : K) (val : ℕ → K) (l : List ℕ) :
    ∀ vref cur, (splitRuns atol val vref cur l).flatten = cur.reverse ++ l := by
  induction l with
  | nil => intro vref cur; simp [splitRuns]
  | cons i is ih =>
    intro vref cur
    unfold splitRuns
    split
    · simp [ih]
    · simp [ih]

theorem splitRuns_ne_nil (atol : K) (val : ℕ → K) (l : List ℕ) :
    ∀ vref cur, cur ≠ [] → ∀ g ∈ splitRuns atol val vref cur l, g ≠ [] := by
  induction l with
  | nil => intro vref cur h g hg; simp [splitRuns] at hg; subst hg; simpa using h
  | cons i is ih =>
    intro vref cur h g hg
    unfold splitRuns at hg
    split at hg
    · rcases List.mem_cons.1 hg with rfl | hg
      · simpa using h
      · exact ih _ _ (by simp) g hg
    · exact ih _ _ (by simp) g hg

/-- Inside a cut level, any two values are within `atol`. -/
theorem splitRuns_close (atol : K) (val : ℕ → K) (l : List ℕ) :
    ∀ vref cur, l.Pairwise (fun i j => val i ≤ val j) →
      (∀ i ∈ cur, vref ≤ val i ∧ val i ≤ vref + atol) → (∀ i ∈ l, vref ≤ val i) → 0 ≤ atol →
      ∀ g ∈ splitRuns atol val vref cur l, ∀ i ∈ g, ∀ j ∈ g, |val i - val j| ≤ atol := by
  induction l with
  | nil =>
    intro vref cur _ hc _ _ g hg i hi j hj
    simp [splitRuns] at hg; subst hg
    have h1 := hc i (by simpa using hi)
    have h2 := hc j (by simpa using hj)
    rw [abs_le]; constructor <;> linarith [h1.1, h1.2, h2.1, h2.2]
  | cons a l ih =>
    intro vref cur hs hc hl h0 g hg i hi j hj
    unfold splitRuns at hg
    have hs' := List.pairwise_cons.1 hs
    split at hg
    · rename_i hcut
      rcases List.mem_cons.1 hg with rfl | hg
      · have h1 := hc i (by simpa using hi)
        have h2 := hc j (by simpa using hj)
        rw [abs_le]; constructor <;> linarith [h1.1, h1.2, h2.1, h2.2]
      · refine ih (val a) [a] hs'.2 ?_ (fun i hi => hs'.1 i hi) h0 g hg i hi j hj
        intro i hi
        simp at hi; subst hi
        exact ⟨le_refl _, by linarith⟩
    · rename_i hcut
      refine ih vref (a :: cur) hs'.2 ?_ (fun i hi => hl i (by simp [hi])) h0 g hg i hi j hj
      intro i hi
      rcases List.mem_cons.1 hi with rfl | hi
      · have h1 := hl i (by simp)
        refine ⟨h1, ?_⟩
        have h2 := (abs_le.1 (not_lt.1 hcut)).2
        linarith
      · exact hc i hi

/-- A relation compatible with the cuts keeps its classes together. -/
theorem splitRuns_closed (atol : K) (val : ℕ → K) (E : ℕ → ℕ → Prop) (S : List ℕ)
    (hE : ∀ h ∈ S, ∀ i ∈ S, ∀ j ∈ S, E i j → |val i - val h| ≤ atol → |val j - val h| ≤ atol)
    (hsymm : ∀ i j, E i j → E j i) (h0 : 0 ≤ atol)
    (l : List ℕ) :
    ∀ h cur, h ∈ S → (∀ i ∈ cur, i ∈ S) → (∀ i ∈ l, i ∈ S) →
      l.Pairwise (fun i j => val i ≤ val j) →
      (∀ i ∈ cur, |val i - val h| ≤ atol) → (∀ i ∈ l, val h ≤ val i) →
      ∀ g ∈ splitRuns atol val (val h) cur l, ∀ i ∈ g, ∀ j ∈ cur.reverse ++ l, E i j → j ∈ g := by
  induction l with
  | nil =>
    intro h cur _ _ _ _ _ _ g hg i _ j hj _
    simp [splitRuns] at hg; subst hg
    simpa using hj
  | cons a l ih =>
    intro h cur hh hcS hlS hs hc hl g hg i hi j hj hij
    unfold splitRuns at hg
    have hs' := List.pairwise_cons.1 hs
    have haS : a ∈ S := hlS a (by simp)
    split at hg
    · rename_i hcut
      -- elements of `cur` and of `a :: l` are never related
      have sep : ∀ p ∈ cur, ∀ q ∈ a :: l, ¬ E p q := by
        intro p hp q hq hpq
        have h1 := hE h hh p (hcS p hp) q (hlS q hq) hpq (hc p hp)
        have h2 : val a ≤ val q := by
          rcases List.mem_cons.1 hq with rfl | hq
          · exact le_refl _
          · exact hs'.1 q hq
        have h3 : val h ≤ val a := hl a (by simp)
        rw [abs_of_nonneg (by linarith)] at h1 hcut
        linarith
      rcases List.mem_cons.1 hg with rfl | hg
      · rcases List.mem_append.1 hj with hj | hj
        · exact hj
        · exact absurd hij (sep i (by simpa using hi) j hj)
      · have hfl := splitRuns_flatten atol val l (val a) [a]
        have hi' : i ∈ a :: l := by
          have : i ∈ (splitRuns atol val (val a) [a] l).flatten := List.mem_flatten.2 ⟨g, hg, hi⟩
          rw [hfl] at this; simpa using this
        rcases List.mem_append.1 hj with hj | hj
        · exact absurd (hsymm _ _ hij) (sep j (by simpa using hj) i hi')
        · refine ih a [a] haS (by simpa using haS) (fun i hi => hlS i (by simp [hi])) hs'.2 ?_
            (fun i hi => hs'.1 i hi) g hg i hi j (by simpa using hj) hij
          intro p hp; simp at hp; subst hp
          simpa using h0
    · rename_i hcut
      refine ih h (a :: cur) hh ?_ (fun i hi => hlS i (by simp [hi])) hs'.2 ?_
        (fun i hi => hl i (by simp [hi])) g hg i hi j (by simpa using hj) hij
      · intro p hp
        rcases List.mem_cons.1 hp with rfl | hp
        · exact haS
        · exact hcS p hp
      · intro p hp
        rcases List.mem_cons.1 hp with rfl | hp
        · exact not_lt.1 hcut
        · exact hc p hp

/-! ### One level -/

theorem splitRuns_start (atol : K) (val : ℕ → K) (i : ℕ) (is : List ℕ) (h0 : 0 ≤ atol) :
    splitRuns atol val (val i) [] (i :: is) = splitRuns atol val (val i) [i] is := by
  conv_lhs => unfold splitRuns
  rw [if_neg]
  simpa using h0

theorem splitLevel_perm {srt : (ℕ → K) → List ℕ → List ℕ} (hsrt : IsArgsort srt) (atol : K)
    (val : ℕ → K) (g : List ℕ) : (splitLevel srt atol val g).flatten.Perm g := by
  unfold splitLevel
  split
  · have hp := (hsrt val g).1
    split
    · rename_i h; rw [h] at hp; simpa using hp
    · rename_i i is h
      rw [h] at hp
      rw [splitRuns_flatten]
      simpa using hp
  · simp

theorem splitLevel_subset {srt : (ℕ → K) → List ℕ → List ℕ} (hsrt : IsArgsort srt) (atol : K)
    (val : ℕ → K) (g g' : List ℕ) (hg' : g' ∈ splitLevel srt atol val g) : ∀ i ∈ g', i ∈ g := by
  intro i hi
  exact (splitLevel_perm hsrt atol val g).subset (List.mem_flatten.2 ⟨g', hg', hi⟩)

theorem splitLevel_ne_nil {srt : (ℕ → K) → List ℕ → List ℕ} (hsrt : IsArgsort srt) (atol : K)
    (h0 : 0 ≤ atol) (val : ℕ → K) (g : List ℕ) (hg : g ≠ []) :
    ∀ g' ∈ splitLevel srt atol val g, g' ≠ [] := by
  intro g' hg'
  unfold splitLevel at hg'
  split at hg'
  · have hp := (hsrt val g).1
    split at hg'
    · rename_i h; rw [h] at hp
      exact absurd hp.symm.eq_nil hg
    · rw [splitRuns_start _ _ _ _ h0] at hg'
      exact splitRuns_ne_nil _ _ _ _ _ (by simp) g' hg'
  · simp at hg'; subst hg'; exact hg

theorem splitLevel_close {srt : (ℕ → K) → List ℕ → List ℕ} (hsrt : IsArgsort srt) (atol : K)
    (h0 : 0 ≤ atol) (val : ℕ → K) (g : List ℕ) :
    ∀ g' ∈ splitLevel srt atol val g, ∀ i ∈ g', ∀ j ∈ g', |val i - val j| ≤ atol := by
  intro g' hg' i hi j hj
  unfold splitLevel at hg'
  split at hg'
  · have hp := (hsrt val g).2
    split at hg'
    · simp at hg'; subst hg'; simp at hi
    · rename_i a is h
      rw [h] at hp
      refine splitRuns_close atol val (a :: is) (val a) [] hp (by simp) ?_ h0 g' hg' i hi j hj
      intro q hq
      rcases List.mem_cons.1 hq with rfl | hq
      · exact le_refl _
      · exact (List.pairwise_cons.1 hp).1 q hq
  · rename_i hlen
    simp at hg'; subst hg'
    have : g'.length ≤ 1 := by omega
    match g', this with
    | [a], _ => simp at hi hj; subst hi hj; simpa using h0
    | [], _ => simp at hi

theorem splitLevel_closed {srt : (ℕ → K) → List ℕ → List ℕ} (hsrt : IsArgsort srt) (atol : K)
    (h0 : 0 ≤ atol) (val : ℕ → K) (E : ℕ → ℕ → Prop) (g : List ℕ)
    (hE : ∀ h ∈ g, ∀ i ∈ g, ∀ j ∈ g, E i j → |val i - val h| ≤ atol → |val j - val h| ≤ atol)
    (hsymm : ∀ i j, E i j → E j i) :
    ∀ g' ∈ splitLevel srt atol val g, ∀ i ∈ g', ∀ j ∈ g, E i j → j ∈ g' := by
  intro g' hg' i hi j hj hij
  unfold splitLevel at hg'
  split at hg'
  · have hp := hsrt val g
    split at hg'
    · simp at hg'; subst hg'; simp at hi
    · rename_i a is h
      rw [h] at hp
      have hmem : ∀ q, q ∈ a :: is ↔ q ∈ g := fun q => hp.1.mem_iff
      refine splitRuns_closed atol val E g hE hsymm h0 (a :: is) a [] ((hmem a).1 (by simp))
        (by simp) (fun q hq => (hmem q).1 hq) hp.2 (by simp) ?_ g' hg' i hi j
        (by simpa using (hmem j).2 hj) hij
      intro q hq
      rcases List.mem_cons.1 hq with rfl | hq
      · exact le_refl _
      · exact (List.pairwise_cons.1 hp.2).1 q hq
  · simp at hg'; subst hg'; exact hj

/-! ### The loop over the dimensions -/

/-- Levels are a partition of the row numbers into non empty groups. -/
structure LevelsOK (nv : ℕ) (levels : List (List ℕ)) : Prop where
  perm : levels.flatten.Perm (List.range nv)
  ne_nil : ∀ g ∈ levels, g ≠ []

theorem flatMap_flatten_perm (f : List ℕ → List (List ℕ)) (hf : ∀ g, (f g).flatten.Perm g)
    (levels : List (List ℕ)) : (levels.flatMap f).flatten.Perm levels.flatten := by
  induction levels with
  | nil => simp
  | cons g gs ih => simpa using (hf g).append ih

theorem LevelsOK.step {srt : (ℕ → K) → List ℕ → List ℕ} (hsrt : IsArgsort srt) {atol : K}
    (h0 : 0 ≤ atol) (val : ℕ → K) {nv : ℕ} {levels : List (List ℕ)} (h : LevelsOK nv levels) :
    LevelsOK nv (levels.flatMap (splitLevel srt atol val)) where
  perm := (flatMap_flatten_perm _ (splitLevel_perm hsrt atol val) levels).trans h.perm
  ne_nil g hg := by
    obtain ⟨g0, hg0, hg⟩ := List.mem_flatMap.1 hg
    exact splitLevel_ne_nil hsrt atol h0 val g0 (h.ne_nil g0 hg0) g hg

/-- Classes of `E` are not broken by the levels. -/
def ClosedUnder (E : ℕ → ℕ → Prop) (nv : ℕ) (levels : List (List ℕ)) : Prop :=
  ∀ g ∈ levels, ∀ i ∈ g, ∀ j < nv, E i j → j ∈ g

theorem mergeLoop_levels {srt : (ℕ → K) → List ℕ → List ℕ} (hsrt : IsArgsort srt) {atol : K}
    (h0 : 0 ≤ atol) (arr : List (Fin d → K)) (dims : List (Fin d)) :
    ∀ levels, LevelsOK arr.length levels → ∀ L,
      mergeLoop srt atol arr dims levels = some L → LevelsOK arr.length L := by
  induction dims with
  | nil => intro levels h L hL; simp [mergeLoop] at hL; subst hL; exact h
  | cons k ks ih =>
    intro levels h L hL
    simp only [mergeLoop] at hL
    split at hL
    · simp at hL
    · exact ih _ (h.step hsrt h0 _) L hL

theorem mergeLoop_close {srt : (ℕ → K) → List ℕ → List ℕ} (hsrt : IsArgsort srt) {atol : K}
    (h0 : 0 ≤ atol) (arr : List (Fin d → K)) (dims : List (Fin d)) :
    ∀ levels (P : Fin d → Prop),
      (∀ g ∈ levels, ∀ i ∈ g, ∀ j ∈ g, ∀ k, P k → |colVal arr k i - colVal arr k j| ≤ atol) →
      ∀ L, mergeLoop srt atol arr dims levels = some L →
        ∀ g ∈ L, ∀ i ∈ g, ∀ j ∈ g, ∀ k, (P k ∨ k ∈ dims) →
          |colVal arr k i - colVal arr k j| ≤ atol := by
  induction dims with
  | nil =>
    intro levels P h L hL g hg i hi j hj k hk
    simp [mergeLoop] at hL; subst hL
    exact h g hg i hi j hj k (by simpa using hk)
  | cons k0 ks ih =>
    intro levels P h L hL g hg i hi j hj k hk
    simp only [mergeLoop] at hL
    split at hL
    · simp at hL
    · refine ih _ (fun k => P k ∨ k = k0) ?_ L hL g hg i hi j hj k ?_
      · intro g hg i hi j hj k hk
        obtain ⟨g0, hg0, hg⟩ := List.mem_flatMap.1 hg
        rcases hk with hk | rfl
        · exact h g0 hg0 i (splitLevel_subset hsrt _ _ _ _ hg i hi) j
            (splitLevel_subset hsrt _ _ _ _ hg j hj) k hk
        · exact splitLevel_close hsrt atol h0 _ g0 g hg i hi j hj
      · rcases hk with hk | hk
        · exact Or.inl (Or.inl hk)
        · rcases List.mem_cons.1 hk with rfl | hk
          · exact Or.inl (Or.inr rfl)
          · exact Or.inr hk

theorem ClosedUnder.step {srt : (ℕ → K) → List ℕ → List ℕ} (hsrt : IsArgsort srt) {atol : K}
    (h0 : 0 ≤ atol) {nv : ℕ} (val : ℕ → K) {E : ℕ → ℕ → Prop}
    (hE : ∀ h < nv, ∀ i < nv, ∀ j < nv, E i j → |val i - val h| ≤ atol → |val j - val h| ≤ atol)
    (hsymm : ∀ i j, E i j → E j i) {levels : List (List ℕ)} (hl : LevelsOK nv levels)
    (h : ClosedUnder E nv levels) :
    ClosedUnder E nv (levels.flatMap (splitLevel srt atol val)) := by
  intro g hg i hi j hj hij
  obtain ⟨g0, hg0, hg⟩ := List.mem_flatMap.1 hg
  have hlt : ∀ q ∈ g0, q < nv := fun q hq =>
    List.mem_range.1 (hl.perm.subset (List.mem_flatten.2 ⟨g0, hg0, hq⟩))
  refine splitLevel_closed hsrt atol h0 val E g0 ?_ hsymm g hg i hi j ?_ hij
  · intro a ha b hb c hc
    exact hE a (hlt a ha) b (hlt b hb) c (hlt c hc)
  · exact h g0 hg0 i (splitLevel_subset hsrt _ _ _ _ hg i hi) j hj hij

theorem mergeLoop_closed {srt : (ℕ → K) → List ℕ → List ℕ} (hsrt : IsArgsort srt) {atol : K}
    (h0 : 0 ≤ atol) (arr : List (Fin d → K)) (E : ℕ → ℕ → Prop)
    (hsymm : ∀ i j, E i j → E j i) (dims : List (Fin d))
    (hE : ∀ k ∈ dims, ∀ h < arr.length, ∀ i < arr.length, ∀ j < arr.length, E i j →
      |colVal arr k i - colVal arr k h| ≤ atol → |colVal arr k j - colVal arr k h| ≤ atol) :
    ∀ levels, LevelsOK arr.length levels → ClosedUnder E arr.length levels →
      match mergeLoop srt atol arr dims levels with
      | none => ∀ i < arr.length, ∀ j < arr.length, E i j → i = j
      | some L => ClosedUnder E arr.length L := by
  induction dims with
  | nil => intro levels _ h; simpa [mergeLoop] using h
  | cons k ks ih =>
    intro levels hl h
    simp only [mergeLoop]
    have h1 := hl.step hsrt h0 (colVal arr k)
    have h2 := h.step hsrt h0 (colVal arr k) (hE k (by simp)) hsymm hl
    split
    · rename_i L heq
      split at heq
      · rename_i hlen
        intro i hi j hj hij
        -- all groups are singletons
        have hsing : ∀ g ∈ levels.flatMap (splitLevel srt atol (colVal arr k)), g.length = 1 := by
          have hsum : ((levels.flatMap (splitLevel srt atol (colVal arr k))).map List.length).sum
              = (levels.flatMap (splitLevel srt atol (colVal arr k))).length := by
            rw [hlen, ← List.length_flatten]
            simpa using h1.perm.length_eq
          have hpos : ∀ g ∈ levels.flatMap (splitLevel srt atol (colVal arr k)), 1 ≤ g.length :=
            fun g hg => List.length_pos_iff.2 (h1.ne_nil g hg)
          revert hsum hpos
          generalize levels.flatMap (splitLevel srt atol (colVal arr k)) = M
          intro hsum hpos
          induction M with
          | nil => simp
          | cons g gs ihg =>
            have hge : gs.length ≤ (gs.map List.length).sum := by
              clear ihg hsum
              induction gs with
              | nil => simp
              | cons a as iha =>
                have := hpos a (by simp)
                have := iha (fun g hg => hpos g (by
                  rcases List.mem_cons.1 hg with rfl | hg
                  · simp
                  · simp [hg]))
                simp; omega
            have hg1 := hpos g (by simp)
            simp at hsum
            intro g' hg'
            rcases List.mem_cons.1 hg' with rfl | hg'
            · omega
            · exact ihg (by omega) (fun g hg => hpos g (by simp [hg])) g' hg'
        have hi' : i ∈ (levels.flatMap (splitLevel srt atol (colVal arr k))).flatten :=
          h1.perm.symm.subset (List.mem_range.2 hi)
        obtain ⟨g, hg, hig⟩ := List.mem_flatten.1 hi'
        have hjg := h2 g hg i hig j hj hij
        have := hsing g hg
        match g, this with
        | [a], _ => simp at hig hjg; rw [hig, hjg]
      · have := ih (fun k hk => hE k (by simp [hk])) _ h1 h2
        rw [heq] at this
        exact this
    · rename_i L heq
      split at heq
      · simp at heq
      · have := ih (fun k hk => hE k (by simp [hk])) _ h1 h2
        rw [heq] at this
        exact this

theorem initLevels_ok (nv : ℕ) (h : 0 < nv) : LevelsOK nv [List.range nv] where
  perm := by simp
  ne_nil g hg := by simp at hg; subst hg; simp; omega

theorem initLevels_closed (E : ℕ → ℕ → Prop) (nv : ℕ) : ClosedUnder E nv [List.range nv] := by
  intro g hg i hi j hj _
  simp at hg; subst hg; simpa using hj

/-! ### The renumbering -/

theorem foldl_set_length (g : List ℕ) (k : ℕ) : ∀ ids : List ℕ,
    (g.foldl (fun ids i => ids.set i k) ids).length = ids.length := by
  induction g with
  | nil => simp
  | cons a g ih => intro ids; simp [ih]

theorem foldl_set_getElem? (g : List ℕ) (k i : ℕ) : ∀ ids : List ℕ,
    (g.foldl (fun ids i => ids.set i k) ids)[i]? =
      if i ∈ g ∧ i < ids.length then some k else ids[i]? := by
  induction g with
  | nil => simp
  | cons a g ih =>
    intro ids
    rw [List.foldl_cons, ih]
    simp only [List.length_set, List.mem_cons, List.getElem?_set]
    by_cases h1 : i < ids.length <;> by_cases h2 : i ∈ g <;> by_cases h3 : i = a <;>
      simp [h1, h2, h3] <;> grind

theorem assignIds_length (levels : List (List ℕ)) : ∀ k ids,
    (assignIds levels k ids).length = ids.length := by
  induction levels with
  | nil => simp [assignIds]
  | cons g gs ih => intro k ids; simp [assignIds, ih, foldl_set_length]

theorem assignIds_not_mem (levels : List (List ℕ)) (i : ℕ) (hi : i ∉ levels.flatten) : ∀ k ids,
    (assignIds levels k ids)[i]? = ids[i]? := by
  induction levels with
  | nil => simp [assignIds]
  | cons g gs ih =>
    intro k ids
    simp at hi
    rw [assignIds, ih (by simpa using hi.2), foldl_set_getElem?, if_neg (by simp [hi.1])]

theorem assignIds_mem (levels : List (List ℕ)) (hnd : levels.flatten.Nodup) (i l : ℕ)
    (g : List ℕ) (hg : levels[l]? = some g) (hig : i ∈ g) : ∀ k ids, i < ids.length →
    (assignIds levels k ids)[i]? = some (k + l) := by
  induction levels generalizing l with
  | nil => simp at hg
  | cons g0 gs ih =>
    intro k ids hlt
    rw [assignIds]
    rw [List.flatten_cons, List.nodup_append] at hnd
    cases l with
    | zero =>
      simp at hg; subst hg
      rw [assignIds_not_mem, foldl_set_getElem?, if_pos ⟨hig, hlt⟩]
      · simp
      · intro h
        exact hnd.2.2 i hig i h rfl
    | succ l =>
      rw [ih hnd.2.1 l (by simpa using hg) (k + 1) _ (by rw [foldl_set_length]; exact hlt)]
      congr 1; omega

theorem levelReps_ok (arr : List (Fin d → K)) (levels : List (List ℕ))
    (hne : ∀ g ∈ levels, g ≠ []) (hlt : ∀ g ∈ levels, ∀ i ∈ g, i < arr.length) :
    ∃ rows, levelReps arr levels = .ok rows ∧ rows.length = levels.length ∧
      ∀ (l : ℕ) (g : List ℕ), levels[l]? = some g → ∃ i, i ∈ g ∧ rows[l]? = arr[i]? := by
  induction levels with
  | nil => exact ⟨[], rfl, rfl, by simp⟩
  | cons g gs ih =>
    obtain ⟨rows, h1, h2, h3⟩ := ih (fun g hg => hne g (by simp [hg]))
      (fun g hg => hlt g (by simp [hg]))
    obtain ⟨a, as, rfl⟩ := List.exists_cons_of_ne_nil (hne g (by simp))
    have ha := hlt (a :: as) (by simp) a (by simp)
    refine ⟨arr[a] :: rows, ?_, by simp [h2], ?_⟩
    · simp [levelReps, List.getElem?_eq_getElem ha, h1, Except.map]
    · intro l g hg
      cases l with
      | zero =>
        simp at hg; subst hg
        exact ⟨a, by simp, by simp [List.getElem?_eq_getElem ha]⟩
      | succ l =>
        obtain ⟨i, hi, h⟩ := h3 l g (by simpa using hg)
        exact ⟨i, hi, by simpa using h⟩

/-- Everything that is needed about a successful merge: either nothing was merged or the result comes
from a partition into levels. -/
theorem merge_cases {srt : (ℕ → K) → List ℕ → List ℕ} (hsrt : IsArgsort srt) {atol : K}
    (h0 : 0 ≤ atol) (arr : List (Fin d → K)) (hne : arr ≠ []) :
    ∃ r, mergeDuplicateRows srt atol arr = .ok r ∧
      ((mergeLoop srt atol arr (List.finRange d) [List.range arr.length] = none ∧
          r.rows = arr ∧ r.newID = List.range arr.length) ∨
       ∃ L, mergeLoop srt atol arr (List.finRange d) [List.range arr.length] = some L ∧
          LevelsOK arr.length L ∧ r.rows.length = L.length ∧ r.newID.length = arr.length ∧
          (∀ (l : ℕ) (g : List ℕ), L[l]? = some g → ∃ i, i ∈ g ∧ r.rows[l]? = arr[i]?) ∧
          (∀ (l : ℕ) (g : List ℕ), L[l]? = some g → ∀ i ∈ g, r.newID[i]? = some l)) := by
  have hpos : 0 < arr.length := List.length_pos_iff.2 hne
  unfold mergeDuplicateRows
  rcases h : mergeLoop srt atol arr (List.finRange d) [List.range arr.length] with _ | L
  · exact ⟨_, rfl, Or.inl ⟨rfl, rfl, rfl⟩⟩
  · have hL := mergeLoop_levels hsrt h0 arr _ _ (initLevels_ok _ hpos) L h
    have hlt : ∀ g ∈ L, ∀ i ∈ g, i < arr.length := fun g hg i hi =>
      List.mem_range.1 (hL.perm.subset (List.mem_flatten.2 ⟨g, hg, hi⟩))
    obtain ⟨rows, h1, h2, h3⟩ := levelReps_ok arr L hL.ne_nil hlt
    have hnd : L.flatten.Nodup := hL.perm.nodup_iff.2 List.nodup_range
    refine ⟨_, by simp only [h1, Except.map]; rfl, Or.inr ⟨L, rfl, hL, h2, ?_, h3, ?_⟩⟩
    · simp [assignIds_length]
    · intro l g hg i hi
      have := assignIds_mem L hnd i l g hg hi 0 (List.range arr.length)
        (by simpa using hlt g (List.mem_of_getElem? hg) i hi)
      simpa using this

theorem LevelsOK.exists_level {nv : ℕ} {L : List (List ℕ)} (h : LevelsOK nv L) {i : ℕ}
    (hi : i < nv) : ∃ (l : ℕ) (g : List ℕ), L[l]? = some g ∧ i ∈ g := by
  have : i ∈ L.flatten := h.perm.symm.subset (List.mem_range.2 hi)
  obtain ⟨g, hg, hig⟩ := List.mem_flatten.1 this
  obtain ⟨l, hl⟩ := List.mem_iff_getElem?.1 hg
  exact ⟨l, g, hl, hig⟩

theorem LevelsOK.lt {nv : ℕ} {L : List (List ℕ)} (h : LevelsOK nv L) {g : List ℕ} (hg : g ∈ L)
    {i : ℕ} (hi : i ∈ g) : i < nv :=
  List.mem_range.1 (h.perm.subset (List.mem_flatten.2 ⟨g, hg, hi⟩))

theorem colVal_eq {arr : List (Fin d → K)} {i : ℕ} {r : Fin d → K} (h : arr[i]? = some r)
    (k : Fin d) : colVal arr k i = r k := by simp [colVal, h]

end MM
