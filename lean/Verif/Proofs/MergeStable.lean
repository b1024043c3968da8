import Verif.Proofs.Merge

/-!
# Merging rows and merging rows near them
-/

namespace MM

set_option linter.unusedSectionVars false

variable {K : Type*} [Field K] [LinearOrder K] [IsStrictOrderedRing K] {d : ℕ}

/-- The runs of a list. -/
def runsOf (atol : K) (val : ℕ → K) : List ℕ → List (List ℕ)
  | [] => []
  | j :: js => splitRuns atol val (val j) [j] js

/-- The first run of a list, and the others. -/
lemma splitRuns_filter {atol : K} {val : ℕ → K} (is : List ℕ) : ∀ (vref : K) (cur : List ℕ),
    (∀ i ∈ is, vref ≤ val i) → is.Pairwise (fun i j => val i ≤ val j) →
    splitRuns atol val vref cur is = (cur.reverse ++ is.filter (fun i => decide (val i - vref ≤ atol))) ::
      runsOf atol val (is.filter (fun i => !decide (val i - vref ≤ atol))) := by
  induction is with
  | nil => intro vref cur _ _; simp [splitRuns, runsOf]
  | cons i is ih =>
    intro vref cur hle hs
    have hi := hle i (by simp)
    obtain ⟨hs1, hs2⟩ := List.pairwise_cons.1 hs
    have habs : |val i - vref| = val i - vref := abs_of_nonneg (by linarith)
    unfold splitRuns
    by_cases hc : val i - vref ≤ atol
    · rw [if_neg (by rw [habs]; exact not_lt.2 hc), ih vref (i :: cur) (fun j hj => hle j (by simp [hj])) hs2]
      rw [List.filter_cons_of_pos (by simpa using hc), List.filter_cons_of_neg (by simpa using hc)]
      simp
    · rw [if_pos (by rw [habs]; exact not_le.1 hc)]
      have hall : ∀ j ∈ is, ¬ val j - vref ≤ atol := fun j hj => by
        have := hs1 j hj
        intro h; apply hc; linarith
      have f1 : (i :: is).filter (fun i => decide (val i - vref ≤ atol)) = [] := by
        rw [List.filter_eq_nil_iff]
        intro j hj
        rcases List.mem_cons.1 hj with rfl | hj
        · simpa using hc
        · simpa using hall j hj
      have f2 : (i :: is).filter (fun i => !decide (val i - vref ≤ atol)) = i :: is := by
        rw [List.filter_eq_self]
        intro j hj
        rcases List.mem_cons.1 hj with rfl | hj
        · simpa using hc
        · simpa using hall j hj
      rw [f1, f2, List.append_nil]
      rfl

/-- Two columns near each other, no difference of which is near the tolerance. -/
structure NearCols (n : ℕ) (atol atol' : K) (val val' : ℕ → K) : Prop where
  gap : ∃ e lo hi : K, 0 ≤ e ∧ lo + 2 * e ≤ atol ∧ lo + 2 * e ≤ atol' ∧ atol ≤ hi ∧ atol' + 2 * e ≤ hi ∧
    (∀ i < n, |val i - val' i| ≤ e) ∧
    ∀ i < n, ∀ j < n, |val i - val j| ≤ lo ∨ hi < |val i - val j|

lemma NearCols.first {n : ℕ} {atol atol' : K} {val val' : ℕ → K} (h : NearCols n atol atol' val val') (h0 : 0 ≤ atol')
    {a a' i : ℕ} (ha : a < n) (ha' : a' < n) (hi : i < n) (hmin : val a ≤ val a') (hmin' : val' a' ≤ val' a)
    (hi' : val' a' ≤ val' i) : val i - val a ≤ atol ↔ val' i - val' a' ≤ atol' := by
  obtain ⟨e, lo, hi0, he, h1, h2, h3, h4, hc, hg⟩ := h.gap
  have c1 := abs_le.1 (hc i hi)
  have c2 := abs_le.1 (hc a ha)
  have c3 := abs_le.1 (hc a' ha')
  constructor
  · intro hp
    rcases hg i hi a ha with g | g
    · have := (abs_le.1 g).2
      linarith [c1.1, c3.2]
    · rcases lt_abs.1 g with g | g
      · linarith
      · linarith [c1.1, c1.2, c2.1, c2.2, c3.1, c3.2]
  · intro hp
    rcases hg i hi a' ha' with g | g
    · have := (abs_le.1 g).2
      linarith [c1.1, c1.2, c2.1, c2.2, c3.1, c3.2]
    · rcases lt_abs.1 g with g | g <;> linarith [c1.1, c1.2, c2.1, c2.2, c3.1, c3.2]

lemma NearCols.runs {n : ℕ} {atol atol' : K} {val val' : ℕ → K} (h : NearCols n atol atol' val val') (h0 : 0 ≤ atol)
    (h0' : 0 ≤ atol') : ∀ (k : ℕ) (a a' : ℕ) (is is' : List ℕ), is.length ≤ k → (a :: is).Perm (a' :: is') →
    (∀ i ∈ a :: is, i < n) → (a :: is).Pairwise (fun i j => val i ≤ val j) →
    (a' :: is').Pairwise (fun i j => val' i ≤ val' j) →
    List.Forall₂ List.Perm (splitRuns atol val (val a) [a] is) (splitRuns atol' val' (val' a') [a'] is') := by
  intro k
  induction k with
  | zero =>
    intro a a' is is' hk hp _ _ _
    have h1 : is = [] := List.length_eq_zero_iff.1 (by omega)
    have h2 : is' = [] := by
      have := hp.length_eq
      rw [h1] at this
      simp only [List.length_cons, List.length_nil] at this
      exact List.length_eq_zero_iff.1 (by omega)
    subst h1 h2
    exact .cons (by simpa [splitRuns] using hp) .nil
  | succ k ih =>
    intro a a' is is' hk hp hlt hs hs'
    have hlt' : ∀ i ∈ a' :: is', i < n := fun i hi => hlt i (hp.symm.subset hi)
    obtain ⟨s1, s2⟩ := List.pairwise_cons.1 hs
    obtain ⟨t1, t2⟩ := List.pairwise_cons.1 hs'
    have m1 : ∀ i ∈ a :: is, val a ≤ val i := by
      intro i hi
      rcases List.mem_cons.1 hi with rfl | hi
      · exact le_rfl
      · exact s1 i hi
    have m2 : ∀ i ∈ a' :: is', val' a' ≤ val' i := by
      intro i hi
      rcases List.mem_cons.1 hi with rfl | hi
      · exact le_rfl
      · exact t1 i hi
    have hmin := m1 a' (hp.symm.subset List.mem_cons_self)
    have hmin' := m2 a (hp.subset List.mem_cons_self)
    have key : ∀ i ∈ a :: is, (val i - val a ≤ atol ↔ val' i - val' a' ≤ atol') := fun i hi =>
      h.first h0' (hlt a List.mem_cons_self) (hlt' a' List.mem_cons_self) (hlt i hi) hmin hmin' (m2 i (hp.subset hi))
    rw [splitRuns_filter is (val a) [a] s1 s2, splitRuns_filter is' (val' a') [a'] t1 t2]
    have e1 : [a].reverse ++ is.filter (fun i => decide (val i - val a ≤ atol)) =
        (a :: is).filter (fun i => decide (val i - val a ≤ atol)) := by simp [h0]
    have e1' : [a'].reverse ++ is'.filter (fun i => decide (val' i - val' a' ≤ atol')) =
        (a' :: is').filter (fun i => decide (val' i - val' a' ≤ atol')) := by simp [h0']
    have e2 : is.filter (fun i => !decide (val i - val a ≤ atol)) =
        (a :: is).filter (fun i => !decide (val i - val a ≤ atol)) := by simp [h0]
    have e2' : is'.filter (fun i => !decide (val' i - val' a' ≤ atol')) =
        (a' :: is').filter (fun i => !decide (val' i - val' a' ≤ atol')) := by simp [h0']
    have p1 : ((a :: is).filter (fun i => decide (val i - val a ≤ atol))).Perm
        ((a' :: is').filter (fun i => decide (val' i - val' a' ≤ atol'))) := by
      rw [List.filter_congr (q := fun i => decide (val' i - val' a' ≤ atol'))
        (fun i hi => decide_eq_decide.2 (key i hi))]
      exact hp.filter _
    have p2 : ((a :: is).filter (fun i => !decide (val i - val a ≤ atol))).Perm
        ((a' :: is').filter (fun i => !decide (val' i - val' a' ≤ atol'))) := by
      rw [List.filter_congr (q := fun i => !decide (val' i - val' a' ≤ atol'))
        (fun i hi => congrArg not (decide_eq_decide.2 (key i hi)))]
      exact hp.filter _
    rw [e1, e1']
    refine .cons p1 ?_
    rw [← e2, ← e2'] at p2
    have q1 : (is.filter (fun i => !decide (val i - val a ≤ atol))).length ≤ is.length := List.length_filter_le _ _
    have q2 : ∀ i ∈ is.filter (fun i => !decide (val i - val a ≤ atol)), i < n := fun i hi =>
      hlt i (List.mem_cons_of_mem _ (List.mem_filter.1 hi).1)
    have q3 : (is.filter (fun i => !decide (val i - val a ≤ atol))).Pairwise (fun i j => val i ≤ val j) := s2.filter _
    have q4 : (is'.filter (fun i => !decide (val' i - val' a' ≤ atol'))).Pairwise (fun i j => val' i ≤ val' j) :=
      t2.filter _
    generalize is.filter (fun i => !decide (val i - val a ≤ atol)) = l at *
    generalize is'.filter (fun i => !decide (val' i - val' a' ≤ atol')) = l' at *
    cases l with
    | nil =>
      have : l' = [] := by simpa using p2.symm
      subst this
      exact .nil
    | cons j js =>
      cases l' with
      | nil => have := p2.length_eq; simp at this
      | cons j' js' =>
        simp only [List.length_cons] at q1
        exact ih j j' js js' (by omega) p2 q2 q3 q4

lemma NearCols.level {n : ℕ} {atol atol' : K} {val val' : ℕ → K} (h : NearCols n atol atol' val val') (h0 : 0 ≤ atol)
    (h0' : 0 ≤ atol') {srt srt' : (ℕ → K) → List ℕ → List ℕ} (hsrt : IsArgsort srt) (hsrt' : IsArgsort srt')
    {g g' : List ℕ} (hp : g.Perm g') (hlt : ∀ i ∈ g, i < n) :
    List.Forall₂ List.Perm (splitLevel srt atol val g) (splitLevel srt' atol' val' g') := by
  unfold splitLevel
  rw [hp.length_eq]
  split
  · obtain ⟨a1, a2⟩ := hsrt val g
    obtain ⟨b1, b2⟩ := hsrt' val' g'
    have hq : (srt val g).Perm (srt' val' g') := a1.trans (hp.trans b1.symm)
    have hl : ∀ i ∈ srt val g, i < n := fun i hi => hlt i (a1.subset hi)
    generalize srt val g = s at *
    generalize srt' val' g' = s' at *
    cases s with
    | nil =>
      have : s' = [] := by simpa using hq.symm
      subst this
      exact .cons (.refl _) .nil
    | cons i is =>
      cases s' with
      | nil => have := hq.length_eq; simp at this
      | cons i' is' =>
        simp only [splitRuns_start _ _ _ _ h0, splitRuns_start _ _ _ _ h0']
        exact h.runs h0 h0' is.length i i' is is' le_rfl hq hl a2 b2
  · exact .cons hp .nil

lemma forall₂_flatMap {f g : List ℕ → List (List ℕ)} : ∀ {L L' : List (List ℕ)}, List.Forall₂ List.Perm L L' →
    (∀ x ∈ L, ∀ y, x.Perm y → List.Forall₂ List.Perm (f x) (g y)) → List.Forall₂ List.Perm (L.flatMap f) (L'.flatMap g) := by
  intro L L' h
  induction h with
  | nil => intro _; exact .nil
  | @cons a b l l' h1 _ ih =>
    intro hf
    rw [List.flatMap_cons, List.flatMap_cons]
    exact List.rel_append (hf a (by simp) b h1) (ih fun x hx y => hf x (by simp [hx]) y)

lemma mergeLoop_stable {atol atol' : K} (h0 : 0 ≤ atol) (h0' : 0 ≤ atol') {srt srt' : (ℕ → K) → List ℕ → List ℕ}
    (hsrt : IsArgsort srt) (hsrt' : IsArgsort srt') {arr arr' : List (Fin d → K)} (hlen : arr.length = arr'.length)
    (h : ∀ dim, NearCols arr.length atol atol' (colVal arr dim) (colVal arr' dim)) (dims : List (Fin d)) :
    ∀ L L', List.Forall₂ List.Perm L L' → (∀ g ∈ L, ∀ i ∈ g, i < arr.length) →
      (mergeLoop srt atol arr dims L = none ∧ mergeLoop srt' atol' arr' dims L' = none) ∨
      ∃ M M', mergeLoop srt atol arr dims L = some M ∧ mergeLoop srt' atol' arr' dims L' = some M' ∧
        List.Forall₂ List.Perm M M' := by
  induction dims with
  | nil => intro L L' hL _; exact .inr ⟨L, L', rfl, rfl, hL⟩
  | cons dim dims ih =>
    intro L L' hL hlt
    have hstep := forall₂_flatMap (f := splitLevel srt atol (colVal arr dim)) (g := splitLevel srt' atol' (colVal arr' dim))
      hL (fun x hx y hxy => (h dim).level h0 h0' hsrt hsrt' hxy (hlt x hx))
    simp only [mergeLoop]
    rw [← hstep.length_eq, ← hlen]
    split
    · left; exact ⟨rfl, rfl⟩
    · refine ih _ _ hstep ?_
      intro g hg i hi
      obtain ⟨x, hx, hgx⟩ := List.mem_flatMap.1 hg
      exact hlt x hx i (splitLevel_subset hsrt atol (colVal arr dim) x g hgx i hi)

/-- Near rows are merged in the same way. -/
theorem merge_stable {atol atol' : K} (h0 : 0 ≤ atol) (h0' : 0 ≤ atol') {srt srt' : (ℕ → K) → List ℕ → List ℕ}
    (hsrt : IsArgsort srt) (hsrt' : IsArgsort srt') {arr arr' : List (Fin d → K)} (hne : arr ≠ [])
    (hlen : arr.length = arr'.length)
    (h : ∀ dim, NearCols arr.length atol atol' (colVal arr dim) (colVal arr' dim)) :
    ∃ r r', mergeDuplicateRows srt atol arr = .ok r ∧ mergeDuplicateRows srt' atol' arr' = .ok r' ∧
      r'.newID = r.newID ∧ r'.rows.length = r.rows.length ∧
      ∀ id < r.rows.length, ∃ i j : ℕ, r.newID[i]? = some id ∧ r.newID[j]? = some id ∧ r.rows[id]? = arr[i]? ∧
        r'.rows[id]? = arr'[j]? := by
  have hne' : arr' ≠ [] := by
    rintro rfl
    exact hne (List.length_eq_zero_iff.1 (by simpa using hlen))
  obtain ⟨r, hr, hcase⟩ := merge_cases hsrt h0 arr hne
  obtain ⟨r', hr', hcase'⟩ := merge_cases hsrt' h0' arr' hne'
  refine ⟨r, r', hr, hr', ?_⟩
  have hst := mergeLoop_stable h0 h0' hsrt hsrt' hlen h (List.finRange d) [List.range arr.length]
    [List.range arr'.length] (by rw [hlen]; exact .cons (.refl _) .nil) (by
      intro g hg i hi
      rw [List.mem_singleton.1 hg] at hi
      exact List.mem_range.1 hi)
  rcases hcase with ⟨a1, a2, a3⟩ | ⟨L, a1, aok, a2, a3, a4, a5⟩ <;>
    rcases hcase' with ⟨b1, b2, b3⟩ | ⟨L', b1, bok, b2, b3, b4, b5⟩ <;>
    rcases hst with ⟨c1, c2⟩ | ⟨M, M', c1, c2, c3⟩
  · rw [a2, a3, b2, b3, hlen]
    refine ⟨rfl, rfl, fun id hid => ⟨id, id, ?_, ?_, rfl, rfl⟩⟩ <;> simp [hid]
  · rw [a1] at c1; cases c1
  · rw [b1] at c2; cases c2
  · rw [a1] at c1; cases c1
  · rw [a1] at c1; cases c1
  · rw [b1] at c2; cases c2
  · rw [a1] at c1; cases c1
  · rw [a1] at c1; rw [b1] at c2
    cases c1; cases c2
    have hids : ∀ (l : ℕ) (g : List ℕ), L[l]? = some g → ∃ g', L'[l]? = some g' ∧ g.Perm g' := by
      intro l g hg
      obtain ⟨hl, e⟩ := List.getElem?_eq_some_iff.1 hg
      have hl' : l < L'.length := by rw [← c3.length_eq]; exact hl
      have := (List.forall₂_iff_get.1 c3).2 l hl hl'
      simp only [List.get_eq_getElem, e] at this
      exact ⟨L'[l], List.getElem?_eq_getElem hl', this⟩
    have hnew : r'.newID = r.newID := by
      apply List.ext_getElem?
      intro i
      by_cases hi : i < arr.length
      · obtain ⟨l, g, hg, hig⟩ := aok.exists_level hi
        obtain ⟨g', hg', hp⟩ := hids l g hg
        rw [a5 l g hg i hig, b5 l g' hg' i (hp.subset hig)]
      · rw [List.getElem?_eq_none (by omega), List.getElem?_eq_none (by omega)]
    refine ⟨hnew, by rw [a2, b2, c3.length_eq], fun id hid => ?_⟩
    have hid' : id < L.length := by omega
    obtain ⟨g', hg', hp⟩ := hids id L[id] (List.getElem?_eq_getElem hid')
    obtain ⟨i, hi, e1⟩ := a4 id L[id] (List.getElem?_eq_getElem hid')
    obtain ⟨j, hj, e2⟩ := b4 id g' hg'
    exact ⟨i, j, a5 id _ (List.getElem?_eq_getElem hid') i hi,
      a5 id _ (List.getElem?_eq_getElem hid') j (hp.symm.subset hj), e1, e2⟩

end MM
