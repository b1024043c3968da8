import Verif.Model.Regex
import Verif.Proofs.Text

/-!
# Facts on regular expressions
-/

namespace MM

set_option linter.unusedSimpArgs false

/-! ### Repetitions -/

lemma starRuns_fuel (f : ReState → List ReState) : ∀ (k n m : ℕ) (s : ReState), s.post.length ≤ k → k ≤ n → k ≤ m →
    starRuns f n s = starRuns f m s := by
  have key : ∀ s t : ReState, t ∈ (f s).filter (fun t => t.post.length < s.post.length) → t.post.length < s.post.length := by
    intro s t ht
    simpa using (List.mem_filter.1 ht).2
  intro k
  induction k with
  | zero =>
    intro n m s hs hn hm
    have hz : ∀ n, starRuns f n s = [s] := by
      intro n
      cases n with
      | zero => rfl
      | succ n =>
        simp only [starRuns]
        have : (f s).filter (fun t => t.post.length < s.post.length) = [] := by
          rw [List.filter_eq_nil_iff]; intro t _; simp; omega
        rw [this]; rfl
    rw [hz, hz]
  | succ k ih =>
    intro n m s hs hn hm
    obtain ⟨n, rfl⟩ : ∃ a, n = a + 1 := ⟨n - 1, by omega⟩
    obtain ⟨m, rfl⟩ : ∃ a, m = a + 1 := ⟨m - 1, by omega⟩
    simp only [starRuns]
    congr 1
    apply List.flatMap_congr
    intro t ht
    have := key s t ht
    exact ih n m t (by omega) (by omega) (by omega)

/-- One more time, or not any more. -/
lemma runs_star (a : Re) (s : ReState) :
    (Re.star a).runs s = ((a.runs s).filter fun t => t.post.length < s.post.length).flatMap (Re.star a).runs ++ [s] := by
  conv_lhs => unfold Re.runs
  rw [starRuns_fuel a.runs s.post.length s.post.length (s.post.length + 1) s le_rfl le_rfl (by omega)]
  simp only [starRuns]
  congr 1
  apply List.flatMap_congr
  intro t ht
  have : t.post.length < s.post.length := by simpa using (List.mem_filter.1 ht).2
  conv_rhs => unfold Re.runs
  exact starRuns_fuel a.runs t.post.length _ _ t le_rfl (by omega) le_rfl

/-! ### The first way to match -/

/-- The match that Python returns. -/
def Re.first (r : Re) (s : ReState) : Option ReState := (r.runs s).head?

lemma head_flatMap {α β : Type} {l : List α} {k : α → List β} {t : α} {u : β} (h : l.head? = some t)
    (h' : (k t).head? = some u) : (l.flatMap k).head? = some u := by
  cases l with
  | nil => simp at h
  | cons a l =>
    obtain rfl : a = t := by simpa using h
    rw [List.flatMap_cons, List.head?_append, h']; rfl

lemma first_seq {a b : Re} {s t u : ReState} (h : a.first s = some t) (h' : b.first t = some u) :
    (Re.seq a b).first s = some u := head_flatMap h h'

lemma first_alt_left {a b : Re} {s t : ReState} (h : a.first s = some t) : (Re.alt a b).first s = some t := by
  unfold Re.first at h ⊢
  show (a.runs s ++ b.runs s).head? = _
  rw [List.head?_append, h]; rfl

lemma first_alt_right {a b : Re} {s : ReState} (h : a.runs s = []) : (Re.alt a b).first s = b.first s := by
  show (a.runs s ++ b.runs s).head? = _
  rw [h]; rfl

lemma first_eps (s : ReState) : Re.eps.first s = some s := rfl

lemma first_star_some (a : Re) (s : ReState) : ∃ t, (Re.star a).first s = some t := by
  unfold Re.first
  rw [runs_star]
  cases h : ((a.runs s).filter fun t => t.post.length < s.post.length).flatMap (Re.star a).runs with
  | nil => exact ⟨s, rfl⟩
  | cons x l => exact ⟨x, rfl⟩

lemma first_star_step {a : Re} {s t : ReState} (h : a.first s = some t) (hl : t.post.length < s.post.length) :
    (Re.star a).first s = (Re.star a).first t := by
  obtain ⟨u, hu⟩ := first_star_some a t
  rw [hu]
  unfold Re.first at h hu ⊢
  rw [runs_star, List.head?_append]
  have : ((a.runs s).filter fun t => t.post.length < s.post.length).head? = some t := by
    cases hr : a.runs s with
    | nil => rw [hr] at h; simp at h
    | cons x l =>
      rw [hr] at h
      obtain rfl : x = t := by simpa using h
      rw [List.filter_cons_of_pos (by simpa using hl)]; rfl
  rw [head_flatMap this hu]; rfl

lemma runs_star_stop {a : Re} {s : ReState} (h : a.runs s = []) : (Re.star a).runs s = [s] := by
  rw [runs_star, h]; rfl

lemma first_star_stop {a : Re} {s : ReState} (h : a.runs s = []) : (Re.star a).first s = some s := by
  unfold Re.first; rw [runs_star_stop h]; rfl

lemma first_group {n : ℕ} {a : Re} {s t : ReState} (h : a.first s = some t) :
    (Re.group n a).first s =
      some { t with groups := (n, (t.pre.take (t.pre.length - s.pre.length)).reverse) :: t.groups } := by
  unfold Re.first at h ⊢
  show (List.map _ (a.runs s)).head? = _
  rw [List.head?_map, h]; rfl

lemma first_group' {n : ℕ} {a : Re} {pre w post : Str} {g g' : List (ℕ × Str)}
    (h : a.first ⟨pre, w ++ post, g⟩ = some ⟨w.reverse ++ pre, post, g'⟩) :
    (Re.group n a).first ⟨pre, w ++ post, g⟩ = some ⟨w.reverse ++ pre, post, (n, w) :: g'⟩ := by
  rw [first_group h]
  congr 2
  congr 2
  simp

/-! ### Characters -/

lemma first_chr {p : Char → Bool} {pre : Str} {c : Char} {s : Str} {g : List (ℕ × Str)} (h : p c = true) :
    (Re.chr p).first ⟨pre, c :: s, g⟩ = some ⟨c :: pre, s, g⟩ := by
  simp [Re.first, Re.runs, h]

lemma runs_chr_cons (p : Char → Bool) (pre : Str) (c : Char) (s : Str) (g : List (ℕ × Str)) :
    (Re.chr p).runs ⟨pre, c :: s, g⟩ = if p c then [⟨c :: pre, s, g⟩] else [] := rfl

lemma runs_chr_nil (p : Char → Bool) (pre : Str) (g : List (ℕ × Str)) : (Re.chr p).runs ⟨pre, [], g⟩ = [] := rfl

/-- The text does not start with a character of the class. -/
def Stops (p : Char → Bool) (r : Str) : Prop := ∀ c t, r = c :: t → p c = false

lemma Stops.nil (p : Char → Bool) : Stops p [] := by intro c t h; simp at h

lemma stops_cons {p : Char → Bool} {c : Char} (h : p c = false) (t : Str) : Stops p (c :: t) := by
  intro c' t' e; obtain rfl : c = c' := (List.cons.inj e).1; exact h

lemma Stops.runs {p : Char → Bool} {r : Str} (h : Stops p r) (pre : Str) (g : List (ℕ × Str)) :
    (Re.chr p).runs ⟨pre, r, g⟩ = [] := by
  cases r with
  | nil => rfl
  | cons c t => rw [runs_chr_cons, h c t rfl]; rfl

lemma runs_star_chr_cons (p : Char → Bool) (pre : Str) (c : Char) (s : Str) (g : List (ℕ × Str)) (h : p c = true) :
    (Re.star (Re.chr p)).runs ⟨pre, c :: s, g⟩ = (Re.star (Re.chr p)).runs ⟨c :: pre, s, g⟩ ++ [⟨pre, c :: s, g⟩] := by
  rw [runs_star, runs_chr_cons, h]
  simp

lemma first_star_chr {p : Char → Bool} {w r : Str} (hw : ∀ c ∈ w, p c = true) (hr : Stops p r) (pre : Str)
    (g : List (ℕ × Str)) : (Re.star (Re.chr p)).first ⟨pre, w ++ r, g⟩ = some ⟨w.reverse ++ pre, r, g⟩ := by
  induction w generalizing pre with
  | nil => exact first_star_stop (hr.runs pre g)
  | cons c w ih =>
    have := ih (fun c hc => hw c (List.mem_cons_of_mem _ hc)) (c :: pre)
    rw [List.cons_append, first_star_step (first_chr (hw c (List.mem_cons_self ..))) (by simp), this]
    simp

lemma first_plus_chr {p : Char → Bool} {w r : Str} (hne : w ≠ []) (hw : ∀ c ∈ w, p c = true) (hr : Stops p r) (pre : Str)
    (g : List (ℕ × Str)) : (Re.plus (Re.chr p)).first ⟨pre, w ++ r, g⟩ = some ⟨w.reverse ++ pre, r, g⟩ := by
  cases w with
  | nil => exact absurd rfl hne
  | cons c w =>
    rw [List.cons_append]
    refine first_seq (first_chr (hw c (List.mem_cons_self ..))) ?_
    rw [first_star_chr (fun c hc => hw c (List.mem_cons_of_mem _ hc)) hr]
    simp

/-- All the ways to match a repeated class. -/
lemma mem_star_chr {p : Char → Bool} {pre post : Str} {g : List (ℕ × Str)} {t : ReState}
    (h : t ∈ (Re.star (Re.chr p)).runs ⟨pre, post, g⟩) :
    ∃ w r, post = w ++ r ∧ (∀ c ∈ w, p c = true) ∧ t = ⟨w.reverse ++ pre, r, g⟩ := by
  induction post generalizing pre with
  | nil =>
    rw [runs_star_stop (runs_chr_nil ..)] at h
    exact ⟨[], [], rfl, by simp, by simpa using h⟩
  | cons c s ih =>
    by_cases hc : p c = true
    · rw [runs_star_chr_cons _ _ _ _ _ hc, List.mem_append] at h
      rcases h with h | h
      · obtain ⟨w, r, e, hw, ht⟩ := ih h
        refine ⟨c :: w, r, by rw [e]; rfl, ?_, by rw [ht]; simp⟩
        intro c' hc'
        rcases List.mem_cons.1 hc' with rfl | h
        · exact hc
        · exact hw c' h
      · exact ⟨[], c :: s, rfl, by simp, by simpa using h⟩
    · rw [runs_star_stop (by rw [runs_chr_cons]; simp [hc])] at h
      exact ⟨[], c :: s, rfl, by simp, by simpa using h⟩

lemma mem_plus_chr {p : Char → Bool} {pre post : Str} {g : List (ℕ × Str)} {t : ReState}
    (h : t ∈ (Re.plus (Re.chr p)).runs ⟨pre, post, g⟩) :
    ∃ w r, post = w ++ r ∧ w ≠ [] ∧ (∀ c ∈ w, p c = true) ∧ t = ⟨w.reverse ++ pre, r, g⟩ := by
  obtain ⟨u, hu, ht⟩ := List.mem_flatMap.1 h
  cases post with
  | nil => simp [runs_chr_nil] at hu
  | cons c s =>
    rw [runs_chr_cons] at hu
    split at hu
    · rename_i hc
      obtain rfl : u = ⟨c :: pre, s, g⟩ := by simpa using hu
      obtain ⟨w, r, e, hw, ht⟩ := mem_star_chr ht
      refine ⟨c :: w, r, by rw [e]; rfl, by simp, ?_, by rw [ht]; simp⟩
      intro c' hc'
      rcases List.mem_cons.1 hc' with rfl | h
      · exact hc
      · exact hw c' h
    · simp at hu

/-- Backtracking over a repeated class: what follows fails after each longer match. -/
lemma star_chr_back {p : Char → Bool} {w1 w2 r : Str} (h1 : ∀ c ∈ w1, p c = true) (h2 : ∀ c ∈ w2, p c = true)
    (hr : Stops p r) (pre : Str) (g : List (ℕ × Str)) {β : Type} (k : ReState → List β) {u : β}
    (hk : ∀ v1 v2, w2 = v1 ++ v2 → v1 ≠ [] → k ⟨v1.reverse ++ (w1.reverse ++ pre), v2 ++ r, g⟩ = [])
    (hu : (k ⟨w1.reverse ++ pre, w2 ++ r, g⟩).head? = some u) :
    (((Re.star (Re.chr p)).runs ⟨pre, w1 ++ (w2 ++ r), g⟩).flatMap k).head? = some u := by
  induction w1 generalizing pre with
  | nil =>
    have hall : ∀ (w2 : Str) (pre : Str), (∀ c ∈ w2, p c = true) →
        (∀ v1 v2, w2 = v1 ++ v2 → k ⟨v1.reverse ++ pre, v2 ++ r, g⟩ = []) →
        ((Re.star (Re.chr p)).runs ⟨pre, w2 ++ r, g⟩).flatMap k = [] := by
      intro w2
      induction w2 with
      | nil =>
        intro pre _ hk
        rw [List.nil_append, runs_star_stop (hr.runs pre g)]
        simpa using hk [] [] rfl
      | cons c w2 ih =>
        intro pre h2 hk
        rw [List.cons_append, runs_star_chr_cons _ _ _ _ _ (h2 c (List.mem_cons_self ..)), List.flatMap_append,
          ih (c :: pre) (fun c hc => h2 c (List.mem_cons_of_mem _ hc))]
        · simpa using hk [] (c :: w2) rfl
        · intro v1 v2 e
          have := hk (c :: v1) v2 (by rw [e]; rfl)
          simpa using this
    simp only [List.reverse_nil, List.nil_append] at hk hu ⊢
    cases w2 with
    | nil =>
      rw [List.nil_append] at hu ⊢
      rw [runs_star_stop (hr.runs pre g)]
      simpa using hu
    | cons c w2 =>
      rw [List.cons_append, runs_star_chr_cons _ _ _ _ _ (h2 c (List.mem_cons_self ..)), List.flatMap_append,
        hall w2 (c :: pre) (fun c hc => h2 c (List.mem_cons_of_mem _ hc))]
      · simpa using hu
      · intro v1 v2 e
        have := hk (c :: v1) v2 (by rw [e]; rfl) (by simp)
        simpa using this
  | cons c w1 ih =>
    rw [List.cons_append, runs_star_chr_cons _ _ _ _ _ (h1 c (List.mem_cons_self ..)), List.flatMap_append,
      List.head?_append, ih (fun c hc => h1 c (List.mem_cons_of_mem _ hc)) (c :: pre)]
    · rfl
    · intro v1 v2 e hv
      simpa using hk v1 v2 e hv
    · simpa using hu

lemma runs_seq_nil {a b : Re} {s : ReState} (h : ∀ t ∈ a.runs s, b.runs t = []) : (Re.seq a b).runs s = [] := by
  show (a.runs s).flatMap b.runs = []
  rw [List.flatMap_eq_nil_iff]; exact h

lemma runs_seq_nil_left {a b : Re} {s : ReState} (h : a.runs s = []) : (Re.seq a b).runs s = [] := by
  show (a.runs s).flatMap b.runs = []
  rw [h]; rfl

/-- A literal string. -/
lemma first_lit (w r pre : Str) (g : List (ℕ × Str)) : (Re.lit w).first ⟨pre, w ++ r, g⟩ = some ⟨w.reverse ++ pre, r, g⟩ := by
  induction w generalizing pre with
  | nil => rfl
  | cons c w ih =>
    rw [List.cons_append]
    refine first_seq (first_chr (by simp)) ?_
    rw [ih]; simp

lemma mem_lit {w pre post : Str} {g : List (ℕ × Str)} {t : ReState} (h : t ∈ (Re.lit w).runs ⟨pre, post, g⟩) :
    ∃ r, post = w ++ r ∧ t = ⟨w.reverse ++ pre, r, g⟩ := by
  induction w generalizing pre post with
  | nil => exact ⟨post, rfl, by simpa [Re.lit, Re.runs] using h⟩
  | cons c w ih =>
    obtain ⟨u, hu, ht⟩ := List.mem_flatMap.1 h
    cases post with
    | nil => simp [runs_chr_nil] at hu
    | cons d s =>
      rw [runs_chr_cons] at hu
      split at hu
      · rename_i hc
        obtain rfl : d = c := by simpa using hc
        obtain rfl : u = ⟨d :: pre, s, g⟩ := by simpa using hu
        obtain ⟨r, e, ht⟩ := ih ht
        exact ⟨r, by rw [e]; rfl, by rw [ht]; simp⟩
      · simp at hu

lemma first_bol {pre post : Str} {g : List (ℕ × Str)} (h : pre = [] ∨ pre.head? = some '\n') :
    Re.bol.first ⟨pre, post, g⟩ = some ⟨pre, post, g⟩ := by
  simp only [Re.first, Re.runs, if_pos h]; rfl

lemma runs_bol_nil {pre post : Str} {g : List (ℕ × Str)} (h : ¬ (pre = [] ∨ pre.head? = some '\n')) :
    Re.bol.runs ⟨pre, post, g⟩ = [] := by
  simp only [Re.runs, if_neg h]

lemma mem_bol {s t : ReState} (h : t ∈ Re.bol.runs s) : t = s ∧ (s.pre = [] ∨ s.pre.head? = some '\n') := by
  simp only [Re.runs] at h
  split at h
  · rename_i hb; exact ⟨by simpa using h, hb⟩
  · simp at h

/-- What is read. -/
lemma runs_read (r : Re) (s t : ReState) (h : t ∈ r.runs s) : ∃ w, s.post = w ++ t.post ∧ t.pre = w.reverse ++ s.pre := by
  induction r generalizing s t with
  | eps => obtain rfl : t = s := by simpa [Re.runs] using h
           exact ⟨[], rfl, rfl⟩
  | chr p =>
    obtain ⟨pre, post, g⟩ := s
    cases post with
    | nil => simp [runs_chr_nil] at h
    | cons c s =>
      rw [runs_chr_cons] at h
      split at h
      · obtain rfl : t = _ := by simpa using h
        exact ⟨[c], rfl, rfl⟩
      · simp at h
  | bol => obtain ⟨rfl, -⟩ := mem_bol h; exact ⟨[], rfl, rfl⟩
  | eol =>
    simp only [Re.runs] at h
    split at h
    · obtain rfl : t = s := by simpa using h
      exact ⟨[], rfl, rfl⟩
    · simp at h
  | seq a b ha hb =>
    obtain ⟨u, hu, ht⟩ := List.mem_flatMap.1 h
    obtain ⟨w, e1, e2⟩ := ha s u hu
    obtain ⟨w', e3, e4⟩ := hb u t ht
    exact ⟨w ++ w', by rw [e1, e3, List.append_assoc], by rw [e4, e2]; simp⟩
  | alt a b ha hb =>
    rcases List.mem_append.1 h with h | h
    · exact ha s t h
    · exact hb s t h
  | star a ha =>
    have : ∀ (n : ℕ) (s : ReState), t ∈ starRuns a.runs n s → ∃ w, s.post = w ++ t.post ∧ t.pre = w.reverse ++ s.pre := by
      intro n
      induction n with
      | zero => intro s h; obtain rfl : t = s := by simpa [starRuns] using h
                exact ⟨[], rfl, rfl⟩
      | succ n ih =>
        intro s h
        simp only [starRuns, List.mem_append, List.mem_flatMap, List.mem_filter, List.mem_singleton] at h
        rcases h with ⟨u, ⟨hu, -⟩, ht⟩ | rfl
        · obtain ⟨w, e1, e2⟩ := ha s u hu
          obtain ⟨w', e3, e4⟩ := ih u ht
          exact ⟨w ++ w', by rw [e1, e3, List.append_assoc], by rw [e4, e2]; simp⟩
        · exact ⟨[], rfl, rfl⟩
    exact this _ s h
  | lazy a ha =>
    have : ∀ (n : ℕ) (s : ReState), t ∈ lazyRuns a.runs n s → ∃ w, s.post = w ++ t.post ∧ t.pre = w.reverse ++ s.pre := by
      intro n
      induction n with
      | zero => intro s h; obtain rfl : t = s := by simpa [lazyRuns] using h
                exact ⟨[], rfl, rfl⟩
      | succ n ih =>
        intro s h
        simp only [lazyRuns, List.mem_cons, List.mem_flatMap, List.mem_filter] at h
        rcases h with rfl | ⟨u, ⟨hu, -⟩, ht⟩
        · exact ⟨[], rfl, rfl⟩
        · obtain ⟨w, e1, e2⟩ := ha s u hu
          obtain ⟨w', e3, e4⟩ := ih u ht
          exact ⟨w ++ w', by rw [e1, e3, List.append_assoc], by rw [e4, e2]; simp⟩
    exact this _ s h
  | group n a ha =>
    obtain ⟨u, hu, rfl⟩ := List.mem_map.1 h
    exact ha s u hu

/-! ### Searching -/

lemma reSearch_hit {r : Re} {post pre : Str} {t : ReState} (h : r.first ⟨pre, post, []⟩ = some t) :
    reSearch r post pre = some (⟨(t.pre.take (t.pre.length - pre.length)).reverse, t.groups⟩, t) := by
  unfold Re.first at h
  cases post <;> simp only [reSearch, h]

lemma reSearch_hit' {r : Re} {w post pre : Str} {g : List (ℕ × Str)}
    (h : r.first ⟨pre, w ++ post, []⟩ = some ⟨w.reverse ++ pre, post, g⟩) :
    reSearch r (w ++ post) pre = some (⟨w, g⟩, ⟨w.reverse ++ pre, post, g⟩) := by
  rw [reSearch_hit h]
  simp

lemma reSearch_skip {r : Re} {w v pre : Str}
    (h : ∀ w1 c w2, w = w1 ++ c :: w2 → r.runs ⟨w1.reverse ++ pre, c :: (w2 ++ v), []⟩ = []) :
    reSearch r (w ++ v) pre = reSearch r v (w.reverse ++ pre) := by
  induction w generalizing pre with
  | nil => rfl
  | cons c w ih =>
    have h0 := h [] c w rfl
    simp only [List.reverse_nil, List.nil_append] at h0
    rw [List.cons_append]
    simp only [reSearch, h0, List.head?_nil]
    rw [ih]
    · simp
    · intro w1 c' w2 e
      have := h (c :: w1) c' w2 (by rw [e]; rfl)
      simpa using this

lemma reSearch_none {r : Re} {post pre : Str} (h : ∀ w1 w2, post = w1 ++ w2 → r.runs ⟨w1.reverse ++ pre, w2, []⟩ = []) :
    reSearch r post pre = none := by
  have := reSearch_skip (r := r) (w := post) (v := []) (pre := pre) (by
    intro w1 c w2 e
    rw [List.append_nil]
    exact h w1 (c :: w2) e)
  rw [List.append_nil] at this
  rw [this]
  have h0 := h post [] (by simp)
  simp only [reSearch, h0, List.head?_nil]

lemma reFindall_none {r : Re} {post pre : Str} (n : ℕ) (h : reSearch r post pre = none) : reFindall r n post pre = [] := by
  cases n with
  | zero => rfl
  | succ n => simp only [reFindall, h]

lemma reFindall_step {r : Re} {post pre : Str} {n : ℕ} {m : ReMatch} {t : ReState} (h : reSearch r post pre = some (m, t)) :
    reFindall r (n + 1) post pre = m :: reFindall r n t.post t.pre := by
  simp only [reFindall, h]

/-- A text made of pieces which match one after the other. `P` is a property of the text already read. -/
lemma reFindall_pieces {r : Re} {β : Type} (piece : β → Str) (g : β → List (ℕ × Str)) (P : Str → Prop)
    (hP : ∀ b pre, P ((piece b).reverse ++ pre)) (l : List β) (tail : Str) (n : ℕ) (hn : l.length ≤ n)
    (h : ∀ l1 b l2 pre, l = l1 ++ b :: l2 → P pre → r.first ⟨pre, piece b ++ (l2.flatMap piece ++ tail), []⟩ =
        some ⟨(piece b).reverse ++ pre, l2.flatMap piece ++ tail, g b⟩)
    (htail : ∀ pre, P pre → reSearch r tail pre = none) (pre : Str) (h0 : P pre) :
    reFindall r n (l.flatMap piece ++ tail) pre = l.map fun b => ⟨piece b, g b⟩ := by
  have key : ∀ (l2 : List β) (l1 : List β) (pre : Str) (n : ℕ), l = l1 ++ l2 → l2.length ≤ n → P pre →
      reFindall r n (l2.flatMap piece ++ tail) pre = l2.map fun b => ⟨piece b, g b⟩ := by
    intro l2
    induction l2 with
    | nil => intro l1 pre n _ _ hp; exact reFindall_none n (htail pre hp)
    | cons b l2 ih =>
      intro l1 pre n e hn hp
      obtain ⟨n, rfl⟩ : ∃ k, n = k + 1 := ⟨n - 1, by simp at hn; omega⟩
      rw [List.flatMap_cons, List.append_assoc, reFindall_step (reSearch_hit' (h l1 b l2 pre e hp))]
      rw [ih (l1 ++ [b]) _ n (by rw [e]; simp) (by simp at hn; omega) (hP b pre)]
      simp
  exact key l [] pre n rfl hn h0

/-- A repetition over such a text. -/
lemma first_star_pieces {r : Re} {β : Type} (piece : β → Str) (hne : ∀ b, piece b ≠ []) (P : Str → Prop)
    (hP : ∀ b pre, P ((piece b).reverse ++ pre)) (g : List (ℕ × Str)) (l : List β) (tail : Str)
    (h : ∀ l1 b l2 pre, l = l1 ++ b :: l2 → P pre → r.first ⟨pre, piece b ++ (l2.flatMap piece ++ tail), g⟩ =
        some ⟨(piece b).reverse ++ pre, l2.flatMap piece ++ tail, g⟩)
    (htail : ∀ pre, P pre → r.runs ⟨pre, tail, g⟩ = []) (pre : Str) (h0 : P pre) :
    (Re.star r).first ⟨pre, l.flatMap piece ++ tail, g⟩ = some ⟨(l.flatMap piece).reverse ++ pre, tail, g⟩ := by
  have key : ∀ (l2 : List β) (l1 : List β) (pre : Str), l = l1 ++ l2 → P pre →
      (Re.star r).first ⟨pre, l2.flatMap piece ++ tail, g⟩ = some ⟨(l2.flatMap piece).reverse ++ pre, tail, g⟩ := by
    intro l2
    induction l2 with
    | nil => intro l1 pre _ hp; exact first_star_stop (htail pre hp)
    | cons b l2 ih =>
      intro l1 pre e hp
      rw [List.flatMap_cons, List.append_assoc, first_star_step (h l1 b l2 pre e hp), ih (l1 ++ [b]) _ (by rw [e]; simp) (hP b pre)]
      · simp
      · have := List.length_pos_iff.2 (hne b)
        simp only [List.length_append]; omega
  exact key l [] pre rfl h0

/-- The same at least once. -/
lemma first_plus_pieces {r : Re} {β : Type} (piece : β → Str) (hne : ∀ b, piece b ≠ []) (P : Str → Prop)
    (hP : ∀ b pre, P ((piece b).reverse ++ pre)) (g : List (ℕ × Str)) (l : List β) (hl : l ≠ []) (tail : Str)
    (h : ∀ l1 b l2 pre, l = l1 ++ b :: l2 → P pre → r.first ⟨pre, piece b ++ (l2.flatMap piece ++ tail), g⟩ =
        some ⟨(piece b).reverse ++ pre, l2.flatMap piece ++ tail, g⟩)
    (htail : ∀ pre, P pre → r.runs ⟨pre, tail, g⟩ = []) (pre : Str) (h0 : P pre) :
    (Re.plus r).first ⟨pre, l.flatMap piece ++ tail, g⟩ = some ⟨(l.flatMap piece).reverse ++ pre, tail, g⟩ := by
  cases l with
  | nil => exact absurd rfl hl
  | cons b l =>
    rw [List.flatMap_cons, List.append_assoc]
    refine first_seq (h [] b l pre rfl h0) ?_
    rw [first_star_pieces piece hne P hP g l tail (fun l1 b' l2 pre e hp => h (b :: l1) b' l2 pre (by rw [e]; rfl) hp) htail _ (hP b pre)]
    simp

end MM
