import Verif.Proofs.RegexNum

/-!
# Lazy repetition, ends of lines, occurrences of a word
-/

namespace MM

lemma lazyRuns_fuel (f : ReState → List ReState) : ∀ (k n m : ℕ) (s : ReState), s.post.length ≤ k → k ≤ n → k ≤ m →
    lazyRuns f n s = lazyRuns f m s := by
  intro k
  induction k with
  | zero =>
    intro n m s hs _ _
    have h0 : (f s).filter (fun t => t.post.length < s.post.length) = [] := by
      rw [List.filter_eq_nil_iff]
      intro t _; simp; omega
    have : ∀ n, lazyRuns f n s = [s] := by
      intro n
      cases n with
      | zero => rfl
      | succ n => simp only [lazyRuns, h0]; rfl
    rw [this, this]
  | succ k ih =>
    intro n m s hs hn hm
    obtain ⟨n, rfl⟩ : ∃ j, n = j + 1 := ⟨n - 1, by omega⟩
    obtain ⟨m, rfl⟩ : ∃ j, m = j + 1 := ⟨m - 1, by omega⟩
    simp only [lazyRuns]
    congr 1
    apply List.flatMap_congr
    intro t ht
    have : t.post.length < s.post.length := by simpa using (List.mem_filter.1 ht).2
    exact ih n m t (by omega) (by omega) (by omega)

lemma runs_lazy (a : Re) (s : ReState) :
    (Re.lazy a).runs s = s :: ((a.runs s).filter fun t => t.post.length < s.post.length).flatMap (Re.lazy a).runs := by
  conv_lhs => unfold Re.runs
  rw [lazyRuns_fuel a.runs s.post.length s.post.length (s.post.length + 1) s le_rfl le_rfl (by omega)]
  simp only [lazyRuns]
  congr 1
  apply List.flatMap_congr
  intro t ht
  have : t.post.length < s.post.length := by simpa using (List.mem_filter.1 ht).2
  show lazyRuns a.runs s.post.length t = lazyRuns a.runs t.post.length t
  exact lazyRuns_fuel a.runs t.post.length _ _ t le_rfl (by omega) le_rfl

/-- One more repetition when what follows fails. -/
lemma lazy_more {a : Re} {s t : ReState} {β : Type} {k : ReState → List β} {u : β} (h0 : k s = [])
    (h : a.first s = some t) (hl : t.post.length < s.post.length)
    (hu : (((Re.lazy a).runs t).flatMap k).head? = some u) : (((Re.lazy a).runs s).flatMap k).head? = some u := by
  rw [runs_lazy]
  simp only [List.flatMap_cons, h0, List.nil_append]
  unfold Re.first at h
  cases hr : a.runs s with
  | nil => rw [hr] at h; simp at h
  | cons t' l =>
    rw [hr] at h
    obtain rfl : t' = t := by simpa using h
    rw [List.filter_cons, if_pos (by simpa using hl)]
    simp only [List.flatMap_cons, List.flatMap_append, List.head?_append, hu]
    rfl

lemma runs_eol_hit {pre post : Str} {g : List (ℕ × Str)} (h : post = [] ∨ post.head? = some '\n') :
    Re.eol.runs ⟨pre, post, g⟩ = [⟨pre, post, g⟩] := by simp only [Re.runs, if_pos h]

lemma runs_eol_miss {pre post : Str} {g : List (ℕ × Str)} (h : ¬ (post = [] ∨ post.head? = some '\n')) :
    Re.eol.runs ⟨pre, post, g⟩ = [] := by simp only [Re.runs, if_neg h]

lemma lazy_stop {a : Re} {s : ReState} {β : Type} {k : ReState → List β} {u : β} (h : (k s).head? = some u) :
    (((Re.lazy a).runs s).flatMap k).head? = some u := by
  rw [runs_lazy]
  simp only [List.flatMap_cons, List.head?_append, h]
  rfl

/-! ### Occurrences -/

/-- A word which starts with a character that it does not contain again cannot begin before this character and end after
it. -/
lemma prefix_before {c0 : Char} {w0 u z : Str} (h0 : c0 ∉ w0) (hu : u ≠ []) (h : (c0 :: w0) <+: (u ++ c0 :: z)) :
    (c0 :: w0) <+: u := by
  rcases List.prefix_or_prefix_of_prefix h (List.prefix_append u (c0 :: z)) with h1 | h1
  · exact h1
  · obtain ⟨x, hx⟩ := h1
    cases x with
    | nil => rw [← hx]; simp
    | cons d x =>
      exfalso
      rw [← hx, List.prefix_append_right_inj] at h
      have hd : d = c0 := by
        obtain ⟨y, hy⟩ := h
        simpa using (List.cons.inj hy).1
      cases u with
      | nil => exact hu rfl
      | cons e u =>
        have := (List.cons.inj hx).2
        apply h0
        rw [← this, hd]; simp

lemma noocc_of_not_mem {c0 : Char} {w0 u : Str} (h : c0 ∉ u) : ¬ (c0 :: w0) <:+: u := by
  intro hi
  exact h (hi.subset (by simp))

lemma noocc_append {c0 : Char} {w0 u z : Str} (h0 : c0 ∉ w0) (hu : ¬ (c0 :: w0) <:+: u) (hz : ¬ (c0 :: w0) <:+: (c0 :: z)) :
    ¬ (c0 :: w0) <:+: (u ++ c0 :: z) := by
  induction u with
  | nil => simpa using hz
  | cons d u ih =>
    rw [List.cons_append, List.infix_cons_iff]
    rintro (h | h)
    · exact hu (prefix_before (u := d :: u) h0 (by simp) h).isInfix
    · exact ih (fun h => hu (h.trans (List.suffix_cons d u).isInfix)) h

/-- A search for an expression which begins with a word: nothing before the first occurrence. -/
lemma reSearch_skip_lit {c0 : Char} {w0 u z pre : Str} {k : Re} (h0 : c0 ∉ w0) (hu : ¬ (c0 :: w0) <:+: u) :
    reSearch (.seq (.lit (c0 :: w0)) k) (u ++ c0 :: z) pre = reSearch (.seq (.lit (c0 :: w0)) k) (c0 :: z) (u.reverse ++ pre) := by
  apply reSearch_skip
  intro w1 c w2 e
  apply runs_seq_nil_left
  rw [List.eq_nil_iff_forall_not_mem]
  intro t ht
  obtain ⟨r, hr, -⟩ := mem_lit ht
  have h1 : (c0 :: w0) <+: ((c :: w2) ++ c0 :: z) := ⟨r, by rw [← hr]; simp⟩
  have h2 := prefix_before h0 (by simp) h1
  apply hu
  rw [e]
  exact h2.isInfix.trans (List.suffix_append w1 (c :: w2)).isInfix

/-- `(.+)` up to the last occurrence of a word. -/
lemma first_anys_lit {c : Char} {x : Str} {w y pre : Str} {g : List (ℕ × Str)} {n : ℕ}
    (h : ∀ d t, w ++ y = d :: t → ¬ w <:+: t) :
    (Re.seq (.group n .anys1) (.lit w)).first ⟨pre, (c :: x) ++ (w ++ y), g⟩ =
      some ⟨w.reverse ++ ((c :: x).reverse ++ pre), y, (n, c :: x) :: g⟩ := by
  unfold Re.first
  show (((Re.group n Re.anys1).runs ⟨pre, (c :: x) ++ (w ++ y), g⟩).flatMap (Re.lit w).runs).head? = _
  have e : (Re.group n Re.anys1).runs ⟨pre, (c :: x) ++ (w ++ y), g⟩ =
      ((Re.star (.chr fun _ => true)).runs ⟨c :: pre, x ++ (w ++ y), g⟩).map fun t =>
        { t with groups := (n, (t.pre.take (t.pre.length - pre.length)).reverse) :: t.groups } := by
    simp only [Re.runs, Re.anys1, Re.plus, List.cons_append, if_true, List.flatMap_cons, List.flatMap_nil, List.append_nil]
  rw [e, List.flatMap_map]
  have key := star_chr_back (p := fun _ => true) (w1 := x) (w2 := w ++ y) (r := []) (by simp) (by simp) (Stops.nil _)
    (c :: pre) g (fun t => (Re.lit w).runs { t with groups := (n, (t.pre.take (t.pre.length - pre.length)).reverse) :: t.groups })
    (u := ⟨w.reverse ++ ((c :: x).reverse ++ pre), y, (n, c :: x) :: g⟩) ?_ ?_
  · rw [List.append_nil] at key
    exact key
  · intro v1 v2 e hne
    rw [List.eq_nil_iff_forall_not_mem]
    intro t ht
    obtain ⟨r, hr, -⟩ := mem_lit ht
    cases v1 with
    | nil => exact hne rfl
    | cons d v1 =>
      refine h d _ e ?_
      have hr : v2 = w ++ r := by simpa using hr
      show w <:+: v1 ++ v2
      rw [hr]
      exact ⟨v1, r, by simp⟩
  · rw [List.append_nil]
    have := first_lit w y ((c :: x).reverse ++ pre) ((n, c :: x) :: g)
    unfold Re.first at this
    have e2 : (x.reverse ++ c :: pre) = (c :: x).reverse ++ pre := by simp
    rw [e2]
    have e3 : ((((c :: x).reverse ++ pre).take (((c :: x).reverse ++ pre).length - pre.length)).reverse) = c :: x := by
      have : ((c :: x).reverse ++ pre).length - pre.length = (c :: x).reverse.length := by simp; omega
      rw [this, List.take_left]; simp
    rw [e3]
    exact this

end MM
