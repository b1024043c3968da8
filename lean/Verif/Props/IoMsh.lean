import Verif.Model.MmioMsh
import Verif.Spec.Msh
import Verif.Proofs.Io
import Verif.Proofs.RegexLazy
import Verif.Props.IoTec
import Verif.Props.IoDat

/-!
# C100: GMSH files, version 2
-/

namespace MM.Io

open MM

/-! ### Element lines -/

def spNum (n : ℕ) : Str := ' ' :: natStr n

/-- `(?:\s\d+)` -/
def spNumRe : Re := .seq (.chr isSpace) .ds1

lemma isSpace_sp : isSpace ' ' = true := by decide

lemma stops_spNums (l : List ℕ) {r : Str} (hr : r = [] ∨ ∃ t, r = '\n' :: t) : Stops isDigit (l.flatMap spNum ++ r) := by
  cases l with
  | nil =>
    rcases hr with rfl | ⟨t, rfl⟩
    · exact Stops.nil _
    · exact stops_cons (by decide) t
  | cons n l => exact stops_cons (by decide) _

lemma first_spNum (n : ℕ) {r : Str} (hr : Stops isDigit r) (pre : Str) (g : List (ℕ × Str)) :
    spNumRe.first ⟨pre, spNum n ++ r, g⟩ = some ⟨(spNum n).reverse ++ pre, r, g⟩ := by
  have := first_seq (first_chr (p := isSpace) (pre := pre) (c := ' ') (s := natStr n ++ r) (g := g) isSpace_sp)
    (first_ds1 (pre := ' ' :: pre) (g := g) (natStr_ne_nil n) (natStr_digits n) hr)
  simpa [spNum, spNumRe] using this

lemma lazy_nums (l : List ℕ) {r : Str} (hr : r = [] ∨ ∃ t, r = '\n' :: t) (pre : Str) (g : List (ℕ × Str)) :
    (((Re.lazy spNumRe).runs ⟨pre, l.flatMap spNum ++ r, g⟩).flatMap Re.eol.runs).head? =
      some ⟨(l.flatMap spNum).reverse ++ pre, r, g⟩ := by
  induction l generalizing pre with
  | nil =>
    apply lazy_stop
    rw [runs_eol_hit (by rcases hr with rfl | ⟨t, rfl⟩ <;> simp)]
    rfl
  | cons n l ih =>
    simp only [List.flatMap_cons, List.append_assoc]
    refine lazy_more (t := ⟨(spNum n).reverse ++ pre, l.flatMap spNum ++ r, g⟩) ?_ (first_spNum n (stops_spNums l hr) pre g)
      (by simp [spNum]) ?_
    · apply runs_eol_miss
      simp [spNum]
    · rw [ih]; simp

lemma first_lazyPlus (l : List ℕ) (hl : l ≠ []) {r : Str} (hr : r = [] ∨ ∃ t, r = '\n' :: t) (pre : Str) (g : List (ℕ × Str)) :
    (Re.seq (.lazyPlus spNumRe) .eol).first ⟨pre, l.flatMap spNum ++ r, g⟩ =
      some ⟨(l.flatMap spNum).reverse ++ pre, r, g⟩ := by
  cases l with
  | nil => exact absurd rfl hl
  | cons n l =>
    unfold Re.first
    show (((spNumRe.runs _).flatMap (Re.lazy spNumRe).runs).flatMap Re.eol.runs).head? = _
    rw [List.flatMap_assoc]
    have h1 := first_spNum n (stops_spNums l hr) pre g
    simp only [List.flatMap_cons, List.append_assoc]
    refine head_flatMap h1 ?_
    rw [lazy_nums l hr]; simp

/-- The numbers of an element after its number. -/
def eltNums (e : MshElement) : List ℕ := e.type :: e.tags.length :: (e.tags ++ e.nodes)

lemma line_eq (e : MshElement) : e.line = natStr e.id ++ (eltNums e).flatMap spNum := rfl

/-- The line of an element of the type sought is matched. -/
lemma elt_hit {t : Char} {e : MshElement} (ht : natStr e.type = [t]) {pre r : Str} (hpre : pre = [] ∨ pre.head? = some '\n')
    (hr : r = [] ∨ ∃ t, r = '\n' :: t) :
    (mshElts t).first ⟨pre, e.line ++ r, []⟩ = some ⟨e.line.reverse ++ pre, r, [(1, e.line)]⟩ := by
  unfold mshElts
  apply first_group'
  have h1 := first_bol (post := e.line ++ r) (g := []) hpre
  refine first_seq h1 ?_
  rw [line_eq, List.append_assoc]
  have h2 := first_ds1 (pre := pre) (g := []) (natStr_ne_nil e.id) (natStr_digits e.id) (stops_spNums (eltNums e) hr)
  refine first_seq h2 ?_
  have e3 : (eltNums e).flatMap spNum ++ r = ' ' :: t :: ((e.tags.length :: (e.tags ++ e.nodes)).flatMap spNum ++ r) := by
    simp [eltNums, spNum, ht]
  rw [e3]
  refine first_seq (first_chr isSpace_sp) ?_
  refine first_seq (first_chr (by simp)) ?_
  have := first_lazyPlus (e.tags.length :: (e.tags ++ e.nodes)) (by simp) hr (t :: ' ' :: ((natStr e.id).reverse ++ pre)) []
  rw [show (Re.seq (Re.chr isSpace) Re.ds1) = spNumRe from rfl, this]
  congr 2
  simp [eltNums, spNum, ht]

/-- The line of an element of another type is not. -/
lemma elt_miss {t : Char} (htd : isDigit t = true) {e : MshElement} (ht : natStr e.type ≠ [t]) (pre r : Str) :
    (mshElts t).runs ⟨pre, e.line ++ r, []⟩ = [] := by
  have key : (Re.seq .bol (.seq .ds1 (.seq (.chr isSpace) (.seq (.chr (· == t))
    (.seq (.lazyPlus (.seq (.chr isSpace) .ds1)) .eol))))).runs ⟨pre, e.line ++ r, []⟩ = [] := by
    apply runs_seq_nil
    intro s hs
    obtain ⟨rfl, -⟩ := mem_bol hs
    apply runs_seq_nil
    intro s hs
    obtain ⟨w, q, e1, hne, hw, rfl⟩ := mem_plus_chr hs
    rw [line_eq, List.append_assoc] at e1
    -- the digits read are the number of the element
    cases q with
    | nil => exact runs_seq_nil_left rfl
    | cons c q =>
      by_cases hc : isSpace c = true
      swap
      · apply runs_seq_nil_left
        rw [runs_chr_cons]; simp [hc]
      have hsame : natStr e.id = w ∧ (eltNums e).flatMap spNum ++ r = c :: q := by
        rcases List.append_eq_append_iff.1 e1 with ⟨a, h1, h2⟩ | ⟨a, h1, h2⟩
        · cases a with
          | nil => exact ⟨by simpa using h1.symm, by simpa using h2⟩
          | cons d a =>
            exfalso
            have hd : isDigit d = true := hw d (by rw [h1]; simp)
            have : d = ' ' := by
              have := h2
              simp [eltNums, spNum] at this
              exact this.1.symm
            rw [this] at hd
            exact absurd hd (by decide)
        · cases a with
          | nil => exact ⟨by simpa using h1, by simpa using h2.symm⟩
          | cons d a =>
            exfalso
            have hd : isDigit d = true := natStr_digits e.id d (by rw [h1]; simp)
            have : d = c := by simpa using (List.cons.inj h2).1.symm
            rw [this, space_not_digit hc] at hd
            exact absurd hd (by decide)
      obtain ⟨-, h2⟩ := hsame
      have h3 : ' ' :: (natStr e.type ++ ((e.tags.length :: (e.tags ++ e.nodes)).flatMap spNum ++ r)) = c :: q := by
        rw [← h2]; simp [eltNums, spNum]
      obtain ⟨rfl, h4⟩ := List.cons.inj h3
      apply runs_seq_nil
      intro s hs
      rw [runs_chr_cons, if_pos isSpace_sp] at hs
      obtain rfl : s = _ := by simpa using hs
      -- the type
      rw [← h4]
      cases hty : natStr e.type with
      | nil => exact absurd hty (natStr_ne_nil _)
      | cons d ds =>
        apply runs_seq_nil
        intro s hs
        rw [List.cons_append, runs_chr_cons] at hs
        split at hs
        · rename_i hd
          obtain rfl : s = _ := by simpa using hs
          have hd : d = t := by simpa using hd
          cases ds with
          | nil => exact absurd (by rw [hty, hd]) ht
          | cons d' ds =>
            have hd' : isDigit d' = true := natStr_digits e.type d' (by rw [hty]; simp)
            apply runs_seq_nil_left
            apply runs_seq_nil_left
            apply runs_seq_nil_left
            rw [List.cons_append, runs_chr_cons, if_neg]
            intro hs'
            rw [space_not_digit hs'] at hd'
            exact absurd hd' (by decide)
        · simp at hs
  unfold mshElts
  show List.map _ _ = _
  rw [key]; rfl

/-- Inside a line there is no match. -/
lemma elt_inside (t : Char) {pre post : Str} (h : ¬ (pre = [] ∨ pre.head? = some '\n')) :
    (mshElts t).runs ⟨pre, post, []⟩ = [] := by
  unfold mshElts
  show List.map _ _ = _
  rw [runs_seq_nil_left (runs_bol_nil h)]; rfl

lemma plain_line (e : MshElement) : Plain e.line := by
  rw [line_eq]
  refine (natStr_word _).plain.append ?_
  intro c hc
  obtain ⟨n, -, hc⟩ := List.mem_flatMap.1 hc
  rcases List.mem_cons.1 hc with rfl | hc
  · decide
  · exact (natStr_word n).plain c hc

lemma line_ne_nil (e : MshElement) : e.line ≠ [] := by
  rw [line_eq]; simp [natStr_ne_nil]

/-- In the middle of a line. -/
lemma not_bol {w pre : Str} (hw : Plain w) (hne : w ≠ []) : ¬ (w.reverse ++ pre = [] ∨ (w.reverse ++ pre).head? = some '\n') := by
  rintro (h | h)
  · simp at h; exact hne h.1
  · rw [List.head?_append_of_ne_nil _ (by simpa using hne)] at h
    have := List.mem_of_mem_head? h
    exact hw _ (by simpa using this) rfl

lemma reFindall_congr {r : Re} {n : ℕ} {a b p q : Str} (h : reSearch r a p = reSearch r b q) :
    reFindall r n a p = reFindall r n b q := by
  cases n with
  | zero => rfl
  | succ n => simp only [reFindall, h]

/-- The matches are the lines of the elements of the type. -/
lemma findall_elts {t : Char} (htd : isDigit t = true) (l : List MshElement) (n : ℕ) (hn : l.length ≤ n) (pre : Str)
    (hpre : pre = [] ∨ pre.head? = some '\n') :
    reFindall (mshElts t) n (l.flatMap fun e => e.line ++ ['\n']) pre =
      (l.filter fun e => natStr e.type = [t]).map fun e => ⟨e.line, [(1, e.line)]⟩ := by
  induction l generalizing n pre with
  | nil =>
    apply reFindall_none
    apply reSearch_none
    intro w1 w2 e
    obtain ⟨rfl, rfl⟩ : w1 = [] ∧ w2 = [] := by simpa using e.symm
    unfold mshElts
    show List.map _ _ = _
    rw [runs_seq_nil]; rfl
    intro s hs
    obtain ⟨rfl, -⟩ := mem_bol hs
    exact runs_seq_nil_left (ds1_fails (Stops.nil _) _ _)
  | cons e l ih =>
    obtain ⟨n, rfl⟩ : ∃ j, n = j + 1 := ⟨n - 1, by simp at hn; omega⟩
    have hn' : l.length ≤ n := by simpa using hn
    simp only [List.flatMap_cons, List.append_assoc]
    by_cases ht : natStr e.type = [t]
    · have h1 := elt_hit ht hpre (r := ['\n'] ++ l.flatMap fun e => e.line ++ ['\n']) (Or.inr ⟨_, rfl⟩)
      rw [reFindall_step (reSearch_hit' h1), List.filter_cons, if_pos (by simpa using ht), List.map_cons]
      congr 1
      simp only
      rw [← ih n hn' ('\n' :: (e.line.reverse ++ pre)) (Or.inr rfl)]
      apply reFindall_congr
      apply reSearch_skip (w := ['\n'])
      intro w1 c w2 e1
      obtain ⟨rfl, rfl, rfl⟩ : w1 = [] ∧ c = '\n' ∧ w2 = [] := by
        cases w1 with
        | nil => simp at e1; exact ⟨rfl, e1.1.symm, e1.2⟩
        | cons d w1 => simp at e1
      apply elt_inside
      rw [List.reverse_nil, List.nil_append]
      exact not_bol (plain_line e) (line_ne_nil e)
    · rw [List.filter_cons, if_neg (by simpa using ht), ← ih (n + 1) (by omega) ('\n' :: (e.line.reverse ++ pre)) (Or.inr rfl)]
      apply reFindall_congr
      have := reSearch_skip (r := mshElts t) (w := e.line ++ ['\n']) (v := l.flatMap fun e => e.line ++ ['\n']) (pre := pre) ?_
      · simpa using this
      · intro w1 c w2 e1
        by_cases hw1 : w1 = []
        · subst hw1
          have := elt_miss htd ht pre (['\n'] ++ l.flatMap fun e => e.line ++ ['\n'])
          rw [← List.append_assoc, e1] at this
          simpa using this
        · apply elt_inside
          apply not_bol _ hw1
          have : w1 <+: e.line := by
            have h1 : w1 <+: e.line ++ ['\n'] := ⟨c :: w2, e1.symm⟩
            rcases List.prefix_concat_iff.1 h1 with h | h
            · exfalso
              have := congrArg List.length e1
              rw [h] at this
              simp at this
            · exact h
          intro d hd
          exact plain_line e d (this.subset hd)

/-! ### Sections -/

lemma section_hit {name : Str} (n : ℕ) {c : Char} {x y pre : Str}
    (h : ∀ d t, ("$End".toList ++ name) ++ y = d :: t → ¬ ("$End".toList ++ name) <:+: t) :
    ∃ q, (mshSection name).first ⟨pre, ('$' :: name ++ ['\n']) ++ (natStr n ++ '\n' :: ((c :: x) ++
      (("$End".toList ++ name) ++ y))), []⟩ = some ⟨q, y, [(2, c :: x), (1, natStr n)]⟩ := by
  refine ⟨_, first_seq (first_lit _ _ _ _) (first_seq (first_group' (first_ds1 (natStr_ne_nil n) (natStr_digits n)
    (stops_cons (by decide) _))) (first_seq (first_chr (by decide)) (first_anys_lit h)))⟩

lemma research_section {name u z : Str} (h0 : '$' ∉ name) (hu : ¬ ('$' :: name) <:+: u) (n : ℕ) {c : Char} {x y : Str}
    (hz : '$' :: z = ('$' :: name ++ ['\n']) ++ (natStr n ++ '\n' :: ((c :: x) ++ (("$End".toList ++ name) ++ y))))
    (h : ∀ d t, ("$End".toList ++ name) ++ y = d :: t → ¬ ("$End".toList ++ name) <:+: t) :
    ∃ m, research (mshSection name) (u ++ '$' :: z) = some m ∧ m.group 2 = c :: x := by
  have h1 := reSearch_skip_lit (c0 := '$') (w0 := name ++ ['\n']) (u := u) (z := z) (pre := [])
    (k := .seq (.group 1 .ds1) (.seq (.chr (· == '\n')) (.seq (.group 2 .anys1) (.lit ("$End".toList ++ name)))))
    (by simp [h0]) (fun hi => hu ((List.prefix_append ('$' :: name) ['\n']).isInfix.trans hi))
  obtain ⟨q, h2⟩ := section_hit (pre := u.reverse ++ []) n h
  rw [← hz] at h2
  have hr : reSearch (mshSection name) (u ++ '$' :: z) [] = reSearch (mshSection name) ('$' :: z) (u.reverse ++ []) := h1
  have h3 := reSearch_hit h2
  refine ⟨⟨(q.take (q.length - (u.reverse ++ []).length)).reverse, [(2, c :: x), (1, natStr n)]⟩, ?_, ?_⟩
  · unfold research
    rw [hr, h3]
    rfl
  · rfl

/-! ### The key words -/

lemma noprefix {w a b : Str} (k : ℕ) (hk : k ≤ w.length) (hk' : k ≤ a.length) (h : w.take k ≠ a.take k) : ¬ w <+: a ++ b := by
  rintro ⟨r, hr⟩
  apply h
  have := congrArg (List.take k) hr
  rwa [List.take_append_of_le_length hk, List.take_append_of_le_length hk'] at this

lemma noocc_left {c0 : Char} {w0 a b : Str} (ha : c0 ∉ a) (hb : ¬ (c0 :: w0) <:+: b) : ¬ (c0 :: w0) <:+: (a ++ b) := by
  induction a with
  | nil => simpa using hb
  | cons d a ih =>
    rw [List.cons_append, List.infix_cons_iff]
    rintro (h | h)
    · obtain ⟨r, hr⟩ := h
      have : c0 = d := by simpa using (List.cons.inj hr).1
      exact ha (by simp [this])
    · exact ih (fun h => ha (by simp [h])) h

/-- After a key word which is another one. -/
lemma noocc_key {w0 a b : Str} (k : ℕ) (hk : k ≤ ('$' :: w0).length) (hk' : k ≤ ('$' :: a).length)
    (h : ('$' :: w0).take k ≠ ('$' :: a).take k) (ha : '$' ∉ a) (hb : ¬ ('$' :: w0) <:+: b) :
    ¬ ('$' :: w0) <:+: ('$' :: a ++ b) := by
  rw [List.cons_append, List.infix_cons_iff]
  rintro (h' | h')
  · exact noprefix k hk hk' h h'
  · exact noocc_left ha hb h'

/-! ### The lines of the nodes -/

lemma no_dollar_nat (n : ℕ) : '$' ∉ natStr n := fun h => absurd (natStr_digits n _ h) (by decide)

lemma NumberWord.word {w : Str} {v : ℚ} (h : NumberWord w v) : Word w := ⟨h.2.1, fun c hc => (h.2.2 c hc).1⟩

lemma NumberWord.dollar {w : Str} {v : ℚ} (h : NumberWord w v) : '$' ∉ w := fun hc => (h.2.2 _ hc).2 rfl

lemma node_dollar {n : MshNode} (h : n.Written) : '$' ∉ n.line := by
  unfold MshNode.line
  simp [no_dollar_nat, h.1.dollar, h.2.1.dollar, h.2.2.dollar]

lemma elt_dollar (e : MshElement) : '$' ∉ e.line := by
  rw [line_eq]
  intro h
  rcases List.mem_append.1 h with h | h
  · exact no_dollar_nat _ h
  · obtain ⟨n, -, h⟩ := List.mem_flatMap.1 h
    rcases List.mem_cons.1 h with h | h
    · exact absurd h (by decide)
    · exact no_dollar_nat _ h

lemma lines_dollar {α : Type} (line : α → Str) (l : List α) (h : ∀ a ∈ l, '$' ∉ line a) :
    '$' ∉ l.flatMap fun a => line a ++ ['\n'] := by
  intro hc
  obtain ⟨a, ha, hc⟩ := List.mem_flatMap.1 hc
  rcases List.mem_append.1 hc with hc | hc
  · exact h a ha hc
  · exact absurd hc (by decide)

lemma split_node {n : MshNode} (h : n.Written) (r : Str) :
    split ((n.line ++ ['\n']) ++ r) = [natStr n.id, n.x, n.y, n.z] ++ split r := by
  unfold MshNode.line
  have hb : ∀ s, Breaks (' ' :: s) := breaks_cons (by decide)
  have hsp : ∀ s, split (' ' :: s) = split s :=
    split_blank (s := [' ']) (by intro c hc; simp at hc; rw [hc]; decide)
  have ht : ∀ {w : Str} (r : Str), Word w → Breaks r → split (w ++ r) = w :: split r := fun r hw hr => by
    simpa using split_tok (s := []) (by intro c hc; simp at hc) hw hr
  simp only [List.append_assoc, List.cons_append, List.nil_append]
  rw [ht _ (natStr_word _) (hb _), hsp, ht _ h.1.word (hb _), hsp, ht _ h.2.1.word (hb _), hsp,
    ht _ h.2.2.word (breaks_cons (by decide) _)]
  have : split ('\n' :: r) = split r := split_blank (s := ['\n']) (by intro c hc; simp at hc; rw [hc]; decide) r
  rw [this]

lemma split_nodes (l : List MshNode) (h : ∀ n ∈ l, n.Written) :
    split (l.flatMap fun n => n.line ++ ['\n']) = l.flatMap fun n => [natStr n.id, n.x, n.y, n.z] := by
  induction l with
  | nil => rfl
  | cons n l ih =>
    simp only [List.flatMap_cons]
    rw [split_node (h n (by simp)), ih fun n hn => h n (by simp [hn])]

lemma parseFloat_natStr (n : ℕ) : parseFloat (natStr n) = some (n : ℚ) := by
  have h := natStr_digits n
  have hs : stripSign (natStr n) = (false, natStr n) := by
    simpa using stripSign_digits h [] (natStr_ne_nil n)
  have ht := takeWhile_digits h (r := []) (by intro c t h; simp at h)
  simp only [List.append_nil] at ht
  unfold parseFloat
  simp only [hs, ht.1, ht.2]
  rw [if_neg (by simp [natStr_ne_nil])]
  simp [digitsVal_natStr]

lemma floats_nodes (l : List MshNode) (h : ∀ n ∈ l, n.Written) :
    floats (l.flatMap fun n => [natStr n.id, n.x, n.y, n.z]) = .ok (l.flatMap fun n => [(n.id : ℚ), n.p.x, n.p.y, n.p.z]) := by
  induction l with
  | nil => rfl
  | cons n l ih =>
    have h1 := h n (by simp)
    have ih := ih fun n hn => h n (by simp [hn])
    unfold floats at ih ⊢
    simp only [List.flatMap_cons, List.cons_append, List.nil_append, convAll, conv, parseFloat_natStr, h1.1.1, h1.2.1.1,
      h1.2.2.1, ih]

/-! ### The version -/

lemma mem_star_any (w r pre : Str) (g : List (ℕ × Str)) : (⟨w.reverse ++ pre, r, g⟩ : ReState) ∈ Re.anys.runs ⟨pre, w ++ r, g⟩ := by
  induction w generalizing pre with
  | nil =>
    show (⟨pre, r, g⟩ : ReState) ∈ (Re.star (.chr fun _ => true)).runs ⟨pre, r, g⟩
    rw [runs_star]; simp
  | cons c w ih =>
    show _ ∈ (Re.star (.chr fun _ => true)).runs ⟨pre, c :: (w ++ r), g⟩
    rw [runs_star_chr_cons _ _ _ _ _ rfl]
    have := ih (c :: pre)
    simp only [List.reverse_cons, List.append_assoc, List.cons_append, List.nil_append]
    exact List.mem_append_left _ this

lemma first_any_lit (w v r pre : Str) (g : List (ℕ × Str)) :
    ∃ t, (Re.seq .anys (.lit v)).first ⟨pre, w ++ (v ++ r), g⟩ = some t ∧ t.groups = g := by
  have hm : (⟨v.reverse ++ (w.reverse ++ pre), r, g⟩ : ReState) ∈ (Re.seq .anys (.lit v)).runs ⟨pre, w ++ (v ++ r), g⟩ := by
    refine List.mem_flatMap.2 ⟨_, mem_star_any w (v ++ r) pre g, ?_⟩
    exact List.mem_of_mem_head? (first_lit v r _ g)
  cases h : (Re.seq .anys (.lit v)).first ⟨pre, w ++ (v ++ r), g⟩ with
  | none =>
    unfold Re.first at h
    rw [List.head?_eq_none_iff] at h
    rw [h] at hm; simp at hm
  | some t =>
    refine ⟨t, rfl, ?_⟩
    have ht : t ∈ (Re.seq .anys (.lit v)).runs ⟨pre, w ++ (v ++ r), g⟩ := List.mem_of_mem_head? h
    obtain ⟨u, hu, ht⟩ := List.mem_flatMap.1 ht
    obtain ⟨_, _, _, _, rfl⟩ := mem_star_chr hu
    obtain ⟨_, _, rfl⟩ := mem_lit ht
    rfl

lemma research_version {major minor : Char} (hM : isDigit major = true) (hm : isDigit minor = true) (w r : Str) :
    ∃ m, research mshVersion ("$MeshFormat\n".toList ++ major :: '.' :: minor :: (w ++ ("\n$EndMeshFormat".toList ++ r))) = some m ∧
      m.group 1 = [major, '.', minor] := by
  have e : "$MeshFormat\n".toList ++ major :: '.' :: minor :: (w ++ ("\n$EndMeshFormat".toList ++ r)) =
      "$MeshFormat\n".toList ++ ([major, '.', minor] ++ (w ++ ("\n$EndMeshFormat".toList ++ r))) := by
    rfl
  have hg : (Re.group 1 (.seq (.chr isDigit) (.seq (.chr fun _ => true) (.chr isDigit)))).first
      ⟨"$MeshFormat\n".toList.reverse ++ [], [major, '.', minor] ++ (w ++ ("\n$EndMeshFormat".toList ++ r)), []⟩ =
      some ⟨[major, '.', minor].reverse ++ ("$MeshFormat\n".toList.reverse ++ []), w ++ ("\n$EndMeshFormat".toList ++ r),
        [(1, [major, '.', minor])]⟩ := by
    apply first_group'
    exact first_seq (first_chr hM) (first_seq (first_chr rfl) (first_chr hm))
  obtain ⟨t, ht, hgr⟩ := first_any_lit w "\n$EndMeshFormat".toList r
    ([major, '.', minor].reverse ++ ("$MeshFormat\n".toList.reverse ++ [])) [(1, [major, '.', minor])]
  have h := first_seq (first_lit "$MeshFormat\n".toList ([major, '.', minor] ++ (w ++ ("\n$EndMeshFormat".toList ++ r))) [] [])
    (first_seq hg ht)
  refine ⟨⟨(t.pre.take (t.pre.length - ([] : Str).length)).reverse, t.groups⟩, ?_, ?_⟩
  · unfold research
    rw [e]
    have := reSearch_hit (r := mshVersion) h
    rw [this]; rfl
  · simp only [ReMatch.group, hgr]; rfl

lemma version_range {major minor : Char} (hM : isDigit major = true) (hm : isDigit minor = true) : ∃ v, parseFloat [major, '.', minor] = some v ∧ (digitVal major : ℚ) ≤ v ∧ v < digitVal major + 1 := by
  have h := parseFloat_printed false (ip := [major]) (fp := [minor]) (by intro c hc; simp at hc; rw [hc]; exact hM) (by simp)
    (by intro c hc; simp at hc; rw [hc]; exact hm) none
  have hd : digitVal minor ≤ 9 := by
    unfold isDigit at hm
    unfold digitVal
    simp at hm
    omega
  have hv : digitsVal ([major] ++ [minor]) = 10 * digitVal major + digitVal minor := by
    simp [digitsVal]
  have hq : (digitVal minor : ℚ) ≤ 9 := by exact_mod_cast hd
  have hq0 : (0 : ℚ) ≤ digitVal minor := by positivity
  rw [hv] at h
  have h' : parseFloat [major, '.', minor] = some ((10 * digitVal major + digitVal minor : ℚ) / 10) := by
    refine Eq.trans ?_ (h.trans ?_)
    · rfl
    · norm_num [zpow_neg]; ring
  exact ⟨_, h', by linarith, by linarith⟩

/-! ### The rows of the elements -/

/-- The row of a panel. -/
def panelRow (e : MshElement) : List ℤ :=
  (if e.type = 2 then e.nodes ++ e.nodes.take 1 else e.nodes).map (Nat.cast : ℕ → ℤ)

lemma split_eltNums (l : List ℕ) : split (l.flatMap spNum) = l.map natStr := by
  induction l with
  | nil => rfl
  | cons n l ih =>
    have hb : Breaks (l.flatMap spNum) := by
      cases l with
      | nil => exact Or.inl rfl
      | cons m l => exact breaks_cons (by decide) _
    simp only [List.flatMap_cons, List.map_cons, spNum]
    rw [← ih]
    exact split_tok (s := [' ']) (by intro c hc; simp at hc; rw [hc]; decide) (natStr_word n) hb

lemma split_elt (e : MshElement) : split e.line = natStr e.id :: (eltNums e).map natStr := by
  rw [line_eq, ← split_eltNums]
  have := split_tok (s := []) (by intro c hc; simp at hc) (natStr_word e.id) (r := (eltNums e).flatMap spNum)
    (breaks_cons (by decide) _)
  simpa using this

lemma drop_last {l m : List ℤ} {k : ℕ} (h : m.length = k) : (l ++ m).drop ((l ++ m).length - k) = m := by
  have : (l ++ m).length - k = l.length := by simp [h]
  rw [this, List.drop_left]

lemma mshRow_elt {e : MshElement} (tri : Bool) (ht : if tri then e.type = 2 ∧ e.nodes.length = 3 else e.type = 3 ∧ e.nodes.length = 4) :
    mshRow tri ⟨e.line, [(1, e.line)]⟩ = .ok (panelRow e) := by
  have h1 : ints (split e.line) = .ok ((e.id :: eltNums e).map (Nat.cast : ℕ → ℤ)) := by
    rw [split_elt, ← List.map_cons, ints_nats]
  have h2 : (e.id :: eltNums e).map (Nat.cast : ℕ → ℤ) =
      (e.id :: e.type :: e.tags.length :: e.tags).map (Nat.cast : ℕ → ℤ) ++ e.nodes.map (Nat.cast : ℕ → ℤ) := by
    simp [eltNums]
  unfold mshRow
  rw [show ReMatch.group ⟨e.line, [(1, e.line)]⟩ 1 = e.line from rfl, h1, h2]
  cases tri with
  | true =>
    simp only [if_true] at ht
    simp only [mshElem, if_true, panelRow, if_pos ht.1]
    rw [drop_last (by simp [ht.2])]
    simp
  | false =>
    simp only [Bool.false_eq_true, if_false] at ht
    have hne : e.type ≠ 2 := by omega
    simp only [mshElem, Bool.false_eq_true, if_false, panelRow, if_neg hne]
    rw [drop_last (by simp [ht.2])]

lemma natStr_digit {n d : ℕ} (hd : d < 10) : natStr n = [digitChar d] ↔ n = d := by
  constructor
  · intro h
    have h1 := parseInt_natStr n
    have h2 := parseInt_natStr d
    rw [h] at h1
    rw [natStr_lt hd, h1] at h2
    simpa using h2
  · rintro rfl; exact natStr_lt hd

lemma filter_type (l : List MshElement) {d : ℕ} (hd : d < 10) :
    (l.filter fun e => natStr e.type = [digitChar d]) = l.filter fun e => e.type = d := by
  apply List.filter_congr
  intro e _
  simp [natStr_digit hd]

/-! ### The file -/

/-- The arrays which are read. -/
def MshFile.loaded (f : MshFile) : Loaded :=
  ⟨f.nodes.map fun n => [n.p.x, n.p.y, n.p.z], minusOne (f.panels.map panelRow)⟩

lemma cons_of_ne_nil {α : Type} {l : List α} (h : l ≠ []) : ∃ a t, l = a :: t := by
  cases l with
  | nil => exact absurd rfl h
  | cons a t => exact ⟨a, t, rfl⟩

lemma lines_ne_nil {α : Type} (line : α → Str) {l : List α} (h : l ≠ []) : (l.flatMap fun a => line a ++ ['\n']) ≠ [] := by
  cases l with
  | nil => exact absurd rfl h
  | cons a l => simp

lemma loadMSH22_text (f : MshFile) (hsep : f.Separate) (hn : f.nodes ≠ []) (he : f.elements ≠ [])
    (hw : ∀ n ∈ f.nodes, n.Written) (hr : ∀ e ∈ f.elements, e.Regular) : loadMSH22Text f.text = .ok f.loaded := by
  have hh := hsep f.head (by simp)
  have hb := hsep f.between (by simp)
  have ha := hsep f.after (by simp)
  obtain ⟨c1, x1, hx1⟩ := cons_of_ne_nil (lines_ne_nil MshNode.line hn)
  obtain ⟨c2, x2, hx2⟩ := cons_of_ne_nil (lines_ne_nil MshElement.line he)
  have hd1 : '$' ∉ c1 :: x1 := by rw [← hx1]; exact lines_dollar _ _ fun n hn => node_dollar (hw n hn)
  have hd2 : '$' ∉ c2 :: x2 := by rw [← hx2]; exact lines_dollar _ _ fun e _ => elt_dollar e
  -- what comes after the nodes
  obtain ⟨E, hE⟩ : ∃ E, E = '$' :: "Elements\n".toList ++ (natStr f.elements.length ++ '\n' :: ((c2 :: x2) ++
      ('$' :: "EndElements\n".toList ++ f.after))) := ⟨_, rfl⟩
  have hmid : ∀ w0, '$' ∉ w0 → ¬ ('$' :: w0) <:+: f.after →
      (∃ k, k ≤ ('$' :: w0).length ∧ k ≤ ('$' :: "Elements\n".toList).length ∧
        ('$' :: w0).take k ≠ ('$' :: "Elements\n".toList).take k) →
      (∃ k, k ≤ ('$' :: w0).length ∧ k ≤ ('$' :: "EndElements\n".toList).length ∧
        ('$' :: w0).take k ≠ ('$' :: "EndElements\n".toList).take k) → ¬ ('$' :: w0) <:+: E := by
    rintro w0 h0 haf ⟨k, k1, k2, k3⟩ ⟨j, j1, j2, j3⟩
    rw [hE]
    refine noocc_key k k1 k2 k3 (by decide) (noocc_left (no_dollar_nat _) ?_)
    have := noocc_left (c0 := '$') (w0 := w0) (a := '\n' :: (c2 :: x2)) (b := '$' :: "EndElements\n".toList ++ f.after)
      (by simpa using hd2) (noocc_key j j1 j2 j3 (by decide) haf)
    simpa using this
  have hEhead : ∃ z, E = '$' :: z := ⟨_, by rw [hE]; rfl⟩
  have hnodes : ∃ m, research (mshSection "Nodes".toList) f.text = some m ∧ m.group 2 = c1 :: x1 := by
    have htext : f.text = f.head ++ '$' :: ("Nodes\n".toList ++ (natStr f.nodes.length ++ '\n' :: ((c1 :: x1) ++
        ("$EndNodes".toList ++ (['\n'] ++ (f.between ++ E)))))) := by
      unfold MshFile.text
      rw [hx1, hx2, hE]
      have e1 : "$Nodes\n".toList = '$' :: "Nodes\n".toList := by decide
      have e2 : "$EndNodes\n".toList = "$EndNodes".toList ++ ['\n'] := by decide
      have e3 : "$Elements\n".toList = '$' :: "Elements\n".toList := by decide
      have e4 : "$EndElements\n".toList = '$' :: "EndElements\n".toList := by decide
      rw [e1, e2, e3, e4]
      simp only [List.append_assoc, List.cons_append]
    rw [htext]
    refine research_section (name := "Nodes".toList) (by decide) (hh "$Nodes" (by simp)) f.nodes.length (c := c1) (x := x1)
      (y := ['\n'] ++ (f.between ++ E)) ?_ ?_
    · have e1 : "Nodes\n".toList = "Nodes".toList ++ ['\n'] := by decide
      have e2 : "$EndNodes".toList = "$End".toList ++ "Nodes".toList := by decide
      rw [e1, e2]
      simp only [List.append_assoc, List.cons_append]
    · intro d t e
      have e2 : "$End".toList ++ "Nodes".toList = '$' :: "EndNodes".toList := by decide
      rw [e2] at e ⊢
      obtain ⟨-, rfl⟩ := List.cons.inj e
      obtain ⟨z, hz⟩ := hEhead
      refine noocc_left (by decide) (noocc_left (by decide) ?_)
      rw [hz]
      refine noocc_append (by decide) (hb "$EndNodes" (by simp)) ?_
      rw [← hz]
      exact hmid _ (by decide) (ha "$EndNodes" (by simp)) ⟨3, by decide, by decide, by decide⟩ ⟨5, by decide, by decide, by decide⟩
  have helts : ∃ m, research (mshSection "Elements".toList) f.text = some m ∧ m.group 2 = c2 :: x2 := by
    obtain ⟨u, hu⟩ : ∃ u, u = f.head ++ '$' :: ("Nodes\n".toList ++ (natStr f.nodes.length ++ ('\n' :: (c1 :: x1)) ++
        ('$' :: "EndNodes\n".toList ++ f.between))) := ⟨_, rfl⟩
    have htext : f.text = u ++ '$' :: ("Elements\n".toList ++ (natStr f.elements.length ++ '\n' :: ((c2 :: x2) ++
      ("$EndElements".toList ++ (['\n'] ++ f.after))))) := by
      unfold MshFile.text
      rw [hx1, hx2, hu]
      have e1 : "$Nodes\n".toList = '$' :: "Nodes\n".toList := by decide
      have e2 : "$EndNodes\n".toList = '$' :: "EndNodes\n".toList := by decide
      have e3 : "$Elements\n".toList = '$' :: "Elements\n".toList := by decide
      have e4 : "$EndElements\n".toList = "$EndElements".toList ++ ['\n'] := by decide
      rw [e1, e2, e3, e4]
      simp only [List.append_assoc, List.cons_append]
    rw [htext]
    refine research_section (name := "Elements".toList) (by decide) ?_ f.elements.length (c := c2) (x := x2)
      (y := ['\n'] ++ f.after) ?_ ?_
    · rw [hu]
      refine noocc_append (by decide) (hh "$Elements" (by simp)) ?_
      have k1 := noocc_key (w0 := "Elements".toList) (a := "EndNodes\n".toList) 3 (by decide) (by decide) (by decide) (by decide)
        (hb "$Elements" (by simp))
      have k2 : ¬ ('$' :: "Elements".toList) <:+: (natStr f.nodes.length ++ ('\n' :: (c1 :: x1)) ++
          ('$' :: "EndNodes\n".toList ++ f.between)) :=
        noocc_left (by simpa [no_dollar_nat] using hd1) k1
      exact noocc_key (w0 := "Elements".toList) (a := "Nodes\n".toList) 2 (by decide) (by decide) (by decide) (by decide) k2
    · have e1 : "Elements\n".toList = "Elements".toList ++ ['\n'] := by decide
      have e2 : "$EndElements".toList = "$End".toList ++ "Elements".toList := by decide
      rw [e1, e2]
      simp only [List.append_assoc, List.cons_append]
    · intro d t e
      have e2 : "$End".toList ++ "Elements".toList = '$' :: "EndElements".toList := by decide
      rw [e2] at e ⊢
      obtain ⟨-, rfl⟩ := List.cons.inj e
      exact noocc_left (by decide) (noocc_left (by decide) (ha "$EndElements" (by simp)))
  obtain ⟨mn, hmn, gn⟩ := hnodes
  obtain ⟨me, hme, ge⟩ := helts
  have hfl : floats (split (mn.group 2)) = .ok (f.nodes.flatMap fun n => [(n.id : ℚ), n.p.x, n.p.y, n.p.z]) := by
    rw [gn, ← hx1, split_nodes _ hw, floats_nodes _ hw]
  have hlen : (f.nodes.flatMap fun n => [(n.id : ℚ), n.p.x, n.p.y, n.p.z]).length = 4 * f.nodes.length :=
    length_flatMap_const (k := 4) (fun n : MshNode => [(n.id : ℚ), n.p.x, n.p.y, n.p.z]) (fun _ => rfl) _
  have hfind : ∀ d, d < 10 → findall (mshElts (digitChar d)) (me.group 2) =
      (f.elements.filter fun e => e.type = d).map fun e => ⟨e.line, [(1, e.line)]⟩ := by
    intro d hd
    unfold findall
    rw [ge, ← hx2, findall_elts ?_ f.elements _ ?_ [] (Or.inl rfl), filter_type _ hd]
    · interval_cases d <;> decide
    · have : f.elements.length ≤ (f.elements.flatMap fun e => e.line ++ ['\n']).length := by
        generalize f.elements = l
        induction l with
        | nil => simp
        | cons e l ih => simp only [List.flatMap_cons, List.length_append, List.length_cons, List.length_nil]; omega
      omega
  have h2 : findall (mshElts '2') (me.group 2) =
      (f.elements.filter fun e => e.type = 2).map fun e => ⟨e.line, [(1, e.line)]⟩ := hfind 2 (by norm_num)
  have h3 : findall (mshElts '3') (me.group 2) =
      (f.elements.filter fun e => e.type = 3).map fun e => ⟨e.line, [(1, e.line)]⟩ := hfind 3 (by norm_num)
  have r2 : mapAll (mshRow true) (findall (mshElts '2') (me.group 2)) =
      .ok ((f.elements.filter fun e => e.type = 2).map panelRow) := by
    rw [h2]
    apply mapAll_map
    intro e he
    have := List.mem_filter.1 he
    have ht : e.type = 2 := by simpa using this.2
    exact mshRow_elt true (by simpa using ⟨ht, (hr e this.1).1 ht⟩)
  have r3 : mapAll (mshRow false) (findall (mshElts '3') (me.group 2)) =
      .ok ((f.elements.filter fun e => e.type = 3).map panelRow) := by
    rw [h3]
    apply mapAll_map
    intro e he
    have := List.mem_filter.1 he
    have ht : e.type = 3 := by simpa using this.2
    exact mshRow_elt false (by simpa using ⟨ht, (hr e this.1).2 ht⟩)
  have hrect : rect (((f.elements.filter fun e => e.type = 2).map panelRow) ++
      ((f.elements.filter fun e => e.type = 3).map panelRow)) = .ok (f.panels.map panelRow) := by
    rw [← List.map_append]
    apply rect_of_length (n := 4)
    intro row hrow
    obtain ⟨e, he, rfl⟩ := List.mem_map.1 hrow
    rcases List.mem_append.1 he with he | he
    · have := List.mem_filter.1 he
      have ht : e.type = 2 := by simpa using this.2
      have := (hr e this.1).1 ht
      simp [panelRow, ht, this]
    · have := List.mem_filter.1 he
      have ht : e.type = 3 := by simpa using this.2
      have := (hr e this.1).2 ht
      simp [panelRow, ht, this]
  unfold loadMSH22Text
  simp only [hmn, hme, hfl, r2, r3, hrect]
  rw [if_neg (by rw [hlen]; omega), hlen, Nat.mul_div_cancel_left _ (by norm_num),
    rowsOf_flatMap (k := 4) (fun n : MshNode => [(n.id : ℚ), n.p.x, n.p.y, n.p.z]) (fun _ => rfl)]
  simp [MshFile.loaded]

/-- The numbers of the nodes are 1, 2, … in the order of the file. -/
def MshFile.Sequential (f : MshFile) : Prop := ∀ k n, f.nodes[k]? = some n → n.id = k + 1

lemma position_seq {f : MshFile} (hs : f.Sequential) {i : ℕ} (hi : ∃ n ∈ f.nodes, n.id = i) :
    f.position i = (f.nodes[i - 1]?).map MshNode.p ∧ 1 ≤ i ∧ i ≤ f.nodes.length := by
  obtain ⟨n, hn, hni⟩ := hi
  obtain ⟨k, hk⟩ := List.getElem?_of_mem hn
  have h1 := hs k n hk
  have hik : i = k + 1 := by omega
  have hlt : k < f.nodes.length := by
    by_contra h
    rw [List.getElem?_eq_none (by omega)] at hk
    simp at hk
  refine ⟨?_, by omega, by omega⟩
  unfold MshFile.position
  cases hf : f.nodes.find? fun n => n.id = i with
  | none =>
    have := List.find?_eq_none.1 hf n hn
    simp [hni] at this
  | some m =>
    have hm := List.mem_of_find?_eq_some hf
    have hmi : m.id = i := by simpa using List.find?_some hf
    obtain ⟨j, hj⟩ := List.getElem?_of_mem hm
    have hjk := hs j m hj
    have : i - 1 = j := by omega
    rw [this, hj]

/-- **C100** (partial): a GMSH file of version 2, whatever other sections it has, is read as its surface. For every file with
at least one node and one element, whose nodes are numbered 1, 2, … and whose triangles and quadrangles refer to nodes of the
file: the vertices are the nodes, in the order of the file; there is one face for each triangle then one face for each
quadrangle, whose corners are the positions of the nodes of the element (a triangle repeats its first corner); the elements of
other types (points, lines, volumes) are ignored, whatever their tags. Missing: nodes with other numbers (`C100_node_numbers_fail`),
lines with other blanks (`C100_trailing_blank`), files without node or without element (`C100_no_node`). -/
theorem C100_msh_partial (msh41 : Str → Except PyErr Loaded) (f : MshFile) (hv : isDigit f.minor = true) (hsep : f.Separate)
    (hn : f.nodes ≠ []) (he : f.elements ≠ []) (hw : ∀ n ∈ f.nodes, n.Written) (hr : ∀ e ∈ f.elements, e.Regular)
    (hs : f.Sequential) (hin : ∀ e ∈ f.panels, ∀ i ∈ e.nodes, ∃ n ∈ f.nodes, n.id = i) :
    ∃ l, loadMSH msh41 f.text = .ok l ∧ l.vertices = f.nodes.map (fun n => [n.p.x, n.p.y, n.p.z]) ∧
      l.faces.map (fun row => row.map fun i : ℤ => if 0 ≤ i then (f.nodes[i.toNat]?).map MshNode.p else none) =
        f.panels.map (fun e => (if e.type = 2 then e.nodes ++ e.nodes.take 1 else e.nodes).map f.position) := by
  refine ⟨f.loaded, ?_, rfl, ?_⟩
  · obtain ⟨m, h1, h2⟩ := research_version (major := '2') (by decide) hv f.format ('\n' :: f.before ++ f.text.drop f.head.length)
    have ht : f.text = "$MeshFormat\n".toList ++ '2' :: '.' :: f.minor :: (f.format ++ ("\n$EndMeshFormat".toList ++
        ('\n' :: f.before ++ f.text.drop f.head.length))) := by
      have h3 : f.text = f.head ++ f.text.drop f.head.length := by
        conv_rhs => unfold MshFile.text
        rw [List.drop_left]; rfl
      have h4 : "\n$EndMeshFormat\n".toList = "\n$EndMeshFormat".toList ++ ['\n'] := by decide
      conv_lhs => rw [h3]
      generalize f.text.drop f.head.length = d
      unfold MshFile.head
      have h7 : "$MeshFormat\n2.".toList = "$MeshFormat\n".toList ++ ['2', '.'] := by decide
      rw [h4, h7]
      simp only [List.append_assoc, List.cons_append, List.nil_append]
    rw [← ht] at h1
    obtain ⟨v, h5, h6⟩ := version_range (major := '2') (by decide) hv
    have h6 : 2 ≤ v ∧ v < 3 := by
      have : digitVal '2' = 2 := by decide
      rw [this] at h6
      norm_num at h6 ⊢
      exact h6
    unfold loadMSH
    simp only [h1, h2, h5, conv]
    rw [if_pos h6]
    exact loadMSH22_text f hsep hn he hw hr
  · simp only [MshFile.loaded, minusOne, List.map_map]
    apply List.map_congr_left
    intro e hep
    simp only [Function.comp, panelRow, List.map_map]
    apply List.map_congr_left
    intro i hi
    have hi' : i ∈ e.nodes := by
      split at hi
      · rcases List.mem_append.1 hi with h | h
        · exact h
        · exact List.mem_of_mem_take h
      · exact hi
    obtain ⟨h1, h2, h3⟩ := position_seq hs (hin e hep i hi')
    simp only [Function.comp]
    rw [if_pos (by omega), h1]
    congr 2
    omega

/-- A file with physical names, a point, a line, a triangle, a quadrangle, and results after the elements. -/
def mshSample : MshFile where
  minor := '2'
  format := " 0 8".toList
  before := "$PhysicalNames\n1\n2 1 \"hull\"\n$EndPhysicalNames\n".toList
  nodes := [⟨1, ⟨0, 0, 0⟩, "0".toList, "0".toList, "0".toList⟩, ⟨2, ⟨1, 0, 0⟩, "1".toList, "0.".toList, "0".toList⟩,
    ⟨3, ⟨1, 1, -1 / 2⟩, "1".toList, "1".toList, "-5e-1".toList⟩, ⟨4, ⟨0, 1, 0⟩, "0".toList, "1".toList, "0".toList⟩]
  between := []
  elements := [⟨1, 15, [0, 1], [1]⟩, ⟨2, 1, [0, 1], [1, 2]⟩, ⟨3, 3, [1, 5], [1, 2, 3, 4]⟩, ⟨4, 2, [1, 5], [1, 2, 3]⟩,
    ⟨5, 21, [1, 5], [1, 2, 3, 1, 2, 3, 1, 2, 3, 4]⟩]
  after := "$NodeData\n1\n\"p\"\n$EndNodeData\n".toList

theorem mshSample_meets_C100 : isDigit mshSample.minor = true ∧ mshSample.Separate ∧ mshSample.nodes ≠ [] ∧
    mshSample.elements ≠ [] ∧ (∀ n ∈ mshSample.nodes, n.Written) ∧ (∀ e ∈ mshSample.elements, e.Regular) ∧
    mshSample.Sequential ∧ (∀ e ∈ mshSample.panels, ∀ i ∈ e.nodes, ∃ n ∈ mshSample.nodes, n.id = i) := by
  refine ⟨by decide, ?_, by simp [mshSample], by simp [mshSample], ?_, ?_, ?_, by decide +kernel⟩
  · unfold MshFile.Separate; decide +kernel
  · unfold MshNode.Written NumberWord; decide +kernel
  · unfold MshElement.Regular; decide +kernel
  · intro k n hk
    match k with
    | 0 | 1 | 2 | 3 => simp [mshSample] at hk; rw [← hk]
    | k + 4 => simp [mshSample] at hk

example : loadMSH (fun _ => .error .exception) mshSample.text =
    .ok ⟨[[0, 0, 0], [1, 0, 0], [1, 1, -1 / 2], [0, 1, 0]], [[0, 1, 2, 0], [0, 1, 2, 3]]⟩ := by decide +kernel

/-- The text of a file of version `v` from its nodes and its elements. -/
def mshText (v nodes elements : String) : Str :=
  "$MeshFormat\n".toList ++ v.toList ++ " 0 8\n$EndMeshFormat\n$Nodes\n".toList ++ nodes.toList ++
    "$EndNodes\n$Elements\n".toList ++ elements.toList ++ "$EndElements\n".toList

/-- An element whose line ends with a blank is lost, without message. -/
theorem C100_trailing_blank : loadMSH (fun _ => .error .exception)
    (mshText "2.2" "3\n1 0 0 0\n2 1 0 0\n3 1 1 0\n" "2\n1 2 2 1 5 1 2 3\n2 2 2 1 5 3 2 1 \n") =
    .ok ⟨[[0, 0, 0], [1, 0, 0], [1, 1, 0]], [[0, 1, 2, 0]]⟩ := by decide +kernel

/-- Nodes numbered otherwise: the faces refer to vertices which do not exist. -/
theorem C100_node_numbers_fail : loadMSH (fun _ => .error .exception)
    (mshText "2.2" "3\n11 0 0 0\n12 1 0 0\n13 1 1 0\n" "1\n1 2 2 1 5 11 12 13\n") =
    .ok ⟨[[0, 0, 0], [1, 0, 0], [1, 1, 0]], [[10, 11, 12, 10]]⟩ := by decide +kernel

/-- A file without node is refused, with an exception which does not tell why. -/
theorem C100_no_node : loadMSH (fun _ => .error .exception) (mshText "2.2" "0\n" "1\n1 2 2 1 5 1 2 3\n") =
    .error .attributeError := by decide +kernel

/-- Other versions, for every text which begins with a version: version 4 is left to `load_MSH41`, versions other than 2 and 4
are refused. -/
theorem C100_versions (msh41 : Str → Except PyErr Loaded) (major minor : Char) (hM : isDigit major = true)
    (hm : isDigit minor = true) (w r text : Str)
    (ht : text = "$MeshFormat\n".toList ++ major :: '.' :: minor :: (w ++ ("\n$EndMeshFormat".toList ++ r))) :
    (major = '4' → loadMSH msh41 text = msh41 text) ∧
    (major ≠ '2' → major ≠ '4' → loadMSH msh41 text = .error .runtimeError) := by
  obtain ⟨m, h1, h2⟩ := research_version hM hm w r
  rw [← ht] at h1
  obtain ⟨v, h3, h4, h5⟩ := version_range hM hm
  have hl : loadMSH msh41 text = if 2 ≤ v ∧ v < 3 then loadMSH22Text text else if 4 ≤ v ∧ v < 5 then msh41 text
      else .error .runtimeError := by
    unfold loadMSH
    simp only [h1, h2, h3, conv]
  have hinj : ∀ d : Char, isDigit d = true → digitVal major = digitVal d → major = d := by
    intro d hd he
    unfold isDigit at hM hd
    unfold digitVal at he
    simp at hM hd
    have : major.toNat = d.toNat := by omega
    exact Char.toNat_inj.1 this
  constructor
  · rintro rfl
    have : digitVal '4' = 4 := by decide
    rw [this] at h4 h5
    norm_num at h4 h5
    rw [hl, if_neg (by rintro ⟨-, h⟩; linarith), if_pos ⟨h4, h5⟩]
  · intro n2 n4
    have e2 : digitVal major ≠ 2 := fun h => n2 (hinj '2' (by decide) (by rw [h]; decide))
    have e4 : digitVal major ≠ 4 := fun h => n4 (hinj '4' (by decide) (by rw [h]; decide))
    have far : ∀ k : ℕ, digitVal major ≠ k → ¬ ((k : ℚ) ≤ v ∧ v < k + 1) := by
      rintro k hk ⟨a, b⟩
      rcases Nat.lt_or_gt_of_ne hk with h | h
      · have : (digitVal major : ℚ) + 1 ≤ k := by exact_mod_cast h
        linarith
      · have : (k : ℚ) + 1 ≤ digitVal major := by exact_mod_cast h
        linarith
    have f2 := far 2 e2
    have f4 := far 4 e4
    norm_num at f2 f4
    rw [hl, if_neg (by rintro ⟨a, b⟩; have := f2 a; linarith), if_neg (by rintro ⟨a, b⟩; have := f4 a; linarith)]

example : loadMSH (fun _ => .error .exception) (mshText "3.0" "0\n" "1\n") = .error .runtimeError := by decide +kernel

/-! ### Files which are read -/

/-- A match is somewhere in the text. -/
lemma reSearch_mem {r : Re} {post pre : Str} {m : ReMatch} {t : ReState} (h : reSearch r post pre = some (m, t)) :
    ∃ w1 w2, post = w1 ++ w2 ∧ t ∈ r.runs ⟨w1.reverse ++ pre, w2, []⟩ ∧ m.groups = t.groups := by
  induction post generalizing pre with
  | nil =>
    unfold reSearch at h
    split at h
    · rename_i t' ht
      cases h
      exact ⟨[], [], rfl, List.mem_of_head? ht, rfl⟩
    · cases h
  | cons c s ih =>
    unfold reSearch at h
    split at h
    · rename_i t' ht
      cases h
      exact ⟨[], c :: s, rfl, List.mem_of_head? ht, rfl⟩
    · obtain ⟨w1, w2, h1, h2, h3⟩ := ih h
      exact ⟨c :: w1, w2, by rw [h1]; rfl, by simpa using h2, h3⟩

/-- The section of the nodes that is found: a part of the text. -/
lemma mshSection_mem {name text : Str} {m : ReMatch} (h : research (mshSection name) text = some m) :
    ∃ a n b, text = a ++ ('$' :: name ++ ['\n']) ++ n ++ '\n' :: m.group 2 ++ ("$End".toList ++ name) ++ b ∧
      n ≠ [] ∧ ∀ c ∈ n, isDigit c = true := by
  unfold research at h
  obtain ⟨⟨m', t⟩, hs, rfl⟩ := Option.map_eq_some_iff.1 h
  obtain ⟨w1, w2, h1, h2, h3⟩ := reSearch_mem hs
  obtain ⟨u1, hu1, h2⟩ := List.mem_flatMap.1 h2
  obtain ⟨r1, e1, rfl⟩ := mem_lit hu1
  obtain ⟨u2, hu2, h2⟩ := List.mem_flatMap.1 h2
  obtain ⟨u2', hu2', rfl⟩ := List.mem_map.1 hu2
  obtain ⟨n, r2, e2, hn, hd, rfl⟩ := mem_plus_chr hu2'
  obtain ⟨u3, hu3, h2⟩ := List.mem_flatMap.1 h2
  obtain ⟨u4, hu4, h2⟩ := List.mem_flatMap.1 h2
  obtain ⟨u4', hu4', rfl⟩ := List.mem_map.1 hu4
  cases r2 with
  | nil => exact absurd hu3 (by simp [Re.runs])
  | cons c r2 =>
    rw [runs_chr_cons] at hu3
    split at hu3
    · rename_i hc
      rw [List.mem_singleton] at hu3
      subst hu3
      obtain ⟨body, r3, e3, -, -, rfl⟩ := mem_plus_chr hu4'
      obtain ⟨r4, e4, rfl⟩ := mem_lit h2
      have hg : m'.group 2 = body := by
        unfold ReMatch.group
        rw [h3]
        simp
      refine ⟨w1, n, r4, ?_, hn, hd⟩
      have e4' : r3 = ("$End".toList ++ name) ++ r4 := e4
      rw [hg, h1, e1, e2, e3, e4', beq_iff_eq.1 hc]
      simp
    · simp at hu3

lemma convAll_len {α : Type} {p : Str → Option α} {ws : List Str} {xs : List α} (h : convAll p ws = .ok xs) :
    xs.length = ws.length := by
  induction ws generalizing xs with
  | nil => cases h; rfl
  | cons w ws ih =>
    unfold convAll at h
    split at h
    · cases h
    · split at h
      · cases h
      · rename_i hx
        cases h
        simp [ih hx]

lemma rowsOf_length {α : Type} (k n : ℕ) (l : List α) : (rowsOf k n l).length = n := by
  induction n generalizing l with
  | zero => rfl
  | succ n ih => simp [rowsOf, ih]

lemma rowsOf_row {α : Type} (k n : ℕ) (l : List α) (h : k * n ≤ l.length) : ∀ r ∈ rowsOf k n l, r.length = k := by
  induction n generalizing l with
  | zero => intro r hr; simp [rowsOf] at hr
  | succ n ih =>
    intro r hr
    rw [Nat.mul_succ] at h
    rcases List.mem_cons.1 hr with rfl | hr
    · rw [List.length_take]; omega
    · exact ih (l.drop k) (by rw [List.length_drop]; omega) r hr

/-- C100, whatever the text: if a version 2 file is read, then each vertex has three coordinates, and the file has a section of
nodes with four words for each vertex. No incomplete node is made up or dropped. -/
theorem C100_complete_nodes (text : Str) (l : Loaded) (h : loadMSH (fun _ => .error .exception) text = .ok l) :
    ∃ a n body b, text = a ++ "$Nodes\n".toList ++ n ++ '\n' :: body ++ "$EndNodes".toList ++ b ∧
      (split body).length = 4 * l.vertices.length ∧ ∀ v ∈ l.vertices, v.length = 3 := by
  have h22 : loadMSH22Text text = .ok l := by
    unfold loadMSH at h
    split at h
    · cases h
    · split at h
      · cases h
      · split at h
        · exact h
        · split at h <;> cases h
  unfold loadMSH22Text at h22
  split at h22
  · cases h22
  · rename_i mn hmn
    obtain ⟨a, n, b, ht, -, -⟩ := mshSection_mem hmn
    split at h22
    · cases h22
    · split at h22
      · cases h22
      · rename_i xs hxs
        split at h22
        · cases h22
        · rename_i h4
          split at h22
          · cases h22
          · split at h22
            · cases h22
            · split at h22
              · cases h22
              · cases h22
                have hlen := convAll_len hxs
                have h4' : 4 * (xs.length / 4) = xs.length := by omega
                refine ⟨a, n, mn.group 2, b, ht, ?_, ?_⟩
                · simp only [List.length_map, rowsOf_length]
                  omega
                · intro v hv
                  obtain ⟨r, hr, rfl⟩ := List.mem_map.1 hv
                  rw [List.length_drop, rowsOf_row 4 _ xs (by omega) r hr]

/-- A node with three words is refused. -/
theorem C100_incomplete_node : loadMSH (fun _ => .error .exception)
    (mshText "2.2" "3\n1 0 0 0\n2 1 0\n3 1 1 0\n" "1\n1 2 2 1 5 1 2 3\n") = .error .valueError := by decide +kernel

example : ∃ l, loadMSH (fun _ => .error .exception) (mshText "2.2" "3\n1 0 0 0\n2 1 0 0\n3 1 1 0\n" "1\n1 2 2 1 5 1 2 3\n") =
    .ok l := ⟨⟨[[0, 0, 0], [1, 0, 0], [1, 1, 0]], [[0, 1, 2, 0]]⟩, by decide +kernel⟩

end MM.Io
