import Verif.Model.MmioInp
import Verif.Spec.Inp
import Verif.Props.IoRad
import Verif.Props.IoIds

/-!
# C107: INP files

From the characters of the file and of the mesh files it calls.
-/

namespace MM.Io

open MM

/-! ### Texts made of blocks -/

lemma inp_findall_congr {r : Re} {p q p' q' : Str} (h : reSearch r p q = reSearch r p' q') (n : ℕ) :
    reFindall r n p q = reFindall r n p' q' := by
  cases n with
  | zero => rfl
  | succ n => simp only [reFindall, h]

/-- A text made of blocks of lines, some without match, the others with one. `P` is a property of what follows a block. -/
lemma findall_blocks {r : Re} {β : Type} (piece : β → Str) (out : β → Option ReMatch) (P : Str → Prop) (tail : Str) (htail : P tail)
    (hend : ∀ pre, AtBol pre → reSearch r tail pre = none) (l : List β) (hcons : ∀ b ∈ l, ∀ rest, P (piece b ++ rest))
    (hbol : ∀ b ∈ l, ∀ pre, AtBol ((piece b).reverse ++ pre))
    (h0 : ∀ b ∈ l, out b = none → ∀ rest pre, AtBol pre → P rest →
      reSearch r (piece b ++ rest) pre = reSearch r rest ((piece b).reverse ++ pre))
    (h1 : ∀ b ∈ l, ∀ m, out b = some m → ∀ rest pre, AtBol pre → P rest → ∃ t, reSearch r (piece b ++ rest) pre = some (m, t) ∧
      reSearch r t.post t.pre = reSearch r rest ((piece b).reverse ++ pre)) :
    ∀ n pre, l.length ≤ n → AtBol pre → reFindall r n (l.flatMap piece ++ tail) pre = l.filterMap out := by
  induction l with
  | nil => intro n pre _ hp; exact reFindall_none n (hend pre hp)
  | cons b l ih =>
    intro n pre hn hp
    have hP : P (l.flatMap piece ++ tail) := by
      cases l with
      | nil => exact htail
      | cons c l =>
        rw [List.flatMap_cons, List.append_assoc]
        exact hcons c (by simp) _
    have ih' := ih (fun b hb => hcons b (by simp [hb])) (fun b hb => hbol b (by simp [hb])) (fun b hb => h0 b (by simp [hb]))
      (fun b hb => h1 b (by simp [hb]))
    rw [List.flatMap_cons, List.append_assoc]
    cases ho : out b with
    | none =>
      rw [inp_findall_congr (h0 b (by simp) ho _ _ hp hP), ih' n _ (by simp at hn; omega) (hbol b (by simp) pre)]
      simp [ho]
    | some m =>
      obtain ⟨n, rfl⟩ : ∃ k, n = k + 1 := ⟨n - 1, by simp at hn; omega⟩
      obtain ⟨t, ht, ht'⟩ := h1 b (by simp) m ho _ _ hp hP
      rw [reFindall_step ht, inp_findall_congr ht', ih' n _ (by simp at hn; omega) (hbol b (by simp) pre)]
      simp [ho]

lemma flatMap_length_le {β : Type} (piece : β → Str) (l : List β) (h : ∀ b ∈ l, piece b ≠ []) :
    l.length ≤ (l.flatMap piece).length := by
  induction l with
  | nil => simp
  | cons b l ih =>
    have := List.length_pos_iff.2 (h b (by simp))
    have := ih fun b hb => h b (by simp [hb])
    simp only [List.flatMap_cons, List.length_append, List.length_cons]; omega

/-! ### Element lines -/

/-- A column. -/
def colRe : Re := .seq (.plus (.chr (· == ' '))) .ds1

lemma stops_natStr (p : Char → Bool) (hp : ∀ c, isDigit c = true → p c = false) (n : ℕ) (r : Str) : Stops p (natStr n ++ r) := by
  cases h : natStr n with
  | nil => exact absurd h (natStr_ne_nil n)
  | cons c t => exact stops_cons (hp c (natStr_digits n c (by rw [h]; simp))) _

lemma digit_not_sp {c : Char} (h : isDigit c = true) : (c == ' ') = false := by
  by_contra hc
  simp only [Bool.not_eq_false, beq_iff_eq] at hc
  subst hc; exact absurd h (by decide)

lemma first_col {c : ℕ × ℕ} (hc : 0 < c.1) {r : Str} (hr : Stops isDigit r) (pre : Str) (g : List (ℕ × Str)) :
    colRe.first ⟨pre, column c ++ r, g⟩ = some ⟨(column c).reverse ++ pre, r, g⟩ := by
  rw [column, List.append_assoc]
  have := first_seq (first_plus_chr (p := (· == ' ')) (sp_ne hc) (fun x hx => by rw [List.eq_of_mem_replicate hx]; decide)
    (stops_natStr _ (fun _ => digit_not_sp) c.2 r) pre g) (first_ds1 (natStr_ne_nil c.2) (natStr_digits _) hr)
  rw [List.reverse_append, List.append_assoc]
  exact this

lemma stops_cols {l : List (ℕ × ℕ)} (hl : ∀ c ∈ l, 0 < c.1) {r : Str} (hr : Stops isDigit r) : Stops isDigit (l.flatMap column ++ r) := by
  cases l with
  | nil => exact hr
  | cons c l =>
    simp only [List.flatMap_cons, column, List.append_assoc]
    exact Breaks.stops (breaks_sps (hl c (by simp)) _)

lemma first_cols {k : Re} (l : List (ℕ × ℕ)) (hl : ∀ c ∈ l, 0 < c.1) {r : Str} (hr : Stops isDigit r) (pre : Str)
    (g : List (ℕ × Str)) {u : ReState} (h : k.first ⟨(l.flatMap column).reverse ++ pre, r, g⟩ = some u) :
    (Re.seq (Re.rep colRe l.length) k).first ⟨pre, l.flatMap column ++ r, g⟩ = some u := by
  induction l generalizing pre with
  | nil => exact first_seq (first_eps _) h
  | cons c l ih =>
    rw [List.length_cons, Re.rep, first_seq_assoc, List.flatMap_cons, List.append_assoc]
    refine first_seq (first_col (hl c (by simp)) (stops_cols (fun c hc => hl c (by simp [hc])) hr) pre g) ?_
    refine ih (fun c hc => hl c (by simp [hc])) _ ?_
    rw [← h]
    simp only [List.flatMap_cons, List.reverse_append, List.append_assoc]

lemma first_inpElem {e : InpElement} (he : e.Written) {r : Str} (hr : Stops (fun c => c == '\r' || c == '\n') r) {pre : Str}
    (hpre : AtBol pre) (g : List (ℕ × Str)) :
    inpElemRe.first ⟨pre, (e.line ++ nl) ++ r, g⟩ = some ⟨(e.line ++ nl).reverse ++ pre, r, g⟩ := by
  obtain ⟨h0, h1, h2⟩ := he
  have ee : (e.line ++ nl) ++ r = sp e.first.1 ++ (natStr e.first.2 ++ (e.others.flatMap column ++ (nl ++ r))) := by
    simp only [InpElement.line, column, List.append_assoc]
  have hnl : Stops isDigit (nl ++ r) := stops_cons (by decide) _
  have heol : ∀ pre, Re.eols1.first ⟨pre, nl ++ r, g⟩ = some ⟨nl.reverse ++ pre, r, g⟩ := fun pre =>
    first_plus_chr (by simp [nl]) (by intro c hc; simp only [nl, List.mem_singleton] at hc; subst hc; decide) hr pre g
  rw [ee]
  refine first_seq (first_bol hpre) ?_
  refine first_seq (first_plus_chr (p := (· == ' ')) (sp_ne h0) (fun x hx => by rw [List.eq_of_mem_replicate hx]; decide)
    (stops_natStr _ (fun _ => digit_not_sp) _ _) pre g) ?_
  refine first_seq (first_ds1 (natStr_ne_nil _) (natStr_digits _) (stops_cols h2 hnl)) ?_
  rcases h1 with h1 | h1
  · rw [← h1]
    refine first_cols _ h2 hnl _ _ ?_
    refine first_seq (first_alt_right (a := colRe) ?_ |>.trans (first_eps _)) ?_
    · exact runs_seq_nil_left (runs_seq_nil_left (Stops.runs (stops_cons (by decide) _) _ _))
    · rw [heol]
      simp only [InpElement.line, column, List.reverse_append, List.append_assoc]
  · obtain ⟨a, b, c, d, e4⟩ : ∃ a b c d, e.others = [a, b, c, d] := by
      match e.others, h1 with
      | [a, b, c, d], _ => exact ⟨a, b, c, d, rfl⟩
    have hd := h2 d (by rw [e4]; simp)
    have h3 : ∀ x ∈ [a, b, c], 0 < x.1 := fun x hx => h2 x (by rw [e4]; simp at hx ⊢; tauto)
    have es : e.others.flatMap column ++ (nl ++ r) = [a, b, c].flatMap column ++ (column d ++ (nl ++ r)) := by
      rw [e4]; simp [List.append_assoc]
    rw [es]
    refine first_cols [a, b, c] h3 ?_ _ _ ?_
    · have := stops_cols (l := [d]) (by simpa using hd) hnl
      simpa using this
    refine first_seq (first_alt_left (first_col hd hnl _ _)) ?_
    rw [heol]
    simp only [InpElement.line, e4, column, List.flatMap_cons, List.flatMap_nil, List.append_nil, List.reverse_append,
      List.append_assoc]

lemma inpElem_shape {pre post : Str} {g : List (ℕ × Str)} (h : inpElemRe.runs ⟨pre, post, g⟩ ≠ []) :
    AtBol pre ∧ ∃ b d b' d' b'' r, post = b ++ (d ++ (b' ++ (d' ++ (b'' ++ r)))) ∧ Blank b ∧ AllDigits d ∧ d ≠ [] ∧
      Blank b' ∧ b' ≠ [] ∧ AllDigits d' ∧ d' ≠ [] ∧ Blank b'' ∧ b'' ≠ [] := by
  have hsp : ∀ b : Str, (∀ c ∈ b, (c == ' ') = true) → Blank b := by
    intro b hb c hc
    have := hb c hc
    simp only [beq_iff_eq] at this
    subst this; decide
  obtain ⟨t, ht⟩ := List.exists_mem_of_ne_nil _ h
  obtain ⟨u0, h0, ht⟩ := List.mem_flatMap.1 ht
  obtain ⟨rfl, hbol⟩ := mem_bol h0
  obtain ⟨u1, h1, ht⟩ := List.mem_flatMap.1 ht
  obtain ⟨b, r1, rfl, hb, hb', rfl⟩ := mem_plus_chr h1
  obtain ⟨u2, h2, ht⟩ := List.mem_flatMap.1 ht
  obtain ⟨d, r2, rfl, hd, hd', rfl⟩ := mem_plus_chr h2
  obtain ⟨u3, h3, ht⟩ := List.mem_flatMap.1 ht
  obtain ⟨u4, h4, h3⟩ := List.mem_flatMap.1 h3
  obtain ⟨u5, h5, h4⟩ := List.mem_flatMap.1 h4
  obtain ⟨b1, r3, rfl, hb1, hb1', rfl⟩ := mem_plus_chr h5
  obtain ⟨d1, r4, rfl, hd1, hd1', rfl⟩ := mem_plus_chr h4
  obtain ⟨u6, h6, h3⟩ := List.mem_flatMap.1 h3
  obtain ⟨u7, h7, h6⟩ := List.mem_flatMap.1 h6
  obtain ⟨b2, r5, rfl, hb2, hb2', rfl⟩ := mem_plus_chr h7
  exact ⟨hbol, b, d, b1, d1, b2, r5, rfl, hsp _ hb', hd', hd, hsp _ hb1', hb1, hd1', hd1, hsp _ hb2', hb2⟩

lemma inpElem_start {pre post : Str} {g : List (ℕ × Str)} (h : ¬ AtBol pre ∨ elemStart post = false) :
    inpElemRe.runs ⟨pre, post, g⟩ = [] := by
  by_contra hc
  obtain ⟨hbol, b, d, b', d', b'', r, rfl, hb, hd, hd', hb1, hb2, hd1, hd2, hb3, hb4⟩ := inpElem_shape hc
  rcases h with h | h
  · exact h hbol
  have e1 : (b ++ (d ++ (b' ++ (d' ++ (b'' ++ r))))).dropWhile isSpace = d ++ (b' ++ (d' ++ (b'' ++ r))) :=
    dropWhile_all hb (digits_stops_space hd hd' _)
  have e2 : (d ++ (b' ++ (d' ++ (b'' ++ r)))).dropWhile isDigit = b' ++ (d' ++ (b'' ++ r)) :=
    dropWhile_all hd (blank_stops_digit hb1 hb2 _)
  have e3 : (b' ++ (d' ++ (b'' ++ r))).dropWhile isSpace = d' ++ (b'' ++ r) :=
    dropWhile_all hb1 (digits_stops_space hd1 hd2 _)
  have e4 : (d' ++ (b'' ++ r)).dropWhile isDigit = b'' ++ r := dropWhile_all hd1 (blank_stops_digit hb3 hb4 _)
  have : elemStart (b ++ (d ++ (b' ++ (d' ++ (b'' ++ r))))) = true := by
    simp only [elemStart, e1, e2, e3, e4]
    rw [headD_append hd', headD_append hb2, headD_append hd2, headD_append hb4, hd _ (headD_mem hd' _),
      hb1 _ (headD_mem hb2 _), hd1 _ (headD_mem hd2 _), hb3 _ (headD_mem hb4 _)]
    rfl
  rw [this] at h; simp at h

lemma inpElems_fails {pre post : Str} {g : List (ℕ × Str)} (h : ¬ AtBol pre ∨ elemStart post = false) :
    inpElemsRe.runs ⟨pre, post, g⟩ = [] := by
  show List.map _ ((inpElemRe.runs _).flatMap _) = []
  rw [inpElem_start h]; rfl

lemma skip_inpElem {w v pre : Str} {b : Bool} (hb : AtBol pre → b = true) (h : scanElem b w v = true) :
    reSearch inpElemsRe (w ++ v) pre = reSearch inpElemsRe v (w.reverse ++ pre) := by
  refine reSearch_skip ?_
  have key : ∀ (w1 w : Str) (c : Char) (w2 pre : Str) (b : Bool), w = w1 ++ c :: w2 → (AtBol pre → b = true) →
      scanElem b w v = true → inpElemsRe.runs ⟨w1.reverse ++ pre, c :: (w2 ++ v), []⟩ = [] := by
    intro w1
    induction w1 with
    | nil =>
      intro w c w2 pre b e hb h
      subst e
      simp only [List.nil_append, scanElem, Bool.and_eq_true, Bool.not_eq_true'] at h
      refine inpElems_fails ?_
      by_cases hp : AtBol pre
      · right; simpa [hb hp] using h.1
      · left; simpa using hp
    | cons d w1 ih =>
      intro w c w2 pre b e hb h
      subst e
      simp only [List.cons_append, scanElem, Bool.and_eq_true] at h
      have := ih (w1 ++ c :: w2) c w2 (d :: pre) (d == '\n') rfl (by
        rintro (h | h)
        · simp at h
        · simpa using h) h.2
      simpa using this
  intro w1 c w2 e
  exact key w1 w c w2 pre b e hb h

/-- What follows a block: the end or a line of key words. -/
def Follows (r : Str) : Prop := Stops isSpace r ∧ Stops isDigit r

lemma follows_nil : Follows [] := ⟨Stops.nil _, Stops.nil _⟩

lemma follows_lines {l : List Str} (h : ∀ s ∈ l, KeyLine s) {r : Str} (hr : Follows r) : Follows (lines id l ++ r) := by
  cases l with
  | nil => exact hr
  | cons s l => exact stops_lines (by simp) h r

lemma stops_eol {r : Str} (h : Stops isSpace r) : Stops (fun c => c == '\r' || c == '\n') r := by
  intro c t e
  have := h c t e
  by_contra hc
  simp only [Bool.not_eq_false, Bool.or_eq_true, beq_iff_eq] at hc
  rcases hc with rfl | rfl <;> exact absurd this (by decide)

lemma stops_inpElem {e : InpElement} (he : e.Written) (r : Str) : Stops (fun c => c == '\r' || c == '\n') (e.line ++ r) := by
  obtain ⟨k, hk⟩ : ∃ k, e.first.1 = k + 1 := ⟨e.first.1 - 1, by have := he.1; omega⟩
  unfold InpElement.line column sp
  rw [hk, List.replicate_succ]
  exact stops_cons (by decide) _

lemma search_inpElems {l : List InpElement} (hne : l ≠ []) (hl : ∀ e ∈ l, e.Written) {after : Str} (ha : Follows after) {pre : Str}
    (hpre : AtBol pre) : reSearch inpElemsRe (lines InpElement.line l ++ after) pre =
      some (⟨lines InpElement.line l, [(1, lines InpElement.line l)]⟩,
        ⟨(lines InpElement.line l).reverse ++ pre, after, [(1, lines InpElement.line l)]⟩) := by
  refine reSearch_hit' (first_group' ?_)
  rw [lines_eq]
  refine first_plus_pieces (fun e => InpElement.line e ++ nl) (by simp [nl]) AtBol (fun f pre => atBol_nl _ _) [] l hne after ?_ ?_ _ hpre
  · intro l1 b l2 pre e hp
    refine first_inpElem (hl b (by rw [e]; simp)) ?_ hp []
    cases l2 with
    | nil => exact stops_eol ha.1
    | cons p l2 =>
      rw [List.flatMap_cons, List.append_assoc, List.append_assoc]
      exact stops_inpElem (hl p (by rw [e]; simp)) _
  · intro pre _
    refine inpElem_start (Or.inr ?_)
    cases after with
    | nil => rfl
    | cons c t =>
      have h1 := ha.1 c t rfl
      have h2 := ha.2 c t rfl
      simp [elemStart, List.dropWhile_cons, h1, h2]

lemma findall_inpElem {l : List InpElement} (hl : ∀ e ∈ l, e.Written) :
    findall inpElemRe (lines InpElement.line l) = l.map fun e => ⟨e.line ++ nl, []⟩ := by
  unfold findall
  rw [lines_eq]
  have hlen : l.length ≤ (l.flatMap (fun f => InpElement.line f ++ nl)).length + 1 := by
    have := flatMap_length_le (fun f => InpElement.line f ++ nl) l (by simp [nl])
    omega
  have := reFindall_pieces (r := inpElemRe) (fun f => InpElement.line f ++ nl) (fun _ => []) AtBol (fun f pre => atBol_nl _ _) l [] _ hlen
    (by
      intro l1 b l2 pre e hp
      refine first_inpElem (hl b (by rw [e]; simp)) ?_ hp []
      cases l2 with
      | nil => exact Stops.nil _
      | cons p l2 =>
        rw [List.flatMap_cons, List.append_assoc, List.append_assoc]
        exact stops_inpElem (hl p (by rw [e]; simp)) _)
    (by
      intro pre _
      refine reSearch_none ?_
      intro w1 w2 e
      have : w2 = [] := by
        rw [eq_comm, List.append_eq_nil_iff] at e
        exact e.2
      subst this
      exact inpElem_start (Or.inr rfl)) [] (Or.inl rfl)
  rw [List.append_nil] at this
  exact this

lemma inpElemOf_ok {e : InpElement} (h : e.Written) : inpElemOf ⟨e.line ++ nl, []⟩ = .ok (e.others.map Prod.snd) := by
  have hbr : Breaks nl := Or.inr ⟨'\n', [], rfl, by decide⟩
  have hs : split (e.line ++ nl) = natStr e.first.2 :: e.others.map fun c => natStr c.2 := by
    simp only [InpElement.line, column, List.append_assoc]
    rw [split_tok (blank_sp _) (natStr_word _), split_columns _ h.2.2 hbr]
    · have : split nl = [] := by decide
      rw [this]; simp
    · cases ho : e.others with
      | nil => exact hbr
      | cons d l =>
        simp only [List.flatMap_cons, column, List.append_assoc]
        exact breaks_sps (h.2.2 d (by rw [ho]; simp)) _
  have e2 : natStr e.first.2 :: e.others.map (fun c => natStr c.2) = (e.first.2 :: e.others.map Prod.snd).map natStr := by
    simp [Function.comp_def]
  unfold inpElemOf
  simp only [hs]
  rw [e2, ints_natStr]
  simp [Function.comp_def]

/-! ### Node lines -/

lemma first_hstNodeD {n : RadNode} (h : n.Written) {s r : Str} (hs : Blank s) (hr : Breaks r) (pre : Str) (g : List (ℕ × Str)) :
    hstNode.first ⟨pre, (s ++ nodeCore n) ++ r, g⟩ = some ⟨(s ++ nodeCore n).reverse ++ pre, r, g⟩ := by
  obtain ⟨b1, b2, b3, hx, hy, hz, -⟩ := h
  have e : (s ++ nodeCore n) ++ r = s ++ (natStr n.id ++ (sp n.bx ++ (n.x.word ++ (sp n.by' ++ (n.y.word ++ (sp n.bz ++
      (n.z.word ++ r))))))) := by
    simp only [nodeCore, List.append_assoc]
  rw [e]
  refine first_seq (first_ws hs (Word.stops (natStr_word _) _)) ?_
  refine first_seq (first_ds1 (natStr_ne_nil _) (natStr_digits _) (Breaks.stops (breaks_sps b1 _))) ?_
  refine first_seq (first_seq (first_ws1 (sp_ne b1) (blank_sp _) (Word.stops (decimal_word hx) _))
    (first_decimal hx (breaks_sps b2 _) _ _)) ?_
  refine first_seq (first_seq (first_ws1 (sp_ne b2) (blank_sp _) (Word.stops (decimal_word hy) _))
    (first_decimal hy (breaks_sps b3 _) _ _)) ?_
  refine first_seq (first_seq (first_ws1 (sp_ne b3) (blank_sp _) (Word.stops (decimal_word hz) _))
    (first_decimal hz hr _ _)) ?_
  show some _ = _
  simp only [nodeCore, List.reverse_append, List.append_assoc]

/-- What comes before the first point of a node line: blanks, digits, signs. -/
lemma hstNode_before {pre post : Str} {g : List (ℕ × Str)} (h : hstNode.runs ⟨pre, post, g⟩ ≠ []) :
    ∃ q rest, post = q ++ '.' :: rest ∧ ∀ c ∈ q, (isSpace c || isDigit c || c == '+' || c == '-') = true := by
  obtain ⟨b, d, b', r, rfl, hb, hd, -, hb', -, pre', hr⟩ := hstNode_shape h
  obtain ⟨t, ht⟩ := List.exists_mem_of_ne_nil _ hr
  obtain ⟨q, rest, hq, hq'⟩ := real_shape ht
  simp only at hq
  refine ⟨b ++ (d ++ (b' ++ q)), rest, by rw [hq]; simp only [List.append_assoc], ?_⟩
  intro c hc
  rcases List.mem_append.1 hc with hc | hc
  · rw [hb c hc]; rfl
  rcases List.mem_append.1 hc with hc | hc
  · rw [hd c hc]; simp
  rcases List.mem_append.1 hc with hc | hc
  · rw [hb' c hc]; rfl
  · have := hq' c hc
    simp only [Bool.or_eq_true] at this ⊢
    tauto

/-- A text without point which ends with a letter contains no start of a node line. -/
lemma skip_headH {w v : Str} {c0 : Char} (hc0 : (isSpace c0 || isDigit c0 || c0 == '+' || c0 == '-') = false)
    (hdot : '.' ∉ w ++ [c0]) (pre : Str) :
    reSearch hstNodes ((w ++ [c0]) ++ v) pre = reSearch hstNodes v ((w ++ [c0]).reverse ++ pre) := by
  refine reSearch_skip ?_
  intro w1 c w2 e
  refine hstNodes_fails ?_
  by_contra hne
  obtain ⟨q, rest, hp, hin⟩ := hstNode_before hne
  have hlast : c0 ∈ c :: w2 := by
    have h1 : (w ++ [c0]).getLast? = some c0 := by simp
    rw [e] at h1
    have h2 : (c :: w2).getLast? = some c0 := by
      rw [List.getLast?_append] at h1
      cases hl : (c :: w2).getLast? with
      | none => simp at hl
      | some x => rw [hl] at h1; simpa using h1
    exact List.mem_of_getLast? h2
  have hdot' : '.' ∉ c :: w2 := fun h => hdot (by rw [e]; exact List.mem_append_right _ h)
  have hp' : (c :: w2) ++ v = q ++ '.' :: rest := by rw [List.cons_append, hp]
  rcases List.append_eq_append_iff.1 hp' with ⟨a, h1, -⟩ | ⟨a, h1, h2⟩
  · have := hin c0 (by rw [h1]; exact List.mem_append_left _ hlast)
    rw [hc0] at this; simp at this
  · cases a with
    | nil =>
      rw [List.append_nil] at h1
      have := hin c0 (by rw [← h1]; exact hlast)
      rw [hc0] at this; simp at this
    | cons x a =>
      have : x = '.' := by simpa using (congrArg List.head? h2).symm
      subst this
      exact hdot' (by rw [h1]; simp)

lemma hstNode_nodigit {pre b r : Str} {g : List (ℕ × Str)} (hb : Blank b) (hr : Stops isSpace r) (hr' : Stops isDigit r) :
    hstNode.runs ⟨pre, b ++ r, g⟩ = [] :=
  ws_fails hb hr (fun pre c t hc => runs_seq_nil_left (ds1_fails (stops_cons (space_not_digit hc) t) pre g))
    (fun pre => runs_seq_nil_left (ds1_fails hr' pre g))

/-- The node section. -/
lemma search_hstNodesD {ps : List (Str × RadNode)} (h : ∀ p ∈ ps, Blank p.1 ∧ p.1 ≠ []) (hw : ∀ p ∈ ps, p.2.Written)
    (hne : ps ≠ []) {b r : Str} (hb : Blank b) (hb' : b ≠ []) (hr : Stops isSpace r) (hr' : Stops isDigit r) (pre : Str) :
    reSearch hstNodes (ps.flatMap (fun p => p.1 ++ nodeCore p.2) ++ (b ++ r)) pre =
      some (⟨ps.flatMap (fun p => p.1 ++ nodeCore p.2), [(1, ps.flatMap (fun p => p.1 ++ nodeCore p.2))]⟩,
        ⟨(ps.flatMap (fun p => p.1 ++ nodeCore p.2)).reverse ++ pre, b ++ r, [(1, ps.flatMap (fun p => p.1 ++ nodeCore p.2))]⟩) := by
  refine reSearch_hit' (first_group' (first_plus_pieces (fun p : Str × RadNode => p.1 ++ nodeCore p.2) ?_ (fun _ => True)
    (by simp) [] ps hne (b ++ r) ?_ ?_ pre trivial))
  · intro p; simp [nodeCore_ne]
  · intro l1 p l2 pre e _
    have hp := h p (by rw [e]; simp)
    refine first_hstNodeD (hw p (by rw [e]; simp)) hp.1 ?_ pre []
    exact breaks_pieces (fun q hq => h q (by rw [e]; simp [hq])) (breaks_blank hb hb' r)
  · intro pre _
    exact hstNode_nodigit hb hr hr'

lemma findall_hstNodeD {ps : List (Str × RadNode)} (h : ∀ p ∈ ps, Blank p.1 ∧ p.1 ≠ []) (hw : ∀ p ∈ ps, p.2.Written) :
    findall hstNode (ps.flatMap (fun p => p.1 ++ nodeCore p.2)) = ps.map fun p => ⟨p.1 ++ nodeCore p.2, []⟩ := by
  unfold findall
  have hlen : ps.length ≤ (ps.flatMap (fun p => p.1 ++ nodeCore p.2)).length + 1 := by
    have := flatMap_length_le (fun p : Str × RadNode => p.1 ++ nodeCore p.2) ps (by simp [nodeCore_ne])
    omega
  have := reFindall_pieces (r := hstNode) (fun p : Str × RadNode => p.1 ++ nodeCore p.2)
    (fun p => []) (fun _ => True) (by simp) ps [] _ hlen
    (by
      intro l1 p l2 pre e _
      refine first_hstNodeD (hw p (by rw [e]; simp)) (h p (by rw [e]; simp)).1 ?_ pre []
      exact breaks_pieces (fun q hq => h q (by rw [e]; simp [hq])) (Or.inl rfl))
    (by
      intro pre _
      refine reSearch_none ?_
      intro w1 w2 e
      have : w2 = [] := by
        rw [eq_comm, List.append_eq_nil_iff] at e
        exact e.2
      subst this
      exact hstNode_nodot (by simp)) [] trivial
  rw [List.append_nil] at this
  exact this

lemma inpNodeOf_ok {n : RadNode} (h : n.Written) {b : Str} (hb : Blank b) : inpNodeOf ⟨b ++ nodeCore n, []⟩ = .ok (n.id, n.p) := by
  obtain ⟨b1, b2, b3, hx, hy, hz, px, py, pz⟩ := h
  have hs : split (b ++ nodeCore n) = [natStr n.id, n.x.word, n.y.word, n.z.word] := by
    unfold nodeCore
    rw [split_tok hb (natStr_word _) (breaks_sps b1 _), split_tok (blank_sp _) (decimal_word hx) (breaks_sps b2 _),
      split_tok (blank_sp _) (decimal_word hy) (breaks_sps b3 _)]
    have := split_tok (blank_sp n.bz) (decimal_word hz) (r := []) (Or.inl rfl)
    rw [List.append_nil] at this
    rw [this]; rfl
  unfold inpNodeOf
  simp only [hs, parseInt_natStr, px, py, pz, conv]
  simp

/-! ### A mesh file -/

/-- What is read in a mesh file. -/
def InpMesh.data (f : InpMesh) : DatFile :=
  ⟨f.nodes.map fun n => (n.id, n.p), f.sections.map fun s => s.elements.map fun e => e.others.map Prod.snd⟩

lemma section_follows {s : InpSection} (h : s.keys ≠ [] ∧ ∀ l ∈ s.keys, KeyLine l ∧ '.' ∉ l) (r : Str) :
    Follows (s.text ++ r) := by
  unfold InpSection.text
  rw [List.append_assoc]
  exact stops_lines h.1 (fun l hl => (h.2 l hl).1) _

lemma sections_follow {f : InpMesh} (h : f.Written) : Follows (f.sections.flatMap InpSection.text ++ lines id f.after) := by
  cases hs : f.sections with
  | nil =>
    have := follows_lines (fun l hl => (h.after l hl).1) follows_nil
    rwa [List.append_nil] at this
  | cons s l =>
    rw [List.flatMap_cons, List.append_assoc]
    exact section_follows (h.sections s (by rw [hs]; simp)).1 _

lemma lines_nodot {l : List Str} (h : ∀ s ∈ l, '.' ∉ s) : '.' ∉ lines id l := by
  intro hc
  obtain ⟨s, hs, hc⟩ := List.mem_flatMap.1 hc
  rcases List.mem_append.1 hc with hc | hc
  · exact h s hs hc
  · exact absurd hc (by decide)

lemma sp_nodot (k : ℕ) : '.' ∉ sp k := fun h => absurd (List.eq_of_mem_replicate h) (by decide)

lemma column_nodot (c : ℕ × ℕ) : '.' ∉ column c := by
  unfold column
  intro h
  rcases List.mem_append.1 h with h | h
  · exact sp_nodot _ h
  · exact natStr_nodot _ h

lemma elements_nodot (l : List InpElement) : '.' ∉ lines InpElement.line l := by
  intro hc
  obtain ⟨e, -, hc⟩ := List.mem_flatMap.1 hc
  rcases List.mem_append.1 hc with hc | hc
  · unfold InpElement.line at hc
    rcases List.mem_append.1 hc with hc | hc
    · exact column_nodot _ hc
    · obtain ⟨c, -, hc⟩ := List.mem_flatMap.1 hc
      exact column_nodot _ hc
  · exact absurd hc (by decide)

lemma sections_nodot {f : InpMesh} (h : f.Written) : '.' ∉ f.sections.flatMap InpSection.text ++ lines id f.after := by
  intro hc
  rcases List.mem_append.1 hc with hc | hc
  · obtain ⟨s, hs, hc⟩ := List.mem_flatMap.1 hc
    rcases List.mem_append.1 hc with hc | hc
    · exact lines_nodot (fun l hl => ((h.sections s hs).1.2 l hl).2) hc
    · exact elements_nodot _ hc
  · exact lines_nodot (fun l hl => (h.after l hl).2) hc

lemma mesh_nodes {f : InpMesh} (h : f.Written) : ∃ m, findall hstNodes f.text = [m] ∧
    mapAll inpNodeOf (findall hstNode (m.group 1)) = .ok (f.nodes.map fun n => (n.id, n.p)) := by
  obtain ⟨w, c0, hk, hc0⟩ := h.keys
  obtain ⟨hn, hnw⟩ := h.nodes
  have hbl : Blank nl := by intro c hc; simp only [nl, List.mem_singleton] at hc; subst hc; decide
  obtain ⟨ps, h1, h2, b', h3, h4, h5⟩ := node_pieces f.nodes hbl (by simp [nl])
  have hw : ∀ p ∈ ps, p.2.Written := fun p hp => hnw p.2 (by rw [← h1]; exact List.mem_map_of_mem hp)
  have et : f.text = ((lines id f.before ++ w) ++ [c0]) ++ (ps.flatMap (fun p => p.1 ++ nodeCore p.2) ++ (b' ++
      (f.sections.flatMap InpSection.text ++ lines id f.after))) := by
    rw [← List.append_assoc (ps.flatMap _), ← h5]
    unfold InpMesh.text
    rw [lines_append]
    simp [lines, hk, nl]
  have hdot : '.' ∉ (lines id f.before ++ w) ++ [c0] := by
    rw [List.append_assoc, ← hk]
    intro hc
    rcases List.mem_append.1 hc with hc | hc
    · exact lines_nodot (fun l hl => (h.before l (by simp [hl])).2) hc
    · exact (h.before f.keys (by simp)).2 hc
  obtain ⟨hs1, hs2⟩ := sections_follow h
  have ht := search_hstNodesD h2 hw (by rintro rfl; exact hn (by simpa using h1.symm)) h3 h4 hs1 hs2
    (((lines id f.before ++ w) ++ [c0]).reverse ++ [])
  refine ⟨⟨ps.flatMap (fun p => p.1 ++ nodeCore p.2), [(1, ps.flatMap (fun p => p.1 ++ nodeCore p.2))]⟩, ?_, ?_⟩
  · unfold findall
    have hsk := skip_headH (v := ps.flatMap (fun p => p.1 ++ nodeCore p.2) ++ (b' ++
      (f.sections.flatMap InpSection.text ++ lines id f.after))) hc0 hdot []
    rw [← et] at hsk
    rw [inp_findall_congr hsk, reFindall_step ht]
    simp only
    rw [reFindall_none _ (hstNodes_none ?_ _)]
    intro hc
    rcases List.mem_append.1 hc with hc | hc
    · exact absurd (h3 _ hc) (by decide)
    · exact sections_nodot h hc
  · rw [group_one, findall_hstNodeD h2 hw,
      mapAll_map inpNodeOf _ (fun p => (p.2.id, p.2.p)) ps fun p hp => inpNodeOf_ok (hw p hp) (h2 p hp).1]
    rw [← h1, List.map_map]
    rfl

lemma lines_bol {l : List Str} (hne : l ≠ []) (pre : Str) : AtBol ((lines id l).reverse ++ pre) := by
  right
  obtain ⟨l', s, hs⟩ : ∃ l' s, l = l' ++ [s] := by
    rcases List.eq_nil_or_concat l with e | ⟨l', s, e⟩
    · exact absurd e hne
    · exact ⟨l', s, by rw [e, List.concat_eq_append]⟩
  rw [hs, lines_append]
  simp [lines]

lemma elements_bol {l : List InpElement} (hne : l ≠ []) (pre : Str) : AtBol ((lines InpElement.line l).reverse ++ pre) := by
  right
  obtain ⟨l', s, hs⟩ : ∃ l' s, l = l' ++ [s] := by
    rcases List.eq_nil_or_concat l with e | ⟨l', s, e⟩
    · exact absurd e hne
    · exact ⟨l', s, by rw [e, List.concat_eq_append]⟩
  rw [hs, lines_append]
  simp [lines]

/-- The match of a section. -/
def sectionMatch (s : InpSection) : ReMatch := ⟨lines InpElement.line s.elements, [(1, lines InpElement.line s.elements)]⟩

lemma mesh_sections {f : InpMesh} (h : f.Written) : findall inpElemsRe f.text = f.sections.map sectionMatch := by
  have hend : ∀ pre, AtBol pre → reSearch inpElemsRe (lines id f.after) pre = none := by
    intro pre hp
    have h1 := skip_inpElem (w := lines id f.after) (v := []) (pre := pre) (b := true) (fun _ => rfl) (by
      have := scan_keyLines f.after (fun s hs => (h.after s hs).1) (w := []) (v := []) rfl
      rwa [List.append_nil] at this)
    rw [List.append_nil] at h1
    rw [h1]
    refine reSearch_none ?_
    intro w1 w2 e
    have : w2 = [] := by
      rw [eq_comm, List.append_eq_nil_iff] at e
      exact e.2
    subst this
    exact inpElems_fails (Or.inr rfl)
  obtain ⟨head, hhead⟩ : ∃ x, x = lines id (f.before ++ [f.keys]) ++ lines RadNode.line f.nodes := ⟨_, rfl⟩
  have et : f.text = head ++ (f.sections.flatMap InpSection.text ++ lines id f.after) := by
    rw [hhead]; simp only [InpMesh.text, List.append_assoc]
  have hbol : AtBol head.reverse := by
    right
    obtain ⟨l', s, hs⟩ : ∃ l' s, f.nodes = l' ++ [s] := by
      rcases List.eq_nil_or_concat f.nodes with e | ⟨l', s, e⟩
      · exact absurd e h.nodes.1
      · exact ⟨l', s, by rw [e, List.concat_eq_append]⟩
    rw [hhead, hs, lines_append]
    simp [lines]
  have hskip : reSearch inpElemsRe f.text [] = reSearch inpElemsRe (f.sections.flatMap InpSection.text ++ lines id f.after)
      head.reverse := by
    rw [et]
    have := skip_inpElem (w := head) (v := f.sections.flatMap InpSection.text ++ lines id f.after) (pre := []) (b := true)
      (fun _ => rfl) (by
        have h0 := scan_nodes f.nodes h.nodes.2 (w := []) (v := f.sections.flatMap InpSection.text ++ lines id f.after) rfl
        rw [List.append_nil] at h0
        rw [hhead]
        exact scan_keyLines _ (fun s hs => (h.before s hs).1) h0)
    rw [List.append_nil] at this
    exact this
  unfold findall
  rw [inp_findall_congr hskip]
  have := findall_blocks (r := inpElemsRe) InpSection.text (fun s => some (sectionMatch s)) Follows (lines id f.after)
    (by
      have := follows_lines (fun l hl => (h.after l hl).1) follows_nil
      rwa [List.append_nil] at this) hend f.sections
    (fun s hs rest => section_follows (h.sections s hs).1 rest)
    (by
      intro s hs pre
      unfold InpSection.text
      rw [List.reverse_append, List.append_assoc]
      exact elements_bol (h.sections s hs).2.1 _)
    (by intro s hs ho; simp at ho)
    (by
      intro s hs m hm rest pre hp hr
      obtain ⟨⟨hk1, hk2⟩, hne, hel⟩ := h.sections s hs
      simp only [Option.some.injEq] at hm
      subst hm
      refine ⟨⟨(lines InpElement.line s.elements).reverse ++ ((lines id s.keys).reverse ++ pre), rest,
        [(1, lines InpElement.line s.elements)]⟩, ?_, ?_⟩
      · unfold InpSection.text
        rw [List.append_assoc, skip_inpElem (b := true) (fun _ => rfl)]
        · exact search_inpElems hne hel hr (lines_bol hk1 pre)
        · have := scan_keyLines s.keys (fun l hl => (hk2 l hl).1) (w := []) (v := lines InpElement.line s.elements ++ rest) rfl
          rwa [List.append_nil] at this
      · simp only [InpSection.text, List.reverse_append, List.append_assoc])
    (f.text.length + 1) head.reverse
    (by
      have h1 := flatMap_length_le InpSection.text f.sections (by
        intro s hs
        obtain ⟨k, ks, hk⟩ := List.exists_cons_of_ne_nil (h.sections s hs).1.1
        unfold InpSection.text
        rw [hk]; simp [lines])
      rw [et]
      simp only [List.length_append] at h1 ⊢; omega) hbol
  rw [this]
  simp

lemma inpRead_ok {f : InpMesh} (h : f.Written) {secs : List (List (List ℤ))} (hs : inpSections f.data = .ok secs) :
    inpRead f.text = .ok f.data := by
  obtain ⟨m, h1, h2⟩ := mesh_nodes h
  have h3 : mapAll inpSectionOf (f.sections.map sectionMatch) =
      .ok (f.sections.map fun s => s.elements.map fun e => e.others.map Prod.snd) := by
    refine mapAll_map inpSectionOf sectionMatch _ f.sections ?_
    intro s hs
    unfold inpSectionOf sectionMatch
    rw [group_one, findall_inpElem (h.sections s hs).2.2]
    exact mapAll_map inpElemOf _ _ s.elements fun e he => inpElemOf_ok ((h.sections s hs).2.2 e he)
  unfold inpRead
  simp only [h1, h2, mesh_sections h, h3]
  have : inpSections ⟨f.nodes.map fun n => (n.id, n.p), f.sections.map fun s => s.elements.map fun e => e.others.map Prod.snd⟩ =
    .ok secs := hs
  simp only [this]
  rfl

/-! ### The lines of the INP file -/

/-- No match at the start of a line which does not start with a blank. -/
lemma line_fails {k : Re} {pre post : Str} {g : List (ℕ × Str)} (hs : Stops isSpace post) (hk : k.runs ⟨pre, post, g⟩ = []) :
    (Re.seq .bol (.seq .ws k)).runs ⟨pre, post, g⟩ = [] := by
  refine runs_seq_nil ?_
  intro t ht
  obtain ⟨rfl, -⟩ := mem_bol ht
  refine runs_seq_nil ?_
  intro t ht
  have : Re.ws.runs ⟨pre, post, g⟩ = [⟨pre, post, g⟩] := runs_star_stop (Stops.runs hs pre g)
  rw [this] at ht
  simp only [List.mem_singleton] at ht
  subst ht
  exact hk

lemma bol_fails {k : Re} {pre post : Str} {g : List (ℕ × Str)} (h : ¬ AtBol pre) :
    (Re.seq .bol k).runs ⟨pre, post, g⟩ = [] := runs_seq_nil_left (runs_bol_nil h)

lemma inp_not_bol {w : Str} (hw : '\n' ∉ w) (hne : w ≠ []) (pre : Str) : ¬ AtBol (w.reverse ++ pre) := by
  obtain ⟨l', s, hs⟩ : ∃ l' s, w = l' ++ [s] := by
    rcases List.eq_nil_or_concat w with e | ⟨l', s, e⟩
    · exact absurd e hne
    · exact ⟨l', s, by rw [e, List.concat_eq_append]⟩
  subst hs
  rintro (h | h)
  · simp at h
  · simp only [List.reverse_append, List.reverse_cons, List.reverse_nil, List.nil_append, List.cons_append, List.head?_cons,
      Option.some.injEq] at h
    subst h
    exact hw (by simp)

/-- A line without match. -/
lemma skip_line {k : Re} {line : Str} (hnl : '\n' ∉ line) (hne : line ≠ []) (hs : ∀ r, Stops isSpace (line ++ r)) (rest pre : Str)
    (hk : ∀ pre, k.runs ⟨pre, (line ++ nl) ++ rest, []⟩ = []) :
    reSearch (Re.seq .bol (.seq .ws k)) ((line ++ nl) ++ rest) pre =
      reSearch (Re.seq .bol (.seq .ws k)) rest ((line ++ nl).reverse ++ pre) := by
  refine reSearch_skip ?_
  intro w1 c w2 e
  by_cases h1 : w1 = []
  · subst h1
    have e' : c :: (w2 ++ rest) = (line ++ nl) ++ rest := by rw [e]; rfl
    rw [e']
    refine line_fails ?_ (hk _)
    rw [List.append_assoc]
    exact hs _
  · refine bol_fails (inp_not_bol ?_ h1 pre)
    intro hc
    have : w1 <+: line := by
      rcases List.append_eq_append_iff.1 e with ⟨a, ha, hb⟩ | ⟨a, ha, -⟩
      · have : a = [] := by
          have := congrArg List.length hb
          simp [nl] at this
          exact List.length_eq_zero_iff.1 (by omega)
        subst this
        rw [List.append_nil] at ha
        exact ⟨[], by rw [ha, List.append_nil]⟩
      · exact ⟨a, ha.symm⟩
    exact hnl (this.subset hc)

/-- The end of line after a match. -/
lemma skip_nl {k : Re} {pre rest : Str} (h : ¬ AtBol pre) :
    reSearch (Re.seq .bol k) (nl ++ rest) pre = reSearch (Re.seq .bol k) rest (nl.reverse ++ pre) := by
  refine reSearch_skip ?_
  intro w1 c w2 e
  have h1 : w1 = [] := by
    have := congrArg List.length e
    simp [nl] at this
    exact List.length_eq_zero_iff.1 (by omega)
  subst h1
  exact bol_fails h

lemma line_end {k : Re} (hk : ∀ pre, k.runs ⟨pre, [], []⟩ = []) (pre : Str) : reSearch (Re.seq .bol (.seq .ws k)) [] pre = none := by
  refine reSearch_none ?_
  intro w1 w2 e
  have : w2 = [] := by
    rw [eq_comm, List.append_eq_nil_iff] at e
    exact e.2
  subst this
  exact line_fails (Stops.nil _) (hk _)

/-- What follows the blanks in the expression of the frames, and of the fields. -/
def frameK : Re := .seq (.lit "*FRAME,NAME=".toList) <| .seq (.group 1 .dots1) <| .seq .eols1 (.group 2 .dots)

def fieldK : Re :=
  .seq (.lit "*".toList) <| .seq (.group 1 (.alt (.lit "NODE".toList) (.lit "ELEMENT".toList))) <|
  .seq (.lit ",".toList) (.group 2 .dots)

lemma frameK_fails {pre post : Str} {g : List (ℕ × Str)} (h : ¬ "*FRAME,NAME=".toList <+: post) : frameK.runs ⟨pre, post, g⟩ = [] := by
  refine runs_seq_nil_left ?_
  by_contra hc
  obtain ⟨t, ht⟩ := List.exists_mem_of_ne_nil _ hc
  obtain ⟨w, hw, -⟩ := mem_lit ht
  exact h ⟨_, hw.symm⟩

lemma fieldK_fails {pre post : Str} {g : List (ℕ × Str)} (h1 : ¬ "*NODE,".toList <+: post) (h2 : ¬ "*ELEMENT,".toList <+: post) :
    fieldK.runs ⟨pre, post, g⟩ = [] := by
  by_contra hc
  obtain ⟨t, ht⟩ := List.exists_mem_of_ne_nil _ hc
  obtain ⟨u, hu, ht⟩ := List.mem_flatMap.1 ht
  obtain ⟨w, hw, rfl⟩ := mem_lit hu
  obtain ⟨u, hu, ht⟩ := List.mem_flatMap.1 ht
  obtain ⟨u', hu', rfl⟩ := List.mem_map.1 hu
  obtain ⟨u2, hu2, -⟩ := List.mem_flatMap.1 ht
  rcases List.mem_append.1 hu' with hu' | hu'
  · obtain ⟨w', hw', rfl⟩ := mem_lit hu'
    obtain ⟨w2, hw2, -⟩ := mem_lit hu2
    simp only at hw hw' hw2
    exact h1 ⟨w2, by rw [hw, hw', hw2]; rfl⟩
  · obtain ⟨w', hw', rfl⟩ := mem_lit hu'
    obtain ⟨w2, hw2, -⟩ := mem_lit hu2
    simp only at hw hw' hw2
    exact h2 ⟨w2, by rw [hw, hw', hw2]; rfl⟩

/-- The vector of a frame. -/
def vecText (wx wy wz : Str) (s1 s2 : Char) : Str := wx ++ s1 :: (wy ++ s2 :: wz)

/-- The matches of the two expressions in a line. -/
def frameMatch : InpLine → Option ReMatch
  | .frame name wx wy wz s1 s2 _ => some ⟨("*FRAME,NAME=".toList ++ name ++ nl) ++ vecText wx wy wz s1 s2,
      [(2, vecText wx wy wz s1 s2), (1, name)]⟩
  | _ => none

def fieldMatch : InpLine → Option ReMatch
  | .field node opts => some ⟨'*' :: (fieldType node ++ ',' :: optsText opts), [(2, optsText opts), (1, fieldType node)]⟩
  | _ => none

lemma text_other (l : Str) : (InpLine.other l).text = l ++ nl := rfl

lemma text_frame (name wx wy wz : Str) (s1 s2 : Char) (v : V3 ℚ) : (InpLine.frame name wx wy wz s1 s2 v).text =
    ("*FRAME,NAME=".toList ++ name ++ nl) ++ (vecText wx wy wz s1 s2 ++ nl) := rfl

lemma text_field (node : Bool) (opts : List (Str × Str)) : (InpLine.field node opts).text =
    ('*' :: (fieldType node ++ ',' :: optsText opts)) ++ nl := rfl

lemma frameMatch_other (l : Str) : frameMatch (.other l) = none := rfl
lemma frameMatch_field (node : Bool) (opts : List (Str × Str)) : frameMatch (.field node opts) = none := rfl
lemma frameMatch_frame (name wx wy wz : Str) (s1 s2 : Char) (v : V3 ℚ) : frameMatch (.frame name wx wy wz s1 s2 v) =
    some ⟨("*FRAME,NAME=".toList ++ name ++ nl) ++ vecText wx wy wz s1 s2, [(2, vecText wx wy wz s1 s2), (1, name)]⟩ := rfl

lemma line_bol (l : InpLine) (pre : Str) : AtBol (l.text.reverse ++ pre) := by
  right
  cases l with
  | other l => rw [text_other]; simp [nl]
  | frame => rw [text_frame]; simp only [List.reverse_append, nl]; rfl
  | field => rw [text_field]; simp only [List.reverse_append, nl]; rfl

lemma line_pos (l : InpLine) : l.text ≠ [] := by
  intro h
  rcases line_bol l ['a'] with hc | hc
  · simp at hc
  · rw [h] at hc; exact absurd hc (by decide)

lemma number_word {w : Str} {x : ℚ} (h : VectorWord w x) : Word w := ⟨h.2.1, fun c hc => (h.2.2 c hc).1⟩

lemma vec_plain {wx wy wz : Str} {s1 s2 : Char} {v : V3 ℚ} (hx : VectorWord wx v.x) (hy : VectorWord wy v.y)
    (hz : VectorWord wz v.z) (h1 : s1 = ',' ∨ s1 = ' ') (h2 : s2 = ',' ∨ s2 = ' ') : '\n' ∉ vecText wx wy wz s1 s2 := by
  unfold vecText
  simp only [List.mem_append, List.mem_cons, not_or]
  refine ⟨word_plain (number_word hx), ?_, word_plain (number_word hy), ?_, word_plain (number_word hz)⟩
  · rcases h1 with rfl | rfl <;> decide
  · rcases h2 with rfl | rfl <;> decide

lemma optsText_plain {opts : List (Str × Str)} (h : ∀ o ∈ opts, '\n' ∉ o.1 ∧ '\n' ∉ o.2) : '\n' ∉ optsText opts := by
  induction opts with
  | nil => simp [optsText]
  | cons o os ih =>
    have ho := h o (by simp)
    have h1 : '\n' ∉ optText o := by
      unfold optText
      simp only [List.mem_append, List.mem_cons, not_or]
      exact ⟨ho.1, by decide, ho.2⟩
    cases os with
    | nil => exact h1
    | cons o' os =>
      show '\n' ∉ optText o ++ ',' :: optsText (o' :: os)
      simp only [List.mem_append, List.mem_cons, not_or]
      exact ⟨h1, by decide, ih fun o ho => h o (by simp [ho])⟩

lemma fieldType_plain (node : Bool) : '\n' ∉ fieldType node := by cases node <;> decide

lemma field_plain {node : Bool} {opts : List (Str × Str)} (h : (InpLine.field node opts).Written) :
    '\n' ∉ '*' :: (fieldType node ++ ',' :: optsText opts) := by
  simp only [List.mem_append, List.mem_cons, not_or]
  refine ⟨by decide, fieldType_plain node, by decide, optsText_plain ?_⟩
  intro o ho
  have := h.2.2.2 o ho
  exact ⟨fun hc => (this.1 _ hc).2.2 rfl, this.2.2.1⟩

lemma stops_nl_dot (rest : Str) : Stops (fun c => c != '\n') (nl ++ rest) := stops_cons (by decide) _

lemma first_dots {w : Str} (hw : '\n' ∉ w) (rest pre : Str) (g : List (ℕ × Str)) :
    Re.dots.first ⟨pre, w ++ (nl ++ rest), g⟩ = some ⟨w.reverse ++ pre, nl ++ rest, g⟩ :=
  first_star_chr (p := fun c => c != '\n') (fun c hc => by simp only [bne_iff_ne, ne_eq]; rintro rfl; exact hw hc)
    (stops_nl_dot rest) pre g

lemma search_field {node : Bool} {opts : List (Str × Str)} (h : (InpLine.field node opts).Written) (rest pre : Str)
    (hp : AtBol pre) : ∃ t, reSearch inpField ((InpLine.field node opts).text ++ rest) pre =
      some (⟨'*' :: (fieldType node ++ ',' :: optsText opts), [(2, optsText opts), (1, fieldType node)]⟩, t) ∧
      reSearch inpField t.post t.pre = reSearch inpField rest ((InpLine.field node opts).text.reverse ++ pre) := by
  have hpl := field_plain h
  have hopts : '\n' ∉ optsText opts := fun hc => hpl (by simp [hc])
  have key : inpField.first ⟨pre, ('*' :: (fieldType node ++ ',' :: optsText opts)) ++ (nl ++ rest), []⟩ =
      some ⟨('*' :: (fieldType node ++ ',' :: optsText opts)).reverse ++ pre, nl ++ rest,
        [(2, optsText opts), (1, fieldType node)]⟩ := by
    have e2 : ('*' :: (fieldType node ++ ',' :: optsText opts)) ++ (nl ++ rest) =
        "*".toList ++ (fieldType node ++ (",".toList ++ (optsText opts ++ (nl ++ rest)))) := by
      simp
    rw [e2]
    refine first_seq (first_bol hp) ?_
    refine first_seq (first_ws (b := []) (by intro c hc; simp at hc) (stops_cons (by decide) _)) ?_
    refine first_seq (first_lit _ _ _ _) ?_
    refine first_seq (first_group' (w := fieldType node) (g' := []) ?_) ?_
    · cases node with
      | true => exact first_alt_left (first_lit _ _ _ _)
      | false =>
        rw [first_alt_right]
        · exact first_lit _ _ _ _
        · by_contra hc
          obtain ⟨t, ht⟩ := List.exists_mem_of_ne_nil _ hc
          obtain ⟨w, hw, -⟩ := mem_lit ht
          exact absurd (congrArg List.head? hw) (by simp [fieldType])
    refine first_seq (first_lit _ _ _ _) ?_
    rw [first_group' (first_dots hopts _ _ _)]
    simp
  refine ⟨⟨('*' :: (fieldType node ++ ',' :: optsText opts)).reverse ++ pre, nl ++ rest,
    [(2, optsText opts), (1, fieldType node)]⟩, ?_, ?_⟩
  · rw [show (InpLine.field node opts).text ++ rest = ('*' :: (fieldType node ++ ',' :: optsText opts)) ++ (nl ++ rest) by
      rw [text_field, List.append_assoc]]
    exact reSearch_hit' key
  · have := skip_nl (k := .seq .ws fieldK) (rest := rest) (inp_not_bol hpl (by simp) pre)
    refine Eq.trans this ?_
    rw [text_field, List.reverse_append, List.append_assoc]
    rfl

lemma name_stops {w : Str} (h : NameWord w) : '\n' ∉ w ∧ w ≠ [] := by
  obtain ⟨h1, c, t, rfl, -⟩ := h
  exact ⟨h1, by simp⟩

lemma search_frame {name wx wy wz : Str} {s1 s2 : Char} {v : V3 ℚ} (h : (InpLine.frame name wx wy wz s1 s2 v).Written)
    (rest pre : Str) (hp : AtBol pre) : ∃ t, reSearch inpFrame ((InpLine.frame name wx wy wz s1 s2 v).text ++ rest) pre =
      some (⟨("*FRAME,NAME=".toList ++ name ++ nl) ++ vecText wx wy wz s1 s2, [(2, vecText wx wy wz s1 s2), (1, name)]⟩, t) ∧
      reSearch inpFrame t.post t.pre = reSearch inpFrame rest ((InpLine.frame name wx wy wz s1 s2 v).text.reverse ++ pre) := by
  obtain ⟨hn, hx, hy, hz, hs1, hs2⟩ := h
  have hvec := vec_plain hx hy hz hs1 hs2
  obtain ⟨hn1, hn2⟩ := name_stops hn
  have hvs : ∀ r, Stops isSpace (vecText wx wy wz s1 s2 ++ r) := by
    intro r
    unfold vecText
    rw [List.append_assoc]
    exact Word.stops (number_word hx) _
  have key : inpFrame.first ⟨pre, (("*FRAME,NAME=".toList ++ name ++ nl) ++ vecText wx wy wz s1 s2) ++ (nl ++ rest), []⟩ =
      some ⟨(("*FRAME,NAME=".toList ++ name ++ nl) ++ vecText wx wy wz s1 s2).reverse ++ pre, nl ++ rest,
        [(2, vecText wx wy wz s1 s2), (1, name)]⟩ := by
    have e2 : (("*FRAME,NAME=".toList ++ name ++ nl) ++ vecText wx wy wz s1 s2) ++ (nl ++ rest) =
        "*FRAME,NAME=".toList ++ (name ++ (nl ++ (vecText wx wy wz s1 s2 ++ (nl ++ rest)))) := by
      simp only [List.append_assoc]
    rw [e2]
    refine first_seq (first_bol hp) ?_
    refine first_seq (first_ws (b := []) (by intro c hc; simp at hc) (stops_cons (by decide) _)) ?_
    refine first_seq (first_lit _ _ _ _) ?_
    refine first_seq (first_group' (w := name) (g' := []) (first_plus_chr (p := fun c => c != '\n') hn2
      (fun c hc => by simp only [bne_iff_ne, ne_eq]; rintro rfl; exact hn1 hc) (stops_nl_dot _) _ _)) ?_
    refine first_seq (first_plus_chr (p := fun c => c == '\r' || c == '\n') (w := nl) (by simp [nl])
      (by intro c hc; simp only [nl, List.mem_singleton] at hc; subst hc; decide) (stops_eol (hvs _)) _ _) ?_
    rw [first_group' (first_dots hvec _ _ _)]
    simp only [List.reverse_append, List.append_assoc]
    rfl
  refine ⟨⟨(("*FRAME,NAME=".toList ++ name ++ nl) ++ vecText wx wy wz s1 s2).reverse ++ pre, nl ++ rest,
    [(2, vecText wx wy wz s1 s2), (1, name)]⟩, ?_, ?_⟩
  · rw [show (InpLine.frame name wx wy wz s1 s2 v).text ++ rest =
      (("*FRAME,NAME=".toList ++ name ++ nl) ++ vecText wx wy wz s1 s2) ++ (nl ++ rest) by
        rw [text_frame]; simp only [List.append_assoc]]
    exact reSearch_hit' key
  · have hnb : ¬ AtBol ((("*FRAME,NAME=".toList ++ name ++ nl) ++ vecText wx wy wz s1 s2).reverse ++ pre) := by
      rw [List.reverse_append, List.append_assoc]
      refine inp_not_bol hvec ?_ _
      unfold vecText
      simp
    have := skip_nl (k := .seq .ws frameK) (rest := rest) hnb
    refine Eq.trans this ?_
    rw [text_frame]
    simp only [List.reverse_append, List.append_assoc]
    rfl

lemma prefix_nl {w l rest : Str} (hw : ∀ c ∈ w, isSpace c = false) (h : ¬ w <+: l) : ¬ w <+: (l ++ nl) ++ rest := by
  intro hc
  rw [List.append_assoc] at hc
  exact h (prefix_word hw (stops_cons (by decide) _) hc)

lemma stops_line {l : Str} (h : ∃ c t, l = c :: t ∧ isSpace c = false) (r : Str) : Stops isSpace (l ++ r) := by
  obtain ⟨c, t, rfl, hc⟩ := h
  exact stops_cons hc _

/-- The lines of the frames are found. -/
lemma findall_frames {ls : List InpLine} (h : ∀ l ∈ ls, l.Written) :
    findall inpFrame (ls.flatMap InpLine.text) = ls.filterMap frameMatch := by
  unfold findall
  have := findall_blocks (r := inpFrame) InpLine.text frameMatch (fun _ => True) [] trivial
    (fun pre _ => line_end (k := frameK) (fun pre => frameK_fails (by simp)) pre) ls (fun _ _ _ => trivial)
    (fun l _ pre => line_bol l pre)
    (by
      intro l hl ho rest pre hp _
      cases l with
      | other l =>
        obtain ⟨h1, h2, h3, -⟩ := h _ hl
        exact skip_line (k := frameK) h1 (by obtain ⟨c, t, rfl, -⟩ := h2; simp) (stops_line h2) rest pre
          (fun pre => frameK_fails (prefix_nl (by decide) h3))
      | frame => exact absurd ho (by rw [frameMatch_frame]; simp)
      | field node opts =>
        exact skip_line (k := frameK) (field_plain (h _ hl)) (by simp) (fun r => stops_cons (by decide) _) rest pre
          (fun pre => frameK_fails (by cases node <;> simp [fieldType])))
    (by
      intro l hl m ho rest pre hp _
      cases l with
      | other l => exact absurd ho (by rw [frameMatch_other]; simp)
      | frame name wx wy wz s1 s2 v =>
        rw [frameMatch_frame, Option.some.injEq] at ho
        subst ho
        exact search_frame (h _ hl) rest pre hp
      | field => exact absurd ho (by rw [frameMatch_field]; simp))
    ((ls.flatMap InpLine.text).length + 1) []
    (by
      have := flatMap_length_le InpLine.text ls (fun l _ => line_pos l)
      omega) (Or.inl rfl)
  rw [List.append_nil] at this
  exact this

/-- The lines of the nodes and of the elements are found. -/
lemma findall_fields {ls : List InpLine} (h : ∀ l ∈ ls, l.Written) :
    findall inpField (ls.flatMap InpLine.text) = ls.filterMap fieldMatch := by
  unfold findall
  have := findall_blocks (r := inpField) InpLine.text fieldMatch (fun _ => True) [] trivial
    (fun pre _ => line_end (k := fieldK) (fun pre => fieldK_fails (by simp) (by simp)) pre) ls (fun _ _ _ => trivial)
    (fun l _ pre => line_bol l pre)
    (by
      intro l hl ho rest pre hp _
      cases l with
      | other l =>
        obtain ⟨h1, h2, -, h3, h4⟩ := h _ hl
        exact skip_line (k := fieldK) h1 (by obtain ⟨c, t, rfl, -⟩ := h2; simp) (stops_line h2) rest pre
          (fun pre => fieldK_fails (prefix_nl (by decide) h3) (prefix_nl (by decide) h4))
      | frame name wx wy wz s1 s2 v =>
        obtain ⟨hn, hx, hy, hz, hs1, hs2⟩ := h _ hl
        have hvec := vec_plain hx hy hz hs1 hs2
        obtain ⟨hn1, hn2⟩ := name_stops hn
        have e : (InpLine.frame name wx wy wz s1 s2 v).text ++ rest =
            (("*FRAME,NAME=".toList ++ name) ++ nl) ++ ((vecText wx wy wz s1 s2 ++ nl) ++ rest) := by
          rw [text_frame]; simp only [List.append_assoc]
        rw [e]
        refine (skip_line (k := fieldK) (line := "*FRAME,NAME=".toList ++ name) ?_ (by simp) (fun r => stops_cons (by decide) _)
          _ pre (fun pre => fieldK_fails (by simp) (by simp))).trans ?_
        · intro hc
          rcases List.mem_append.1 hc with hc | hc
          · exact absurd hc (by decide)
          · exact hn1 hc
        have hw : ∃ c t, wx = c :: t ∧ isSpace c = false ∧ c ≠ '*' := by
          obtain ⟨c, t, hw⟩ := List.exists_cons_of_ne_nil hx.2.1
          have := hx.2.2 c (by rw [hw]; simp)
          exact ⟨c, t, hw, this.1, this.2.2⟩
        obtain ⟨c, t, hwc, hcs, hct⟩ := hw
        refine (skip_line (k := fieldK) (line := vecText wx wy wz s1 s2) hvec (by unfold vecText; simp)
          (by intro r; unfold vecText; rw [hwc]; exact stops_cons hcs _) _ _ (fun pre => fieldK_fails ?_ ?_)).trans ?_
        · unfold vecText; rw [hwc]; simp [Ne.symm hct]
        · unfold vecText; rw [hwc]; simp [Ne.symm hct]
        · rw [text_frame]
          simp only [List.reverse_append, List.append_assoc]
          rfl
      | field => simp [fieldMatch] at ho)
    (by
      intro l hl m ho rest pre hp _
      cases l with
      | other l => simp [fieldMatch] at ho
      | frame => simp [fieldMatch] at ho
      | field node opts =>
        simp only [fieldMatch, Option.some.injEq] at ho
        subst ho
        exact search_field (h _ hl) rest pre hp)
    ((ls.flatMap InpLine.text).length + 1) []
    (by
      have := flatMap_length_le InpLine.text ls (fun l _ => line_pos l)
      omega) (Or.inl rfl)
  rw [List.append_nil] at this
  exact this

/-! ### Options and vectors -/

lemma strip_name {w : Str} (h : NameWord w) : strip w = w := by
  obtain ⟨-, c, t, hw, hc, t', c', hw', hc'⟩ := h
  have h1 : w.dropWhile isSpace = w := by rw [hw]; simp [hc]
  unfold strip
  rw [h1]
  conv_lhs => rw [hw']
  rw [List.reverse_append]
  simp only [List.reverse_cons, List.reverse_nil, List.nil_append, List.singleton_append, List.dropWhile_cons, hc',
    Bool.false_eq_true, if_false, List.reverse_reverse]
  exact hw'.symm

lemma cutAt_plain {p : Char → Bool} {w : Str} (h : ∀ c ∈ w, p c = false) : cutAt p w = [w] := by
  induction w with
  | nil => rfl
  | cons c w ih => simp [cutAt, h c (by simp), ih fun c hc => h c (by simp [hc])]

lemma cutAt_cons {p : Char → Bool} {w : Str} (h : ∀ c ∈ w, p c = false) {c : Char} (hc : p c = true) (r : Str) :
    cutAt p (w ++ c :: r) = w :: cutAt p r := by
  induction w with
  | nil => simp [cutAt, hc]
  | cons a w ih => simp [cutAt, h a (by simp), ih fun c hc => h c (by simp [hc])]

lemma inpOpt_ok {o : Str × Str} (h1 : ∀ c ∈ o.1, c ≠ '=') (h2 : ∀ c ∈ o.2, c ≠ '=') (h3 : NameWord o.2) :
    inpOpt (optText o) = .ok o := by
  unfold inpOpt optText
  rw [cutAt_cons (by simpa using h1) (by decide), cutAt_plain (by simpa using h2)]
  simp only [strip_name h3]

lemma cut_opts {opts : List (Str × Str)} (hne : opts ≠ []) (h : ∀ o ∈ opts, ∀ c ∈ optText o, c ≠ ',') :
    cutAt (· == ',') (optsText opts) = opts.map optText := by
  induction opts with
  | nil => exact absurd rfl hne
  | cons o os ih =>
    have ho : ∀ c ∈ optText o, (c == ',') = false := by simpa using h o (by simp)
    cases os with
    | nil => exact cutAt_plain ho
    | cons o' os =>
      show cutAt _ (optText o ++ ',' :: optsText (o' :: os)) = _
      rw [cutAt_cons ho (by decide), ih (by simp) fun o h' => h o (by simp [h'])]
      rfl

lemma lookup_mem {α : Type} {l : List (Str × α)} (h : (l.map Prod.fst).Nodup) {k : Str} {x : α} (hm : (k, x) ∈ l) :
    l.lookup k = some x := by
  induction l with
  | nil => simp at hm
  | cons p l ih =>
    rw [List.map_cons, List.nodup_cons] at h
    rcases List.mem_cons.1 hm with rfl | hm
    · simp
    · have : k ≠ p.1 := by
        rintro rfl
        exact h.1 (List.mem_map.2 ⟨_, hm, rfl⟩)
      rw [List.lookup_cons, beq_eq_false_iff_ne.2 this]
      exact ih h.2 hm

lemma lookup_reverse {α : Type} {l : List (Str × α)} (h : (l.map Prod.fst).Nodup) {k : Str} {x : α} (hm : (k, x) ∈ l) :
    l.reverse.lookup k = some x :=
  lookup_mem (by rw [List.map_reverse]; exact List.nodup_reverse.2 h) (by simpa using hm)

/-- The dictionary of a field. -/
def fieldDict (p : Bool × List (Str × Str)) : List (Str × Str) :=
  p.2.reverse ++ ((if fieldType p.1 = "NODE".toList then [("INCREMENT".toList, "NO".toList)] else []) ++
    [("type".toList, fieldType p.1)])

lemma dict_opt {node : Bool} {opts : List (Str × Str)} (h : (InpLine.field node opts).Written) {k x : Str} (hm : (k, x) ∈ opts) :
    getKey (fieldDict (node, opts)) k = .ok x := by
  unfold getKey fieldDict
  rw [List.lookup_append, lookup_reverse h.2.1 hm]
  rfl

lemma dict_type {node : Bool} {opts : List (Str × Str)} (h : (InpLine.field node opts).Written) :
    getKey (fieldDict (node, opts)) "type".toList = .ok (fieldType node) := by
  unfold getKey fieldDict
  have h1 : opts.reverse.lookup "type".toList = none := by
    rw [List.lookup_eq_none_iff]
    intro p hp
    have : "type".toList ≠ p.1 := by
      intro he
      exact h.2.2.1 (by rw [he]; exact List.mem_map.2 ⟨p, by simpa using hp, rfl⟩)
    simpa using this
  rw [List.lookup_append, h1]
  cases node <;> rfl

lemma dict_increment {opts : List (Str × Str)} : ∃ x, getKey (fieldDict (true, opts)) "INCREMENT".toList = .ok x := by
  unfold getKey fieldDict
  rw [List.lookup_append]
  cases opts.reverse.lookup "INCREMENT".toList with
  | none => exact ⟨_, rfl⟩
  | some x => exact ⟨x, rfl⟩

lemma inpFieldOf_ok {node : Bool} {opts : List (Str × Str)} (h : (InpLine.field node opts).Written) {x : Str}
    (hx : ("INPUT".toList, x) ∈ opts) :
    inpFieldOf ⟨'*' :: (fieldType node ++ ',' :: optsText opts), [(2, optsText opts), (1, fieldType node)]⟩ =
      .ok (fieldDict (node, opts)) := by
  have g1 : ReMatch.group ⟨'*' :: (fieldType node ++ ',' :: optsText opts), [(2, optsText opts), (1, fieldType node)]⟩ 1 =
      fieldType node := rfl
  have g2 : ReMatch.group ⟨'*' :: (fieldType node ++ ',' :: optsText opts), [(2, optsText opts), (1, fieldType node)]⟩ 2 =
      optsText opts := rfl
  have hw := h.2.2.2
  have hm : mapAll inpOpt (opts.map optText) = .ok opts := by
    rw [mapAll_map inpOpt optText id opts fun o ho => inpOpt_ok (fun c hc => ((hw o ho).1 c hc).2.1)
      (fun c hc => ((hw o ho).2.1 c hc).2) (hw o ho).2.2, List.map_id]
  have hc : cutAt (· == ',') (optsText opts) = opts.map optText := by
    refine cut_opts h.1 ?_
    intro o ho c hc
    unfold optText at hc
    rcases List.mem_append.1 hc with hc | hc
    · exact ((hw o ho).1 c hc).1
    · rcases List.mem_cons.1 hc with rfl | hc
      · decide
      · exact ((hw o ho).2.1 c hc).1
  have h1 := dict_opt h hx
  have h2 := dict_type h
  unfold fieldDict at h1 h2
  simp only at h1 h2
  unfold inpFieldOf
  rw [g1, g2, hc, hm]
  simp only
  rw [h1, h2]
  simp only
  rw [if_pos (by cases node <;> simp [fieldType])]
  rfl

lemma inpFrameOf_ok {name wx wy wz : Str} {s1 s2 : Char} {v : V3 ℚ} (h : (InpLine.frame name wx wy wz s1 s2 v).Written) :
    inpFrameOf ⟨("*FRAME,NAME=".toList ++ name ++ nl) ++ vecText wx wy wz s1 s2, [(2, vecText wx wy wz s1 s2), (1, name)]⟩ =
      .ok (name, [v.x, v.y, v.z]) := by
  obtain ⟨hn, hx, hy, hz, hs1, hs2⟩ := h
  have g1 : ReMatch.group ⟨("*FRAME,NAME=".toList ++ name ++ nl) ++ vecText wx wy wz s1 s2,
    [(2, vecText wx wy wz s1 s2), (1, name)]⟩ 1 = name := rfl
  have g2 : ReMatch.group ⟨("*FRAME,NAME=".toList ++ name ++ nl) ++ vecText wx wy wz s1 s2,
    [(2, vecText wx wy wz s1 s2), (1, name)]⟩ 2 = vecText wx wy wz s1 s2 := rfl
  have hvn : NameWord (vecText wx wy wz s1 s2) := by
    refine ⟨vec_plain hx hy hz hs1 hs2, ?_⟩
    obtain ⟨c, t, hwx⟩ := List.exists_cons_of_ne_nil hx.2.1
    have hl := List.dropLast_append_getLast hz.2.1
    refine ⟨c, t ++ s1 :: (wy ++ s2 :: wz), by unfold vecText; rw [hwx]; rfl, (hx.2.2 c (by rw [hwx]; simp)).1,
      wx ++ s1 :: (wy ++ s2 :: wz.dropLast), wz.getLast hz.2.1, ?_, (hz.2.2 _ (List.getLast_mem _)).1⟩
    unfold vecText
    conv_lhs => rw [← hl]
    simp
  have hp : ∀ (w : Str) (x : ℚ), VectorWord w x → ∀ c ∈ w, (c == ',' || c == ' ') = false := by
    intro w x hw c hc
    have := hw.2.2 c hc
    simp only [Bool.or_eq_false_iff, beq_eq_false_iff_ne]
    refine ⟨this.2.1, ?_⟩
    rintro rfl
    exact absurd this.1 (by decide)
  have hs : ∀ s : Char, s = ',' ∨ s = ' ' → (s == ',' || s == ' ') = true := by
    rintro s (rfl | rfl) <;> decide
  unfold inpFrameOf
  rw [g1, g2, strip_name hvn, strip_name hn]
  unfold vecText
  rw [cutAt_cons (hp _ _ hx) (hs _ hs1), cutAt_cons (hp _ _ hy) (hs _ hs2), cutAt_plain (hp _ _ hz)]
  simp [floats, convAll, conv, hx.1, hy.1, hz.1]

lemma mapAll_filterMap {α β γ : Type} (p : β → Except PyErr γ) (a : α → Option β) (b : α → Option γ) (l : List α)
    (h0 : ∀ x ∈ l, a x = none → b x = none) (h1 : ∀ x ∈ l, ∀ y, a x = some y → ∃ z, b x = some z ∧ p y = .ok z) :
    mapAll p (l.filterMap a) = .ok (l.filterMap b) := by
  induction l with
  | nil => rfl
  | cons x l ih =>
    have ih' := ih (fun x hx => h0 x (by simp [hx])) (fun x hx => h1 x (by simp [hx]))
    cases ha : a x with
    | none => rw [List.filterMap_cons_none ha, List.filterMap_cons_none (h0 x (by simp) ha), ih']
    | some y =>
      obtain ⟨z, hz, hp⟩ := h1 x (by simp) y ha
      rw [List.filterMap_cons_some ha, List.filterMap_cons_some hz]
      simp [mapAll, hp, ih']

/-- The dictionary of the frames. -/
lemma frames_ok {ls : List InpLine} (h : ∀ l ∈ ls, l.Written) : mapAll inpFrameOf (findall inpFrame (ls.flatMap InpLine.text)) =
    .ok ((ls.filterMap InpLine.frame?).map fun p => (p.1, [p.2.x, p.2.y, p.2.z])) := by
  rw [findall_frames h, List.map_filterMap]
  refine mapAll_filterMap _ _ _ ls ?_ ?_
  · intro l _ hn
    cases l with
    | frame => exact absurd hn (by rw [frameMatch_frame]; simp)
    | other => rfl
    | field => rfl
  · intro l hl m hm
    cases l with
    | frame =>
      rw [frameMatch_frame, Option.some.injEq] at hm
      subst hm
      exact ⟨_, rfl, inpFrameOf_ok (h _ hl)⟩
    | other => exact absurd hm (by rw [frameMatch_other]; simp)
    | field => exact absurd hm (by rw [frameMatch_field]; simp)

/-- The dictionaries of the fields. -/
lemma fields_ok {ls : List InpLine} (h : ∀ l ∈ ls, l.Written)
    (hi : ∀ p ∈ ls.filterMap InpLine.field?, ∃ x, ("INPUT".toList, x) ∈ p.2) :
    mapAll inpFieldOf (findall inpField (ls.flatMap InpLine.text)) = .ok ((ls.filterMap InpLine.field?).map fieldDict) := by
  rw [findall_fields h, List.map_filterMap]
  refine mapAll_filterMap _ _ _ ls ?_ ?_
  · intro l _ hn
    cases l with
    | frame => rfl
    | other => rfl
    | field => simp [fieldMatch] at hn
  · intro l hl m hm
    cases l with
    | frame => simp [fieldMatch] at hm
    | other => simp [fieldMatch] at hm
    | field node opts =>
      simp only [fieldMatch, Option.some.injEq] at hm
      subst hm
      obtain ⟨x, hx⟩ := hi (node, opts) (List.mem_filterMap.2 ⟨_, hl, rfl⟩)
      exact ⟨_, rfl, inpFieldOf_ok (h _ hl) hx⟩

lemma names_one {name : Str} (ds : List (List (Str × Str))) (hne : ds ≠ [])
    (h : ∀ d ∈ ds, d.lookup "INPUT".toList = some name) : inpNames ds = [name] := by
  have h1 : ds.filterMap (List.lookup "INPUT".toList) = List.replicate ds.length name := by
    clear hne
    induction ds with
    | nil => rfl
    | cons d ds ih =>
      rw [List.filterMap_cons_some (h d (by simp)), ih fun d hd => h d (by simp [hd])]
      rfl
  have h2 : ∀ n, (List.replicate n name).foldl (fun l n => if n ∈ l then l else l ++ [n]) [name] = [name] := by
    intro n
    induction n with
    | zero => rfl
    | succ n ih => simpa [List.replicate_succ] using ih
  unfold inpNames
  rw [h1]
  obtain ⟨d, ds, rfl⟩ := List.exists_cons_of_ne_nil hne
  simpa [List.replicate_succ] using h2 ds.length

/-! ### The loop -/

lemma inpLoop_elements {frames : List (Str × List ℚ)} {name : Str} {files : ℕ → DatFile} {idx : ℕ}
    {secs : List (List (List ℤ))} (hs : inpSections (files 0) = .ok secs) (ds : List (List (Str × Str))) :
    ∀ (s : InpState), (∀ d ∈ ds, getKey d "INPUT".toList = .ok name ∧ getKey d "type".toList = .ok "ELEMENT".toList) →
      s.used 0 + ds.length ≤ secs.length → s.increment = some false → s.nbElems = s.faces.length →
      ∃ s', inpLoop frames [name] files idx s ds = .ok s' ∧ s'.vertices = s.vertices ∧ s'.increment = some false ∧
        s'.faces = s.faces ++ ((secs.drop (s.used 0)).take ds.length).flatten ∧ s'.nbElems = s'.faces.length := by
  induction ds with
  | nil => intro s _ _ hi hn; exact ⟨s, rfl, rfl, hi, by simp, hn⟩
  | cons d ds ih =>
    intro s hd hj hi hn
    obtain ⟨hd1, hd2⟩ := hd d (by simp)
    have hres : inpResolve frames [name] d = .ok (.element 0) := by
      unfold inpResolve
      rw [hd1, hd2]
      simp
    have hlt : s.used 0 < secs.length := by simp at hj; omega
    obtain ⟨s1, hstep, hv1, hi1, hf1, hn1, hu1⟩ : ∃ s1, inpStep files idx s (.element 0) = .ok s1 ∧ s1.vertices = s.vertices ∧
        s1.increment = some false ∧ s1.faces = s.faces ++ secs[s.used 0] ∧ s1.nbElems = s1.faces.length ∧
        (s1.used 0 = if s.used 0 + 1 = secs.length then 0 else s.used 0 + 1) := by
      have hfaces : (if s.nbElems = 0 then secs[s.used 0] else s.faces ++ secs[s.used 0]) = s.faces ++ secs[s.used 0] := by
        split
        · rename_i h0
          rw [hn] at h0
          rw [List.length_eq_zero_iff.1 h0, List.nil_append]
        · rfl
      refine ⟨{ s with
        faces := s.faces ++ secs[s.used 0], nbElems := (s.faces ++ secs[s.used 0]).length
        used := fun f => if f = 0 then (if s.used 0 + 1 = secs.length then 0 else s.used 0 + 1) else s.used f }, ?_, rfl, hi, rfl, rfl,
        rfl⟩
      unfold inpStep
      simp only [hs, List.getElem?_eq_getElem hlt, hi, Bool.false_eq_true, if_false, hfaces]
    by_cases hds : ds = []
    · subst hds
      refine ⟨s1, by simp [inpLoop, hres, hstep], hv1, hi1, ?_, hn1⟩
      rw [hf1, List.drop_eq_getElem_cons hlt, List.length_cons, List.take_succ_cons, List.flatten_cons, List.length_nil,
        List.take_zero, List.flatten_nil, List.append_nil]
    · have hpos : 0 < ds.length := List.length_pos_iff.2 hds
      have hu : s1.used 0 = s.used 0 + 1 := by
        rw [hu1, if_neg]
        simp at hj
        omega
      obtain ⟨s', h1, h2, h3, h4, h5⟩ := ih s1 (fun d h => hd d (by simp [h])) (by rw [hu]; simp at hj; omega) hi1 hn1
      refine ⟨s', by simp [inpLoop, hres, hstep, h1], h2.trans hv1, h3, ?_, h5⟩
      rw [h4, hf1, hu, List.drop_eq_getElem_cons hlt, List.length_cons, List.take_succ_cons, List.flatten_cons,
        List.append_assoc]

lemma inpSections_ok {f : InpMesh} (hid : (f.nodes.map RadNode.id).Nodup)
    (hn : ∀ s ∈ f.sections, ∀ e ∈ s.elements, ∀ n ∈ e.corners, ∃ m ∈ f.nodes, m.id = n) :
    ∃ ρ : ℕ → ℤ, inpSections f.data = .ok (f.sections.map fun s => s.elements.map fun e => e.corners.map ρ) ∧
      ∀ m ∈ f.nodes, ∃ i : ℕ, ρ m.id = (i : ℤ) + 1 ∧ f.nodes[i]? = some m := by
  have hids : f.data.nodes.map Prod.fst = f.nodes.map RadNode.id := by
    unfold InpMesh.data
    rw [List.map_map]
    rfl
  let ρ : ℕ → ℤ := fun n =>
    match renum (f.nodes.map RadNode.id) n with
    | .ok q => q
    | .error _ => 0
  have hρ : ∀ m ∈ f.nodes, ∃ i : ℕ, renum (f.nodes.map RadNode.id) m.id = .ok (ρ m.id) ∧ ρ m.id = (i : ℤ) + 1 ∧
      f.nodes[i]? = some m := by
    intro m hm
    obtain ⟨i, h1, h2⟩ := renum_node f.data.nodes (by rw [hids]; exact hid) (n := m.id) (p := m.p)
      (List.mem_map.2 ⟨m, hm, rfl⟩)
    rw [hids] at h1
    have h3 : ρ m.id = (i : ℤ) + 1 := by
      show (match renum (f.nodes.map RadNode.id) m.id with
        | .ok q => q
        | .error _ => 0) = _
      rw [h1]
    refine ⟨i, by rw [h1, h3], h3, ?_⟩
    unfold InpMesh.data at h2
    simp only [List.getElem?_map, Option.map_eq_some_iff, Prod.mk.injEq] at h2
    obtain ⟨m', hm', h4, -⟩ := h2
    rw [hm', List.inj_on_of_nodup_map hid (List.mem_of_getElem? hm') hm h4]
  refine ⟨ρ, ?_, fun m hm => ?_⟩
  · unfold inpSections
    rw [hids]
    refine mapAll_map _ _ _ f.sections ?_
    intro s hs
    refine mapAll_map _ _ _ s.elements ?_
    intro e he
    have hl : ∀ n ∈ e.others.map Prod.snd, renum (f.nodes.map RadNode.id) n = .ok (ρ n) := by
      intro n hne
      obtain ⟨m, hm, rfl⟩ := hn s hs e he n (by
        unfold InpElement.corners
        simp only
        split
        · exact List.mem_append_left _ hne
        · exact hne)
      exact (hρ m hm).choose_spec.1
    have hm := mapAll_map (renum (f.nodes.map RadNode.id)) id ρ _ hl
    rw [List.map_id] at hm
    unfold inpElem
    rw [hm]
    simp only [InpElement.corners, List.length_map]
    split <;> simp
  · obtain ⟨i, -, h2, h3⟩ := hρ m hm
    exact ⟨i, h2, h3⟩

/-- What is returned, after the loops. -/
lemma inp_state (opened : Str → Option Str) (ls : List InpLine) (f : InpMesh) (name F : Str) (v : V3 ℚ)
    (nopts : List (Str × Str)) (eopts : List (List (Str × Str))) (hw : ∀ l ∈ ls, l.Written)
    (hfields : ls.filterMap InpLine.field? = (true, nopts) :: eopts.map fun o => (false, o))
    (hinput : ∀ o ∈ nopts :: eopts, ("INPUT".toList, name) ∈ o) (hframe : ("FRAME".toList, F) ∈ nopts)
    (hframes : ((ls.filterMap InpLine.frame?).map Prod.fst).Nodup) (hv : (F, v) ∈ ls.filterMap InpLine.frame?)
    (hopen : opened (name ++ ".DAT".toList) = some f.text) (hf : f.Written) (hid : (f.nodes.map RadNode.id).Nodup)
    (hnodes : ∀ s ∈ f.sections, ∀ e ∈ s.elements, ∀ n ∈ e.corners, ∃ m ∈ f.nodes, m.id = n)
    (h2 : eopts.length ≤ f.sections.length) :
    ∃ (ρ : ℕ → ℤ) (s' : InpState), loadINPText opened (ls.flatMap InpLine.text) = inpDone s' ∧
      (∀ m ∈ f.nodes, ∃ i : ℕ, ρ m.id = (i : ℤ) + 1 ∧ f.nodes[i]? = some m) ∧
      s'.vertices = f.nodes.map (fun n => n.p + v) ∧ s'.increment = some false ∧
      s'.faces = ((f.sections.take eopts.length).flatMap InpSection.elements).map (fun e => e.corners.map ρ) ∧
      s'.nbElems = s'.faces.length := by
  obtain ⟨ρ, hsec, hρ⟩ := inpSections_ok hid hnodes
  -- the fields
  have hWn : ∀ p ∈ ls.filterMap InpLine.field?, (InpLine.field p.1 p.2).Written := by
    intro p hp
    obtain ⟨l, hl, hlp⟩ := List.mem_filterMap.1 hp
    cases l with
    | other => simp [InpLine.field?] at hlp
    | frame => simp [InpLine.field?] at hlp
    | field node opts =>
      simp only [InpLine.field?, Option.some.injEq] at hlp
      subst hlp
      exact hw _ hl
  rw [hfields] at hWn
  have hN := hWn (true, nopts) (by simp)
  have hE : ∀ o ∈ eopts, (InpLine.field false o).Written := fun o ho => hWn (false, o) (by simp [ho])
  have hIn : ∀ p ∈ ls.filterMap InpLine.field?, ("INPUT".toList, name) ∈ p.2 := by
    rw [hfields]
    intro p hp
    rcases List.mem_cons.1 hp with rfl | hp
    · exact hinput nopts (by simp)
    · obtain ⟨o, ho, rfl⟩ := List.mem_map.1 hp
      exact hinput o (by simp [ho])
  have hfs := fields_ok hw fun p hp => ⟨name, hIn p hp⟩
  rw [hfields, List.map_cons, List.map_map] at hfs
  have hNin := dict_opt hN (hinput nopts (by simp))
  have hEin : ∀ d ∈ eopts.map (fieldDict ∘ fun o => (false, o)), getKey d "INPUT".toList = .ok name ∧
      getKey d "type".toList = .ok "ELEMENT".toList := by
    intro d hd
    obtain ⟨o, ho, rfl⟩ := List.mem_map.1 hd
    exact ⟨dict_opt (hE o ho) (hinput o (by simp [ho])), dict_type (hE o ho)⟩
  have hlook : ∀ (d : List (Str × Str)), getKey d "INPUT".toList = .ok name → d.lookup "INPUT".toList = some name := by
    intro d hd
    unfold getKey at hd
    cases hl : d.lookup "INPUT".toList with
    | none => rw [hl] at hd; cases hd
    | some x => rw [hl] at hd; cases hd; rfl
  have hnames : inpNames (fieldDict (true, nopts) :: eopts.map (fieldDict ∘ fun o => (false, o))) = [name] := by
    refine names_one _ (by simp) ?_
    intro d hd
    rcases List.mem_cons.1 hd with rfl | hd
    · exact hlook _ hNin
    · exact hlook _ (hEin d hd).1
  have hfile : mapAll (inpOpen opened) [name] = .ok [f.data] := by
    have : inpOpen opened name = .ok f.data := by
      unfold inpOpen
      rw [hopen]
      exact inpRead_ok hf hsec
    simp only [mapAll, this]
  -- the frame
  have hfr := frames_ok hw
  have hvec : getKey ((ls.filterMap InpLine.frame?).map fun p => (p.1, [p.2.x, p.2.y, p.2.z])).reverse F =
      .ok [v.x, v.y, v.z] := by
    unfold getKey
    rw [lookup_reverse (x := [v.x, v.y, v.z])]
    · rw [List.map_map]
      exact hframes
    · exact List.mem_map.2 ⟨_, hv, rfl⟩
  obtain ⟨inc, hinc⟩ := dict_increment (opts := nopts)
  have hres : inpResolve ((ls.filterMap InpLine.frame?).map fun p => (p.1, [p.2.x, p.2.y, p.2.z])).reverse [name]
      (fieldDict (true, nopts)) = .ok (.node 0 v (inc ≠ "NO".toList)) := by
    unfold inpResolve
    rw [hNin, dict_type hN, dict_opt hN hframe]
    simp only
    rw [hvec, hinc]
    simp [fieldType, inpVector]
  -- the loop
  have hlen : (f.sections.map fun s => s.elements.map fun e => e.corners.map ρ).length = f.sections.length := by simp
  generalize hidx : (((([f.data] : List DatFile).getLast?.map DatFile.nodes).getD []).getLast?.map Prod.fst).getD 0 = idx
  have hstep : inpStep (fun i => ([f.data] : List DatFile)[i]?.getD ⟨[], []⟩) idx {} (.node 0 v (inc ≠ "NO".toList)) =
      .ok { vertices := f.nodes.map (fun n => n.p + v), nbNodes := f.nodes.length, increment := some false } := by
    simp [inpStep, InpMesh.data, Function.comp_def]
  obtain ⟨s', hl1, hl2, hl3, hl4, hl5⟩ := inpLoop_elements
    (frames := ((ls.filterMap InpLine.frame?).map fun p => (p.1, [p.2.x, p.2.y, p.2.z])).reverse) (name := name)
    (files := fun i => ([f.data] : List DatFile)[i]?.getD ⟨[], []⟩) (idx := idx) hsec
    (eopts.map (fieldDict ∘ fun o => (false, o)))
    { vertices := f.nodes.map (fun n => n.p + v), nbNodes := f.nodes.length, increment := some false } hEin
    (by rw [hlen, List.length_map]; simpa using h2) rfl rfl
  have hfaces : s'.faces = ((f.sections.take eopts.length).flatMap InpSection.elements).map fun e => e.corners.map ρ := by
    rw [hl4]
    simp only [List.nil_append, List.drop_zero, List.length_map]
    rw [← List.map_take, List.flatMap_def, List.map_flatten, List.map_map]
    rfl
  refine ⟨ρ, s', ?_, hρ, hl2, hl3, hfaces, hl5⟩
  unfold loadINPText
  rw [hfr, hfs]
  simp only
  rw [hnames, hfile]
  simp only
  rw [hidx]
  simp only [inpLoop, hres, hstep, hl1]

/-- C107: an INP file, from its characters and those of its mesh file. The INP file may have frames, comments and other key words
in any order; its fields are one set of nodes, then sets of elements, all in one mesh file whose name the options `INPUT` give,
the nodes being placed by one of the frames. The vertices are the nodes of the mesh file, in order, moved by the vector of the
frame; the faces are the elements of the first sections of the mesh file, one section for each set of elements asked for, and
their corners are the nodes whose numbers are written, whatever these numbers. Not covered: several sets of nodes (`C58`: the
elements are then wrong). -/
theorem C107_inp_partial (opened : Str → Option Str) (ls : List InpLine) (f : InpMesh) (name F : Str) (v : V3 ℚ)
    (nopts : List (Str × Str)) (eopts : List (List (Str × Str))) (hw : ∀ l ∈ ls, l.Written)
    (hfields : ls.filterMap InpLine.field? = (true, nopts) :: eopts.map fun o => (false, o))
    (hinput : ∀ o ∈ nopts :: eopts, ("INPUT".toList, name) ∈ o) (hframe : ("FRAME".toList, F) ∈ nopts)
    (hframes : ((ls.filterMap InpLine.frame?).map Prod.fst).Nodup) (hv : (F, v) ∈ ls.filterMap InpLine.frame?)
    (hopen : opened (name ++ ".DAT".toList) = some f.text) (hf : f.Written) (hid : (f.nodes.map RadNode.id).Nodup)
    (hnodes : ∀ s ∈ f.sections, ∀ e ∈ s.elements, ∀ n ∈ e.corners, ∃ m ∈ f.nodes, m.id = n)
    (h1 : 1 ≤ eopts.length) (h2 : eopts.length ≤ f.sections.length) :
    ∃ vs fs, loadINPText opened (ls.flatMap InpLine.text) = .ok (vs, fs) ∧ vs = f.nodes.map (fun n => n.p + v) ∧
      List.Forall₂ (fun (e : InpElement) (row : List ℤ) => List.Forall₂ (fun (n : ℕ) (q : ℤ) => ∃ (i : ℕ) (p : V3 ℚ),
        q = i ∧ f.position n = some p ∧ vs[i]? = some (p + v)) e.corners row)
        ((f.sections.take eopts.length).flatMap InpSection.elements) fs := by
  obtain ⟨ρ, s', hload, hρ, hl2, hl3, hfaces, hl5⟩ := inp_state opened ls f name F v nopts eopts hw hfields hinput hframe hframes hv
    hopen hf hid hnodes h2
  have hne : s'.nbElems ≠ 0 := by
    rw [hl5, hfaces, List.length_map]
    intro hc
    have hc := List.length_eq_zero_iff.1 hc
    have hs0 : 0 < f.sections.length := by omega
    obtain ⟨s, ss, hss⟩ := List.exists_cons_of_ne_nil (List.length_pos_iff.1 hs0)
    have hse := (hf.sections s (by rw [hss]; simp)).2.1
    rw [hss, show eopts.length = (eopts.length - 1) + 1 by omega, List.take_succ_cons, List.flatMap_cons,
      List.append_eq_nil_iff] at hc
    exact hse hc.1
  refine ⟨f.nodes.map (fun n => n.p + v), minusOne s'.faces, ?_, rfl, ?_⟩
  · rw [hload]
    unfold inpDone
    rw [if_neg (by rw [hl3]; simp [hne]), hl2]
  · rw [hfaces]
    unfold minusOne
    rw [List.map_map, List.forall₂_map_right_iff, List.forall₂_same]
    intro e he
    simp only [Function.comp_apply]
    rw [List.map_map, List.forall₂_map_right_iff, List.forall₂_same]
    intro n hn
    obtain ⟨s, hs, hes⟩ := List.mem_flatMap.1 he
    obtain ⟨m, hm, rfl⟩ := hnodes s (List.mem_of_mem_take hs) e hes n hn
    obtain ⟨i, hi1, hi2⟩ := hρ m hm
    refine ⟨i, m.p, by simp [hi1], ?_, by simp [hi2]⟩
    unfold InpMesh.position
    cases hfd : f.nodes.find? fun n => n.id = m.id with
    | none =>
      have := List.find?_eq_none.1 hfd m hm
      simp at this
    | some m' =>
      have h3 := List.find?_some hfd
      have h4 := List.mem_of_find?_eq_some hfd
      rw [List.inj_on_of_nodup_map hid h4 hm (by simpa using h3)]
      rfl

/-- C107: a mesh file that is missing gives `IOError`, and one without decimal point (its nodes are not recognised) gives
`IndexError`: never an empty or partial mesh. -/
theorem C107_unreadable (opened : Str → Option Str) (ls : List InpLine) (name : Str) (hw : ∀ l ∈ ls, l.Written)
    (hne : ls.filterMap InpLine.field? ≠ []) (hinput : ∀ p ∈ ls.filterMap InpLine.field?, ("INPUT".toList, name) ∈ p.2) :
    (opened (name ++ ".DAT".toList) = none → loadINPText opened (ls.flatMap InpLine.text) = .error .ioError) ∧
    (∀ data, opened (name ++ ".DAT".toList) = some data → '.' ∉ data →
      loadINPText opened (ls.flatMap InpLine.text) = .error .indexError) := by
  have hfs := fields_ok hw fun p hp => ⟨name, hinput p hp⟩
  have hfr := frames_ok hw
  have hnames : inpNames ((ls.filterMap InpLine.field?).map fieldDict) = [name] := by
    refine names_one _ (by simpa using hne) ?_
    intro d hd
    obtain ⟨p, hp, rfl⟩ := List.mem_map.1 hd
    obtain ⟨l, hl, hlp⟩ := List.mem_filterMap.1 hp
    cases l with
    | other => simp [InpLine.field?] at hlp
    | frame => simp [InpLine.field?] at hlp
    | field node opts =>
      simp only [InpLine.field?, Option.some.injEq] at hlp
      subst hlp
      have := dict_opt (hw _ hl) (hinput _ hp)
      unfold getKey at this
      split at this
      · rename_i hx
        cases this
        exact hx
      · cases this
  have key : ∀ e, inpOpen opened name = .error e → loadINPText opened (ls.flatMap InpLine.text) = .error e := by
    intro e he
    unfold loadINPText
    rw [hfr, hfs]
    simp only
    rw [hnames]
    simp only [mapAll, he]
  constructor
  · intro ho
    refine key _ ?_
    unfold inpOpen
    rw [ho]
  · intro data ho hd
    refine key _ ?_
    unfold inpOpen
    rw [ho]
    simp only
    unfold inpRead
    have : findall hstNodes data = [] := by
      unfold findall
      exact reFindall_none _ (hstNodes_none hd [])
    rw [this]

/-- C107: without any line of elements, the file is refused with a `NameError`. -/
theorem C107_no_element (opened : Str → Option Str) (ls : List InpLine) (f : InpMesh) (name F : Str) (v : V3 ℚ)
    (nopts : List (Str × Str)) (hw : ∀ l ∈ ls, l.Written)
    (hfields : ls.filterMap InpLine.field? = [(true, nopts)])
    (hinput : ("INPUT".toList, name) ∈ nopts) (hframe : ("FRAME".toList, F) ∈ nopts)
    (hframes : ((ls.filterMap InpLine.frame?).map Prod.fst).Nodup) (hv : (F, v) ∈ ls.filterMap InpLine.frame?)
    (hopen : opened (name ++ ".DAT".toList) = some f.text) (hf : f.Written) (hid : (f.nodes.map RadNode.id).Nodup)
    (hnodes : ∀ s ∈ f.sections, ∀ e ∈ s.elements, ∀ n ∈ e.corners, ∃ m ∈ f.nodes, m.id = n) :
    loadINPText opened (ls.flatMap InpLine.text) = .error .nameError := by
  obtain ⟨ρ, s', hload, -, -, -, hfaces, hl5⟩ := inp_state opened ls f name F v nopts [] hw (by simpa using hfields)
    (by simpa using hinput) hframe hframes hv hopen hf hid hnodes (by simp)
  rw [hload]
  unfold inpDone
  rw [if_pos]
  right
  rw [hl5, hfaces]
  simp

/-! ### A file which meets the hypotheses -/

/-- A mesh file of four nodes and two sections, a triangle and a quadrangle. The numbers of the nodes are in any order. -/
def inpSample : InpMesh where
  before := ["*TITLE".toList]
  keys := "*NODE".toList
  nodes := [⟨10, ⟨0, 0, 0⟩, ⟨[], ['0'], [], []⟩, ⟨[], ['0'], ['0'], []⟩, ⟨[], ['0'], [], []⟩, 9, 1, 1, 1, 0⟩,
    ⟨30, ⟨1, 0, 0⟩, ⟨[], ['1'], [], []⟩, ⟨[], ['0'], [], []⟩, ⟨[], ['0'], [], []⟩, 9, 1, 3, 1, 2⟩,
    ⟨20, ⟨1, 1, -1 / 2⟩, ⟨['+'], ['1'], [], []⟩, ⟨[], ['1'], [], []⟩, ⟨['-'], ['5'], [], "E-1".toList⟩, 9, 1, 1, 1, 0⟩,
    ⟨7, ⟨0, 1, 0⟩, ⟨[], ['0'], [], []⟩, ⟨[], ['1'], [], "e0".toList⟩, ⟨[], ['0'], [], []⟩, 9, 1, 1, 1, 0⟩]
  sections := [⟨["*ELEMENT".toList], [⟨(2, 1), [(2, 10), (2, 30), (2, 20)]⟩]⟩,
    ⟨["*ELEMENT".toList], [⟨(2, 2), [(2, 10), (2, 30), (1, 20), (3, 7)]⟩]⟩]
  after := ["*END".toList]

def inpSampleLines : List InpLine :=
  [.other "** a barge".toList, .field true [("INPUT".toList, "hull".toList), ("FRAME".toList, "F1".toList)],
    .frame "F1".toList "1.0".toList "2".toList "-3.5".toList ',' ' ' ⟨1, 2, -7 / 2⟩, .field false [("INPUT".toList, "hull".toList)],
    .field false [("INPUT".toList, "hull".toList)]]

/-- The files next to it. -/
def inpSampleFiles : Str → Option Str := fun n => if n = "hull.DAT".toList then some inpSample.text else none

lemma nameWord_iff {w : Str} (h1 : '\n' ∉ w) (h2 : isSpace (w.headD ' ') = false) (h3 : isSpace (w.getLastD ' ') = false) :
    NameWord w := by
  cases w with
  | nil => exact absurd h2 (by decide)
  | cons c t =>
    refine ⟨h1, c, t, rfl, h2, (c :: t).dropLast, (c :: t).getLast (by simp), (List.dropLast_append_getLast _).symm, ?_⟩
    rw [List.getLastD_eq_getLast?, List.getLast?_eq_getLast_of_ne_nil (by simp)] at h3
    exact h3

theorem inpSample_written : inpSample.Written := by
  have key : ∀ l ∈ inpSample.before ++ [inpSample.keys] ++ inpSample.after ++ inpSample.sections.flatMap InpSection.keys,
      KeyLine l ∧ '.' ∉ l := by
    intro l hl
    have h1 : ∀ l ∈ inpSample.before ++ [inpSample.keys] ++ inpSample.after ++ inpSample.sections.flatMap InpSection.keys,
        ('\n' ∉ l ∧ l ≠ [] ∧ isSpace (l.headD ' ') = false ∧ isDigit (l.headD ' ') = false) ∧ '.' ∉ l := by decide +kernel
    obtain ⟨⟨a, b, c, d⟩, e⟩ := h1 l hl
    cases l with
    | nil => exact absurd rfl b
    | cons x l => exact ⟨⟨a, x, l, rfl, c, d⟩, e⟩
  refine ⟨fun l hl => key l (by simp only [List.mem_append] at hl ⊢; tauto),
    ⟨"*NOD".toList, 'E', by decide +kernel, by decide +kernel⟩, ⟨by simp [inpSample], ?_⟩, ?_,
    fun l hl => key l (by simp only [List.mem_append]; tauto)⟩
  · intro n hn
    have h1 : ∀ n ∈ inpSample.nodes, 0 < n.bx ∧ 0 < n.by' ∧ 0 < n.bz := by decide +kernel
    have h2 : ∀ n ∈ inpSample.nodes, parseFloat n.x.word = some n.p.x ∧ parseFloat n.y.word = some n.p.y ∧
      parseFloat n.z.word = some n.p.z := by decide +kernel
    have h3 : ∀ n ∈ inpSample.nodes, ∀ d ∈ [n.x, n.y, n.z], (d.sign = [] ∨ d.sign = ['-'] ∨ d.sign = ['+']) ∧
      (∀ c ∈ d.ip, isDigit c = true) ∧ d.ip ≠ [] ∧ (∀ c ∈ d.fp, isDigit c = true) ∧
      (d.exp = [] ∨ d.exp = ['E', '-', '1'] ∨ d.exp = ['e', '0']) := by decide +kernel
    have h4 : ∀ d ∈ [n.x, n.y, n.z], d.Proper := by
      intro d hd
      obtain ⟨a, b, c, e, x⟩ := h3 n hn d hd
      refine ⟨a, b, c, e, ?_⟩
      rcases x with x | x | x
      · exact Or.inl x
      · exact Or.inr ⟨'E', ['-'], ['1'], x, by decide, by decide, by decide, by decide⟩
      · exact Or.inr ⟨'e', [], ['0'], x, by decide, by decide, by decide, by decide⟩
    exact ⟨(h1 n hn).1, (h1 n hn).2.1, (h1 n hn).2.2, h4 _ (by simp), h4 _ (by simp), h4 _ (by simp), h2 n hn⟩
  · intro s hs
    have h1 : ∀ s ∈ inpSample.sections, s.keys ≠ [] ∧ s.elements.length ≠ 0 ∧ ∀ e ∈ s.elements, 0 < e.first.1 ∧
      (e.others.length = 3 ∨ e.others.length = 4) ∧ ∀ c ∈ e.others, 0 < c.1 := by decide +kernel
    obtain ⟨a, b, c⟩ := h1 s hs
    refine ⟨⟨a, fun l hl => key l ?_⟩, fun hc => b (by rw [hc]; rfl), c⟩
    exact List.mem_append_right _ (List.mem_flatMap.2 ⟨s, hs, hl⟩)

theorem inpSampleLines_written : ∀ l ∈ inpSampleLines, l.Written := by
  intro l hl
  simp only [inpSampleLines, List.mem_cons, List.not_mem_nil, or_false] at hl
  have num : ∀ (w : Str) (x : ℚ), parseFloat w = some x → w ≠ [] → (∀ c ∈ w, isSpace c = false ∧ c ≠ ',' ∧ c ≠ '*') →
    VectorWord w x := fun w x a b c => ⟨a, b, c⟩
  have nm : ∀ w ∈ ["hull".toList, "F1".toList], NameWord w := by
    intro w hw
    have : ∀ w ∈ ["hull".toList, "F1".toList], '\n' ∉ w ∧ isSpace (w.headD ' ') = false ∧ isSpace (w.getLastD ' ') = false := by
      decide +kernel
    obtain ⟨a, b, c⟩ := this w hw
    exact nameWord_iff a b c
  rcases hl with rfl | rfl | rfl | rfl | rfl
  · exact ⟨by decide +kernel, ⟨'*', "* a barge".toList, by decide +kernel, by decide +kernel⟩, by decide +kernel, by decide +kernel,
      by decide +kernel⟩
  · refine ⟨by simp, by decide +kernel, by decide +kernel, ?_⟩
    intro o ho
    simp only [List.mem_cons, List.not_mem_nil, or_false] at ho
    rcases ho with rfl | rfl
    · exact ⟨by decide +kernel, by decide +kernel, nm _ (by simp)⟩
    · exact ⟨by decide +kernel, by decide +kernel, nm _ (by simp)⟩
  · exact ⟨nm _ (by simp), num _ _ (by decide +kernel) (by decide +kernel) (by decide +kernel),
      num _ _ (by decide +kernel) (by decide +kernel) (by decide +kernel),
      num _ _ (by decide +kernel) (by decide +kernel) (by decide +kernel), Or.inl rfl, Or.inr rfl⟩
  all_goals
    refine ⟨by simp, by decide +kernel, by decide +kernel, ?_⟩
    intro o ho
    simp only [List.mem_cons, List.not_mem_nil, or_false] at ho
    subst ho
    exact ⟨by decide +kernel, by decide +kernel, nm _ (by simp)⟩

/-- The sample is read. -/
theorem C107_sample : ∃ vs fs, loadINPText inpSampleFiles (inpSampleLines.flatMap InpLine.text) = .ok (vs, fs) ∧
    vs = [⟨1, 2, -7 / 2⟩, ⟨2, 2, -7 / 2⟩, ⟨2, 3, -4⟩, ⟨1, 3, -7 / 2⟩] ∧ fs.length = 2 := by
  obtain ⟨vs, fs, h1, h2, h3⟩ := C107_inp_partial inpSampleFiles inpSampleLines inpSample "hull".toList "F1".toList ⟨1, 2, -7 / 2⟩
    [("INPUT".toList, "hull".toList), ("FRAME".toList, "F1".toList)]
    [[("INPUT".toList, "hull".toList)], [("INPUT".toList, "hull".toList)]] inpSampleLines_written (by decide +kernel)
    (by decide +kernel) (by decide +kernel) (by decide +kernel) (by decide +kernel)
    (if_pos (by decide +kernel)) inpSample_written (by decide +kernel) (by decide +kernel) (by decide) (by decide)
  refine ⟨vs, fs, h1, ?_, ?_⟩
  · rw [h2]; decide +kernel
  · rw [← h3.length_eq]; decide +kernel

/-! ### What is refused, and what is lost -/

/-- A mesh file with one triangle whose line is written `elem`, and the file which calls it with `opts`, in a frame whose vector is
written `vec`. -/
def inpTry (vec opts elem : String) : Except PyErr (List (V3 ℚ) × List (List ℤ)) :=
  loadINPText (fun _ => some ("*NODE\n 1 0. 0. 0.\n 2 1. 0. 0.\n 3 1. 1. 0.\n*ELEMENT\n 1 1 2 3\n".toList ++ elem.toList))
    ("*FRAME,NAME=F\n".toList ++ vec.toList ++ "\n*NODE,".toList ++ opts.toList ++ "\n*ELEMENT,INPUT=m\n".toList)

/-- The file which is read, for comparison. -/
theorem C107_read : inpTry "0,0,1" "INPUT=m,FRAME=F" " 2 1 3 2\n" =
    .ok ([⟨0, 0, 1⟩, ⟨1, 0, 1⟩, ⟨1, 1, 1⟩], [[0, 1, 2, 0], [0, 2, 1, 0]]) := by decide +kernel

/-- C107 is violated: a blank after the comma of the options, or of the vector of a frame, gives an error which does not tell
why. -/
theorem C107_blank_fails : inpTry "0,0,1" "INPUT=m, FRAME=F" " 2 1 3 2\n" = .error .keyError ∧
    inpTry "0, 0, 1" "INPUT=m,FRAME=F" " 2 1 3 2\n" = .error .valueError := by decide +kernel

/-- C107 is violated: an element is lost silently if its line has no blank before its number or a blank at its end, or if it is the
last line of the file and the end of line is missing. -/
theorem C107_lost_fails (w : String) (h : w = "2 1 3 2\n" ∨ w = " 2 1 3 2 \n" ∨ w = " 2 1 3 2") :
    inpTry "0,0,1" "INPUT=m,FRAME=F" w = .ok ([⟨0, 0, 1⟩, ⟨1, 0, 1⟩, ⟨1, 1, 1⟩], [[0, 1, 2, 0]]) := by
  rcases h with rfl | rfl | rfl <;> decide +kernel

/-- C107 is violated: a vector of one number is a translation along the three axes. -/
theorem C107_vector_fails : inpTry "1" "INPUT=m,FRAME=F" "" =
    .ok ([⟨1, 1, 1⟩, ⟨2, 1, 1⟩, ⟨2, 2, 1⟩], [[0, 1, 2, 0]]) := by decide +kernel

/-- Two sections of nodes in a mesh file, one after the elements: refused. -/
theorem C107_two_node_sections : inpTry "0,0,1" "INPUT=m,FRAME=F" "*NODE\n 4 0. 1. 0.\n" = .error .ioError := by decide +kernel

/-- The sample without its mesh file. -/
theorem C107_missing_sample : loadINPText (fun _ => none) (inpSampleLines.flatMap InpLine.text) = .error .ioError :=
  (C107_unreadable (fun _ => none) inpSampleLines "hull".toList inpSampleLines_written (by decide +kernel) (by decide +kernel)).1 rfl

theorem C107_no_element_sample : loadINPText inpSampleFiles ((inpSampleLines.take 3).flatMap InpLine.text) = .error .nameError :=
  C107_no_element inpSampleFiles (inpSampleLines.take 3) inpSample "hull".toList "F1".toList ⟨1, 2, -7 / 2⟩
    [("INPUT".toList, "hull".toList), ("FRAME".toList, "F1".toList)]
    (fun l hl => inpSampleLines_written l (List.mem_of_mem_take hl)) (by decide +kernel) (by decide +kernel) (by decide +kernel)
    (by decide +kernel) (by decide +kernel) (if_pos (by decide +kernel)) inpSample_written (by decide +kernel) (by decide +kernel)

end MM.Io
