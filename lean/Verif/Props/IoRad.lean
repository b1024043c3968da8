import Verif.Model.MmioRad
import Verif.Spec.Rad
import Verif.Props.IoDat

/-!
# RADIOSS files (C101)
-/

namespace MM.Io

open MM

set_option linter.unusedSimpArgs false

/-! ### Decimal numbers -/

lemma sign_cases {s : Str} (h : s = [] ∨ s = ['-'] ∨ s = ['+']) {r : Str} (hr : Stops (fun c => c == '+' || c == '-') r)
    (pre : Str) (g : List (ℕ × Str)) : (Re.opt signRe).first ⟨pre, s ++ r, g⟩ = some ⟨s.reverse ++ pre, r, g⟩ := by
  rcases h with rfl | rfl | rfl
  · exact first_opt_nosign hr pre g
  · exact first_opt_sign (by decide) _ pre g
  · exact first_opt_sign (by decide) _ pre g

lemma digits_no_e {r : Str} (hr : Breaks r) : Stops (fun c => c == 'E' || c == 'e') r := by
  rcases hr with rfl | ⟨c, t, rfl, hc⟩
  · exact Stops.nil _
  · refine stops_cons ?_ t
    by_contra h
    simp only [Bool.not_eq_false, Bool.or_eq_true, beq_iff_eq] at h
    rcases h with rfl | rfl <;> exact absurd hc (by decide)

/-- A decimal number followed by a blank is matched as a whole. -/
lemma first_decimal {d : Decimal} (h : d.Proper) {r : Str} (hr : Breaks r) (pre : Str) (g : List (ℕ × Str)) :
    realRe.first ⟨pre, d.word ++ r, g⟩ = some ⟨d.word.reverse ++ pre, r, g⟩ := by
  obtain ⟨h1, h2, h3, h4, h5⟩ := h
  have e : d.word ++ r = d.sign ++ (d.ip ++ ('.' :: (d.fp ++ (d.exp ++ r)))) := by
    simp only [Decimal.word, List.append_assoc, List.cons_append]
  rw [e]
  refine first_seq (sign_cases h1 (AllDigits.stops_sign h2 h3 _) pre g) ?_
  have hx : Stops isDigit (d.exp ++ r) := by
    rcases h5 with h | ⟨c, s, w, h, hc, -⟩
    · rw [h]; exact Breaks.stops hr
    · rw [h]; refine stops_cons ?_ _
      rcases hc with rfl | rfl <;> decide
  have h6 : (Re.seq Re.ds1 (Re.seq (Re.chr (· == '.')) Re.ds)).first
      ⟨d.sign.reverse ++ pre, d.ip ++ ('.' :: (d.fp ++ (d.exp ++ r))), g⟩ =
      some ⟨d.fp.reverse ++ ('.' :: (d.ip.reverse ++ (d.sign.reverse ++ pre))), d.exp ++ r, g⟩ := by
    refine first_seq (first_ds1 h3 h2 (stops_cons (by decide) _)) ?_
    refine first_seq (first_chr (by decide)) ?_
    exact first_ds h4 hx
  refine first_seq (first_alt_left h6) ?_
  rcases h5 with h | ⟨c, s, w, h, hc, hs, hw, hw'⟩
  · rw [h]
    refine (first_alt_right (runs_seq_nil_left (Stops.runs (digits_no_e hr) _ _))).trans ?_
    simp [Decimal.word, h, Re.first, Re.runs]
  · rw [h]
    refine first_alt_left ?_
    rw [List.cons_append, List.append_assoc]
    refine first_seq (first_chr (by rcases hc with rfl | rfl <;> decide)) ?_
    refine first_seq (sign_cases hs (AllDigits.stops_sign hw hw' _) _ g) ?_
    rw [first_ds1 hw' hw (Breaks.stops hr)]
    simp [Decimal.word, h]

lemma decimal_word {d : Decimal} (h : d.Proper) : Word d.word := by
  obtain ⟨h1, h2, h3, h4, h5⟩ := h
  refine ⟨by simp [Decimal.word], ?_⟩
  intro c hc
  simp only [Decimal.word, List.mem_append, List.mem_cons] at hc
  rcases hc with hc | hc | rfl | hc | hc
  · rcases h1 with h | h | h <;> rw [h] at hc <;> simp at hc <;> subst hc <;> decide
  · exact digit_visible (h2 c hc)
  · decide
  · exact digit_visible (h4 c hc)
  · rcases h5 with h | ⟨c', s, w, h, hc', hs, hw, -⟩
    · rw [h] at hc; simp at hc
    · rw [h] at hc
      simp only [List.mem_append, List.mem_cons] at hc
      rcases hc with rfl | hc | hc
      · rcases hc' with rfl | rfl <;> decide
      · rcases hs with h | h | h <;> rw [h] at hc <;> simp at hc <;> subst hc <;> decide
      · exact digit_visible (hw c hc)

/-! ### Node lines -/

lemma blank_sp (k : ℕ) : Blank (sp k) := blank_spaces k

lemma sp_ne {k : ℕ} (h : 0 < k) : sp k ≠ [] := by
  cases k with
  | zero => omega
  | succ k => simp [sp, List.replicate_succ]

lemma breaks_sps {k : ℕ} (h : 0 < k) (r : Str) : Breaks (sp k ++ r) := by
  cases k with
  | zero => omega
  | succ k => exact Or.inr ⟨' ', sp k ++ r, rfl, by decide⟩

lemma breaks_blank {b : Str} (hb : Blank b) (h : b ≠ []) (r : Str) : Breaks (b ++ r) := by
  cases b with
  | nil => exact absurd rfl h
  | cons c b => exact Or.inr ⟨c, b ++ r, rfl, hb c (List.mem_cons_self ..)⟩

/-- A node without the blanks around. -/
def nodeCore (n : RadNode) : Str :=
  natStr n.id ++ (sp n.bx ++ (n.x.word ++ (sp n.by' ++ (n.y.word ++ (sp n.bz ++ n.z.word)))))

lemma first_radNode {n : RadNode} (h : n.Written) {s r : Str} (hs : Blank s) (hr : Breaks r) (pre : Str) (g : List (ℕ × Str)) :
    (radNode fun _ r => r).first ⟨pre, (s ++ nodeCore n) ++ r, g⟩ = some ⟨(s ++ nodeCore n).reverse ++ pre, r, g⟩ := by
  obtain ⟨b1, b2, b3, hx, hy, hz, -⟩ := h
  have e : (s ++ nodeCore n) ++ r = s ++ (natStr n.id ++ (sp n.bx ++ (n.x.word ++ (sp n.by' ++ (n.y.word ++ (sp n.bz ++
      (n.z.word ++ r))))))) := by
    simp only [nodeCore, List.append_assoc]
  rw [e]
  refine first_seq (first_ws hs (Word.stops (natStr_word _) _)) ?_
  refine first_seq (first_ds1 (natStr_ne_nil _) (natStr_digits _) (Breaks.stops (breaks_sps b1 _))) ?_
  refine first_seq (first_ws (blank_sp _) (Word.stops (decimal_word hx) _)) ?_
  refine first_seq (first_decimal hx (breaks_sps b2 _) _ _) ?_
  refine first_seq (first_ws (blank_sp _) (Word.stops (decimal_word hy) _)) ?_
  refine first_seq (first_decimal hy (breaks_sps b3 _) _ _) ?_
  refine first_seq (first_ws (blank_sp _) (Word.stops (decimal_word hz) _)) ?_
  rw [first_decimal hz hr]
  simp only [nodeCore, List.reverse_append, List.append_assoc]

lemma first_radNode_group {n : RadNode} (h : n.Written) {s r : Str} (hs : Blank s) (hr : Breaks r) (pre : Str) :
    (radNode .group).first ⟨pre, (s ++ nodeCore n) ++ r, []⟩ =
      some ⟨(s ++ nodeCore n).reverse ++ pre, r, [(3, n.z.word), (2, n.y.word), (1, n.x.word)]⟩ := by
  obtain ⟨b1, b2, b3, hx, hy, hz, -⟩ := h
  have e : (s ++ nodeCore n) ++ r = s ++ (natStr n.id ++ (sp n.bx ++ (n.x.word ++ (sp n.by' ++ (n.y.word ++ (sp n.bz ++
      (n.z.word ++ r))))))) := by
    simp only [nodeCore, List.append_assoc]
  rw [e]
  refine first_seq (first_ws hs (Word.stops (natStr_word _) _)) ?_
  refine first_seq (first_ds1 (natStr_ne_nil _) (natStr_digits _) (Breaks.stops (breaks_sps b1 _))) ?_
  refine first_seq (first_ws (blank_sp _) (Word.stops (decimal_word hx) _)) ?_
  refine first_seq (first_group' (first_decimal hx (breaks_sps b2 _) _ _)) ?_
  refine first_seq (first_ws (blank_sp _) (Word.stops (decimal_word hy) _)) ?_
  refine first_seq (first_group' (first_decimal hy (breaks_sps b3 _) _ _)) ?_
  refine first_seq (first_ws (blank_sp _) (Word.stops (decimal_word hz) _)) ?_
  rw [first_group' (first_decimal hz hr _ _)]
  simp only [nodeCore, List.reverse_append, List.append_assoc]

/-- A number with a point: digits and signs before the point. -/
lemma real_shape {s t : ReState} (h : t ∈ realRe.runs s) :
    ∃ q rest, s.post = q ++ '.' :: rest ∧ ∀ c ∈ q, (isDigit c || c == '+' || c == '-') = true := by
  obtain ⟨u, hu, h⟩ := List.mem_flatMap.1 h
  obtain ⟨w, e, hw⟩ : ∃ w, s.post = w ++ u.post ∧ ∀ c ∈ w, (isDigit c || c == '+' || c == '-') = true := by
    rcases List.mem_append.1 hu with hu | hu
    · obtain ⟨pre, post, g⟩ := s
      cases post with
      | nil => simp [signRe, runs_chr_nil] at hu
      | cons c post =>
        rw [signRe, runs_chr_cons] at hu
        split at hu
        · rename_i hc
          simp only [List.mem_singleton] at hu
          subst hu
          refine ⟨[c], rfl, ?_⟩
          intro c' hc'
          simp only [List.mem_singleton] at hc'
          subst hc'
          simpa [Bool.or_assoc] using Or.inr (by simpa using hc)
        · simp at hu
    · have : u = s := by simpa [Re.runs] using hu
      subst this
      exact ⟨[], rfl, by simp⟩
  obtain ⟨v, hv, -⟩ := List.mem_flatMap.1 h
  have dot : ∀ (a : Re) (u1 : ReState), v ∈ (Re.seq (Re.chr (· == '.')) a).runs u1 → ∃ rest, u1.post = '.' :: rest := by
    intro a u1 hv
    obtain ⟨u2, hu2, -⟩ := List.mem_flatMap.1 hv
    obtain ⟨pre, post, g⟩ := u1
    cases post with
    | nil => simp [runs_chr_nil] at hu2
    | cons c post =>
      rw [runs_chr_cons] at hu2
      split at hu2
      · rename_i hc
        obtain rfl : c = '.' := by simpa using hc
        exact ⟨post, rfl⟩
      · simp at hu2
  obtain ⟨q, rest, hq, hq'⟩ : ∃ q rest, u.post = q ++ '.' :: rest ∧ AllDigits q := by
    obtain ⟨pre, post, g⟩ := u
    rcases List.mem_append.1 hv with hv | hv
    · obtain ⟨u1, hu1, hv⟩ := List.mem_flatMap.1 hv
      obtain ⟨d, r, rfl, -, hd, rfl⟩ := mem_plus_chr hu1
      obtain ⟨rest, hr⟩ := dot _ _ hv
      simp only at hr
      exact ⟨d, rest, by rw [hr], hd⟩
    · obtain ⟨u1, hu1, hv⟩ := List.mem_flatMap.1 hv
      obtain ⟨d, r, rfl, hd, rfl⟩ := mem_star_chr hu1
      obtain ⟨rest, hr⟩ := dot _ _ hv
      simp only at hr
      exact ⟨d, rest, by rw [hr], hd⟩
  refine ⟨w ++ q, rest, by rw [e, hq, List.append_assoc], ?_⟩
  intro c hc
  rcases List.mem_append.1 hc with hc | hc
  · exact hw c hc
  · rw [hq' c hc]; rfl

/-- What comes before the first point of a node line: blanks, digits, signs. -/
lemma radNode_shape {pre post : Str} {g : List (ℕ × Str)} (h : (radNode fun _ r => r).runs ⟨pre, post, g⟩ ≠ []) :
    ∃ b d q rest, post = b ++ (d ++ (q ++ '.' :: rest)) ∧ Blank b ∧ AllDigits d ∧ d ≠ [] ∧
      ∀ c ∈ q, (isSpace c || isDigit c || c == '+' || c == '-') = true := by
  obtain ⟨t, ht⟩ := List.exists_mem_of_ne_nil _ h
  obtain ⟨u1, h1, ht⟩ := List.mem_flatMap.1 ht
  obtain ⟨b, r1, rfl, hb, rfl⟩ := mem_star_chr h1
  obtain ⟨u2, h2, ht⟩ := List.mem_flatMap.1 ht
  obtain ⟨d, r2, rfl, hd, hd', rfl⟩ := mem_plus_chr h2
  obtain ⟨u3, h3, ht⟩ := List.mem_flatMap.1 ht
  obtain ⟨b', r3, rfl, hb', rfl⟩ := mem_star_chr h3
  obtain ⟨u4, h4, ht⟩ := List.mem_flatMap.1 ht
  obtain ⟨q, rest, hq, hq'⟩ := real_shape h4
  simp only at hq
  refine ⟨b, d, b' ++ q, rest, by rw [hq, List.append_assoc], hb, hd', hd, ?_⟩
  intro c hc
  rcases List.mem_append.1 hc with hc | hc
  · rw [hb' c hc]; rfl
  · have := hq' c hc
    simp only [Bool.or_eq_true] at this ⊢
    tauto

lemma radNodes_fails {pre post : Str} {g : List (ℕ × Str)} (h : (radNode fun _ r => r).runs ⟨pre, post, g⟩ = []) :
    radNodes.runs ⟨pre, post, g⟩ = [] := by
  show List.map _ (((radNode fun _ r => r).runs _).flatMap _) = []
  rw [h]; rfl

/-- A text without point which ends with a letter contains no start of a node line. -/
lemma skip_head {w v : Str} {c0 : Char} (hc0 : (isSpace c0 || isDigit c0 || c0 == '+' || c0 == '-') = false)
    (hdot : '.' ∉ w ++ [c0]) (pre : Str) :
    reSearch radNodes ((w ++ [c0]) ++ v) pre = reSearch radNodes v ((w ++ [c0]).reverse ++ pre) := by
  refine reSearch_skip ?_
  intro w1 c w2 e
  refine radNodes_fails ?_
  by_contra hne
  obtain ⟨b, d, q, rest, hp, hb, hd, -, hq⟩ := radNode_shape hne
  have hin : ∀ c ∈ b ++ (d ++ q), (isSpace c || isDigit c || c == '+' || c == '-') = true := by
    intro c hc
    rcases List.mem_append.1 hc with hc | hc
    · rw [hb c hc]; rfl
    rcases List.mem_append.1 hc with hc | hc
    · rw [hd c hc]; simp
    · exact hq c hc
  have hlast : c0 ∈ c :: w2 := by
    have h1 : (w ++ [c0]).getLast? = some c0 := by simp
    rw [e] at h1
    have h2 : (c :: w2).getLast? = some c0 := by
      rw [List.getLast?_append] at h1
      cases hl : (c :: w2).getLast? with
      | none => simp at hl
      | some x => rw [hl] at h1; simpa using h1
    exact List.mem_of_getLast? h2
  have hdot' : '.' ∉ c :: w2 := fun h => hdot (by rw [e]; exact List.mem_append_right _ h)
  have hp' : (c :: w2) ++ v = (b ++ (d ++ q)) ++ '.' :: rest := by
    rw [List.cons_append, hp]; simp only [List.append_assoc]
  rcases List.append_eq_append_iff.1 hp' with ⟨a, h1, -⟩ | ⟨a, h1, h2⟩
  · have := hin c0 (by rw [h1]; exact List.mem_append_left _ hlast)
    rw [hc0] at this; simp at this
  · cases a with
    | nil =>
      rw [List.append_nil] at h1
      have := hin c0 (by rw [← h1]; exact hlast)
      rw [hc0] at this; simp at this
    | cons x a =>
      have : x = '.' := by simpa using (congrArg List.head? h2).symm
      subst this
      exact hdot' (by rw [h1]; simp)

/-- The nodes with the blanks before them, from the lines of the nodes. -/
lemma node_pieces (l : List RadNode) {b : Str} (hb : Blank b) (hne : b ≠ []) :
    ∃ ps : List (Str × RadNode), ps.map Prod.snd = l ∧ (∀ p ∈ ps, Blank p.1 ∧ p.1 ≠ []) ∧
      ∃ b', Blank b' ∧ b' ≠ [] ∧ b ++ lines RadNode.line l = ps.flatMap (fun p => p.1 ++ nodeCore p.2) ++ b' := by
  induction l generalizing b with
  | nil => exact ⟨[], rfl, by simp, b, hb, hne, by simp [lines]⟩
  | cons n l ih =>
    have hb' : Blank (sp n.b1 ++ ['\n']) := by
      intro c hc
      rcases List.mem_append.1 hc with hc | hc
      · exact blank_sp _ c hc
      · simp only [List.mem_singleton] at hc; subst hc; decide
    obtain ⟨ps, h1, h2, b', h3, h4, h5⟩ := ih hb' (by simp)
    refine ⟨(b ++ sp n.b0, n) :: ps, by simp [h1], ?_, b', h3, h4, ?_⟩
    · intro p hp
      rcases List.mem_cons.1 hp with rfl | hp
      · refine ⟨?_, by simp [hne]⟩
        intro c hc
        rcases List.mem_append.1 hc with hc | hc
        · exact hb c hc
        · exact blank_sp _ c hc
      · exact h2 p hp
    · rw [List.flatMap_cons, List.append_assoc _ _ b', ← h5]
      simp only [lines, List.flatMap_cons, RadNode.line, nodeCore, List.append_assoc]

/-- No node line starts with something else than blanks and a digit. -/
lemma radNode_nodigit {pre b r : Str} {g : List (ℕ × Str)} (hb : Blank b) (hr : Stops isSpace r) (hr' : Stops isDigit r) :
    (radNode fun _ r => r).runs ⟨pre, b ++ r, g⟩ = [] :=
  ws_fails hb hr (fun pre c t hc => runs_seq_nil_left (ds1_fails (stops_cons (space_not_digit hc) t) pre g))
    (fun pre => runs_seq_nil_left (ds1_fails hr' pre g))

lemma breaks_pieces {ps : List (Str × RadNode)} (h : ∀ p ∈ ps, Blank p.1 ∧ p.1 ≠ []) {r : Str} (hr : Breaks r) :
    Breaks (ps.flatMap (fun p => p.1 ++ nodeCore p.2) ++ r) := by
  cases ps with
  | nil => exact hr
  | cons p ps =>
    rw [List.flatMap_cons, List.append_assoc, List.append_assoc]
    exact breaks_blank (h p (by simp)).1 (h p (by simp)).2 _

lemma nodeCore_ne (n : RadNode) : nodeCore n ≠ [] := by
  simp [nodeCore, natStr_ne_nil]

/-- The node section. -/
lemma research_radNodes {ps : List (Str × RadNode)} (h : ∀ p ∈ ps, Blank p.1 ∧ p.1 ≠ []) (hw : ∀ p ∈ ps, p.2.Written)
    (hne : ps ≠ []) {b r : Str} (hb : Blank b) (hb' : b ≠ []) (hr : Stops isSpace r) (hr' : Stops isDigit r) (pre : Str) :
    ∃ t, reSearch radNodes (ps.flatMap (fun p => p.1 ++ nodeCore p.2) ++ (b ++ r)) pre =
      some (⟨ps.flatMap (fun p => p.1 ++ nodeCore p.2), [(1, ps.flatMap (fun p => p.1 ++ nodeCore p.2))]⟩, t) := by
  refine ⟨_, reSearch_hit' (first_group' (first_plus_pieces (fun p : Str × RadNode => p.1 ++ nodeCore p.2) ?_ (fun _ => True)
    (by simp) [] ps hne (b ++ r) ?_ ?_ pre trivial))⟩
  · intro p; simp [nodeCore_ne]
  · intro l1 p l2 pre e _
    have hp := h p (by rw [e]; simp)
    refine first_radNode (hw p (by rw [e]; simp)) hp.1 ?_ pre []
    exact breaks_pieces (fun q hq => h q (by rw [e]; simp [hq])) (breaks_blank hb hb' r)
  · intro pre _
    exact radNode_nodigit hb hr hr'

lemma findall_radNode {ps : List (Str × RadNode)} (h : ∀ p ∈ ps, Blank p.1 ∧ p.1 ≠ []) (hw : ∀ p ∈ ps, p.2.Written) :
    findall (radNode .group) (ps.flatMap (fun p => p.1 ++ nodeCore p.2)) =
      ps.map fun p => ⟨p.1 ++ nodeCore p.2, [(3, p.2.z.word), (2, p.2.y.word), (1, p.2.x.word)]⟩ := by
  unfold findall
  have hlen : ps.length ≤ (ps.flatMap (fun p => p.1 ++ nodeCore p.2)).length + 1 := by
    clear h hw
    induction ps with
    | nil => simp
    | cons p ps ih =>
      have := List.length_pos_iff.2 (nodeCore_ne p.2)
      simp only [List.flatMap_cons, List.length_append, List.length_cons] at ih ⊢; omega
  have := reFindall_pieces (r := radNode .group) (fun p : Str × RadNode => p.1 ++ nodeCore p.2)
    (fun p => [(3, p.2.z.word), (2, p.2.y.word), (1, p.2.x.word)]) (fun _ => True) (by simp) ps [] _ hlen
    (by
      intro l1 p l2 pre e _
      refine first_radNode_group (hw p (by rw [e]; simp)) (h p (by rw [e]; simp)).1 ?_ pre
      exact breaks_pieces (fun q hq => h q (by rw [e]; simp [hq])) (Or.inl rfl))
    (by
      intro pre _
      refine reSearch_none ?_
      intro w1 w2 e
      have : w2 = [] := by
        rw [eq_comm, List.append_eq_nil_iff] at e
        exact e.2
      subst this
      exact ws_fails (b := []) (r := []) (by intro c hc; simp at hc) (Stops.nil _)
        (fun pre c t hc => runs_seq_nil_left (ds1_fails (stops_cons (space_not_digit hc) t) pre []))
        (fun pre => runs_seq_nil_left (ds1_fails (Stops.nil _) pre []))) [] trivial
  rw [List.append_nil] at this
  exact this

/-- The coordinates of a node. -/
def nodeRow (n : RadNode) : List ℚ := [n.p.x, n.p.y, n.p.z]

lemma radVertex_ok {n : RadNode} (h : n.Written) (w : Str) :
    radVertex ⟨w, [(3, n.z.word), (2, n.y.word), (1, n.x.word)]⟩ = .ok (nodeRow n) := by
  obtain ⟨-, -, -, -, -, -, hx, hy, hz⟩ := h
  have e : radVertex ⟨w, [(3, n.z.word), (2, n.y.word), (1, n.x.word)]⟩ = floats [n.x.word, n.y.word, n.z.word] := rfl
  rw [e]
  simp only [floats, convAll, conv, hx, hy, hz, nodeRow]

/-! ### Element lines -/

lemma runs_seq_assoc (a b c : Re) (s : ReState) : (Re.seq (Re.seq a b) c).runs s = (Re.seq a (Re.seq b c)).runs s := by
  show ((a.runs s).flatMap b.runs).flatMap c.runs = (a.runs s).flatMap (fun t => (b.runs t).flatMap c.runs)
  rw [List.flatMap_assoc]

lemma first_seq_assoc (a b c : Re) (s : ReState) : (Re.seq (Re.seq a b) c).first s = (Re.seq a (Re.seq b c)).first s := by
  unfold Re.first; rw [runs_seq_assoc]

/-- Numbers in columns, and what follows. -/
lemma first_columns (k : Re) (l : List (ℕ × ℕ)) (hl : ∀ c ∈ l, 0 < c.1) (n : ℕ) {r : Str} (hr : Stops isDigit r) (pre : Str)
    (g : List (ℕ × Str)) {u : ReState}
    (h : k.first ⟨(natStr n ++ l.flatMap column).reverse ++ pre, r, g⟩ = some u) :
    (Re.seq (Re.rep (Re.seq Re.ds1 Re.ws1) l.length) (Re.seq Re.ds1 k)).first ⟨pre, natStr n ++ (l.flatMap column ++ r), g⟩ =
      some u := by
  induction l generalizing n pre with
  | nil =>
    refine first_seq (first_eps _) (first_seq (first_ds1 (natStr_ne_nil _) (natStr_digits _) hr) ?_)
    simpa using h
  | cons c l ih =>
    rw [List.length_cons, Re.rep, first_seq_assoc]
    have hc := hl c (by simp)
    have e : natStr n ++ ((c :: l).flatMap column ++ r) = natStr n ++ (sp c.1 ++ (natStr c.2 ++ (l.flatMap column ++ r))) := by
      simp only [List.flatMap_cons, column, List.append_assoc]
    rw [e]
    refine first_seq (first_seq (first_ds1 (natStr_ne_nil _) (natStr_digits _) (Breaks.stops (breaks_sps hc _)))
      (first_ws1 (sp_ne hc) (blank_sp _) (Word.stops (natStr_word _) _))) ?_
    refine ih (fun c hc => hl c (by simp [hc])) c.2 _ ?_
    rw [← h]
    simp only [List.flatMap_cons, column, List.reverse_append, List.append_assoc]

/-- The end of an element line, with blanks before the end of line. -/
lemma first_eol_sp (k : ℕ) {r : Str} (hr : SpacesFirst r) (pre : Str) (g : List (ℕ × Str)) :
    (Re.seq Re.ws Re.eols1).first ⟨pre, sp k ++ (nl ++ r), g⟩ = some ⟨(sp k ++ nl).reverse ++ pre, r, g⟩ := by
  obtain ⟨b, r', rfl, hb, hr'⟩ := hr
  have hstop : Stops (fun c => c == '\r' || c == '\n') r' := by
    intro c t e
    have := hr' c t e
    by_contra hc
    simp only [Bool.not_eq_false, Bool.or_eq_true, beq_iff_eq] at hc
    rcases hc with rfl | rfl <;> exact absurd this (by decide)
  have hsp : ∀ v2 : Str, (∀ c ∈ v2, c = ' ') → Stops (fun c => c == '\r' || c == '\n') (v2 ++ r') := by
    intro v2 hv
    cases v2 with
    | nil => exact hstop
    | cons c v2 =>
      refine stops_cons ?_ _
      rw [hv c (List.mem_cons_self ..)]; decide
  have := star_chr_back (p := isSpace) (w1 := sp k) (w2 := nl ++ b) (r := r') (blank_sp k)
    (by
      intro c hc
      rcases List.mem_append.1 hc with h | h
      · simp only [nl, List.mem_singleton] at h; subst h; decide
      · rw [hb c h]; decide) hr' pre g Re.eols1.runs
    (u := ⟨nl.reverse ++ ((sp k).reverse ++ pre), b ++ r', g⟩)
    (by
      intro v1 v2 e hv
      refine runs_seq_nil_left (Stops.runs (hsp v2 ?_) _ _)
      cases v1 with
      | nil => exact absurd rfl hv
      | cons c v1 =>
        have : b = v1 ++ v2 := by simpa [nl] using congrArg List.tail e
        intro c hc
        exact hb c (by rw [this]; exact List.mem_append_right _ hc))
    (by
      have := first_plus_chr (p := fun c => c == '\r' || c == '\n') (w := nl) (by simp [nl])
        (by intro c hc; simp only [nl, List.mem_singleton] at hc; subst hc; decide) (hsp b hb) ((sp k).reverse ++ pre) g
      simpa [Re.first, Re.eols1] using this)
  rw [List.append_assoc] at this
  simpa [Re.first, Re.runs, Re.ws] using this

lemma first_radElem {e : RadElement} (he : e.Written) {r : Str} (hr : SpacesFirst r) {pre : Str} (hpre : AtBol pre)
    (g : List (ℕ × Str)) :
    radElem.first ⟨pre, (e.line ++ nl) ++ r, g⟩ = some ⟨(e.line ++ nl).reverse ++ pre, r, g⟩ := by
  obtain ⟨h1, h2⟩ := he
  have ee : (e.line ++ nl) ++ r = sp e.first.1 ++ (natStr e.first.2 ++ (e.others.flatMap column ++ (sp e.b1 ++ (nl ++ r)))) := by
    simp only [RadElement.line, column, List.append_assoc]
  rw [ee]
  refine first_seq (first_bol hpre) ?_
  refine first_seq (first_ws (blank_sp _) (Word.stops (natStr_word _) _)) ?_
  rw [← h1]
  refine first_columns _ _ h2 _ ?_ _ _ ?_
  · exact Breaks.stops (by
      cases e.b1 with
      | zero => exact Or.inr ⟨'\n', r, rfl, by decide⟩
      | succ k => exact breaks_sps (by omega) _)
  · rw [first_eol_sp _ hr]
    simp only [RadElement.line, column, List.reverse_append, List.append_assoc]

lemma spacesFirst_elem (e : RadElement) (r : Str) : SpacesFirst (e.line ++ r) :=
  ⟨sp e.first.1, natStr e.first.2 ++ (e.others.flatMap column ++ (sp e.b1 ++ r)), by
    simp only [RadElement.line, column, List.append_assoc], fun c hc => List.eq_of_mem_replicate hc, Word.stops (natStr_word _) _⟩

lemma radElem_shape {pre post : Str} {g : List (ℕ × Str)} (h : radElem.runs ⟨pre, post, g⟩ ≠ []) :
    AtBol pre ∧ ∃ b d b' d' b'' r, post = b ++ (d ++ (b' ++ (d' ++ (b'' ++ r)))) ∧ Blank b ∧ AllDigits d ∧ d ≠ [] ∧
      Blank b' ∧ b' ≠ [] ∧ AllDigits d' ∧ d' ≠ [] ∧ Blank b'' ∧ b'' ≠ [] := by
  obtain ⟨t, ht⟩ := List.exists_mem_of_ne_nil _ h
  obtain ⟨u0, h0, ht⟩ := List.mem_flatMap.1 ht
  obtain ⟨rfl, hbol⟩ := mem_bol h0
  obtain ⟨u1, h1, ht⟩ := List.mem_flatMap.1 ht
  obtain ⟨b, r1, rfl, hb, rfl⟩ := mem_star_chr h1
  obtain ⟨u2, h2, ht⟩ := List.mem_flatMap.1 ht
  obtain ⟨u3, h3, h2⟩ := List.mem_flatMap.1 h2
  obtain ⟨u4, h4, h3⟩ := List.mem_flatMap.1 h3
  obtain ⟨d, r2, rfl, hd, hd', rfl⟩ := mem_plus_chr h4
  obtain ⟨b', r3, rfl, hb1, hb2, rfl⟩ := mem_plus_chr h3
  obtain ⟨u5, h5, h2⟩ := List.mem_flatMap.1 h2
  obtain ⟨u6, h6, h5⟩ := List.mem_flatMap.1 h5
  obtain ⟨d', r4, rfl, hd1, hd2, rfl⟩ := mem_plus_chr h6
  obtain ⟨b'', r5, rfl, hb3, hb4, rfl⟩ := mem_plus_chr h5
  exact ⟨hbol, b, d, b', d', b'', r5, rfl, hb, hd', hd, hb2, hb1, hd2, hd1, hb4, hb3⟩

lemma radElem_start {pre post : Str} {g : List (ℕ × Str)} (h : ¬ AtBol pre ∨ elemStart post = false) :
    radElem.runs ⟨pre, post, g⟩ = [] := by
  by_contra hc
  obtain ⟨hbol, b, d, b', d', b'', r, rfl, hb, hd, hd', hb1, hb2, hd1, hd2, hb3, hb4⟩ := radElem_shape hc
  rcases h with h | h
  · exact h hbol
  have e1 : (b ++ (d ++ (b' ++ (d' ++ (b'' ++ r))))).dropWhile isSpace = d ++ (b' ++ (d' ++ (b'' ++ r))) :=
    dropWhile_all hb (digits_stops_space hd hd' _)
  have e2 : (d ++ (b' ++ (d' ++ (b'' ++ r)))).dropWhile isDigit = b' ++ (d' ++ (b'' ++ r)) :=
    dropWhile_all hd (blank_stops_digit hb1 hb2 _)
  have e3 : (b' ++ (d' ++ (b'' ++ r))).dropWhile isSpace = d' ++ (b'' ++ r) :=
    dropWhile_all hb1 (digits_stops_space hd1 hd2 _)
  have e4 : (d' ++ (b'' ++ r)).dropWhile isDigit = b'' ++ r := dropWhile_all hd1 (blank_stops_digit hb3 hb4 _)
  have : elemStart (b ++ (d ++ (b' ++ (d' ++ (b'' ++ r))))) = true := by
    simp only [elemStart, e1, e2, e3, e4]
    rw [headD_append hd', headD_append hb2, headD_append hd2, headD_append hb4, hd _ (headD_mem hd' _),
      hb1 _ (headD_mem hb2 _), hd1 _ (headD_mem hd2 _), hb3 _ (headD_mem hb4 _)]
    rfl
  rw [this] at h; simp at h

lemma radElems_fails {pre post : Str} {g : List (ℕ × Str)} (h : radElem.runs ⟨pre, post, g⟩ = []) :
    radElems.runs ⟨pre, post, g⟩ = [] := by
  have h1 : (Re.rep radElem 3).runs ⟨pre, post, g⟩ = [] := runs_seq_nil_left h
  show List.map _ (((Re.rep radElem 3).runs _).flatMap _) = []
  rw [h1]; rfl

lemma skip_radElem {w v pre : Str} {b : Bool} (hb : AtBol pre → b = true) (h : scanElem b w v = true) :
    reSearch radElems (w ++ v) pre = reSearch radElems v (w.reverse ++ pre) := by
  refine reSearch_skip ?_
  have key : ∀ (w1 w : Str) (c : Char) (w2 pre : Str) (b : Bool), w = w1 ++ c :: w2 → (AtBol pre → b = true) →
      scanElem b w v = true → radElems.runs ⟨w1.reverse ++ pre, c :: (w2 ++ v), []⟩ = [] := by
    intro w1
    induction w1 with
    | nil =>
      intro w c w2 pre b e hb h
      subst e
      simp only [List.nil_append, scanElem, Bool.and_eq_true, Bool.not_eq_true'] at h
      refine radElems_fails (radElem_start ?_)
      by_cases hp : AtBol pre
      · right; simpa [hb hp] using h.1
      · left; simpa using hp
    | cons d w1 ih =>
      intro w c w2 pre b e hb h
      subst e
      simp only [List.cons_append, scanElem, Bool.and_eq_true] at h
      have := ih (w1 ++ c :: w2) c w2 (d :: pre) (d == '\n') rfl (by
        rintro (h | h)
        · simp at h
        · simpa using h) h.2
      simpa using this
  intro w1 c w2 e
  exact key w1 w c w2 pre b e hb h

lemma keyLine_start {l : Str} (h : KeyLine l) (r : Str) : elemStart (l ++ r) = false := by
  obtain ⟨-, c, t, rfl, h1, h2⟩ := h
  simp only [elemStart, List.cons_append, List.dropWhile_cons, h1, h2]
  simp [h2]

lemma scan_keyLines (l : List Str) (h : ∀ s ∈ l, KeyLine s) {w v : Str} (hw : scanElem true w v = true) :
    scanElem true (lines id l ++ w) v = true := by
  induction l with
  | nil => exact hw
  | cons s l ih =>
    have e : lines id (s :: l) ++ w = (s ++ nl) ++ (lines id l ++ w) := by
      simp [lines, nl]
    rw [e]
    exact scanElem_append (by simp [nl]) (scanElem_line (h s (by simp)).1 (keyLine_start (h s (by simp)) _))
      (ih fun s hs => h s (by simp [hs]))

/-- A node line does not start like an element line: its second number has a point. -/
lemma elemStart_node {n : RadNode} (h : n.Written) (r : Str) : elemStart (n.line ++ r) = false := by
  obtain ⟨b1, -, -, ⟨h1, h2, h3, -, -⟩, -⟩ := h
  obtain ⟨t, et⟩ : ∃ t, n.line ++ r = sp n.b0 ++ (natStr n.id ++ (sp n.bx ++ (n.x.sign ++ (n.x.ip ++ ('.' :: t))))) :=
    ⟨n.x.fp ++ n.x.exp ++ (sp n.by' ++ (n.y.word ++ (sp n.bz ++ (n.z.word ++ (sp n.b1 ++ r))))), by
      simp only [RadNode.line, Decimal.word, List.append_assoc, List.cons_append]⟩
  rw [et]
  have e1 : ∀ u, (sp n.b0 ++ (natStr n.id ++ u)).dropWhile isSpace = natStr n.id ++ u :=
    fun u => dropWhile_all (blank_sp _) (Word.stops (natStr_word _) _)
  have e2 : ∀ u, (natStr n.id ++ (sp n.bx ++ u)).dropWhile isDigit = sp n.bx ++ u :=
    fun u => dropWhile_all (natStr_digits _) (blank_stops_digit (blank_sp _) (sp_ne b1) _)
  have hip : ∀ u, (n.x.ip ++ ('.' :: u)).dropWhile isDigit = '.' :: u :=
    fun u => dropWhile_all h2 (stops_cons (by decide) _)
  unfold elemStart
  rcases h1 with hs | hs | hs <;> rw [hs]
  · have e3 : (sp n.bx ++ ([] ++ (n.x.ip ++ ('.' :: t)))).dropWhile isSpace = n.x.ip ++ ('.' :: t) := by
      rw [List.nil_append]; exact dropWhile_all (blank_sp _) (digits_stops_space h2 h3 _)
    simp only [e1, e2, e3, hip]
    simp only [List.headD_cons]
    have : isSpace '.' = false := by decide
    rw [this, Bool.and_false]
  all_goals
    have e3 := fun c (hc : isSpace c = false) =>
      dropWhile_all (p := isSpace) (r := c :: (n.x.ip ++ ('.' :: t))) (blank_sp n.bx) (stops_cons hc _)
    simp only [e1, e2, List.cons_append, List.nil_append, e3 '-' (by decide), e3 '+' (by decide)]
    simp only [List.headD_cons]
    have h' : isDigit '-' = false := by decide
    have h'' : isDigit '+' = false := by decide
    simp only [h', h'', Bool.and_false, Bool.false_and]

lemma sp_plain (k : ℕ) : '\n' ∉ sp k := fun h => absurd (List.eq_of_mem_replicate h) (by decide)

lemma word_plain {w : Str} (h : Word w) : '\n' ∉ w := fun hc => absurd (h.2 _ hc) (by decide)

lemma node_no_nl {n : RadNode} (h : n.Written) : '\n' ∉ n.line := by
  obtain ⟨-, -, -, hx, hy, hz, -⟩ := h
  simp only [RadNode.line, List.mem_append, not_or]
  exact ⟨sp_plain _, word_plain (natStr_word _), sp_plain _, word_plain (decimal_word hx), sp_plain _,
    word_plain (decimal_word hy), sp_plain _, word_plain (decimal_word hz), sp_plain _⟩

lemma scan_nodes (l : List RadNode) (h : ∀ n ∈ l, n.Written) {w v : Str} (hw : scanElem true w v = true) :
    scanElem true (lines RadNode.line l ++ w) v = true := by
  induction l with
  | nil => exact hw
  | cons s l ih =>
    have e : lines RadNode.line (s :: l) ++ w = (s.line ++ nl) ++ (lines RadNode.line l ++ w) := by
      simp [lines, nl]
    rw [e]
    exact scanElem_append (by simp [nl]) (scanElem_line (node_no_nl (h s (by simp))) (elemStart_node (h s (by simp)) _))
      (ih fun s hs => h s (by simp [hs]))

lemma lines_eq {α : Type} (line : α → Str) (l : List α) : lines line l = l.flatMap fun a => line a ++ nl := rfl

/-- The element section. -/
lemma research_radElems {l : List RadElement} (hl : ∀ e ∈ l, e.Written) (hlen : 3 ≤ l.length) {after : Str}
    (ha : Stops isSpace after) (ha' : Stops isDigit after) {pre : Str} (hpre : AtBol pre) :
    ∃ t, reSearch radElems (lines RadElement.line l ++ after) pre =
      some (⟨lines RadElement.line l, [(1, lines RadElement.line l)]⟩, t) := by
  have hstep : ∀ l1 b l2 pre, l = l1 ++ b :: l2 → AtBol pre →
      radElem.first ⟨pre, (b.line ++ nl) ++ (l2.flatMap (fun e => RadElement.line e ++ nl) ++ after), []⟩ =
        some ⟨(b.line ++ nl).reverse ++ pre, l2.flatMap (fun e => RadElement.line e ++ nl) ++ after, []⟩ := by
    intro l1 b l2 pre e hp
    refine first_radElem (hl b (by rw [e]; simp)) ?_ hp []
    cases l2 with
    | nil => exact spacesFirst_stop ha
    | cons p l2 =>
      rw [List.flatMap_cons, List.append_assoc, List.append_assoc]
      exact spacesFirst_elem p _
  have hstop : ∀ pre, radElem.runs ⟨pre, after, []⟩ = [] := by
    intro pre
    refine radElem_start (Or.inr ?_)
    cases after with
    | nil => rfl
    | cons c t =>
      have h1 := ha c t rfl
      have h2 := ha' c t rfl
      simp [elemStart, List.dropWhile_cons, h1, h2]
  refine ⟨_, reSearch_hit' (first_group' ?_)⟩
  obtain ⟨e1, e2, e3, l', rfl⟩ : ∃ e1 e2 e3 l', l = e1 :: e2 :: e3 :: l' := by
    match l, hlen with
    | e1 :: e2 :: e3 :: l', _ => exact ⟨e1, e2, e3, l', rfl⟩
  have s1 := hstep [] e1 (e2 :: e3 :: l') pre rfl hpre
  have s2 := hstep [e1] e2 (e3 :: l') ((e1.line ++ nl).reverse ++ pre) rfl (atBol_nl _ _)
  have s3 := hstep [e1, e2] e3 l' ((e2.line ++ nl).reverse ++ ((e1.line ++ nl).reverse ++ pre)) rfl (atBol_nl _ _)
  have s4 := first_star_pieces (r := radElem) (fun e => RadElement.line e ++ nl) (by simp [nl]) AtBol (fun e pre => atBol_nl _ _) [] l'
    after (fun l1 b l2 pre e hp => hstep (e1 :: e2 :: e3 :: l1) b l2 pre (by rw [e]; rfl) hp) (fun pre _ => hstop pre)
    ((e3.line ++ nl).reverse ++ ((e2.line ++ nl).reverse ++ ((e1.line ++ nl).reverse ++ pre))) (atBol_nl _ _)
  rw [lines_eq]
  simp only [List.flatMap_cons, List.append_assoc] at s1 s2 s3 s4 ⊢
  refine first_seq (first_seq s1 (first_seq s2 (first_seq s3 (first_eps _)))) ?_
  rw [s4]
  simp only [List.reverse_append, List.append_assoc]

lemma findall_radElem {l : List RadElement} (hl : ∀ e ∈ l, e.Written) :
    findall radElem (lines RadElement.line l) = l.map fun e => ⟨e.line ++ nl, []⟩ := by
  unfold findall
  rw [lines_eq]
  have hlen : l.length ≤ (l.flatMap (fun f => RadElement.line f ++ nl)).length + 1 := by
    clear hl
    induction l with
    | nil => simp
    | cons p l ih => simp only [List.flatMap_cons, List.length_append, List.length_cons, nl, List.length_nil] at ih ⊢; omega
  have := reFindall_pieces (r := radElem) (fun f => RadElement.line f ++ nl) (fun _ => []) AtBol (fun f pre => atBol_nl _ _) l [] _ hlen
    (by
      intro l1 b l2 pre e hp
      refine first_radElem (hl b (by rw [e]; simp)) ?_ hp []
      cases l2 with
      | nil => exact spacesFirst_stop (Stops.nil _)
      | cons p l2 =>
        rw [List.flatMap_cons, List.append_assoc, List.append_assoc]
        exact spacesFirst_elem p _)
    (by
      intro pre _
      refine reSearch_none ?_
      intro w1 w2 e
      have : w2 = [] := by
        rw [eq_comm, List.append_eq_nil_iff] at e
        exact e.2
      subst this
      exact radElem_start (Or.inr rfl)) [] (Or.inl rfl)
  rw [List.append_nil] at this
  exact this

lemma split_columns (l : List (ℕ × ℕ)) (hl : ∀ c ∈ l, 0 < c.1) {r : Str} (hr : Breaks r) :
    split (l.flatMap column ++ r) = l.map (fun c => natStr c.2) ++ split r := by
  induction l with
  | nil => rfl
  | cons c l ih =>
    have hb : Breaks (l.flatMap column ++ r) := by
      cases l with
      | nil => exact hr
      | cons d l =>
        simp only [List.flatMap_cons, column, List.append_assoc]
        exact breaks_sps (hl d (by simp)) _
    rw [List.flatMap_cons, List.append_assoc, column, List.append_assoc, split_tok (blank_sp _) (natStr_word _) hb,
      ih fun c hc => hl c (by simp [hc])]
    rfl

/-- The numbers of the nodes of an element. -/
def elemRow (e : RadElement) : List ℤ := e.nodes.map fun (n : ℕ) => (n : ℤ)

lemma ints_natStr (l : List ℕ) : ints (l.map natStr) = .ok (l.map fun (n : ℕ) => (n : ℤ)) := by
  induction l with
  | nil => rfl
  | cons n l ih =>
    unfold ints at ih ⊢
    simp only [List.map_cons, convAll, parseInt_natStr, conv, ih]

lemma radFace_ok {e : RadElement} (h : e.Written) : radFace ⟨e.line ++ nl, []⟩ = .ok (elemRow e) := by
  have hb : Blank (sp e.b1 ++ nl) := by
    intro c hc
    rcases List.mem_append.1 hc with hc | hc
    · exact blank_sp _ c hc
    · simp only [nl, List.mem_singleton] at hc; subst hc; decide
  have hbr : Breaks (sp e.b1 ++ nl) := by
    have := breaks_blank hb (by simp [nl]) []
    rwa [List.append_nil] at this
  have hs : split (e.line ++ nl) = natStr e.first.2 :: e.others.map fun c => natStr c.2 := by
    simp only [RadElement.line, column, List.append_assoc]
    rw [split_tok (blank_sp _) (natStr_word _), split_columns _ h.2 hbr]
    · have := split_blank hb []
      rw [List.append_nil] at this
      rw [this]; simp [split, splitAux]
    · cases ho : e.others with
      | nil => exact hbr
      | cons d l =>
        simp only [List.flatMap_cons, column, List.append_assoc]
        exact breaks_sps (h.2 d (by rw [ho]; simp)) _
  unfold radFace
  simp only [hs]
  rw [List.drop_succ_cons, ← List.map_drop]
  have e2 : (e.others.drop 2).map (fun c => natStr c.2) = e.nodes.map natStr := by
    simp only [RadElement.nodes, List.map_map]; rfl
  rw [e2]
  exact ints_natStr _

/-- What `load_RAD` should give. -/
def RadFile.loaded (f : RadFile) : Loaded := ⟨f.nodes.map nodeRow, minusOne (f.elements.map elemRow)⟩

lemma stops_lines {l : List Str} (hne : l ≠ []) (h : ∀ s ∈ l, KeyLine s) (r : Str) :
    Stops isSpace (lines id l ++ r) ∧ Stops isDigit (lines id l ++ r) := by
  cases l with
  | nil => exact absurd rfl hne
  | cons s l =>
    obtain ⟨-, c, t, rfl, h1, h2⟩ := h s (by simp)
    exact ⟨stops_cons h1 _, stops_cons h2 _⟩

lemma lines_append {α : Type} (line : α → Str) (l m : List α) : lines line (l ++ m) = lines line l ++ lines line m := by
  simp [lines]

/-- The nodes are read. -/
lemma rad_nodes {f : RadFile} (h : f.Written) (hn : f.nodes ≠ []) : ∃ m, research radNodes f.text = some m ∧
    mapAll radVertex (findall (radNode .group) (m.group 1)) = .ok (f.nodes.map nodeRow) := by
  obtain ⟨w, c0, hk, hc0⟩ := h.keys
  have hbl : Blank nl := by intro c hc; simp only [nl, List.mem_singleton] at hc; subst hc; decide
  obtain ⟨ps, h1, h2, b', h3, h4, h5⟩ := node_pieces f.nodes hbl (by simp [nl])
  have hw : ∀ p ∈ ps, p.2.Written := fun p hp => h.nodes p.2 (by rw [← h1]; exact List.mem_map_of_mem hp)
  have et : f.text = ((lines id f.before ++ w) ++ [c0]) ++ (ps.flatMap (fun p => p.1 ++ nodeCore p.2) ++ (b' ++
      (lines id f.between ++ (lines RadElement.line f.elements ++ f.after)))) := by
    rw [← List.append_assoc (ps.flatMap _), ← h5]
    unfold RadFile.text
    rw [lines_append]
    simp [lines, hk, nl]
  have hdot : '.' ∉ (lines id f.before ++ w) ++ [c0] := by
    rw [List.append_assoc, ← hk]
    intro hc
    rcases List.mem_append.1 hc with hc | hc
    · obtain ⟨s, hs, hc⟩ := List.mem_flatMap.1 hc
      rcases List.mem_append.1 hc with hc | hc
      · exact (h.before s (by simp [hs])).2 hc
      · exact absurd hc (by decide)
    · exact (h.before f.keys (by simp)).2 hc
  obtain ⟨hs1, hs2⟩ := stops_lines h.between.1 h.between.2 (lines RadElement.line f.elements ++ f.after)
  obtain ⟨t, ht⟩ := research_radNodes h2 hw (by rintro rfl; exact hn (by simpa using h1.symm)) h3 h4 hs1 hs2
    (((lines id f.before ++ w) ++ [c0]).reverse ++ [])
  refine ⟨⟨ps.flatMap (fun p => p.1 ++ nodeCore p.2), [(1, ps.flatMap (fun p => p.1 ++ nodeCore p.2))]⟩, ?_, ?_⟩
  · unfold research
    rw [et, skip_head hc0 hdot [], ht]
    rfl
  · rw [group_one, findall_radNode h2 hw, mapAll_map radVertex _ (fun p => nodeRow p.2) ps fun p hp => radVertex_ok (hw p hp) _]
    rw [← h1, List.map_map]
    rfl

/-- What precedes the elements. -/
def RadFile.head (f : RadFile) : Str := lines id (f.before ++ [f.keys]) ++ (lines RadNode.line f.nodes ++ lines id f.between)

lemma rad_skip {f : RadFile} (h : f.Written) (v : Str) :
    reSearch radElems (f.head ++ v) [] = reSearch radElems v f.head.reverse ∧ AtBol f.head.reverse := by
  constructor
  · have := skip_radElem (w := f.head) (v := v) (pre := []) (b := true) (fun _ => rfl) (by
      have h0 := scan_keyLines f.between h.between.2 (w := []) (v := v) rfl
      rw [List.append_nil] at h0
      exact scan_keyLines _ (fun s hs => (h.before s hs).1) (scan_nodes _ h.nodes h0))
    rw [List.append_nil] at this
    exact this
  · right
    obtain ⟨l, s, hs⟩ : ∃ l s, f.between = l ++ [s] := by
      rcases List.eq_nil_or_concat f.between with e | ⟨l, s, e⟩
      · exact absurd e h.between.1
      · exact ⟨l, s, by rw [e, List.concat_eq_append]⟩
    unfold RadFile.head
    rw [hs, lines_append]
    simp [lines]

lemma loadRAD_text (f : RadFile) (h : f.Written) (hn : f.nodes ≠ []) (he : 3 ≤ f.elements.length) :
    loadRAD f.text = .ok f.loaded := by
  obtain ⟨m, h1, h2⟩ := rad_nodes h hn
  have et : f.text = f.head ++ (lines RadElement.line f.elements ++ f.after) := by
    simp only [RadFile.text, RadFile.head, List.append_assoc]
  obtain ⟨h3, h4⟩ := rad_skip h (lines RadElement.line f.elements ++ f.after)
  have ha : Stops isSpace f.after ∧ Stops isDigit f.after := by
    rcases h.after with e | ⟨c, t, e, a, b⟩
    · rw [e]; exact ⟨Stops.nil _, Stops.nil _⟩
    · rw [e]; exact ⟨stops_cons a t, stops_cons b t⟩
  obtain ⟨t, ht⟩ := research_radElems h.elements he ha.1 ha.2 h4
  have h5 : research radElems f.text = some ⟨lines RadElement.line f.elements, [(1, lines RadElement.line f.elements)]⟩ := by
    unfold research
    rw [et, h3, ht]; rfl
  unfold loadRAD
  simp only [h1, h2, h5]
  rw [group_one, findall_radElem h.elements, mapAll_map radFace _ elemRow f.elements fun e he => radFace_ok (h.elements e he)]
  rfl

/-- The numbers of the nodes are 1, 2, … in the order of the file. -/
def RadFile.Sequential (f : RadFile) : Prop := ∀ k n, f.nodes[k]? = some n → n.id = k + 1

lemma rad_position_seq {f : RadFile} (hs : f.Sequential) {i : ℕ} (hi : ∃ n ∈ f.nodes, n.id = i) :
    f.position i = (f.nodes[i - 1]?).map RadNode.p ∧ 1 ≤ i := by
  obtain ⟨n, hn, hni⟩ := hi
  obtain ⟨k, hk⟩ := List.getElem?_of_mem hn
  have h1 := hs k n hk
  refine ⟨?_, by omega⟩
  unfold RadFile.position
  cases hf : f.nodes.find? fun n => n.id = i with
  | none =>
    have := List.find?_eq_none.1 hf n hn
    simp [hni] at this
  | some m =>
    have hm := List.mem_of_find?_eq_some hf
    have hmi : m.id = i := by simpa using List.find?_some hf
    obtain ⟨j, hj⟩ := List.getElem?_of_mem hm
    have hjk := hs j m hj
    have : i - 1 = j := by omega
    rw [this, hj]

/-- **C101** (partial): a RADIOSS file is read as its shell elements. For every file with at least one node and three elements,
whatever the blanks between the columns, the key words, the comments, and what follows the elements, whose nodes are numbered
1, 2, … and whose elements refer to nodes of the file: the vertices are the nodes, in the order of the file; there is one face
for each element, whose corners are the positions of its nodes. Missing: fewer than three elements (`C101_few_elements_fails`),
coordinates without point (`C101_no_point_fails`), nodes with other numbers (`C101_node_numbers_fail`). -/
theorem C101_rad_partial (f : RadFile) (h : f.Written) (hn : f.nodes ≠ []) (he : 3 ≤ f.elements.length) (hs : f.Sequential)
    (hin : ∀ e ∈ f.elements, ∀ i ∈ e.nodes, ∃ n ∈ f.nodes, n.id = i) :
    ∃ l, loadRAD f.text = .ok l ∧ l.vertices = f.nodes.map (fun n => [n.p.x, n.p.y, n.p.z]) ∧
      l.faces.map (fun row => row.map fun i : ℤ => if 0 ≤ i then (f.nodes[i.toNat]?).map RadNode.p else none) =
        f.elements.map (fun e => e.nodes.map f.position) := by
  refine ⟨f.loaded, loadRAD_text f h hn he, rfl, ?_⟩
  simp only [RadFile.loaded, minusOne, List.map_map]
  apply List.map_congr_left
  intro e hep
  simp only [Function.comp, elemRow, List.map_map]
  apply List.map_congr_left
  intro i hi
  obtain ⟨h1, h2⟩ := rad_position_seq hs (hin e hep i hi)
  simp only [Function.comp]
  rw [if_pos (by omega), h1]
  congr 2
  omega

/-! ### What is not read -/

/-- The number of ends of lines. -/
def eolCount (s : Str) : ℕ := s.countP fun c => c == '\r' || c == '\n'

lemma eolCount_read {r : Re} {s t : ReState} (h : t ∈ r.runs s) : eolCount t.post ≤ eolCount s.post := by
  obtain ⟨w, e, -⟩ := runs_read r s t h
  rw [e]
  simp [eolCount, List.countP_append]

lemma eolCount_elem {s t : ReState} (h : t ∈ radElem.runs s) : eolCount t.post + 1 ≤ eolCount s.post := by
  obtain ⟨u1, h1, h⟩ := List.mem_flatMap.1 h
  obtain ⟨u2, h2, h⟩ := List.mem_flatMap.1 h
  obtain ⟨u3, h3, h⟩ := List.mem_flatMap.1 h
  obtain ⟨u4, h4, h⟩ := List.mem_flatMap.1 h
  obtain ⟨u5, h5, h⟩ := List.mem_flatMap.1 h
  have a1 := eolCount_read h1
  have a2 := eolCount_read h2
  have a3 := eolCount_read h3
  have a4 := eolCount_read h4
  have a5 := eolCount_read h5
  obtain ⟨pre, post, g⟩ := u5
  obtain ⟨w, r, rfl, hw, hw', rfl⟩ := mem_plus_chr h
  have : 1 ≤ eolCount w := by
    cases w with
    | nil => exact absurd rfl hw
    | cons c w => simp [eolCount, List.countP_cons, hw' c (List.mem_cons_self ..)]
  simp only [eolCount, List.countP_append] at this a1 a2 a3 a4 a5 ⊢
  omega

lemma eolCount_elems {s t : ReState} (h : t ∈ radElems.runs s) : 3 ≤ eolCount s.post := by
  obtain ⟨u, h, -⟩ := List.mem_map.1 h
  obtain ⟨v, h, -⟩ := List.mem_flatMap.1 h
  obtain ⟨u1, h1, h⟩ := List.mem_flatMap.1 h
  obtain ⟨u2, h2, h⟩ := List.mem_flatMap.1 h
  obtain ⟨u3, h3, -⟩ := List.mem_flatMap.1 h
  have a1 := eolCount_elem h1
  have a2 := eolCount_elem h2
  have a3 := eolCount_elem h3
  omega

lemma eolCount_word {w : Str} (h : Word w) : eolCount w = 0 := by
  refine List.countP_eq_zero.2 ?_
  intro c hc hcc
  have := h.2 c hc
  simp only [Bool.or_eq_true, beq_iff_eq] at hcc
  rcases hcc with rfl | rfl <;> exact absurd this (by decide)

lemma eolCount_sp (k : ℕ) : eolCount (sp k) = 0 := by
  refine List.countP_eq_zero.2 ?_
  intro c hc hcc
  rw [List.eq_of_mem_replicate hc] at hcc
  exact absurd hcc (by decide)

lemma eolCount_columns (l : List (ℕ × ℕ)) : eolCount (l.flatMap column) = 0 := by
  induction l with
  | nil => rfl
  | cons c l ih =>
    have h1 := eolCount_sp c.1
    have h2 := eolCount_word (natStr_word c.2)
    unfold eolCount at h1 h2 ih ⊢
    simp only [List.flatMap_cons, column, List.countP_append, h1, h2, ih]

lemma eolCount_lines (l : List RadElement) : eolCount (lines RadElement.line l) = l.length := by
  induction l with
  | nil => rfl
  | cons e l ih =>
    have h1 := eolCount_sp e.first.1
    have h2 := eolCount_word (natStr_word e.first.2)
    have h3 := eolCount_columns e.others
    have h4 := eolCount_sp e.b1
    have e0 : lines RadElement.line (e :: l) = e.line ++ (['\n'] ++ lines RadElement.line l) := by simp [lines]
    rw [e0]
    unfold eolCount at h1 h2 h3 h4 ih ⊢
    simp only [RadElement.line, column, List.countP_append, h1, h2, h3, h4, ih]
    simp
    omega

/-- C101 is violated: a file with one or two elements is refused, with an exception which does not tell why (the pattern asks
for at least three element lines). -/
theorem C101_few_elements_fails (f : RadFile) (h : f.Written) (hn : f.nodes ≠ []) (ha : f.after = [])
    (he : f.elements.length < 3) : loadRAD f.text = .error .attributeError := by
  obtain ⟨m, h1, h2⟩ := rad_nodes h hn
  have et : f.text = f.head ++ lines RadElement.line f.elements := by
    simp only [RadFile.text, RadFile.head, List.append_assoc, ha, List.append_nil]
  have h5 : research radElems f.text = none := by
    unfold research
    rw [et, (rad_skip h _).1, reSearch_none]
    · rfl
    · intro w1 w2 e
      by_contra hc
      obtain ⟨t, ht⟩ := List.exists_mem_of_ne_nil _ hc
      have h3 := eolCount_elems ht
      have h4 := eolCount_lines f.elements
      rw [e] at h4
      simp only [eolCount, List.countP_append] at h3 h4
      omega
  unfold loadRAD
  simp only [h1, h2, h5]

/-- C101 is violated: a text without point is refused, whatever its nodes: integers are not recognised as coordinates. -/
theorem C101_no_point_fails (text : Str) (h : '.' ∉ text) : loadRAD text = .error .attributeError := by
  have : research radNodes text = none := by
    unfold research
    rw [reSearch_none]
    · rfl
    · rintro w1 w2 rfl
      refine radNodes_fails ?_
      by_contra hc
      obtain ⟨b, d, q, rest, rfl, -⟩ := radNode_shape hc
      exact h (by simp)
  unfold loadRAD
  simp only [this]

/-- A file of four nodes and three elements. -/
def radSample : RadFile where
  before := ["#RADIOSS STARTER".toList, "/BEGIN 100 0".toList]
  keys := "/NODE".toList
  nodes := [⟨1, ⟨0, 0, 0⟩, ⟨[], ['0'], [], []⟩, ⟨[], ['0'], ['0'], []⟩, ⟨[], ['0'], [], []⟩, 9, 1, 1, 1, 0⟩,
    ⟨2, ⟨1, 0, 0⟩, ⟨[], ['1'], [], []⟩, ⟨[], ['0'], [], []⟩, ⟨[], ['0'], [], []⟩, 9, 1, 3, 1, 2⟩,
    ⟨3, ⟨1, 1, -1 / 2⟩, ⟨['+'], ['1'], [], []⟩, ⟨[], ['1'], [], []⟩, ⟨['-'], ['5'], [], "E-1".toList⟩, 9, 1, 1, 1, 0⟩,
    ⟨4, ⟨0, 1, 0⟩, ⟨[], ['0'], [], []⟩, ⟨[], ['1'], [], "e0".toList⟩, ⟨[], ['0'], [], []⟩, 9, 1, 1, 1, 0⟩]
  between := ["# 4.5 elements 1 2 3 4 5 6 7".toList, "/SHELL/1".toList]
  elements := [⟨(9, 1), [(1, 1), (1, 1), (1, 1), (1, 2), (1, 3), (1, 4)], 0⟩,
    ⟨(0, 2), [(2, 1), (1, 1), (1, 1), (1, 2), (1, 3), (1, 1)], 3⟩, ⟨(0, 3), [(2, 1), (1, 1), (1, 4), (1, 3), (1, 2), (1, 4)], 0⟩]
  after := "/END\n".toList

theorem radSample_meets_C101 : radSample.Written ∧ radSample.nodes ≠ [] ∧ 3 ≤ radSample.elements.length ∧
    radSample.Sequential ∧ (∀ e ∈ radSample.elements, ∀ i ∈ e.nodes, ∃ n ∈ radSample.nodes, n.id = i) := by
  have key : ∀ l ∈ radSample.before ++ [radSample.keys] ++ radSample.between, KeyLine l := by
    intro l hl
    have h1 : ∀ l ∈ radSample.before ++ [radSample.keys] ++ radSample.between,
        '\n' ∉ l ∧ l ≠ [] ∧ isSpace (l.headD ' ') = false ∧ isDigit (l.headD ' ') = false := by decide +kernel
    obtain ⟨a, b, c, d⟩ := h1 l hl
    cases l with
    | nil => exact absurd rfl b
    | cons x l => exact ⟨a, x, l, rfl, c, d⟩
  have dot : ∀ l ∈ radSample.before ++ [radSample.keys], '.' ∉ l := by decide +kernel
  refine ⟨⟨fun l hl => ⟨key l (List.mem_append_left _ hl), dot l hl⟩, ⟨"/NOD".toList, 'E', by decide +kernel, by decide +kernel⟩, ?_,
    ⟨by simp [radSample], fun l hl => key l (List.mem_append_right _ hl)⟩, ?_, ?_⟩, by simp [radSample],
    by simp [radSample], ?_, by decide +kernel⟩
  · intro n hn
    have h1 : ∀ n ∈ radSample.nodes, 0 < n.bx ∧ 0 < n.by' ∧ 0 < n.bz := by decide +kernel
    have h2 : ∀ n ∈ radSample.nodes, parseFloat n.x.word = some n.p.x ∧ parseFloat n.y.word = some n.p.y ∧
      parseFloat n.z.word = some n.p.z := by decide +kernel
    have h3 : ∀ n ∈ radSample.nodes, ∀ d ∈ [n.x, n.y, n.z], (d.sign = [] ∨ d.sign = ['-'] ∨ d.sign = ['+']) ∧
      (∀ c ∈ d.ip, isDigit c = true) ∧ d.ip ≠ [] ∧ (∀ c ∈ d.fp, isDigit c = true) ∧
      (d.exp = [] ∨ d.exp = ['E', '-', '1'] ∨ d.exp = ['e', '0']) := by decide +kernel
    have h4 : ∀ d ∈ [n.x, n.y, n.z], d.Proper := by
      intro d hd
      obtain ⟨a, b, c, e, x⟩ := h3 n hn d hd
      refine ⟨a, b, c, e, ?_⟩
      rcases x with x | x | x
      · exact Or.inl x
      · exact Or.inr ⟨'E', ['-'], ['1'], x, by decide, by decide, by decide, by decide⟩
      · exact Or.inr ⟨'e', [], ['0'], x, by decide, by decide, by decide, by decide⟩
    exact ⟨(h1 n hn).1, (h1 n hn).2.1, (h1 n hn).2.2, h4 _ (by simp), h4 _ (by simp), h4 _ (by simp), h2 n hn⟩
  · unfold RadElement.Written; decide +kernel
  · exact Or.inr ⟨'/', "END\n".toList, by decide +kernel, by decide, by decide⟩
  · intro k n hk
    match k with
    | 0 | 1 | 2 | 3 => simp [radSample] at hk; rw [← hk]
    | k + 4 => simp [radSample] at hk

example : loadRAD radSample.text =
    .ok ⟨[[0, 0, 0], [1, 0, 0], [1, 1, -1 / 2], [0, 1, 0]], [[0, 1, 2, 3], [0, 1, 2, 0], [3, 2, 1, 3]]⟩ := by decide +kernel

/-- The file with its first two elements only. -/
def radTwo : RadFile := { radSample with elements := radSample.elements.take 2, after := [] }

/-- `C101_few_elements_fails` applies to it. -/
example : loadRAD radTwo.text = .error .attributeError := by
  have h := radSample_meets_C101.1
  refine C101_few_elements_fails radTwo ⟨h.before, h.keys, h.nodes, h.between, fun e he => h.elements e (List.mem_of_mem_take he),
    Or.inl rfl⟩ (by simp [radTwo, radSample]) rfl (by simp [radTwo, radSample])

/-- Nodes numbered otherwise: the faces refer to vertices which do not exist. -/
theorem C101_node_numbers_fail : loadRAD ("/NODE\n11 0. 0. 0.\n12 1. 0. 0.\n13 1. 1. 0.\n/SHELL\n1 1 1 11 12 13 11\n" ++
    "2 1 1 13 12 11 13\n3 1 1 12 13 11 12\n").toList =
    .ok ⟨[[0, 0, 0], [1, 0, 0], [1, 1, 0]], [[10, 11, 12, 10], [12, 11, 10, 12], [11, 12, 10, 11]]⟩ := by decide +kernel

end MM.Io
