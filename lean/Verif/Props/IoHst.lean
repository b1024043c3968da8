import Verif.Proofs.RegexNum
import Verif.Props.IoMar

/-!
# HST files (C87)
-/

namespace MM.Io

open MM

set_option linter.unusedSimpArgs false

/-! ### Node lines -/

lemma padL_eq (k : ℕ) (w : Str) : padL k w = List.replicate (k - w.length) ' ' ++ w := rfl

lemma spaces_ne {k : ℕ} {w : Str} (h : w.length < k) : List.replicate (k - w.length) ' ' ≠ [] := by
  intro e
  have := congrArg List.length e
  simp at this; omega

/-- A blank column and a printed number. -/
lemma first_column {d k : ℕ} {x : ℚ} (h : (sciStr d x).length < k) {r : Str} (hr : Stops isDigit r) (pre : Str)
    (g : List (ℕ × Str)) : (Re.seq Re.ws1 realRe).first ⟨pre, padL k (sciStr d x) ++ r, g⟩ =
      some ⟨(padL k (sciStr d x)).reverse ++ pre, r, g⟩ := by
  rw [padL_eq, List.append_assoc]
  have := first_seq (first_ws1 (pre := pre) (g := g) (spaces_ne h) (blank_spaces _) (Word.stops (sciStr_word d x) r))
    (first_real_sci d x hr _ g)
  rw [this]
  simp

lemma breaks_sci {x : ℚ} (h : FloatRange x) (r : Str) : Stops isDigit (fSci 16 x ++ r) :=
  Breaks.stops (breaks_fSci (by norm_num) h r)

/-- The line of a vertex. -/
def hstVLine (p : V3 ℚ × ℕ) : Str := fInt 10 (p.2 + 1) ++ fSci 16 p.1.x ++ fSci 16 p.1.y ++ fSci 16 p.1.z

/-- The coordinates can be printed in the columns. -/
def RowRange (v : V3 ℚ) : Prop := FloatRange v.x ∧ FloatRange v.y ∧ FloatRange v.z

lemma sci_short {x : ℚ} (h : FloatRange x) : (sciStr 6 x).length < 16 := lt_of_le_of_lt (sciStr_length h) (by norm_num)

lemma first_hstNode {p : V3 ℚ × ℕ} (h : RowRange p.1) {r : Str} (hr : Stops isDigit r) (pre : Str) (g : List (ℕ × Str)) :
    hstNode.first ⟨pre, (nl ++ hstVLine p) ++ r, g⟩ = some ⟨(nl ++ hstVLine p).reverse ++ pre, r, g⟩ := by
  obtain ⟨hx, hy, hz⟩ := h
  have hb : Blank (nl ++ List.replicate (10 - (natStr (p.2 + 1)).length) ' ') := by
    intro c hc
    rcases List.mem_append.1 hc with h | h
    · simp only [nl, List.mem_singleton] at h; subst h; decide
    · exact blank_spaces _ c h
  have e : (nl ++ hstVLine p) ++ r = (nl ++ List.replicate (10 - (natStr (p.2 + 1)).length) ' ') ++ (natStr (p.2 + 1) ++
      (fSci 16 p.1.x ++ (fSci 16 p.1.y ++ (fSci 16 p.1.z ++ r)))) := by
    simp only [hstVLine, fInt, padL_eq, List.append_assoc]
  rw [e]
  have h1 := first_ws (pre := pre) (g := g) hb (Word.stops (natStr_word (p.2 + 1))
    (fSci 16 p.1.x ++ (fSci 16 p.1.y ++ (fSci 16 p.1.z ++ r))))
  refine first_seq h1 (first_seq (first_ds1 (natStr_ne_nil _) (natStr_digits _) (breaks_sci hx _)) ?_)
  refine first_seq (first_column (sci_short hx) (breaks_sci hy _) _ _) ?_
  refine first_seq (first_column (sci_short hy) (breaks_sci hz _) _ _) ?_
  refine first_seq (first_column (sci_short hz) hr _ _) ?_
  show some _ = some _
  simp only [hstVLine, fInt, fSci, padL_eq, List.reverse_append, List.append_assoc]

/-- A real number has a point. -/
lemma real_dot {s t : ReState} (h : t ∈ realRe.runs s) : '.' ∈ s.post := by
  obtain ⟨u, hu, h⟩ := List.mem_flatMap.1 h
  obtain ⟨w, e, -⟩ := runs_read _ _ _ hu
  obtain ⟨v, hv, -⟩ := List.mem_flatMap.1 h
  have key : ∀ (a b : Re), v ∈ (Re.seq a (Re.seq (Re.chr (· == '.')) b)).runs u → '.' ∈ u.post := by
    intro a b hv
    obtain ⟨u1, hu1, hv⟩ := List.mem_flatMap.1 hv
    obtain ⟨w1, e1, -⟩ := runs_read _ _ _ hu1
    obtain ⟨u2, hu2, -⟩ := List.mem_flatMap.1 hv
    obtain ⟨pre, post, g⟩ := u1
    cases post with
    | nil => simp [runs_chr_nil] at hu2
    | cons c post =>
      rw [runs_chr_cons] at hu2
      split at hu2
      · rename_i hc
        obtain rfl : c = '.' := by simpa using hc
        rw [e1]; simp
      · simp at hu2
  rw [e]
  rcases List.mem_append.1 hv with hv | hv
  · exact List.mem_append_right _ (key _ _ hv)
  · exact List.mem_append_right _ (key _ _ hv)

/-- What a node line starts with: blanks, digits, blanks, and the first character of a real number. -/
lemma hstNode_shape {pre post : Str} {g : List (ℕ × Str)} (h : hstNode.runs ⟨pre, post, g⟩ ≠ []) :
    ∃ b d b' r, post = b ++ (d ++ (b' ++ r)) ∧ Blank b ∧ AllDigits d ∧ d ≠ [] ∧ Blank b' ∧ b' ≠ [] ∧
      (∃ pre', realRe.runs ⟨pre', r, g⟩ ≠ []) := by
  obtain ⟨t, ht⟩ := List.exists_mem_of_ne_nil _ h
  obtain ⟨u1, h1, ht⟩ := List.mem_flatMap.1 ht
  obtain ⟨b, r1, rfl, hb, rfl⟩ := mem_star_chr h1
  obtain ⟨u2, h2, ht⟩ := List.mem_flatMap.1 ht
  obtain ⟨d, r2, rfl, hd, hd', rfl⟩ := mem_plus_chr h2
  obtain ⟨u3, h3, ht⟩ := List.mem_flatMap.1 ht
  obtain ⟨u4, h4, h5⟩ := List.mem_flatMap.1 h3
  obtain ⟨b', r3, rfl, hb1, hb2, rfl⟩ := mem_plus_chr h4
  exact ⟨b, d, b', r3, rfl, hb, hd', hd, hb2, hb1, _, List.ne_nil_of_mem h5⟩

lemma hstNode_nodot {pre post : Str} {g : List (ℕ × Str)} (h : '.' ∉ post) : hstNode.runs ⟨pre, post, g⟩ = [] := by
  by_contra hc
  obtain ⟨b, d, b', r, rfl, -, -, -, -, -, pre', hr⟩ := hstNode_shape hc
  obtain ⟨t, ht⟩ := List.exists_mem_of_ne_nil _ hr
  have := real_dot ht
  exact h (by simp [this])

lemma hstNodes_fails {pre post : Str} {g : List (ℕ × Str)} (h : hstNode.runs ⟨pre, post, g⟩ = []) :
    hstNodes.runs ⟨pre, post, g⟩ = [] := by
  show List.map _ ((hstNode.runs _).flatMap _) = []
  rw [h]; rfl

/-- The start of a node line, as a test. -/
def nodeStart (s : Str) : Bool :=
  let s1 := s.dropWhile isSpace
  let s2 := s1.dropWhile isDigit
  (s1.headD ' ' |> isDigit) && (s2.headD '.' |> isSpace) &&
    ((s2.dropWhile isSpace).headD ' ' |> fun c => isDigit c || c == '.' || c == '+' || c == '-')

lemma dropWhile_all {p : Char → Bool} {b r : Str} (hb : ∀ c ∈ b, p c = true) (hr : Stops p r) : (b ++ r).dropWhile p = r := by
  induction b with
  | nil =>
    cases r with
    | nil => rfl
    | cons c r => simp [List.dropWhile, hr c r rfl]
  | cons c b ih =>
    rw [List.cons_append, List.dropWhile_cons_of_pos (hb c (List.mem_cons_self ..))]
    exact ih fun c hc => hb c (List.mem_cons_of_mem _ hc)

lemma digits_stops_space {d : Str} (hd : AllDigits d) (hne : d ≠ []) (r : Str) : Stops isSpace (d ++ r) :=
  Word.stops ⟨hne, hd.visible⟩ r

lemma blank_stops_digit {b : Str} (hb : Blank b) (hne : b ≠ []) (r : Str) : Stops isDigit (b ++ r) := by
  cases b with
  | nil => exact absurd rfl hne
  | cons c b => exact stops_cons (space_not_digit (hb c (List.mem_cons_self ..))) _

lemma real_start {pre r : Str} {g : List (ℕ × Str)} (h : realRe.runs ⟨pre, r, g⟩ ≠ []) :
    ∃ c t, r = c :: t ∧ (isDigit c || c == '.' || c == '+' || c == '-') = true := by
  by_contra hc
  push Not at hc
  apply h
  have := real_fails (w := []) (r := r) (by intro c hc; simp at hc) (g := g) (pre := pre)
  have hc' : ∀ c t, r = c :: t → ((isDigit c = false ∧ (c == '.') = false) ∧ (c == '+') = false) ∧ (c == '-') = false := by
    intro c t e
    have := hc c t e
    simpa only [ne_eq, Bool.not_eq_true, Bool.or_eq_false_iff] using this
  refine this (fun c t e => (hc' c t e).1.1.1) (fun c t e => (hc' c t e).1.1.2) (fun _ c t e => ?_)
  show (c == '+' || c == '-') = false
  rw [(hc' c t e).1.2, (hc' c t e).2]; rfl

lemma hstNode_start {pre post : Str} {g : List (ℕ × Str)} (h : nodeStart post = false) : hstNode.runs ⟨pre, post, g⟩ = [] := by
  by_contra hc
  obtain ⟨b, d, b', r, rfl, hb, hd, hd', hb', hb'', pre', hr⟩ := hstNode_shape hc
  obtain ⟨c, t, rfl, hcc⟩ := real_start hr
  have hcs : isSpace c = false := by
    by_contra hs
    have hs' : isSpace c = true := by simpa using hs
    have h1 := space_not_digit hs'
    simp only [h1, Bool.false_or, Bool.or_eq_true, beq_iff_eq] at hcc
    rcases hcc with (rfl | rfl) | rfl <;> exact absurd hs' (by decide)
  have e1 : (b ++ (d ++ (b' ++ c :: t))).dropWhile isSpace = d ++ (b' ++ c :: t) :=
    dropWhile_all hb (digits_stops_space hd hd' _)
  have e2 : (d ++ (b' ++ c :: t)).dropWhile isDigit = b' ++ c :: t :=
    dropWhile_all hd (blank_stops_digit hb' hb'' _)
  have e3 : (b' ++ c :: t).dropWhile isSpace = c :: t := dropWhile_all hb' (stops_cons hcs t)
  obtain ⟨d0, d1, rfl⟩ : ∃ d0 d1, d = d0 :: d1 := by cases d with | nil => exact absurd rfl hd' | cons x y => exact ⟨x, y, rfl⟩
  obtain ⟨b0, b1, rfl⟩ : ∃ d0 d1, b' = d0 :: d1 := by cases b' with | nil => exact absurd rfl hb'' | cons x y => exact ⟨x, y, rfl⟩
  have : nodeStart (b ++ (d0 :: d1 ++ (b0 :: b1 ++ c :: t))) = true := by
    simp only [nodeStart, e1, e2, e3]
    simp only [List.cons_append, List.headD_cons, hd d0 (List.mem_cons_self ..), hb' b0 (List.mem_cons_self ..), hcc]
    rfl
  rw [this] at h; simp at h

/-- The test at each position of `w`, followed by `v`. -/
def scan (f : Str → Bool) : Str → Str → Bool
  | [], _ => true
  | c :: w, v => !f (c :: (w ++ v)) && scan f w v

lemma scan_at {f : Str → Bool} {w v : Str} (h : scan f w v = true) {w1 : Str} {c : Char} {w2 : Str} (e : w = w1 ++ c :: w2) :
    f (c :: (w2 ++ v)) = false := by
  induction w1 generalizing w with
  | nil => subst e; simp only [List.nil_append, scan, Bool.and_eq_true, Bool.not_eq_true'] at h; exact h.1
  | cons d w1 ih =>
    subst e
    simp only [List.cons_append, scan, Bool.and_eq_true] at h
    exact ih h.2 rfl

/-- The header, without its last end of line. -/
def hstHead : Str := "PROJECT:\nUSERS:   meshmagick\n\nNBODY   1\nRHO   1025.0\nGRAVITY   9.81\n\nCOORDINATES".toList

/-- Between the blocks. -/
def hstMid : Str := "ENDCOORDINATES\n\nPANEL TYPE 0\n".toList

/-- The end. -/
def hstEnd : Str := "ENDPANEL\n\nENDFILE\n".toList

lemma hstHead_scan (v : Str) : scan nodeStart hstHead v = true := by
  unfold hstHead
  rfl

lemma skip_hstHead (v : Str) : reSearch hstNodes (hstHead ++ v) [] = reSearch hstNodes v hstHead.reverse := by
  have := reSearch_skip (r := hstNodes) (w := hstHead) (v := v) (pre := []) (by
    intro w1 c w2 e
    exact hstNodes_fails (hstNode_start (scan_at (hstHead_scan v) e)))
  simpa using this

lemma hstNodes_none {post : Str} (h : '.' ∉ post) (pre : Str) : reSearch hstNodes post pre = none := by
  refine reSearch_none ?_
  rintro w1 w2 rfl
  exact hstNodes_fails (hstNode_nodot (fun hc => h (List.mem_append_right _ hc)))

lemma natStr_nodot (n : ℕ) : '.' ∉ natStr n := fun h => absurd (natStr_digits n _ h) (by decide)

lemma fInt_nodot (w n : ℕ) : '.' ∉ fInt w n := by
  intro h
  rcases List.mem_append.1 h with h | h
  · exact absurd (List.eq_of_mem_replicate h) (by decide)
  · exact natStr_nodot n h

/-- The line of a face. -/
def faceLine (f : Face) : Str := fInt 10 (f.a + 1) ++ fInt 10 (f.b + 1) ++ fInt 10 (f.c + 1) ++ fInt 10 (f.d + 1)

lemma faceLine_nodot (f : Face) : '.' ∉ faceLine f := by
  simp [faceLine, fInt_nodot]

lemma nl_joinWith (l : List Str) (h : l ≠ []) : nl ++ joinWith nl l = l.flatMap (fun s => nl ++ s) := by
  induction l with
  | nil => exact absurd rfl h
  | cons s l ih =>
    cases l with
    | nil => simp [joinWith]
    | cons t l =>
      have := ih (by simp)
      simp only [joinWith, List.flatMap_cons, List.append_assoc] at this ⊢
      rw [this]

/-- The node section of a text. -/
lemma findall_hstNodes {l : List (V3 ℚ × ℕ)} (hl : ∀ p ∈ l, RowRange p.1) (hne : l ≠ []) {tail : Str} (ht : '.' ∉ tail)
    (hb : Stops isDigit tail) :
    findall hstNodes (hstHead ++ (l.flatMap (fun p => nl ++ hstVLine p) ++ tail)) =
      [⟨l.flatMap (fun p => nl ++ hstVLine p), [(1, l.flatMap (fun p => nl ++ hstVLine p))]⟩] := by
  unfold findall
  have h1 : hstNodes.first ⟨hstHead.reverse, l.flatMap (fun p => nl ++ hstVLine p) ++ tail, []⟩ =
      some ⟨(l.flatMap (fun p => nl ++ hstVLine p)).reverse ++ hstHead.reverse, tail,
        [(1, l.flatMap (fun p => nl ++ hstVLine p))]⟩ := by
    refine first_group' (first_plus_pieces (fun p => nl ++ hstVLine p) (by simp [nl]) (fun _ => True) (by simp) [] l hne tail ?_
      ?_ _ trivial)
    · intro l1 b l2 pre e _
      refine first_hstNode (hl b (by rw [e]; simp)) ?_ pre []
      cases l2 with
      | nil => simpa using hb
      | cons p l2 => exact stops_cons (by decide) _
    · intro pre _
      exact hstNode_nodot ht
  rw [reFindall_step (m := ⟨l.flatMap (fun p => nl ++ hstVLine p), [(1, l.flatMap (fun p => nl ++ hstVLine p))]⟩)
    (t := ⟨(l.flatMap (fun p => nl ++ hstVLine p)).reverse ++ hstHead.reverse, tail,
        [(1, l.flatMap (fun p => nl ++ hstVLine p))]⟩)]
  · rw [reFindall_none _ (hstNodes_none ht _)]
  · rw [skip_hstHead]
    exact reSearch_hit' h1

/-- The lines of the section. -/
lemma findall_hstNode {l : List (V3 ℚ × ℕ)} (hl : ∀ p ∈ l, RowRange p.1) :
    findall hstNode (l.flatMap (fun p => nl ++ hstVLine p)) = l.map fun p => ⟨nl ++ hstVLine p, []⟩ := by
  unfold findall
  have hlen : l.length ≤ (l.flatMap (fun p => nl ++ hstVLine p)).length + 1 := by
    clear hl
    induction l with
    | nil => simp
    | cons p l ih => simp only [List.flatMap_cons, List.length_append, List.length_cons, nl, List.length_nil] at ih ⊢; omega
  have := reFindall_pieces (r := hstNode) (fun p => nl ++ hstVLine p) (fun _ => []) (fun _ => True) (by simp) l [] _ hlen
    (by
      intro l1 b l2 pre e _
      refine first_hstNode (hl b (by rw [e]; simp)) ?_ pre []
      cases l2 with
      | nil => exact Stops.nil _
      | cons p l2 => exact stops_cons (by decide) _)
    (by
      intro pre _
      refine reSearch_none ?_
      intro w1 w2 e
      have : w2 = [] := by
        rw [eq_comm, List.append_eq_nil_iff] at e
        exact e.2
      subst this
      exact hstNode_nodot (by simp)) [] trivial
  rw [List.append_nil] at this
  exact this

lemma split_hstVLine {p : V3 ℚ × ℕ} (h : RowRange p.1) :
    split (nl ++ hstVLine p) = [natStr (p.2 + 1), sciStr 6 p.1.x, sciStr 6 p.1.y, sciStr 6 p.1.z] := by
  obtain ⟨hx, hy, hz⟩ := h
  rw [split_blank (s := nl) (by intro c hc; simp [nl] at hc; subst hc; decide)]
  simp only [hstVLine, List.append_assoc]
  rw [split_fInt _ _ (breaks_fSci (by norm_num) hx _), split_fSci _ _ (breaks_fSci (by norm_num) hy _),
    split_fSci _ _ (by have := breaks_fSci (w := 16) (by norm_num) hz []; rwa [List.append_nil] at this)]
  have := split_fSci 16 p.1.z (r := []) (Or.inl rfl)
  rw [List.append_nil] at this
  rw [this]; rfl

lemma hstAppend_ok {α β : Type} (p : Str → Except PyErr (List α)) (piece : β → Str) (row : β → List α) (l : List β)
    (h : ∀ b ∈ l, p (piece b) = .ok (row b)) (st : HstTmp α) (ha : st.array = false) :
    hstAppend p st (l.map fun b => ⟨piece b, []⟩) = .ok { st with tmp := st.tmp ++ l.map row } := by
  induction l generalizing st with
  | nil => simp [hstAppend]
  | cons b l ih =>
    have := ih (fun b hb => h b (List.mem_cons_of_mem _ hb)) { st with tmp := st.tmp ++ [row b] } ha
    simp only [List.map_cons, hstAppend, h b (List.mem_cons_self ..)]
    rw [if_neg (by simp [ha]), this]
    simp

lemma group_one (t w : Str) : ReMatch.group ⟨t, [(1, w)]⟩ 1 = w := rfl

/-- Reading of the node section. -/
lemma hst_vertices {l : List (V3 ℚ × ℕ)} (hl : ∀ p ∈ l, RowRange p.1) (hne : l ≠ []) {tail : Str} (ht : '.' ∉ tail)
    (hb : Stops isDigit tail) :
    ∃ st, hstSections hstNode (fun l => floats (split l).tail) {}
      (findall hstNodes (hstHead ++ (l.flatMap (fun p => nl ++ hstVLine p) ++ tail))) = .ok st ∧
      st.all = l.map fun p => sciRow p.1 := by
  rw [findall_hstNodes hl hne ht hb]
  have hr : rect (l.map fun p => sciRow p.1) = .ok (l.map fun p => sciRow p.1) :=
    rect_of_length (n := 3) (by intro r hr; obtain ⟨v, -, rfl⟩ := List.mem_map.1 hr; rfl)
  simp only [hstSections]
  rw [group_one, findall_hstNode hl, hstAppend_ok _ _ (fun p => sciRow p.1) l (by
    intro p hp
    rw [split_hstVLine (hl p hp)]
    exact floats_sci _ _ _) _ rfl]
  simp only [List.nil_append, hr, if_true]
  exact ⟨_, rfl, rfl⟩

/-! ### Element lines -/

/-- At the start of a line. -/
def AtBol (pre : Str) : Prop := pre = [] ∨ pre.head? = some '\n'

/-- What an element line starts with: two numbers followed by blanks. -/
def elemStart (s : Str) : Bool :=
  let s1 := s.dropWhile isSpace
  let s2 := s1.dropWhile isDigit
  let s3 := s2.dropWhile isSpace
  let s4 := s3.dropWhile isDigit
  (s1.headD ' ' |> isDigit) && (s2.headD '.' |> isSpace) && (s3.headD ' ' |> isDigit) && (s4.headD '.' |> isSpace)

lemma hstElem_shape {pre post : Str} {g : List (ℕ × Str)} (h : hstElem.runs ⟨pre, post, g⟩ ≠ []) :
    AtBol pre ∧ ∃ b d b' d' b'' r, post = b ++ (d ++ (b' ++ (d' ++ (b'' ++ r)))) ∧ Blank b ∧ AllDigits d ∧ d ≠ [] ∧
      Blank b' ∧ b' ≠ [] ∧ AllDigits d' ∧ d' ≠ [] ∧ Blank b'' ∧ b'' ≠ [] := by
  obtain ⟨t, ht⟩ := List.exists_mem_of_ne_nil _ h
  obtain ⟨u0, h0, ht⟩ := List.mem_flatMap.1 ht
  obtain ⟨rfl, hbol⟩ := mem_bol h0
  obtain ⟨u1, h1, ht⟩ := List.mem_flatMap.1 ht
  obtain ⟨b, r1, rfl, hb, rfl⟩ := mem_star_chr h1
  obtain ⟨u2, h2, ht⟩ := List.mem_flatMap.1 ht
  obtain ⟨u3, h3, h2⟩ := List.mem_flatMap.1 h2
  obtain ⟨u4, h4, h3⟩ := List.mem_flatMap.1 h3
  obtain ⟨d, r2, rfl, hd, hd', rfl⟩ := mem_plus_chr h4
  obtain ⟨b', r3, rfl, hb1, hb2, rfl⟩ := mem_plus_chr h3
  obtain ⟨u5, h5, h2⟩ := List.mem_flatMap.1 h2
  obtain ⟨u6, h6, h5⟩ := List.mem_flatMap.1 h5
  obtain ⟨d', r4, rfl, hd1, hd2, rfl⟩ := mem_plus_chr h6
  obtain ⟨b'', r5, rfl, hb3, hb4, rfl⟩ := mem_plus_chr h5
  exact ⟨hbol, b, d, b', d', b'', r5, rfl, hb, hd', hd, hb2, hb1, hd2, hd1, hb4, hb3⟩

lemma headD_append {s : Str} (hs : s ≠ []) (r : Str) (c : Char) : (s ++ r).headD c = s.headD c := by
  cases s with
  | nil => exact absurd rfl hs
  | cons a s => rfl

lemma headD_mem {s : Str} (hs : s ≠ []) (c : Char) : s.headD c ∈ s := by
  cases s with
  | nil => exact absurd rfl hs
  | cons a s => simp

lemma hstElem_start {pre post : Str} {g : List (ℕ × Str)} (h : ¬ AtBol pre ∨ elemStart post = false) :
    hstElem.runs ⟨pre, post, g⟩ = [] := by
  by_contra hc
  obtain ⟨hbol, b, d, b', d', b'', r, rfl, hb, hd, hd', hb1, hb2, hd1, hd2, hb3, hb4⟩ := hstElem_shape hc
  rcases h with h | h
  · exact h hbol
  have e1 : (b ++ (d ++ (b' ++ (d' ++ (b'' ++ r))))).dropWhile isSpace = d ++ (b' ++ (d' ++ (b'' ++ r))) :=
    dropWhile_all hb (digits_stops_space hd hd' _)
  have e2 : (d ++ (b' ++ (d' ++ (b'' ++ r)))).dropWhile isDigit = b' ++ (d' ++ (b'' ++ r)) :=
    dropWhile_all hd (blank_stops_digit hb1 hb2 _)
  have e3 : (b' ++ (d' ++ (b'' ++ r))).dropWhile isSpace = d' ++ (b'' ++ r) :=
    dropWhile_all hb1 (digits_stops_space hd1 hd2 _)
  have e4 : (d' ++ (b'' ++ r)).dropWhile isDigit = b'' ++ r := dropWhile_all hd1 (blank_stops_digit hb3 hb4 _)
  have : elemStart (b ++ (d ++ (b' ++ (d' ++ (b'' ++ r))))) = true := by
    simp only [elemStart, e1, e2, e3, e4]
    rw [headD_append hd', headD_append hb2, headD_append hd2, headD_append hb4, hd _ (headD_mem hd' _),
      hb1 _ (headD_mem hb2 _), hd1 _ (headD_mem hd2 _), hb3 _ (headD_mem hb4 _)]
    rfl
  rw [this] at h; simp at h

lemma hstElems_fails {pre post : Str} {g : List (ℕ × Str)} (h : ¬ AtBol pre ∨ elemStart post = false) :
    hstElems.runs ⟨pre, post, g⟩ = [] := by
  show List.map _ ((hstElem.runs _).flatMap _) = []
  rw [hstElem_start h]; rfl

/-- No element line starts in `w`, followed by `v`; the first argument: at the start of a line. -/
def scanElem : Bool → Str → Str → Bool
  | _, [], _ => true
  | b, c :: w, v => !(b && elemStart (c :: (w ++ v))) && scanElem (c == '\n') w v

lemma skip_elem {w v pre : Str} {b : Bool} (hb : AtBol pre → b = true) (h : scanElem b w v = true) :
    reSearch hstElems (w ++ v) pre = reSearch hstElems v (w.reverse ++ pre) := by
  refine reSearch_skip ?_
  have key : ∀ (w1 w : Str) (c : Char) (w2 pre : Str) (b : Bool), w = w1 ++ c :: w2 → (AtBol pre → b = true) →
      scanElem b w v = true → hstElems.runs ⟨w1.reverse ++ pre, c :: (w2 ++ v), []⟩ = [] := by
    intro w1
    induction w1 with
    | nil =>
      intro w c w2 pre b e hb h
      subst e
      simp only [List.nil_append, scanElem, Bool.and_eq_true, Bool.not_eq_true'] at h
      refine hstElems_fails ?_
      by_cases hp : AtBol pre
      · right; simpa [hb hp] using h.1
      · left; simpa using hp
    | cons d w1 ih =>
      intro w c w2 pre b e hb h
      subst e
      simp only [List.cons_append, scanElem, Bool.and_eq_true] at h
      have := ih (w1 ++ c :: w2) c w2 (d :: pre) (d == '\n') rfl (by
        rintro (h | h)
        · simp at h
        · simpa using h) h.2
      simpa using this
  intro w1 c w2 e
  exact key w1 w c w2 pre b e hb h

/-- The text starts with spaces, not with an end of line. -/
def SpacesFirst (r : Str) : Prop := ∃ b r', r = b ++ r' ∧ (∀ c ∈ b, c = ' ') ∧ Stops isSpace r'

/-- The end of an element line: blanks and an end of line. -/
lemma first_eol {r : Str} (hr : SpacesFirst r) (pre : Str) (g : List (ℕ × Str)) :
    (Re.seq Re.ws Re.eols1).first ⟨pre, nl ++ r, g⟩ = some ⟨nl.reverse ++ pre, r, g⟩ := by
  obtain ⟨b, r', rfl, hb, hr'⟩ := hr
  have hstop : Stops (fun c => c == '\r' || c == '\n') r' := by
    intro c t e
    have := hr' c t e
    by_contra hc
    simp only [Bool.not_eq_false, Bool.or_eq_true, beq_iff_eq] at hc
    rcases hc with rfl | rfl <;> exact absurd this (by decide)
  have hsp : ∀ v2 : Str, (∀ c ∈ v2, c = ' ') → Stops (fun c => c == '\r' || c == '\n') (v2 ++ r') := by
    intro v2 hv
    cases v2 with
    | nil => exact hstop
    | cons c v2 =>
      refine stops_cons ?_ _
      rw [hv c (List.mem_cons_self ..)]; decide
  have := star_chr_back (p := isSpace) (w1 := []) (w2 := nl ++ b) (r := r') (by simp)
    (by
      intro c hc
      rcases List.mem_append.1 hc with h | h
      · simp only [nl, List.mem_singleton] at h; subst h; decide
      · rw [hb c h]; decide) hr' pre g Re.eols1.runs
    (u := ⟨nl.reverse ++ pre, b ++ r', g⟩)
    (by
      intro v1 v2 e hv
      refine runs_seq_nil_left (Stops.runs (hsp v2 ?_) _ _)
      cases v1 with
      | nil => exact absurd rfl hv
      | cons c v1 =>
        have : b = v1 ++ v2 := by simpa [nl] using congrArg List.tail e
        intro c hc
        exact hb c (by rw [this]; exact List.mem_append_right _ hc))
    (by
      have := first_plus_chr (p := fun c => c == '\r' || c == '\n') (w := nl) (by simp [nl])
        (by intro c hc; simp only [nl, List.mem_singleton] at hc; subst hc; decide) (hsp b hb) pre g
      simpa [Re.first, Re.eols1] using this)
  rw [List.append_assoc] at this
  exact this

/-- A number in a column and the blanks of the next column. -/
lemma first_intcol {n k m : ℕ} (hm : (natStr m).length < k) {r : Str} (pre : Str) (g : List (ℕ × Str)) :
    (Re.seq Re.ds1 Re.ws1).first ⟨pre, natStr n ++ (fInt k m ++ r), g⟩ =
      some ⟨(List.replicate (k - (natStr m).length) ' ').reverse ++ ((natStr n).reverse ++ pre), natStr m ++ r, g⟩ := by
  have e : fInt k m ++ r = List.replicate (k - (natStr m).length) ' ' ++ (natStr m ++ r) := by
    simp only [fInt, padL_eq, List.append_assoc]
  rw [e]
  refine first_seq (first_ds1 (natStr_ne_nil n) (natStr_digits n) (blank_stops_digit (blank_spaces _) (spaces_ne hm) _)) ?_
  exact first_ws1 (spaces_ne hm) (blank_spaces _) (Word.stops (natStr_word m) r)

/-- The vertex numbers fit in the columns. -/
def FaceFits (f : Face) : Prop := f.a + 1 < 10 ^ 9 ∧ f.b + 1 < 10 ^ 9 ∧ f.c + 1 < 10 ^ 9 ∧ f.d + 1 < 10 ^ 9

lemma nat_short {n : ℕ} (h : n < 10 ^ 9) : (natStr n).length < 10 :=
  lt_of_le_of_lt (natStr_length (by norm_num) h) (by norm_num)

lemma first_hstElem {f : Face} (hf : FaceFits f) {r : Str} (hr : SpacesFirst r) {pre : Str} (hpre : AtBol pre)
    (g : List (ℕ × Str)) :
    hstElem.first ⟨pre, (faceLine f ++ nl) ++ r, g⟩ = some ⟨(faceLine f ++ nl).reverse ++ pre, r, g⟩ := by
  obtain ⟨ha, hb, hc, hd⟩ := hf
  have e : (faceLine f ++ nl) ++ r = List.replicate (10 - (natStr (f.a + 1)).length) ' ' ++ (natStr (f.a + 1) ++
      (fInt 10 (f.b + 1) ++ (fInt 10 (f.c + 1) ++ (fInt 10 (f.d + 1) ++ (nl ++ r))))) := by
    simp only [faceLine, fInt, padL_eq, List.append_assoc]
  rw [e]
  refine first_seq (first_bol hpre) ?_
  refine first_seq (first_ws (blank_spaces _) (Word.stops (natStr_word (f.a + 1)) _)) ?_
  have h3 : (Re.rep (Re.seq Re.ds1 Re.ws1) 3).first
      ⟨(List.replicate (10 - (natStr (f.a + 1)).length) ' ').reverse ++ pre, natStr (f.a + 1) ++
      (fInt 10 (f.b + 1) ++ (fInt 10 (f.c + 1) ++ (fInt 10 (f.d + 1) ++ (nl ++ r)))), g⟩ = _ :=
    first_seq (first_intcol (nat_short hb) _ _) (first_seq (first_intcol (nat_short hc) _ _)
      (first_seq (first_intcol (nat_short hd) _ _) (first_eps _)))
  refine first_seq h3 ?_
  refine first_seq (first_ds1 (natStr_ne_nil _) (natStr_digits _) (stops_cons (by decide) _)) ?_
  rw [first_eol hr]
  simp only [faceLine, fInt, padL_eq, List.reverse_append, List.append_assoc]

lemma spacesFirst_faceLine (f : Face) (r : Str) : SpacesFirst (faceLine f ++ r) := by
  refine ⟨List.replicate (10 - (natStr (f.a + 1)).length) ' ', natStr (f.a + 1) ++
      (fInt 10 (f.b + 1) ++ (fInt 10 (f.c + 1) ++ (fInt 10 (f.d + 1) ++ r))), ?_, ?_, Word.stops (natStr_word _) _⟩
  · simp only [faceLine, fInt, padL_eq, List.append_assoc]
  · intro c hc; exact List.eq_of_mem_replicate hc

lemma spacesFirst_stop {r : Str} (h : Stops isSpace r) : SpacesFirst r := ⟨[], r, rfl, by simp, h⟩

lemma atBol_nl (s pre : Str) : AtBol ((s ++ nl).reverse ++ pre) := Or.inr (by simp [nl])

lemma hstEnd_none (pre : Str) : reSearch hstElems hstEnd pre = none := by
  have h := skip_elem (w := hstEnd) (v := []) (pre := pre) (b := true) (fun _ => rfl) (by unfold hstEnd; rfl)
  rw [List.append_nil] at h
  rw [h]
  have := hstElems_fails (pre := hstEnd.reverse ++ pre) (post := []) (g := []) (Or.inr rfl)
  simp only [reSearch, this, List.head?_nil]

/-- The element section. -/
lemma findall_hstElems {l : List Face} (hl : ∀ f ∈ l, FaceFits f) (hne : l ≠ []) {head : Str}
    (hskip : ∀ v, reSearch hstElems (head ++ v) [] = reSearch hstElems v head.reverse) (hbol : AtBol head.reverse) :
    findall hstElems (head ++ (l.flatMap (fun f => faceLine f ++ nl) ++ hstEnd)) =
      [⟨l.flatMap (fun f => faceLine f ++ nl), [(1, l.flatMap (fun f => faceLine f ++ nl))]⟩] := by
  unfold findall
  have h1 : hstElems.first ⟨head.reverse, l.flatMap (fun f => faceLine f ++ nl) ++ hstEnd, []⟩ =
      some ⟨(l.flatMap (fun f => faceLine f ++ nl)).reverse ++ head.reverse, hstEnd,
        [(1, l.flatMap (fun f => faceLine f ++ nl))]⟩ := by
    refine first_group' (first_plus_pieces (fun f => faceLine f ++ nl) (by simp [nl]) AtBol (fun f pre => atBol_nl _ _) [] l hne
      hstEnd ?_ ?_ _ hbol)
    · intro l1 b l2 pre e hp
      refine first_hstElem (hl b (by rw [e]; simp)) ?_ hp []
      cases l2 with
      | nil => exact spacesFirst_stop (stops_cons (by decide) _)
      | cons p l2 =>
        have := spacesFirst_faceLine p (nl ++ (l2.flatMap (fun f => faceLine f ++ nl) ++ hstEnd))
        simpa using this
    · intro pre _
      exact hstElem_start (Or.inr (by unfold hstEnd; rfl))
  rw [reFindall_step (m := ⟨l.flatMap (fun f => faceLine f ++ nl), [(1, l.flatMap (fun f => faceLine f ++ nl))]⟩)
    (t := ⟨(l.flatMap (fun f => faceLine f ++ nl)).reverse ++ head.reverse, hstEnd,
        [(1, l.flatMap (fun f => faceLine f ++ nl))]⟩)]
  · rw [reFindall_none _ (hstEnd_none _)]
  · rw [hskip]
    exact reSearch_hit' h1

/-- The lines of the section. -/
lemma findall_hstElem {l : List Face} (hl : ∀ f ∈ l, FaceFits f) :
    findall hstElem (l.flatMap (fun f => faceLine f ++ nl)) = l.map fun f => ⟨faceLine f ++ nl, []⟩ := by
  unfold findall
  have hlen : l.length ≤ (l.flatMap (fun f => faceLine f ++ nl)).length + 1 := by
    clear hl
    induction l with
    | nil => simp
    | cons p l ih => simp only [List.flatMap_cons, List.length_append, List.length_cons, nl, List.length_nil] at ih ⊢; omega
  have := reFindall_pieces (r := hstElem) (fun f => faceLine f ++ nl) (fun _ => []) AtBol (fun f pre => atBol_nl _ _) l [] _ hlen
    (by
      intro l1 b l2 pre e hp
      refine first_hstElem (hl b (by rw [e]; simp)) ?_ hp []
      cases l2 with
      | nil => exact spacesFirst_stop (Stops.nil _)
      | cons p l2 =>
        have := spacesFirst_faceLine p (nl ++ l2.flatMap (fun f => faceLine f ++ nl))
        simpa using this)
    (by
      intro pre _
      refine reSearch_none ?_
      intro w1 w2 e
      have : w2 = [] := by
        rw [eq_comm, List.append_eq_nil_iff] at e
        exact e.2
      subst this
      exact hstElem_start (Or.inr rfl)) [] (Or.inl rfl)
  rw [List.append_nil] at this
  exact this

/-- Reading of the element section. -/
lemma hst_faces {l : List Face} (hl : ∀ f ∈ l, FaceFits f) (hne : l ≠ []) {head : Str}
    (hskip : ∀ v, reSearch hstElems (head ++ v) [] = reSearch hstElems v head.reverse) (hbol : AtBol head.reverse) :
    ∃ st, hstSections hstElem (fun l => ints (split l)) {}
      (findall hstElems (head ++ (l.flatMap (fun f => faceLine f ++ nl) ++ hstEnd))) = .ok st ∧
      st.all = l.map faceRow1 ∧ st.array = true := by
  rw [findall_hstElems hl hne hskip hbol]
  have hr := rect_faceRow1 l
  simp only [hstSections]
  rw [group_one, findall_hstElem hl, hstAppend_ok _ _ faceRow1 l (by
    intro f hf
    have := (face_line (hl f hf)).2
    unfold faceLine
    rw [this]
    exact ints4 _ _ _ _) _ rfl]
  simp only [List.nil_append, hr, if_true]
  exact ⟨_, rfl, rfl, rfl⟩

/-- A line that does not start like an element line. -/
lemma scanElem_line {s v : Str} (hs : '\n' ∉ s) (h : elemStart (s ++ (nl ++ v)) = false) :
    scanElem true (s ++ nl) v = true := by
  have key : ∀ s : Str, '\n' ∉ s → scanElem false (s ++ nl) v = true := by
    intro s
    induction s with
    | nil => intro _; rfl
    | cons c s ih =>
      intro hs
      have hc : (c == '\n') = false := by
        simp only [beq_eq_false_iff_ne]; exact fun e => hs (e ▸ List.mem_cons_self ..)
      simp only [List.cons_append, scanElem, Bool.false_and, Bool.not_false, Bool.true_and, hc]
      exact ih fun hm => hs (List.mem_cons_of_mem _ hm)
  cases s with
  | nil =>
    have : elemStart ('\n' :: v) = false := h
    simp [scanElem, nl, this]
  | cons c s =>
    have hc : (c == '\n') = false := by
      simp only [beq_eq_false_iff_ne]; exact fun e => hs (e ▸ List.mem_cons_self ..)
    have h' : elemStart (c :: ((s ++ nl) ++ v)) = false := by simpa using h
    simp only [List.cons_append, scanElem, hc, h', Bool.and_false, Bool.not_false, Bool.true_and]
    exact key s fun hm => hs (List.mem_cons_of_mem _ hm)

lemma scanElem_append {b : Bool} {w w' v : Str} (hw : w.getLast? = some '\n') (h : scanElem b w (w' ++ v) = true)
    (h' : scanElem true w' v = true) : scanElem b (w ++ w') v = true := by
  induction w generalizing b with
  | nil => simp at hw
  | cons c w ih =>
    simp only [scanElem, Bool.and_eq_true, List.cons_append, List.append_assoc] at h ⊢
    refine ⟨h.1, ?_⟩
    cases w with
    | nil =>
      simp only [List.getLast?_singleton, Option.some.injEq] at hw
      subst hw
      exact h'
    | cons d w =>
      exact ih (by simpa using hw) h.2

/-- A vertex line does not start like an element line: its second number has a point. -/
lemma elemStart_vertex {p : V3 ℚ × ℕ} (h : RowRange p.1) (r : Str) : elemStart (hstVLine p ++ r) = false := by
  obtain ⟨sg, ip, fp, es, ed, e, h1, h2, h3, h4, h5, h6, h7⟩ := sciStr_parts 6 p.1.x
  have hne := spaces_ne (sci_short h.1)
  have et : hstVLine p ++ r = List.replicate (10 - (natStr (p.2 + 1)).length) ' ' ++ (natStr (p.2 + 1) ++
      (List.replicate (16 - (sciStr 6 p.1.x).length) ' ' ++ (sg ++ (ip ++ ('.' :: (fp ++ ('E' :: es :: ed) ++
        (fSci 16 p.1.y ++ fSci 16 p.1.z ++ r))))))) := by
    have e16 : fSci 16 p.1.x = List.replicate (16 - (sciStr 6 p.1.x).length) ' ' ++ sciStr 6 p.1.x := padL_eq _ _
    rw [hstVLine, e16]
    generalize List.replicate (16 - (sciStr 6 p.1.x).length) ' ' = b
    rw [e]
    simp only [fInt, padL_eq, List.append_assoc, List.cons_append]
  rw [et]
  generalize fp ++ ('E' :: es :: ed) ++ (fSci 16 p.1.y ++ fSci 16 p.1.z ++ r) = t
  have hsp := blank_spaces (16 - (sciStr 6 p.1.x).length)
  generalize List.replicate (16 - (sciStr 6 p.1.x).length) ' ' = b at hsp hne ⊢
  have e1 : ∀ u, (List.replicate (10 - (natStr (p.2 + 1)).length) ' ' ++ (natStr (p.2 + 1) ++ u)).dropWhile isSpace =
      natStr (p.2 + 1) ++ u := fun u => dropWhile_all (blank_spaces _) (Word.stops (natStr_word _) _)
  have e2 : ∀ u, (natStr (p.2 + 1) ++ (b ++ u)).dropWhile isDigit = b ++ u :=
    fun u => dropWhile_all (natStr_digits _) (blank_stops_digit hsp hne _)
  have hip : ∀ u, (ip ++ ('.' :: u)).dropWhile isDigit = '.' :: u :=
    fun u => dropWhile_all h2 (stops_cons (by decide) _)
  unfold elemStart
  rcases h1 with rfl | rfl
  · have e3 : (b ++ ([] ++ (ip ++ ('.' :: t)))).dropWhile isSpace = ip ++ ('.' :: t) := by
      rw [List.nil_append]; exact dropWhile_all hsp (digits_stops_space h2 h3 _)
    simp only [e1, e2, e3, hip]
    simp only [List.headD_cons]
    have : isSpace '.' = false := by decide
    rw [this, Bool.and_false]
  · have e3 : (b ++ (['-'] ++ (ip ++ ('.' :: t)))).dropWhile isSpace = '-' :: (ip ++ ('.' :: t)) :=
      dropWhile_all hsp (stops_cons (by decide) _)
    simp only [e1, e2, e3]
    simp only [List.headD_cons]
    have : isDigit '-' = false := by decide
    rw [this, Bool.and_false, Bool.false_and]

lemma vline_no_nl (p : V3 ℚ × ℕ) : '\n' ∉ hstVLine p := fun h =>
  ((((plain_fInt 10 _).append (plain_fSci 16 _)).append (plain_fSci 16 _)).append (plain_fSci 16 _)) _ h rfl

/-- What precedes the element lines is skipped. -/
lemma skip_to_elems {l : List (V3 ℚ × ℕ)} (hl : ∀ p ∈ l, RowRange p.1) (v : Str) :
    reSearch hstElems ((hstHead ++ nl ++ (l.flatMap (fun p => hstVLine p ++ nl) ++ hstMid)) ++ v) [] =
      reSearch hstElems v (hstHead ++ nl ++ (l.flatMap (fun p => hstVLine p ++ nl) ++ hstMid)).reverse := by
  have h2 : ∀ l : List (V3 ℚ × ℕ), (∀ p ∈ l, RowRange p.1) →
      scanElem true (l.flatMap (fun p => hstVLine p ++ nl) ++ hstMid) v = true := by
    intro l
    induction l with
    | nil => intro _; unfold hstMid; rfl
    | cons p l ih =>
      intro hl
      rw [List.flatMap_cons, List.append_assoc]
      refine scanElem_append (by simp [nl]) ?_ (ih fun q hq => hl q (List.mem_cons_of_mem _ hq))
      exact scanElem_line (vline_no_nl p) (elemStart_vertex (hl p (List.mem_cons_self ..)) _)
  have := skip_elem (pre := []) (b := true) (fun _ => rfl)
    (scanElem_append (b := true) (w := hstHead ++ nl) (by simp [nl]) (by unfold hstHead; rfl) (h2 l hl))
  rw [List.append_nil] at this
  exact this

/-! ### The round trip (C87) -/

lemma writeHST_eq (m : Mesh ℚ) : writeHST m = hstHead ++ nl ++ (joinWith nl (m.vertices.zipIdx.map hstVLine) ++ nl ++ hstMid) ++
    (joinWith nl (m.faces.map faceLine) ++ nl ++ hstEnd) := by
  have e1 : "PROJECT:\nUSERS:   meshmagick\n\nNBODY   1\nRHO   1025.0\nGRAVITY   9.81\n\nCOORDINATES\n".toList =
    hstHead ++ nl := by unfold hstHead; rfl
  have e2 : "\nENDCOORDINATES\n\nPANEL TYPE 0\n".toList = nl ++ hstMid := by unfold hstMid; rfl
  have e3 : "\nENDPANEL\n\nENDFILE\n".toList = nl ++ hstEnd := by unfold hstEnd; rfl
  have e4 : hstVLine = fun p => fInt 10 (p.2 + 1) ++ fSci 16 p.1.x ++ fSci 16 p.1.y ++ fSci 16 p.1.z := rfl
  have e5 : faceLine = fun f => fInt 10 (f.a + 1) ++ fInt 10 (f.b + 1) ++ fInt 10 (f.c + 1) ++ fInt 10 (f.d + 1) := rfl
  unfold writeHST
  rw [e1, e2, e3, e4, e5]
  simp only [List.append_assoc]

/-- The vertices are read, whatever the faces. -/
lemma hst_read_vertices (m : Mesh ℚ) (h : Usual m) : ∃ st, hstSections hstNode (fun l => floats (split l).tail) {}
    (findall hstNodes (writeHST m)) = .ok st ∧ st.all = m.vertices.map sciRow := by
  have htail : '.' ∉ nl ++ hstMid ++ (joinWith nl (m.faces.map faceLine) ++ nl ++ hstEnd) := by
    have hj : '.' ∉ joinWith nl (m.faces.map faceLine) := by
      by_cases hf : m.faces = []
      · simp [hf, joinWith]
      intro hc
      have h1 : '.' ∈ nl ++ joinWith nl (m.faces.map faceLine) := List.mem_append_right _ hc
      rw [nl_joinWith _ (by simpa using hf), List.flatMap_map] at h1
      obtain ⟨f, -, h2⟩ := List.mem_flatMap.1 h1
      rcases List.mem_append.1 h2 with h | h
      · exact absurd h (by decide)
      · exact faceLine_nodot f h
    have h1 : '.' ∉ nl ++ hstMid := by decide
    have h2 : '.' ∉ nl := by decide
    have h3 : '.' ∉ hstEnd := by decide
    simp only [List.mem_append, not_or] at h1 ⊢
    exact ⟨h1, ⟨hj, h2⟩, h3⟩
  by_cases hv : m.vertices = []
  · have e : writeHST m = hstHead ++ (nl ++ (nl ++ hstMid ++ (joinWith nl (m.faces.map faceLine) ++ nl ++ hstEnd))) := by
      rw [writeHST_eq, hv]
      simp only [List.zipIdx_nil, List.map_nil, joinWith, List.nil_append, List.append_assoc]
    have : findall hstNodes (writeHST m) = [] := by
      unfold findall
      refine reFindall_none _ ?_
      rw [e, skip_hstHead]
      refine hstNodes_none ?_ _
      intro hc
      rcases List.mem_append.1 hc with h | h
      · exact absurd h (by decide)
      · exact htail h
    rw [this]
    exact ⟨_, rfl, by simp [hv]⟩
  · have e : writeHST m = hstHead ++ (m.vertices.zipIdx.flatMap (fun p => nl ++ hstVLine p) ++
        (nl ++ hstMid ++ (joinWith nl (m.faces.map faceLine) ++ nl ++ hstEnd))) := by
      have hj := nl_joinWith (m.vertices.zipIdx.map hstVLine) (by simpa using hv)
      rw [List.flatMap_map] at hj
      rw [writeHST_eq, ← hj]
      simp only [List.append_assoc]
    have hl : ∀ p ∈ m.vertices.zipIdx, RowRange p.1 := by
      intro p hp
      exact h.1 p.1 (List.fst_mem_of_mem_zipIdx hp)
    obtain ⟨st, h1, h2⟩ := hst_vertices hl (by simpa using hv) htail (stops_cons (by decide) _)
    rw [e]
    refine ⟨st, h1, ?_⟩
    rw [h2]
    have : m.vertices.zipIdx.map (fun p => sciRow p.1) = (m.vertices.zipIdx.map Prod.fst).map sciRow := by
      rw [List.map_map]; rfl
    rw [this, List.zipIdx_map_fst]

/-- The text before the element lines. -/
lemma hst_prefix (m : Mesh ℚ) (h : Usual m) : ∃ head, (∀ s, writeHST m = s → hstHead ++ nl ++
      (joinWith nl (m.vertices.zipIdx.map hstVLine) ++ nl ++ hstMid) = head) ∧
    (∀ v, reSearch hstElems (head ++ v) [] = reSearch hstElems v head.reverse) ∧ AtBol head.reverse := by
  refine ⟨_, fun s _ => rfl, ?_, ?_⟩
  · intro v
    by_cases hv : m.vertices = []
    · rw [hv]
      have := skip_elem (w := hstHead ++ nl ++ (nl ++ hstMid)) (v := v) (pre := []) (b := true) (fun _ => rfl) (by
        unfold hstHead hstMid; rfl)
      rw [List.append_nil] at this
      exact this
    · have hl : ∀ p ∈ m.vertices.zipIdx, RowRange p.1 := by
        intro p hp
        exact h.1 p.1 (List.fst_mem_of_mem_zipIdx hp)
      have hj := joinWith_nl (m.vertices.zipIdx.map hstVLine) (by simpa using hv)
      rw [List.flatMap_map] at hj
      rw [hj]
      exact skip_to_elems hl v
  · right
    simp only [List.reverse_append, List.append_assoc]
    rfl

/-- What `load_HST` returns for the file of a mesh. -/
theorem loadHST_write (m : Mesh ℚ) (h : Usual m) (hf : m.faces ≠ []) :
    loadHST (writeHST m) = .ok ⟨m.vertices.map sciRow, m.faces.map faceRow⟩ := by
  obtain ⟨vs, h1, h2⟩ := hst_read_vertices m h
  obtain ⟨head, hh, hskip, hbol⟩ := hst_prefix m h
  obtain ⟨fs, h3, h4, h5⟩ := hst_faces (l := m.faces) (fun f hm => h.face hm) hf hskip hbol
  have e : writeHST m = head ++ (m.faces.flatMap (fun f => faceLine f ++ nl) ++ hstEnd) := by
    have hj := joinWith_nl (m.faces.map faceLine) (by simpa using hf)
    rw [List.flatMap_map] at hj
    rw [writeHST_eq, hh _ rfl, ← hj]
  unfold loadHST
  rw [h1]
  simp only
  rw [e, h3]
  simp only [h5, if_true, h2, h4, minusOne_faceRow1]

/-- C87. A mesh with at least one face, written in the HST format and read back, is the same mesh, the coordinates rounded
to seven significant digits. The searches of `load_HST` by regular expression find exactly the lines `write_HST` wrote. -/
theorem C87_hst_partial (m : Mesh ℚ) (h : Usual m) (hf : m.faces ≠ []) :
    ∃ l, loadHST (writeHST m) = .ok l ∧ GivesBack Rounded7Digits m l :=
  ⟨_, loadHST_write m h hf, givesBack_sci m⟩

/-- C87 is violated: the file written for a mesh without face cannot be read. -/
theorem C87_no_faces_fails (m : Mesh ℚ) (h : Usual m) (hf : m.faces = []) : loadHST (writeHST m) = .error .typeError := by
  obtain ⟨vs, h1, -⟩ := hst_read_vertices m h
  obtain ⟨head, hh, hskip, -⟩ := hst_prefix m h
  have e : writeHST m = head ++ (nl ++ hstEnd) := by
    rw [writeHST_eq, hh _ rfl, hf]; rfl
  have hn : findall hstElems (writeHST m) = [] := by
    unfold findall
    refine reFindall_none _ ?_
    rw [e, hskip]
    have := skip_elem (w := nl) (v := hstEnd) (pre := head.reverse) (b := true) (fun _ => rfl) (by
      unfold hstEnd; rfl)
    rw [this]
    exact hstEnd_none _
  unfold loadHST
  rw [h1, hn]
  rfl

example : ∃ l, loadHST (writeHST sample) = .ok l ∧ GivesBack Rounded7Digits sample l :=
  C87_hst_partial sample sample_usual (by decide)

/-- A file of two bodies: the format is meant for several sections, and the loop of `load_HST` for reading them all. -/
def hstTwoBodies : Str :=
  "COORDINATES\n 1 0. 0. 0.\n 2 1. 0. 0.\nENDCOORDINATES\nCOORDINATES\n 3 1. 1. 0.\nENDCOORDINATES\nPANEL TYPE 0\n1 2 3 1\nENDPANEL\n".toList

/-- C87: a file with a second section cannot be read, the array of the first one has no `append`. -/
theorem C87_second_section_fails : loadHST hstTwoBodies = .error .attributeError := by decide +kernel

/-- The same lines in one section are read. -/
example : loadHST "COORDINATES\n 1 0. 0. 0.\n 2 1. 0. 0.\n 3 1. 1. 0.\nENDCOORDINATES\nPANEL TYPE 0\n1 2 3 1\nENDPANEL\n".toList =
    .ok ⟨[[0, 0, 0], [1, 0, 0], [1, 1, 0]], [[0, 1, 2, 0]]⟩ := by decide +kernel

end MM.Io
