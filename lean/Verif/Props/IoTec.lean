import Verif.Props.IoHst

/-!
# C88: TEC files

The file written by `write_TEC` and the search of `load_TEC`, which reads the whole file with one regular expression.
-/

namespace MM.Io

/-! ### Blocks of numbers -/

/-- A number with the blanks before it. -/
def tok {α : Type} (w : α → Str) (p : Str × α) : Str := p.1 ++ w p.2

/-- There are blanks before the number. -/
def Spaced {α : Type} (p : Str × α) : Prop := Blank p.1 ∧ p.1 ≠ []

/-- An end of line before the first number. -/
def nlFirst {α : Type} : List (Str × α) → List (Str × α)
  | [] => []
  | p :: t => (nl ++ p.1, p.2) :: t

/-- The numbers of several lines. -/
def rowsToks {α : Type} : List (List (Str × α)) → List (Str × α)
  | [] => []
  | r :: rs => r ++ rs.flatMap nlFirst

lemma blank_nl : Blank nl := by intro c hc; simp only [nl, List.mem_singleton] at hc; subst hc; decide

lemma Blank.append {a b : Str} (ha : Blank a) (hb : Blank b) : Blank (a ++ b) := by
  intro c hc
  rcases List.mem_append.1 hc with h | h
  · exact ha c h
  · exact hb c h

lemma nlFirst_text {α : Type} (w : α → Str) {r : List (Str × α)} (hr : r ≠ []) :
    (nlFirst r).flatMap (tok w) = nl ++ r.flatMap (tok w) := by
  cases r with
  | nil => exact absurd rfl hr
  | cons p t => simp [nlFirst, tok]

lemma rowsToks_text {α : Type} (w : α → Str) (rows : List (List (Str × α))) (h : ∀ r ∈ rows, r ≠ []) :
    joinWith nl (rows.map fun r => r.flatMap (tok w)) = (rowsToks rows).flatMap (tok w) := by
  cases rows with
  | nil => rfl
  | cons r rs =>
    have : ∀ (r : List (Str × α)) (rs : List (List (Str × α))), (∀ r ∈ rs, r ≠ []) →
        joinWith nl ((r :: rs).map fun r => r.flatMap (tok w)) = (r ++ rs.flatMap nlFirst).flatMap (tok w) := by
      intro r rs
      induction rs generalizing r with
      | nil => intro _; simp [joinWith]
      | cons s rs ih =>
        intro h
        have := ih s fun q hq => h q (List.mem_cons_of_mem _ hq)
        simp only [List.map_cons, joinWith] at this ⊢
        rw [this]
        simp only [List.flatMap_append, List.flatMap_cons, nlFirst_text w (h s (List.mem_cons_self ..)), List.append_assoc]
    exact this r rs fun q hq => h q (List.mem_cons_of_mem _ hq)

lemma rowsToks_vals {α : Type} (rows : List (List (Str × α))) :
    (rowsToks rows).map Prod.snd = rows.flatMap fun r => r.map Prod.snd := by
  have : ∀ r : List (Str × α), (nlFirst r).map Prod.snd = r.map Prod.snd := by
    intro r; cases r <;> rfl
  cases rows with
  | nil => rfl
  | cons r rs => simp [rowsToks, List.map_flatMap, this]

lemma rowsToks_spaced {α : Type} (rows : List (List (Str × α))) (h : ∀ r ∈ rows, ∀ p ∈ r, Spaced p) :
    ∀ p ∈ rowsToks rows, Spaced p := by
  cases rows with
  | nil => intro p hp; cases hp
  | cons r rs =>
    intro p hp
    rcases List.mem_append.1 hp with h1 | h1
    · exact h r (List.mem_cons_self ..) p h1
    · obtain ⟨q, hq, hp⟩ := List.mem_flatMap.1 h1
      have hq' := h q (List.mem_cons_of_mem _ hq)
      cases q with
      | nil => cases hp
      | cons a t =>
        rcases List.mem_cons.1 hp with rfl | hp
        · exact ⟨Blank.append blank_nl (hq' a (List.mem_cons_self ..)).1, by simp [nl]⟩
        · exact hq' p (List.mem_cons_of_mem _ hp)

lemma spaced_breaks {α : Type} (w : α → Str) {l : List (Str × α)} (h : ∀ p ∈ l, Spaced p) {r : Str} (hr : Breaks r) :
    Breaks (l.flatMap (tok w) ++ r) := by
  cases l with
  | nil => exact hr
  | cons p l =>
    obtain ⟨h1, h2⟩ := h p (List.mem_cons_self ..)
    obtain ⟨b, v⟩ := p
    cases b with
    | nil => exact absurd rfl h2
    | cons c b =>
      rw [List.flatMap_cons, tok]
      exact Or.inr ⟨c, _, rfl, h1 c (List.mem_cons_self ..)⟩

lemma split_toks {α : Type} (w : α → Str) (hw : ∀ a, Word (w a)) (l : List (Str × α)) (h : ∀ p ∈ l, Spaced p) :
    split (l.flatMap (tok w)) = l.map fun p => w p.2 := by
  induction l with
  | nil => rfl
  | cons p l ih =>
    have hl : ∀ q ∈ l, Spaced q := fun q hq => h q (List.mem_cons_of_mem _ hq)
    have hb : Breaks (l.flatMap (tok w)) := by
      have := spaced_breaks w hl (r := []) (Or.inl rfl)
      rwa [List.append_nil] at this
    rw [List.flatMap_cons, tok, List.append_assoc, split_tok (h p (List.mem_cons_self ..)).1 (hw _) hb, ih hl]
    rfl

/-- The rows of a list which was made of rows. -/
lemma rowsOf_flatMap {α β : Type} {k : ℕ} (g : β → List α) (hg : ∀ b, (g b).length = k) (l : List β) :
    rowsOf k l.length (l.flatMap g) = l.map g := by
  induction l with
  | nil => rfl
  | cons b l ih =>
    simp only [List.length_cons, rowsOf, List.flatMap_cons, List.map_cons]
    have h1 : (g b ++ l.flatMap g).take k = g b := by rw [← hg b]; exact List.take_left
    have h2 : (g b ++ l.flatMap g).drop k = l.flatMap g := by rw [← hg b]; exact List.drop_left
    rw [h1, h2, ih]

lemma length_flatMap_const {α β : Type} {k : ℕ} (g : β → List α) (hg : ∀ b, (g b).length = k) (l : List β) :
    (l.flatMap g).length = k * l.length := by
  induction l with
  | nil => rfl
  | cons b l ih => rw [List.flatMap_cons, List.length_append, ih, hg, List.length_cons]; ring

/-! ### The regular expression -/

lemma first_ws0 {r : Str} (h : Stops isSpace r) (pre : Str) (g : List (ℕ × Str)) :
    Re.ws.first ⟨pre, r, g⟩ = some ⟨pre, r, g⟩ := first_ws (b := []) (by intro c hc; cases hc) h

/-- `{n,}` of pieces. -/
lemma first_rep_pieces {r : Re} {β : Type} (piece : β → Str) (g : List (ℕ × Str)) (tail : Str) (l1 l2 : List β)
    (h : ∀ k1 b k2 pre, l1 ++ l2 = k1 ++ b :: k2 → r.first ⟨pre, piece b ++ (k2.flatMap piece ++ tail), g⟩ =
        some ⟨(piece b).reverse ++ pre, k2.flatMap piece ++ tail, g⟩) (pre : Str) :
    (Re.rep r l1.length).first ⟨pre, l1.flatMap piece ++ (l2.flatMap piece ++ tail), g⟩ =
      some ⟨(l1.flatMap piece).reverse ++ pre, l2.flatMap piece ++ tail, g⟩ := by
  induction l1 generalizing pre with
  | nil => rfl
  | cons b l1 ih =>
    have h0 := h [] b (l1 ++ l2) pre rfl
    rw [List.flatMap_cons, List.append_assoc]
    rw [List.flatMap_append, List.append_assoc] at h0
    refine first_seq h0 ?_
    rw [ih fun k1 c k2 pre e => h (b :: k1) c k2 pre (by rw [List.cons_append, e]; rfl)]
    simp

lemma first_atLeast_pieces {r : Re} {β : Type} (piece : β → Str) (hne : ∀ b, piece b ≠ []) (n : ℕ) (g : List (ℕ × Str))
    (tail : Str) (l : List β) (hl : n ≤ l.length)
    (h : ∀ k1 b k2 pre, l = k1 ++ b :: k2 → r.first ⟨pre, piece b ++ (k2.flatMap piece ++ tail), g⟩ =
        some ⟨(piece b).reverse ++ pre, k2.flatMap piece ++ tail, g⟩)
    (htail : ∀ pre, r.runs ⟨pre, tail, g⟩ = []) (pre : Str) :
    (Re.atLeast r n).first ⟨pre, l.flatMap piece ++ tail, g⟩ = some ⟨(l.flatMap piece).reverse ++ pre, tail, g⟩ := by
  have e : l = l.take n ++ l.drop n := (List.take_append_drop n l).symm
  have hn : (l.take n).length = n := by simp [hl]
  have h1 := first_rep_pieces piece g tail (l.take n) (l.drop n) (r := r)
    (fun k1 b k2 pre e' => h k1 b k2 pre (by rw [← e', ← e])) pre
  rw [hn] at h1
  have h2 := first_star_pieces (r := r) piece hne (fun _ => True) (fun _ _ => trivial) g (l.drop n) tail
    (fun k1 b k2 pre e' _ => h (l.take n ++ k1) b k2 pre (by rw [List.append_assoc, ← e', ← e]))
    (fun pre _ => htail pre) (((l.take n).flatMap piece).reverse ++ pre) trivial
  have et : l.flatMap piece = (l.take n).flatMap piece ++ (l.drop n).flatMap piece := by
    rw [← List.flatMap_append, ← e]
  have := first_seq h1 h2
  unfold Re.atLeast
  rw [et, List.append_assoc, this, List.reverse_append, List.append_assoc]

/-- An end of line, spaces, and an expression which must be matched at the beginning of a line. -/
lemma first_ws1_bol {X : Re} {b r : Str} (hb : ∀ c ∈ b, c = ' ') (hr : Stops isSpace r) (pre : Str) (g : List (ℕ × Str))
    (hX : ∀ pre post, ¬ AtBol pre → X.runs ⟨pre, post, g⟩ = []) {u : ReState}
    (hu : X.first ⟨nl.reverse ++ pre, b ++ r, g⟩ = some u) :
    (Re.seq Re.ws1 X).first ⟨pre, nl ++ (b ++ r), g⟩ = some u := by
  have := star_chr_back (p := isSpace) (w1 := []) (w2 := b) (r := r) (by simp)
    (by intro c hc; rw [hb c hc]; decide) hr (nl.reverse ++ pre) g X.runs (u := u)
    (by
      intro v1 v2 e hv
      refine hX _ _ ?_
      obtain ⟨v, c, rfl⟩ : ∃ v c, v1 = v ++ [c] := by
        refine ⟨v1.dropLast, v1.getLast hv, (List.dropLast_append_getLast hv).symm⟩
      have hc : c = ' ' := hb c (by rw [e]; simp)
      subst hc
      rintro (h | h) <;> simp at h) hu
  have e2 : (Re.seq Re.ws1 X).runs ⟨pre, nl ++ (b ++ r), g⟩ =
      ((Re.star (Re.chr isSpace)).runs ⟨nl.reverse ++ pre, b ++ r, g⟩).flatMap X.runs := by
    have : (Re.ws1).runs ⟨pre, nl ++ (b ++ r), g⟩ = (Re.star (Re.chr isSpace)).runs ⟨nl.reverse ++ pre, b ++ r, g⟩ := by
      show ((Re.chr isSpace).runs ⟨pre, '\n' :: (b ++ r), g⟩).flatMap _ = _
      rw [runs_chr_cons, if_pos (by decide)]
      simp [nl]
    show (Re.ws1.runs _).flatMap X.runs = _
    rw [this]
  unfold Re.first
  rw [e2]
  exact this

lemma group_bol_fails {n : ℕ} {a : Re} {pre post : Str} {g : List (ℕ × Str)} (h : ¬ AtBol pre) :
    (Re.group n (.seq .bol a)).runs ⟨pre, post, g⟩ = [] := by
  show List.map _ ((Re.seq Re.bol a).runs _) = []
  rw [runs_seq_nil_left (runs_bol_nil h)]; rfl

/-! ### The text of the file -/

/-- The coordinates of a vertex, and the vertex numbers of a face, in their columns. -/
def vToks (v : V3 ℚ) : List (Str × ℚ) := [v.x, v.y, v.z].map fun x => (List.replicate (16 - (sciStr 6 x).length) ' ', x)
def fToks (f : Face) : List (Str × ℕ) :=
  [f.a + 1, f.b + 1, f.c + 1, f.d + 1].map fun n => (List.replicate (10 - (natStr n).length) ' ', n)

lemma vToks_spaced {v : V3 ℚ} (h : RowRange v) : ∀ p ∈ vToks v, Spaced p := by
  intro p hp
  obtain ⟨x, hx, rfl⟩ := List.mem_map.1 hp
  refine ⟨blank_spaces _, spaces_ne (sci_short ?_)⟩
  simp only [List.mem_cons, List.not_mem_nil, or_false] at hx
  rcases hx with rfl | rfl | rfl
  exacts [h.1, h.2.1, h.2.2]

lemma fToks_spaced {f : Face} (h : FaceFits f) : ∀ p ∈ fToks f, Spaced p := by
  intro p hp
  obtain ⟨x, hx, rfl⟩ := List.mem_map.1 hp
  refine ⟨blank_spaces _, spaces_ne (nat_short ?_)⟩
  simp only [List.mem_cons, List.not_mem_nil, or_false] at hx
  rcases hx with rfl | rfl | rfl | rfl
  exacts [h.1, h.2.1, h.2.2.1, h.2.2.2]

lemma vToks_text (v : V3 ℚ) : (vToks v).flatMap (tok (sciStr 6)) = fSci 16 v.x ++ fSci 16 v.y ++ fSci 16 v.z := by
  simp [vToks, tok, fSci, padL_eq]

lemma fToks_text (f : Face) : (fToks f).flatMap (tok natStr) = faceLine f := by
  simp [fToks, tok, faceLine, fInt, padL_eq]

/-- The numbers of the file. -/
def tecV (m : Mesh ℚ) : List (Str × ℚ) := rowsToks (m.vertices.map vToks)
def tecF (m : Mesh ℚ) : List (Str × ℕ) := rowsToks (m.faces.map fToks)

lemma tecV_text (m : Mesh ℚ) : joinWith nl (m.vertices.map fun v => fSci 16 v.x ++ fSci 16 v.y ++ fSci 16 v.z) =
    (tecV m).flatMap (tok (sciStr 6)) := by
  have := rowsToks_text (sciStr 6) (m.vertices.map vToks) (by
    intro r hr; obtain ⟨v, -, rfl⟩ := List.mem_map.1 hr; simp [vToks])
  rw [List.map_map] at this
  rw [tecV, ← this]
  congr 1
  exact List.map_congr_left fun v _ => (vToks_text v).symm

lemma tecF_text (m : Mesh ℚ) : joinWith nl (m.faces.map faceLine) = (tecF m).flatMap (tok natStr) := by
  have := rowsToks_text natStr (m.faces.map fToks) (by
    intro r hr; obtain ⟨v, -, rfl⟩ := List.mem_map.1 hr; simp [fToks])
  rw [List.map_map] at this
  rw [tecF, ← this]
  congr 1
  exact List.map_congr_left fun v _ => (fToks_text v).symm

lemma tecV_spaced {m : Mesh ℚ} (h : Usual m) : ∀ p ∈ tecV m, Spaced p :=
  rowsToks_spaced _ (by
    intro r hr; obtain ⟨v, hv, rfl⟩ := List.mem_map.1 hr; exact vToks_spaced (h.1 v hv))

lemma tecF_spaced {m : Mesh ℚ} (h : Usual m) : ∀ p ∈ tecF m, Spaced p :=
  rowsToks_spaced _ (by
    intro r hr; obtain ⟨f, hf, rfl⟩ := List.mem_map.1 hr; exact fToks_spaced (h.face hf))

lemma tecV_length (m : Mesh ℚ) : (tecV m).length = 3 * m.nv := by
  have := congrArg List.length (rowsToks_vals (m.vertices.map vToks))
  rw [List.length_map, List.flatMap_map, length_flatMap_const (k := 3) _ (fun v => by simp [vToks])] at this
  exact this

lemma tecF_ne {m : Mesh ℚ} (h : m.faces ≠ []) : tecF m ≠ [] := by
  unfold tecF
  cases hm : m.faces with
  | nil => exact absurd hm h
  | cons f fs => simp [rowsToks, fToks]

/-- What `write_TEC` writes. -/
lemma writeTEC_eq (name : Str) (m : Mesh ℚ) : writeTEC name m =
    ("TITLE = \" THIS FILE WAS GENERATED BY MESHMAGICK - FICHIER : ".toList ++
      (name ++ " \" \nVARIABLES = \"X\",\"Y\",\"Z\" \n".toList)) ++
    ("ZONE".toList ++ (" T=\"MESH\" ".toList ++ (nl ++ ("N".toList ++ ("=".toList ++
      (List.replicate (10 - (natStr m.nv).length) ' ' ++ (natStr m.nv ++ ([' '] ++ (",".toList ++ ("E=".toList ++
      (List.replicate (10 - (natStr m.nf).length) ' ' ++ (natStr m.nf ++ ([' '] ++ (",".toList ++ ([' '] ++ ("F".toList ++
      ("=".toList ++ ("FEPOINT".toList ++ (",".toList ++ ([' '] ++ ("ET".toList ++ ("=".toList ++ ("QUADRILATERAL".toList ++
      (nl ++ ((tecV m).flatMap (tok (sciStr 6)) ++ (nl ++ ((tecF m).flatMap (tok natStr) ++
        nl))))))))))))))))))))))))))) := by
  have e1 : " \" \n".toList ++ "VARIABLES = \"X\",\"Y\",\"Z\" \n".toList = " \" \nVARIABLES = \"X\",\"Y\",\"Z\" \n".toList := by
    decide
  have e2 : "ZONE T=\"MESH\" \n".toList = "ZONE".toList ++ (" T=\"MESH\" ".toList ++ nl) := by decide
  have e3 : "N=".toList = "N".toList ++ "=".toList := by decide
  have e4 : " ,E=".toList = [' '] ++ (",".toList ++ "E=".toList) := by decide
  have e5 : " , F=FEPOINT, ET=QUADRILATERAL\n".toList = [' '] ++ (",".toList ++ ([' '] ++ ("F".toList ++
      ("=".toList ++ ("FEPOINT".toList ++ (",".toList ++ ([' '] ++ ("ET".toList ++ ("=".toList ++ ("QUADRILATERAL".toList ++
      nl)))))))))) := by decide
  have e6 := tecF_text m
  have e7 : faceLine = fun f => fInt 10 (f.a + 1) ++ fInt 10 (f.b + 1) ++ fInt 10 (f.c + 1) ++ fInt 10 (f.d + 1) := rfl
  rw [e7] at e6
  unfold writeTEC
  rw [tecV_text, e6, e2, e3, e4, e5, ← e1]
  simp only [fInt, padL_eq, List.append_assoc]

lemma space_stops_real (pre : Str) (c : Char) (t : Str) (g : List (ℕ × Str)) (h : isSpace c = true) :
    realRe.runs ⟨pre, c :: t, g⟩ = [] := by
  have hd := space_not_digit h
  have hp : (c == '.') = false := by
    simp only [beq_eq_false_iff_ne]; rintro rfl; exact absurd h (by decide)
  have hs : (c == '+' || c == '-') = false := by
    by_contra hc
    simp only [Bool.not_eq_false, Bool.or_eq_true, beq_iff_eq] at hc
    rcases hc with rfl | rfl <;> exact absurd h (by decide)
  exact real_fails (w := []) (by intro c hc; cases hc) (stops_cons hd t) (stops_cons (p := (· == '.')) hp t) (fun _ => stops_cons hs t) pre g

lemma breaks_stops_dot {r : Str} (h : Breaks r) : Stops (· == '.') r := by
  rcases h with rfl | ⟨c, t, rfl, hc⟩
  · exact Stops.nil _
  · refine stops_cons ?_ t
    simp only [beq_eq_false_iff_ne]; rintro rfl; exact absurd hc (by decide)

/-- No more coordinates. -/
lemma real_stop_tail {m : Mesh ℚ} (h : Usual m) (pre : Str) (g : List (ℕ × Str)) :
    (Re.seq Re.ws realRe).runs ⟨pre, nl ++ ((tecF m).flatMap (tok natStr) ++ nl), g⟩ = [] := by
  cases hl : tecF m with
  | nil =>
    have : nl ++ (([] : List (Str × ℕ)).flatMap (tok natStr) ++ nl) = (nl ++ nl) ++ [] := rfl
    rw [this]
    refine ws_fails (Blank.append blank_nl blank_nl) (Stops.nil _) (fun pre c t hc => space_stops_real pre c t g hc) ?_
    intro pre
    exact real_fails (w := []) (by intro c hc; cases hc) (Stops.nil _) (Stops.nil _) (fun _ => Stops.nil _) pre g
  | cons p l =>
    have hs := tecF_spaced h
    rw [hl] at hs
    have hb : Breaks (l.flatMap (tok natStr) ++ nl) :=
      spaced_breaks natStr (fun q hq => hs q (List.mem_cons_of_mem _ hq)) breaks_nl'
    have : nl ++ ((p :: l).flatMap (tok natStr) ++ nl) = (nl ++ p.1) ++ (natStr p.2 ++ (l.flatMap (tok natStr) ++ nl)) := by
      simp [tok]
    rw [this]
    refine ws_fails (Blank.append blank_nl (hs p (List.mem_cons_self ..)).1) (Word.stops (natStr_word _) _)
      (fun pre c t hc => space_stops_real pre c t g hc) ?_
    intro pre
    exact real_fails (natStr_digits _) (Breaks.stops hb) (breaks_stops_dot hb)
      (fun e => absurd e (natStr_ne_nil _)) pre g

lemma tok_ne {α : Type} {w : α → Str} (hw : ∀ a, w a ≠ []) (p : Str × α) : tok w p ≠ [] := by
  intro h
  exact hw _ (List.append_eq_nil_iff.1 h).2

/-- The coordinates are read by the third group. -/
lemma tec_group3 {m : Mesh ℚ} (h : Usual m) (hv : m.vertices ≠ []) {pre : Str} (hpre : AtBol pre) (g : List (ℕ × Str)) :
    (Re.group 3 (.seq .bol (.atLeast (.seq .ws realRe) 3))).first
      ⟨pre, (tecV m).flatMap (tok (sciStr 6)) ++ (nl ++ ((tecF m).flatMap (tok natStr) ++ nl)), g⟩ =
      some ⟨((tecV m).flatMap (tok (sciStr 6))).reverse ++ pre, nl ++ ((tecF m).flatMap (tok natStr) ++ nl),
        (3, (tecV m).flatMap (tok (sciStr 6))) :: g⟩ := by
  have hlen : 3 ≤ (tecV m).length := by
    rw [tecV_length]
    have : 0 < m.nv := List.length_pos_iff.2 hv
    omega
  refine first_group' (first_seq (first_bol hpre) (first_atLeast_pieces _ (tok_ne fun x => (sciStr_word 6 x).1) 3 g _ _ hlen ?_
    (fun pre => real_stop_tail h pre g) pre))
  intro k1 b k2 pre e
  have hsp := tecV_spaced h
  have hb : Breaks (k2.flatMap (tok (sciStr 6)) ++ (nl ++ ((tecF m).flatMap (tok natStr) ++ nl))) :=
    spaced_breaks _ (fun q hq => hsp q (by rw [e]; simp [hq])) (breaks_nl _)
  rw [tok, List.append_assoc]
  refine first_seq (first_ws (hsp b (by rw [e]; simp)).1 (Word.stops (sciStr_word 6 _) _)) ?_
  rw [first_real_sci 6 b.2 (Breaks.stops hb)]
  simp

/-- The vertex numbers are read by the fourth group. -/
lemma tec_group4 {m : Mesh ℚ} (h : Usual m) {pre : Str} (hpre : AtBol pre) (g : List (ℕ × Str)) :
    (Re.group 4 (.seq .bol (.star (.seq .ws .ds1)))).first ⟨pre, (tecF m).flatMap (tok natStr) ++ nl, g⟩ =
      some ⟨((tecF m).flatMap (tok natStr)).reverse ++ pre, nl, (4, (tecF m).flatMap (tok natStr)) :: g⟩ := by
  refine first_group' (first_seq (first_bol hpre) (first_star_pieces _ (tok_ne fun x => natStr_ne_nil x) (fun _ => True)
    (fun _ _ => trivial) g _ _ ?_ ?_ pre trivial))
  · intro k1 b k2 pre e _
    have hsp := tecF_spaced h
    have hb : Breaks (k2.flatMap (tok natStr) ++ nl) :=
      spaced_breaks _ (fun q hq => hsp q (by rw [e]; simp [hq])) breaks_nl'
    rw [tok, List.append_assoc]
    refine first_seq (first_ws (hsp b (by rw [e]; simp)).1 (Word.stops (natStr_word _) _)) ?_
    rw [first_ds1 (natStr_ne_nil _) (natStr_digits _) (Breaks.stops hb)]
    simp
  · intro pre _
    have : (Re.seq Re.ws Re.ds1).runs ⟨pre, nl ++ [], g⟩ = [] :=
      ws_fails blank_nl (Stops.nil _) (fun pre c t hc => ds1_fails (stops_cons (space_not_digit hc) t) _ _)
        (fun pre => ds1_fails (Stops.nil _) _ _)
    simpa using this

/-- The blanks before the fourth group. -/
lemma tec_tail {m : Mesh ℚ} (h : Usual m) (pre : Str) (g : List (ℕ × Str)) :
    ∃ pre', (Re.seq Re.ws1 (Re.group 4 (.seq .bol (.star (.seq .ws .ds1))))).first
      ⟨pre, nl ++ ((tecF m).flatMap (tok natStr) ++ nl), g⟩ =
      some pre' ∧ pre'.groups = (4, (tecF m).flatMap (tok natStr)) :: g := by
  by_cases hf : m.faces = []
  · have e : tecF m = [] := by simp [tecF, hf, rowsToks]
    rw [e]
    have h1 : Re.ws1.first ⟨pre, (nl ++ nl) ++ [], g⟩ = some ⟨(nl ++ nl).reverse ++ pre, [], g⟩ :=
      first_ws1 (by simp [nl]) (Blank.append blank_nl blank_nl) (Stops.nil _)
    have h2 : (Re.group 4 (.seq .bol (.star (.seq .ws .ds1)))).first ⟨(nl ++ nl).reverse ++ pre, [] ++ [], g⟩ =
        some ⟨([] : Str).reverse ++ ((nl ++ nl).reverse ++ pre), [], (4, []) :: g⟩ := by
      refine first_group' (first_seq (first_bol (Or.inr rfl)) (first_star_stop ?_))
      exact ws_fails (b := []) (r := []) (by intro c hc; cases hc) (Stops.nil _)
        (fun pre c t hc => ds1_fails (stops_cons (space_not_digit hc) t) _ _) (fun pre => ds1_fails (Stops.nil _) _ _)
    exact ⟨_, first_seq h1 h2, rfl⟩
  · cases hF : tecF m with
    | nil => exact absurd hF (tecF_ne hf)
    | cons p l =>
      have h4 := tec_group4 h (pre := nl.reverse ++ pre) (Or.inr rfl) g
      have e : (tecF m).flatMap (tok natStr) ++ nl = p.1 ++ (natStr p.2 ++ (l.flatMap (tok natStr) ++ nl)) := by
        rw [hF]; simp [tok]
      have hb : ∀ c ∈ p.1, c = ' ' := by
        cases hm : m.faces with
        | nil => exact absurd hm hf
        | cons f fs =>
          have : p = (List.replicate (10 - (natStr (f.a + 1)).length) ' ', f.a + 1) := by
            have := hF
            simp only [tecF, hm, List.map_cons, rowsToks, fToks, List.cons_append] at this
            exact (List.cons.inj this).1.symm
          intro c hc
          rw [this] at hc
          exact List.eq_of_mem_replicate hc
      rw [e] at h4
      rw [← hF, e]
      refine ⟨_, first_ws1_bol hb (Word.stops (natStr_word _) _) pre g (fun pre post hp => group_bol_fails hp) h4, rfl⟩

lemma lit_stops {c : Char} {w : Str} (h : isSpace c = false) (r : Str) : Stops isSpace (c :: w ++ r) := stops_cons h _

/-- The whole expression on the text from `ZONE` on. -/
lemma first_tec {m : Mesh ℚ} (h : Usual m) (hv : m.vertices ≠ []) (pre : Str) : ∃ t, tecRe.first
    ⟨pre, "ZONE".toList ++ (" T=\"MESH\" ".toList ++ (nl ++ ("N".toList ++ ("=".toList ++
      (List.replicate (10 - (natStr m.nv).length) ' ' ++ (natStr m.nv ++ ([' '] ++ (",".toList ++ ("E=".toList ++
      (List.replicate (10 - (natStr m.nf).length) ' ' ++ (natStr m.nf ++ ([' '] ++ (",".toList ++ ([' '] ++ ("F".toList ++
      ("=".toList ++ ("FEPOINT".toList ++ (",".toList ++ ([' '] ++ ("ET".toList ++ ("=".toList ++ ("QUADRILATERAL".toList ++
      (nl ++ ((tecV m).flatMap (tok (sciStr 6)) ++ (nl ++ ((tecF m).flatMap (tok natStr) ++
        nl)))))))))))))))))))))))))), []⟩ = some t ∧
      t.groups = [(4, (tecF m).flatMap (tok natStr)), (3, (tecV m).flatMap (tok (sciStr 6))), (2, natStr m.nf), (1, natStr m.nv)] := by
  have hsp1 : Blank [' '] := by intro c hc; simp only [List.mem_singleton] at hc; subst hc; decide
  -- the coordinates and the faces
  have htail : ∀ (pre : Str) (g : List (ℕ × Str)), ∃ t, (Re.seq .ws1 (Re.seq (.group 3 (.seq .bol (.atLeast (.seq .ws realRe) 3)))
      (Re.seq .ws1 (.group 4 (.seq .bol (.star (.seq .ws .ds1))))))).first ⟨pre, nl ++ ((tecV m).flatMap (tok (sciStr 6)) ++
        (nl ++ ((tecF m).flatMap (tok natStr) ++ nl))), g⟩ = some t ∧
      t.groups = (4, (tecF m).flatMap (tok natStr)) :: (3, (tecV m).flatMap (tok (sciStr 6))) :: g := by
    intro pre g
    have h3 := tec_group3 h hv (pre := nl.reverse ++ pre) (Or.inr rfl) g
    obtain ⟨t, h4, h5⟩ := tec_tail h (((tecV m).flatMap (tok (sciStr 6))).reverse ++ (nl.reverse ++ pre))
      ((3, (tecV m).flatMap (tok (sciStr 6))) :: g)
    refine ⟨t, ?_, h5⟩
    have h34 := first_seq h3 h4
    cases hV : tecV m with
    | nil =>
      have := tecV_length m
      rw [hV] at this
      have h0 : 0 < m.nv := List.length_pos_iff.2 hv
      simp only [List.length_nil] at this
      omega
    | cons p l =>
      have e : ∀ r, (tecV m).flatMap (tok (sciStr 6)) ++ r = p.1 ++ (sciStr 6 p.2 ++ (l.flatMap (tok (sciStr 6)) ++ r)) := by
        intro r; rw [hV]; simp [tok]
      have hb : ∀ c ∈ p.1, c = ' ' := by
        cases hm : m.vertices with
        | nil => exact absurd hm hv
        | cons v vs =>
          have : p = (List.replicate (16 - (sciStr 6 v.x).length) ' ', v.x) := by
            have := hV
            simp only [tecV, hm, List.map_cons, rowsToks, vToks, List.cons_append] at this
            exact (List.cons.inj this).1.symm
          intro c hc
          rw [this] at hc
          exact List.eq_of_mem_replicate hc
      rw [← hV]
      rw [e] at h34 ⊢
      exact first_ws1_bol hb (Word.stops (sciStr_word 6 _) _) pre g (fun pre post hp => runs_seq_nil_left (group_bol_fails hp)) h34
  have step : ∀ {b : Str} {r : Re} {pre post : Str} {g : List (ℕ × Str)} {gs : List (ℕ × Str)}, Blank b → Stops isSpace post →
      (∀ pre, ∃ t, r.first ⟨pre, post, g⟩ = some t ∧ t.groups = gs) →
      ∃ t, (Re.seq .ws r).first ⟨pre, b ++ post, g⟩ = some t ∧ t.groups = gs := by
    intro b r pre post g gs hb hs hr
    obtain ⟨t, h1, h2⟩ := hr (b.reverse ++ pre)
    exact ⟨t, first_seq (first_ws hb hs) h1, h2⟩
  have step0 : ∀ {r : Re} {pre post : Str} {g : List (ℕ × Str)} {gs : List (ℕ × Str)}, Stops isSpace post →
      (∀ pre, ∃ t, r.first ⟨pre, post, g⟩ = some t ∧ t.groups = gs) →
      ∃ t, (Re.seq .ws r).first ⟨pre, post, g⟩ = some t ∧ t.groups = gs := by
    intro r pre post g gs hs hr
    obtain ⟨t, h1, h2⟩ := hr pre
    exact ⟨t, first_seq (first_ws0 hs _ _) h1, h2⟩
  have stepL : ∀ {w : Str} {r : Re} {pre post : Str} {g : List (ℕ × Str)} {gs : List (ℕ × Str)},
      (∀ pre, ∃ t, r.first ⟨pre, post, g⟩ = some t ∧ t.groups = gs) →
      ∃ t, (Re.seq (.lit w) r).first ⟨pre, w ++ post, g⟩ = some t ∧ t.groups = gs := by
    intro w r pre post g gs hr
    obtain ⟨t, h1, h2⟩ := hr (w.reverse ++ pre)
    exact ⟨t, first_seq (first_lit _ _ _ _) h1, h2⟩
  have stepN : ∀ {k n : ℕ} {r : Re} {pre post : Str} {g : List (ℕ × Str)} {gs : List (ℕ × Str)}, Stops isDigit post →
      (∀ pre, ∃ t, r.first ⟨pre, post, (k, natStr n) :: g⟩ = some t ∧ t.groups = gs) →
      ∃ t, (Re.seq (.group k .ds1) r).first ⟨pre, natStr n ++ post, g⟩ = some t ∧ t.groups = gs := by
    intro k n r pre post g gs hs hr
    obtain ⟨t, h1, h2⟩ := hr ((natStr n).reverse ++ pre)
    exact ⟨t, first_seq (first_group' (first_ds1 (natStr_ne_nil _) (natStr_digits _) hs)) h1, h2⟩
  have stepD : ∀ {w : Str} {r : Re} {pre post : Str} {g : List (ℕ × Str)} {gs : List (ℕ × Str)}, '\n' ∉ w →
      (∀ pre, ∃ t, r.first ⟨pre, nl ++ post, g⟩ = some t ∧ t.groups = gs) →
      ∃ t, (Re.seq .dots r).first ⟨pre, w ++ (nl ++ post), g⟩ = some t ∧ t.groups = gs := by
    intro w r pre post g gs hw hr
    obtain ⟨t, h1, h2⟩ := hr (w.reverse ++ pre)
    refine ⟨t, first_seq (first_star_chr ?_ (stops_cons (by decide) _) _ _) h1, h2⟩
    intro c hc
    simp only [bne_iff_ne]
    rintro rfl; exact hw hc
  unfold tecRe
  refine stepL fun pre => stepD (by decide) fun pre => step blank_nl (stops_cons (by decide) _) fun pre =>
    stepL fun pre => step0 (stops_cons (by decide) _) fun pre => stepL fun pre =>
    step (blank_spaces _) (Word.stops (natStr_word _) _) fun pre => stepN (stops_cons (by decide) _) fun pre =>
    step hsp1 (stops_cons (by decide) _) fun pre => stepL fun pre => step0 (stops_cons (by decide) _) fun pre => stepL fun pre =>
    step (blank_spaces _) (Word.stops (natStr_word _) _) fun pre => stepN (stops_cons (by decide) _) fun pre =>
    step hsp1 (stops_cons (by decide) _) fun pre => stepL fun pre => step hsp1 (stops_cons (by decide) _) fun pre => stepL fun pre =>
    step0 (stops_cons (by decide) _) fun pre => stepL fun pre => step0 (stops_cons (by decide) _) fun pre => stepL fun pre =>
    step0 (stops_cons (by decide) _) fun pre => stepL fun pre => step hsp1 (stops_cons (by decide) _) fun pre => stepL fun pre =>
    step0 (stops_cons (by decide) _) fun pre => stepL fun pre => step0 (stops_cons (by decide) _) fun pre => stepL fun pre =>
    htail _ _

/-- A pattern which does not occur in a name does not start in the name when the name is followed by a character which is not
in the pattern. -/
lemma lit_in_name {w name w1 w2 : Str} {c c' : Char} {r : Str} (hn : ¬ w <:+: name) (hc : c' ∉ w)
    (e : name = w1 ++ c :: w2) : ¬ w <+: c :: (w2 ++ c' :: r) := by
  rintro ⟨t, ht⟩
  have ht' : w ++ t = (c :: w2) ++ (c' :: r) := ht
  rcases List.append_eq_append_iff.1 ht' with ⟨a, h1, h2⟩ | ⟨a, h1, h2⟩
  · refine hn ⟨w1, a, ?_⟩
    rw [e, h1, List.append_assoc]
  · cases a with
    | nil =>
      refine hn ⟨w1, [], ?_⟩
      rw [e, h1]; simp
    | cons d a =>
      have : c' = d := (List.cons.inj h2).1
      exact hc (by rw [h1, this]; simp)

/-- A search for a pattern starting with a literal goes past a name. -/
lemma skip_name {w name v pre : Str} {r : Re} {c' : Char} (hn : ¬ w <:+: name) (hc : c' ∉ w) :
    reSearch (.seq (.lit w) r) (name ++ (c' :: v)) pre = reSearch (.seq (.lit w) r) (c' :: v) (name.reverse ++ pre) := by
  refine reSearch_skip ?_
  intro w1 c w2 e
  refine runs_seq_nil ?_
  intro t ht
  obtain ⟨u, hu, -⟩ := mem_lit ht
  exact absurd ⟨u, hu.symm⟩ (lit_in_name hn hc e)

/-- A search for a pattern starting with a literal goes past a text where the literal does not start. -/
lemma skip_scan {w s v pre : Str} {r : Re} (h : scan (fun t => w.isPrefixOf t) s v = true) :
    reSearch (.seq (.lit w) r) (s ++ v) pre = reSearch (.seq (.lit w) r) v (s.reverse ++ pre) := by
  refine reSearch_skip ?_
  intro w1 c w2 e
  refine runs_seq_nil ?_
  intro t ht
  obtain ⟨u, hu, -⟩ := mem_lit ht
  have := scan_at h e
  rw [hu] at this
  have h2 : w.isPrefixOf (w ++ u) = true := by rw [List.isPrefixOf_iff_prefix]; exact ⟨u, rfl⟩
  rw [h2] at this
  exact absurd this (by decide)

/-- The search starts at the line of the zone. -/
lemma skip_tecHead (name : Str) (hn : ¬ "ZONE".toList <:+: name) (v : Str) : ∃ pre,
    reSearch tecRe (("TITLE = \" THIS FILE WAS GENERATED BY MESHMAGICK - FICHIER : ".toList ++
      (name ++ " \" \nVARIABLES = \"X\",\"Y\",\"Z\" \n".toList)) ++ v) [] = reSearch tecRe v pre := by
  have h1 : ∀ u, scan (fun t => "ZONE".toList.isPrefixOf t)
      "TITLE = \" THIS FILE WAS GENERATED BY MESHMAGICK - FICHIER : ".toList u = true := by
    intro u; rfl
  have h2 : ∀ u, scan (fun t => "ZONE".toList.isPrefixOf t) " \" \nVARIABLES = \"X\",\"Y\",\"Z\" \n".toList u = true := by
    intro u; rfl
  unfold tecRe
  rw [List.append_assoc, skip_scan (h1 _), List.append_assoc]
  have h3 : " \" \nVARIABLES = \"X\",\"Y\",\"Z\" \n".toList ++ v = ' ' :: ("\" \nVARIABLES = \"X\",\"Y\",\"Z\" \n".toList ++ v) := rfl
  rw [h3, skip_name hn (by decide), ← h3, skip_scan (h2 _)]
  exact ⟨_, rfl⟩

lemma convAll_map {α β : Type} (p : Str → Option α) (w : β → Str) (g : β → α) (h : ∀ b, p (w b) = some (g b)) (l : List β) :
    convAll p (l.map w) = .ok (l.map g) := by
  induction l with
  | nil => rfl
  | cons b l ih => simp only [List.map_cons, convAll, h, conv, ih]

/-- What `load_TEC` returns for the file of a mesh. -/
theorem loadTEC_write (name : Str) (hn : ¬ "ZONE".toList <:+: name) (m : Mesh ℚ) (h : Usual m) (hv : m.vertices ≠ []) :
    loadTEC (writeTEC name m) = .ok ⟨m.vertices.map sciRow, m.faces.map faceRow⟩ := by
  have hs : ∃ t, research tecRe (writeTEC name m) = some t ∧ t.groups = [(4, (tecF m).flatMap (tok natStr)),
      (3, (tecV m).flatMap (tok (sciStr 6))), (2, natStr m.nf), (1, natStr m.nv)] := by
    unfold research
    rw [writeTEC_eq]
    obtain ⟨pre, hp⟩ := skip_tecHead name hn ("ZONE".toList ++ (" T=\"MESH\" ".toList ++ (nl ++ ("N".toList ++ ("=".toList ++
      (List.replicate (10 - (natStr m.nv).length) ' ' ++ (natStr m.nv ++ ([' '] ++ (",".toList ++ ("E=".toList ++
      (List.replicate (10 - (natStr m.nf).length) ' ' ++ (natStr m.nf ++ ([' '] ++ (",".toList ++ ([' '] ++ ("F".toList ++
      ("=".toList ++ ("FEPOINT".toList ++ (",".toList ++ ([' '] ++ ("ET".toList ++ ("=".toList ++ ("QUADRILATERAL".toList ++
      (nl ++ ((tecV m).flatMap (tok (sciStr 6)) ++ (nl ++ ((tecF m).flatMap (tok natStr) ++
        nl)))))))))))))))))))))))))))
    rw [hp]
    obtain ⟨t, h1, h2⟩ := first_tec h hv pre
    rw [reSearch_hit h1]
    exact ⟨_, rfl, h2⟩
  obtain ⟨t, ht, hg⟩ := hs
  have g1 : t.group 1 = natStr m.nv := by unfold ReMatch.group; rw [hg]; rfl
  have g2 : t.group 2 = natStr m.nf := by unfold ReMatch.group; rw [hg]; rfl
  have g3 : t.group 3 = (tecV m).flatMap (tok (sciStr 6)) := by unfold ReMatch.group; rw [hg]; rfl
  have g4 : t.group 4 = (tecF m).flatMap (tok natStr) := by unfold ReMatch.group; rw [hg]; rfl
  have hvals : floats (split ((tecV m).flatMap (tok (sciStr 6)))) = .ok (m.vertices.flatMap sciRow) := by
    rw [split_toks _ (sciStr_word 6) _ (tecV_spaced h)]
    have e : (tecV m).map (fun p => sciStr 6 p.2) = ((tecV m).map Prod.snd).map (sciStr 6) := by
      rw [List.map_map]; rfl
    unfold floats
    rw [e, convAll_map parseFloat (sciStr 6) (sciVal 6) (parseFloat_sciStr 6), tecV, rowsToks_vals, List.map_flatMap,
      List.flatMap_map]
    rfl
  have hfaces : ints (split ((tecF m).flatMap (tok natStr))) = .ok (m.faces.flatMap faceRow1) := by
    rw [split_toks _ natStr_word _ (tecF_spaced h)]
    have e : (tecF m).map (fun p => natStr p.2) = ((tecF m).map Prod.snd).map natStr := by
      rw [List.map_map]; rfl
    unfold ints
    rw [e, convAll_map parseInt natStr (fun n => (n : ℤ)) parseInt_natStr, tecF, rowsToks_vals, List.map_flatMap,
      List.flatMap_map]
    rfl
  have hpos : 0 < m.nv := List.length_pos_iff.2 hv
  have hlv : (m.vertices.flatMap sciRow).length = 3 * m.nv := length_flatMap_const sciRow (fun _ => rfl) _
  have hlf : (m.faces.flatMap faceRow1).length = 4 * m.nf := length_flatMap_const faceRow1 (fun _ => rfl) _
  have hreshape : reshapeRows m.nv (m.vertices.flatMap sciRow) = .ok (m.vertices.map sciRow) := by
    unfold reshapeRows
    rw [if_neg, hlv, Nat.mul_div_cancel _ hpos]
    · rw [show m.nv = m.vertices.length from rfl, rowsOf_flatMap sciRow (fun _ => rfl)]
    · rw [hlv]; simp; omega
  have htake : (m.vertices.map sciRow).map (List.take 3) = m.vertices.map sciRow := by
    rw [List.map_map]; rfl
  have hrows : rowsOf 4 m.nf (m.faces.flatMap faceRow1) = m.faces.map faceRow1 := rowsOf_flatMap faceRow1 (fun _ => rfl) _
  unfold loadTEC
  rw [ht]
  simp only [g1, g2, g3, g4, parseInt_natStr, conv, hvals, hfaces, Int.toNat_natCast, hreshape, hlf, ne_eq, not_true_eq_false,
    if_false, htake, hrows, minusOne_faceRow1]

/-- C88. A mesh with at least one vertex, written in the TEC format and read back, is the same mesh, the coordinates rounded
to seven significant digits. -/
theorem C88_tec_partial (name : Str) (hn : ¬ "ZONE".toList <:+: name) (m : Mesh ℚ) (h : Usual m) (hv : m.vertices ≠ []) :
    ∃ l, loadTEC (writeTEC name m) = .ok l ∧ GivesBack Rounded7Digits m l :=
  ⟨_, loadTEC_write name hn m h hv, givesBack_sci m⟩

/-! ### A mesh without vertex -/

/-- A match of the expression reads a decimal point. -/
def ReadsDot (r : Re) : Prop := ∀ s, r.runs s ≠ [] → '.' ∈ s.post

lemma ReadsDot.seq_left {a b : Re} (h : ReadsDot a) : ReadsDot (.seq a b) := by
  intro s hs
  refine h s fun e => hs (runs_seq_nil_left e)

lemma ReadsDot.seq_right {a b : Re} (h : ReadsDot b) : ReadsDot (.seq a b) := by
  intro s hs
  by_contra hc
  refine hs (runs_seq_nil ?_)
  intro t ht
  by_contra hb
  obtain ⟨w, hw, -⟩ := runs_read a s t ht
  exact hc (by rw [hw]; exact List.mem_append_right _ (h t hb))

lemma ReadsDot.group {n : ℕ} {a : Re} (h : ReadsDot a) : ReadsDot (.group n a) := by
  intro s hs
  refine h s fun e => hs ?_
  show List.map _ (a.runs s) = []
  rw [e]; rfl

lemma tec_reads_dot : ReadsDot tecRe := by
  have h0 : ReadsDot realRe := fun s hs => real_dot (List.exists_mem_of_ne_nil _ hs).choose_spec
  have h3 : ReadsDot (.seq (.group 3 (.seq .bol (.atLeast (.seq .ws realRe) 3))) (.seq .ws1
      (.group 4 (.seq .bol (.star (.seq .ws .ds1)))))) := by
    refine ReadsDot.seq_left (ReadsDot.group (ReadsDot.seq_right (ReadsDot.seq_left (ReadsDot.seq_left ?_))))
    exact ReadsDot.seq_right h0
  unfold tecRe
  iterate 31 refine ReadsDot.seq_right ?_
  exact h3

/-- C88 is violated: the file written for a mesh without vertex cannot be read. -/
theorem C88_no_vertices_fails (name : Str) (hn : ¬ "ZONE".toList <:+: name) (m : Mesh ℚ) (hv : m.vertices = []) :
    loadTEC (writeTEC name m) = .error .attributeError := by
  have hs : research tecRe (writeTEC name m) = none := by
    unfold research
    rw [writeTEC_eq]
    obtain ⟨pre, hp⟩ := skip_tecHead name hn ("ZONE".toList ++ (" T=\"MESH\" ".toList ++ (nl ++ ("N".toList ++ ("=".toList ++
      (List.replicate (10 - (natStr m.nv).length) ' ' ++ (natStr m.nv ++ ([' '] ++ (",".toList ++ ("E=".toList ++
      (List.replicate (10 - (natStr m.nf).length) ' ' ++ (natStr m.nf ++ ([' '] ++ (",".toList ++ ([' '] ++ ("F".toList ++
      ("=".toList ++ ("FEPOINT".toList ++ (",".toList ++ ([' '] ++ ("ET".toList ++ ("=".toList ++ ("QUADRILATERAL".toList ++
      (nl ++ ((tecV m).flatMap (tok (sciStr 6)) ++ (nl ++ ((tecF m).flatMap (tok natStr) ++
        nl)))))))))))))))))))))))))))
    rw [hp]
    have hV : tecV m = [] := by simp [tecV, hv, rowsToks]
    have hF : '.' ∉ (tecF m).flatMap (tok natStr) := by
      rw [← tecF_text]
      by_cases hf : m.faces = []
      · simp [hf, joinWith]
      intro hc
      have h1 : '.' ∈ nl ++ joinWith nl (m.faces.map faceLine) := List.mem_append_right _ hc
      rw [nl_joinWith _ (by simpa using hf), List.flatMap_map] at h1
      obtain ⟨f, -, h2⟩ := List.mem_flatMap.1 h1
      rcases List.mem_append.1 h2 with h | h
      · exact absurd h (by decide)
      · exact faceLine_nodot f h
    have hsp : ∀ n, '.' ∉ List.replicate n ' ' := fun n h => absurd (List.eq_of_mem_replicate h) (by decide)
    rw [hV, Option.map_eq_none_iff]
    refine reSearch_none ?_
    intro w1 w2 e
    by_contra hc
    have hd := tec_reads_dot _ hc
    have : '.' ∈ w1 ++ w2 := List.mem_append_right _ hd
    rw [← e] at this
    simp only [List.mem_append, hF, hsp, natStr_nodot, List.flatMap_nil, List.not_mem_nil, false_or, or_false] at this
    revert this
    decide
  unfold loadTEC
  rw [hs]

example : ∃ l, loadTEC (writeTEC "hull.tec".toList sample) = .ok l ∧ GivesBack Rounded7Digits sample l :=
  C88_tec_partial _ (by decide) sample sample_usual (by decide)

/-- The same file, read: the coordinates 1/3 and 12345678 are rounded. -/
example : loadTEC (writeTEC "hull.tec".toList ⟨[⟨1 / 3, 0, 0⟩, ⟨12345678, 0, 0⟩, ⟨0, -1, 0⟩], [⟨0, 1, 2, 0⟩]⟩) =
    .ok ⟨[[3333333 / 10000000, 0, 0], [12345680, 0, 0], [0, -1, 0]], [[0, 1, 2, 0]]⟩ := by decide +kernel

/-- A mesh without face is read back. -/
example : loadTEC (writeTEC "points.tec".toList ⟨[⟨1, 2, 3⟩, ⟨4, 5, 6⟩], []⟩) = .ok ⟨[[1, 2, 3], [4, 5, 6]], []⟩ := by
  decide +kernel

end MM.Io
