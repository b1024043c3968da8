import Verif.Props.IoTec
import Verif.Props.IoIds

/-!
# C89: DAT files (DIODORE)
-/

namespace MM.Io

open MM

/-! ### A literal which does not occur -/

lemma infix_glue {w a b : Str} {c : Char} (hc : c ∉ w) (ha : ¬ w <:+: a) (hb : ¬ w <:+: b) : ¬ w <:+: a ++ c :: b := by
  rintro ⟨s, t, e⟩
  rw [List.append_assoc] at e
  rcases List.append_eq_append_iff.1 e with ⟨u, h1, h2⟩ | ⟨u, h1, h2⟩
  · -- `a = s ++ u`
    rcases List.append_eq_append_iff.1 h2 with ⟨v, h3, h4⟩ | ⟨v, h3, h4⟩
    · exact ha ⟨s, v, by rw [h1, h3, List.append_assoc]⟩
    · cases v with
      | nil => exact ha ⟨s, [], by rw [h1, h3]; simp⟩
      | cons d v =>
        have : c = d := (List.cons.inj h4).1
        exact hc (by rw [h3, this]; simp)
  · -- `s = a ++ u`
    cases u with
    | nil =>
      have h2' : c :: b = w ++ t := h2
      cases w with
      | nil => exact ha ⟨[], a, rfl⟩
      | cons d w =>
        have : c = d := (List.cons.inj h2').1
        exact hc (by rw [this]; exact List.mem_cons_self ..)
    | cons d u =>
      have : b = u ++ (w ++ t) := (List.cons.inj h2).2
      exact hb ⟨u, t, by rw [this, List.append_assoc]⟩

lemma infix_mem {w s : Str} {c : Char} (hw : c ∈ w) (hs : c ∉ s) : ¬ w <:+: s := by
  rintro ⟨a, b, rfl⟩
  exact hs (by simp [hw])

lemma search_none {w s pre : Str} {r : Re} (h : ¬ w <:+: s) : reSearch (.seq (.lit w) r) s pre = none := by
  refine reSearch_none ?_
  intro w1 w2 e
  refine runs_seq_nil ?_
  intro t ht
  obtain ⟨u, hu, -⟩ := mem_lit ht
  exact absurd ⟨w1, u, by rw [e, hu, List.append_assoc]⟩ h

/-! ### Lines -/

/-- Each line with what follows it: the beginning of the next line. -/
def shift {β : Type} (lead : β → Str) (e : Str) : List β → List (β × Str)
  | [] => []
  | [b] => [(b, e)]
  | b :: c :: l => (b, lead c) :: shift lead e (c :: l)

lemma shift_text {β : Type} (lead body : β → Str) (e : Str) (b : β) (l : List β) :
    (b :: l).flatMap (fun b => lead b ++ body b) ++ e = lead b ++ (shift lead e (b :: l)).flatMap (fun p => body p.1 ++ p.2) := by
  induction l generalizing b with
  | nil => simp [shift]
  | cons c l ih =>
    have := ih c
    rw [List.flatMap_cons, List.append_assoc, this]
    simp [shift]

lemma shift_ne {β : Type} (lead : β → Str) (e : Str) {l : List β} (h : l ≠ []) : shift lead e l ≠ [] := by
  cases l with
  | nil => exact absurd rfl h
  | cons b l => cases l <;> simp [shift]

lemma shift_mem {β : Type} {lead : β → Str} {e : Str} {l : List β} {p : β × Str} (h : p ∈ shift lead e l) :
    p.1 ∈ l ∧ (p.2 = e ∨ ∃ c ∈ l, p.2 = lead c) := by
  induction l with
  | nil => cases h
  | cons b l ih =>
    cases l with
    | nil => simp only [shift, List.mem_singleton] at h; subst h; simp
    | cons c l =>
      rcases List.mem_cons.1 h with rfl | h
      · exact ⟨List.mem_cons_self .., Or.inr ⟨c, by simp, rfl⟩⟩
      · obtain ⟨h1, h2⟩ := ih h
        refine ⟨List.mem_cons_of_mem _ h1, h2.imp id ?_⟩
        rintro ⟨d, hd, e⟩
        exact ⟨d, List.mem_cons_of_mem _ hd, e⟩

/-- The text that a group reads: what is before the first number of the first line is not in it. -/
lemma shift_group {β : Type} (sp body : β → Str) (b : β) (l : List β) :
    (shift (fun b => nl ++ sp b) nl (b :: l)).flatMap (fun p => body p.1 ++ p.2) =
      body b ++ (nl ++ l.flatMap fun c => (sp c ++ body c) ++ nl) := by
  induction l generalizing b with
  | nil => simp [shift]
  | cons c l ih =>
    have := ih c
    simp only [shift, List.flatMap_cons, List.append_assoc] at this ⊢
    rw [this]

lemma linesOf_block {β : Type} (line : β → Str) (h : ∀ b, Plain (line b)) (l : List β) :
    linesOf (l.flatMap fun b => line b ++ nl) = l.map fun b => line b ++ nl := by
  induction l with
  | nil => rfl
  | cons b l ih =>
    rw [List.flatMap_cons, List.append_assoc, linesOf_nl (h b), ih]; rfl

lemma shift_lines {β : Type} (sp body : β → Str) (hsp : ∀ b, Blank (sp b)) (hp : ∀ b, Plain (sp b)) (hb : ∀ b, Plain (body b))
    (l : List β) :
    (linesOf ((shift (fun b => nl ++ sp b) nl l).flatMap (fun p => body p.1 ++ p.2))).map split =
      l.map fun b => split (body b ++ nl) := by
  cases l with
  | nil => rfl
  | cons b l =>
    rw [shift_group, linesOf_nl (hb b), linesOf_block (fun c => sp c ++ body c) (fun c => (hp c).append (hb c))]
    simp only [List.map_cons, List.map_map]
    congr 1
    refine List.map_congr_left fun c _ => ?_
    simp only [Function.comp, List.append_assoc]
    exact split_blank (hsp c) _

/-! ### The numbers of an element line -/

/-- The numbers of a line, without the blanks before the first one. -/
def numsBody (p : ℕ × List ℕ) : Str := natStr p.1 ++ p.2.flatMap (fInt 8)

/-- The blanks before a number in a column. -/
def lead8 (n : ℕ) : Str := List.replicate (8 - (natStr n).length) ' '

lemma fInt8_eq (n : ℕ) : fInt 8 n = lead8 n ++ natStr n := padL_eq _ _

lemma plain_lead8 (n : ℕ) : Plain (lead8 n) := by
  intro c hc; rw [List.eq_of_mem_replicate hc]; decide

lemma plain_nums (l : List ℕ) : Plain (l.flatMap (fInt 8)) := by
  intro c hc
  obtain ⟨n, -, h⟩ := List.mem_flatMap.1 hc
  exact plain_fInt 8 n c h

lemma plain_numsBody (p : ℕ × List ℕ) : Plain (numsBody p) := (natStr_word _).plain.append (plain_nums _)

lemma breaks_nums {l : List ℕ} (h : ∀ n ∈ l, (natStr n).length < 8) {r : Str} (hr : Breaks r) :
    Breaks (l.flatMap (fInt 8) ++ r) := by
  cases l with
  | nil => exact hr
  | cons n l =>
    rw [List.flatMap_cons, List.append_assoc]
    exact breaks_padL (h n (List.mem_cons_self ..)) _

lemma split_nums {l : List ℕ} (h : ∀ n ∈ l, (natStr n).length < 8) : split (l.flatMap (fInt 8) ++ nl) = l.map natStr := by
  induction l with
  | nil => exact split_nl'
  | cons n l ih =>
    have hl : ∀ k ∈ l, (natStr k).length < 8 := fun k hk => h k (List.mem_cons_of_mem _ hk)
    rw [List.flatMap_cons, List.append_assoc, split_fInt 8 n (breaks_nums hl breaks_nl'), ih hl]; rfl

lemma split_numsBody {p : ℕ × List ℕ} (h : ∀ n ∈ p.2, (natStr n).length < 8) :
    split (numsBody p ++ nl) = natStr p.1 :: p.2.map natStr := by
  have := split_tok (s := []) (w := natStr p.1) (by intro c hc; cases hc) (natStr_word _) (breaks_nums h breaks_nl')
  rw [List.nil_append] at this
  rw [numsBody, List.append_assoc, this, split_nums h]

/-- `(?:\d+\s+){n}` -/
lemma first_nums {l : List ℕ} (h : ∀ n ∈ l, (natStr n).length < 8) (i : ℕ) {e r : Str} (he : Blank e) (hne : e ≠ [])
    (hr : Stops isSpace r) (pre : Str) (g : List (ℕ × Str)) :
    (Re.rep (Re.seq Re.ds1 Re.ws1) (l.length + 1)).first ⟨pre, natStr i ++ (l.flatMap (fInt 8) ++ (e ++ r)), g⟩ =
      some ⟨(natStr i ++ (l.flatMap (fInt 8) ++ e)).reverse ++ pre, r, g⟩ := by
  induction l generalizing i pre with
  | nil =>
    have h1 : (Re.seq Re.ds1 Re.ws1).first ⟨pre, natStr i ++ (e ++ r), g⟩ = some ⟨e.reverse ++ ((natStr i).reverse ++ pre), r, g⟩ :=
      first_seq (first_ds1 (natStr_ne_nil i) (natStr_digits i) (blank_stops_digit he hne _)) (first_ws1 hne he hr)
    have := first_seq h1 (first_eps _)
    simpa [Re.rep] using this
  | cons n l ih =>
    have h1 := first_intcol (n := i) (h n (List.mem_cons_self ..)) (r := l.flatMap (fInt 8) ++ (e ++ r)) pre g
    have h2 := ih (fun k hk => h k (List.mem_cons_of_mem _ hk)) n
      ((List.replicate (8 - (natStr n).length) ' ').reverse ++ ((natStr i).reverse ++ pre))
    have := first_seq h1 h2
    simp only [List.flatMap_cons, List.append_assoc, List.length_cons]
    rw [show Re.rep (Re.seq Re.ds1 Re.ws1) (l.length + 1 + 1) =
      Re.seq (Re.seq Re.ds1 Re.ws1) (Re.rep (Re.seq Re.ds1 Re.ws1) (l.length + 1)) from rfl, this]
    simp [fInt8_eq, lead8]

/-- The numbers of a line. -/
def NumsFit (n : ℕ) (p : ℕ × List ℕ) : Prop := p.2.length + 1 = n ∧ ∀ k ∈ p.2, (natStr k).length < 8

/-- The lines of an element section. -/
lemma first_elemLines {n : ℕ} {l : List (ℕ × List ℕ)} (hl : l ≠ []) (h : ∀ p ∈ l, NumsFit n p) {tail : Str}
    (ht : Stops isSpace tail) (ht' : Stops isDigit tail) (pre : Str) (g : List (ℕ × Str)) :
    (Re.plus (Re.rep (Re.seq Re.ds1 Re.ws1) n)).first
      ⟨pre, (shift (fun p => nl ++ lead8 p.1) nl l).flatMap (fun p => numsBody p.1 ++ p.2) ++ tail, g⟩ =
      some ⟨((shift (fun p => nl ++ lead8 p.1) nl l).flatMap (fun p => numsBody p.1 ++ p.2)).reverse ++ pre, tail, g⟩ := by
  have hn : ∃ k, n = k + 1 := by
    cases l with
    | nil => exact absurd rfl hl
    | cons p l => exact ⟨p.2.length, (h p (List.mem_cons_self ..)).1.symm⟩
  refine first_plus_pieces (fun p : (ℕ × List ℕ) × Str => numsBody p.1 ++ p.2) ?_ (fun _ => True) (fun _ _ => trivial) g _
    (shift_ne _ _ hl) tail ?_ ?_ pre trivial
  · intro b hb
    exact natStr_ne_nil _ (List.append_eq_nil_iff.1 (List.append_eq_nil_iff.1 hb).1).1
  · intro l1 b l2 pre e _
    have hb : b ∈ shift (fun p : ℕ × List ℕ => nl ++ lead8 p.1) nl l := by rw [e]; simp
    obtain ⟨h1, h2⟩ := shift_mem hb
    have hbl : Blank b.2 ∧ b.2 ≠ [] := by
      rcases h2 with h2 | ⟨c, -, h2⟩ <;> rw [h2]
      · exact ⟨blank_nl, by simp [nl]⟩
      · exact ⟨Blank.append blank_nl (blank_spaces _), by simp [nl]⟩
    obtain ⟨h3, h4⟩ := h b.1 h1
    have hs : Stops isSpace (l2.flatMap (fun p : (ℕ × List ℕ) × Str => numsBody p.1 ++ p.2) ++ tail) := by
      cases l2 with
      | nil => exact ht
      | cons c l2 =>
        simp only [List.flatMap_cons, numsBody, List.append_assoc]
        exact Word.stops (natStr_word _) _
    have := first_nums h4 b.1.1 hbl.1 hbl.2 hs pre g
    rw [h3] at this
    simp only [numsBody, List.append_assoc] at this ⊢
    exact this
  · intro pre _
    obtain ⟨k, rfl⟩ := hn
    exact runs_seq_nil_left (runs_seq_nil_left (ds1_fails ht' pre g))

/-! ### The element sections -/

/-- An element section (`write_DAT`). -/
def datBlock (name ty : Str) (rows : List (ℕ × List ℕ)) : Str :=
  "$\n$".toList ++ (' ' :: ("ELEMENT".toList ++ ((",TYPE=".toList ++ ty ++ ",ELSTRUCTURE".toList) ++ ('=' :: (name ++
    (rows.flatMap (fun p => (nl ++ lead8 p.1) ++ numsBody p) ++ (nl ++ ("*RETURN".toList ++ nl))))))))

/-- The types of elements. -/
def t3 : Str := "T3C000".toList
def q4 : Str := "Q4C000".toList

/-- A name which does not contain the words of the format, on one line. -/
structure DatName (s : Str) : Prop where
  plain : Plain s
  node : ¬ "NODE".toList <:+: s
  element : ¬ "ELEMENT".toList <:+: s
  t3 : ¬ t3 <:+: s
  q4 : ¬ q4 <:+: s

/-- What is needed about a type for its section to be found. -/
structure DatType (ty : Str) : Prop where
  visible : ∀ c ∈ ty, isSpace c = false
  eq : '=' ∉ ty
  ne : ty ≠ []
  once : ¬ ty <:+: ty.tail ++ ",ELSTRUCTURE".toList

lemma datType_t3 : DatType t3 := ⟨by decide, by decide, by decide, by decide⟩
lemma datType_q4 : DatType q4 := ⟨by decide, by decide, by decide, by decide⟩

/-- A visible word which is a prefix of a text is a prefix of the first word of the text. -/
lemma prefix_word {w a r : Str} (hw : ∀ c ∈ w, isSpace c = false) (hr : Stops (fun c => !isSpace c) r) (h : w <+: a ++ r) : w <+: a := by
  obtain ⟨t, ht⟩ := h
  rcases List.append_eq_append_iff.1 ht with ⟨u, h1, h2⟩ | ⟨u, h1, h2⟩
  · exact ⟨u, h1.symm⟩
  · cases u with
    | nil => exact ⟨[], by rw [h1]; simp⟩
    | cons c u =>
      have h3 := hr c (u ++ t) h2
      have h4 := hw c (by rw [h1]; simp)
      simp only [Bool.not_eq_false'] at h3
      rw [h4] at h3; exact absurd h3 (by decide)

lemma visible_split (s : Str) : ∃ a r, s = a ++ r ∧ (∀ c ∈ a, isSpace c = false) ∧ Stops (fun c => !isSpace c) r := by
  refine ⟨s.takeWhile (fun c => !isSpace c), s.dropWhile (fun c => !isSpace c), (List.takeWhile_append_dropWhile).symm, ?_, ?_⟩
  · intro c hc
    have := List.all_takeWhile (p := fun c => !isSpace c) (l := s)
    rw [List.all_eq_true] at this
    simpa using this c hc
  · intro c t e
    have := List.head?_dropWhile_not (fun c => !isSpace c) s
    rw [e] at this
    simpa using this

/-- `ELEMENT\S+type.+\s*((?:(?:\d+\s+){n})+)\*RETURN` on a section of this type. -/
lemma first_datElems {name ty : Str} (hty : DatType ty) (hn : ¬ ty <:+: name) (hp : Plain name) {n : ℕ}
    {rows : List (ℕ × List ℕ)} (hne : rows ≠ []) (hrows : ∀ p ∈ rows, NumsFit n p) (r pre : Str) :
    ∃ t, (datElemsRe ty n).first ⟨pre, "ELEMENT".toList ++ ((",TYPE=".toList ++ ty ++ ",ELSTRUCTURE".toList) ++ ('=' :: (name ++
      (rows.flatMap (fun p => (nl ++ lead8 p.1) ++ numsBody p) ++ (nl ++ ("*RETURN".toList ++ r)))))), []⟩ = some t ∧
      t.groups = [(1, (shift (fun p => nl ++ lead8 p.1) nl rows).flatMap (fun p => numsBody p.1 ++ p.2))] := by
  obtain ⟨b, l, rfl⟩ : ∃ b l, rows = b :: l := by
    cases rows with
    | nil => exact absurd rfl hne
    | cons b l => exact ⟨b, l, rfl⟩
  set S := (shift (fun p => nl ++ lead8 p.1) nl (b :: l)).flatMap (fun p => numsBody p.1 ++ p.2) with hS
  have e1 : (b :: l).flatMap (fun p => (nl ++ lead8 p.1) ++ numsBody p) ++ (nl ++ ("*RETURN".toList ++ r)) =
      nl ++ (lead8 b.1 ++ (S ++ ("*RETURN".toList ++ r))) := by
    rw [← List.append_assoc, shift_text (fun p : ℕ × List ℕ => nl ++ lead8 p.1) numsBody nl b l, ← hS]
    simp only [List.append_assoc]
  rw [e1]
  have hstar := first_elemLines (n := n) (l := b :: l) (by simp) hrows (tail := "*RETURN".toList ++ r)
    (stops_cons (by decide) _) (stops_cons (by decide) _)
  -- the end of the expression
  have h3 : ∀ pre, ∃ t, (Re.seq Re.dots1 (Re.seq Re.ws (Re.seq (.group 1 (.plus (.rep (.seq .ds1 .ws1) n))) (.lit "*RETURN".toList)))).first
      ⟨pre, ",ELSTRUCTURE".toList ++ ('=' :: (name ++ (nl ++ (lead8 b.1 ++ (S ++ ("*RETURN".toList ++ r)))))), []⟩ = some t ∧
      t.groups = [(1, S)] := by
    intro pre
    have e2 : ",ELSTRUCTURE".toList ++ ('=' :: (name ++ (nl ++ (lead8 b.1 ++ (S ++ ("*RETURN".toList ++ r)))))) =
        (",ELSTRUCTURE=".toList ++ name) ++ ((nl ++ lead8 b.1) ++ (S ++ ("*RETURN".toList ++ r))) := by
      have : ",ELSTRUCTURE=".toList = ",ELSTRUCTURE".toList ++ ['='] := by decide
      rw [this]; simp
    rw [e2]
    refine ⟨_, first_seq (first_plus_chr (p := fun c => c != '\n') (by simp) ?_ (stops_cons (by decide) _) _ _)
      (first_seq (first_ws (Blank.append blank_nl (blank_spaces _)) ?_)
      (first_seq (first_group' (hstar _ _)) (by
        have := first_lit "*RETURN".toList r (S.reverse ++ ((nl ++ lead8 b.1).reverse ++ ((",ELSTRUCTURE=".toList ++ name).reverse ++ pre)))
          [(1, S)]
        exact this))), rfl⟩
    · intro c hc
      simp only [bne_iff_ne]
      rintro rfl
      rcases List.mem_append.1 hc with h | h
      · exact absurd h (by decide)
      · exact hp _ h rfl
    · rw [hS]
      cases l with
      | nil => simp only [shift, List.flatMap_cons, numsBody, List.append_assoc]; exact Word.stops (natStr_word _) _
      | cons c l => simp only [shift, List.flatMap_cons, numsBody, List.append_assoc]; exact Word.stops (natStr_word _) _
  -- the type
  obtain ⟨a, r', ea, ha, hr'⟩ := visible_split (name ++ (nl ++ (lead8 b.1 ++ (S ++ ("*RETURN".toList ++ r)))))
  have haname : a <+: name := by
    have h0 : a <+: name ++ (nl ++ (lead8 b.1 ++ (S ++ ("*RETURN".toList ++ r)))) := ⟨r', ea.symm⟩
    exact prefix_word ha (stops_cons (by decide) _) h0
  have hna : ¬ ty <:+: a := fun h => hn (h.trans haname.isInfix)
  have hvis : ∀ c ∈ ",ELSTRUCTURE".toList ++ ('=' :: a), isSpace c = false := by
    intro c hc
    rcases List.mem_append.1 hc with h | h
    · exact (by decide : ∀ c ∈ ",ELSTRUCTURE".toList, isSpace c = false) c h
    · rcases List.mem_cons.1 h with rfl | h
      · decide
      · exact ha c h
  obtain ⟨t, ht1, ht2⟩ := h3 (ty.reverse ++ ("TYPE=".toList.reverse ++ (',' :: ("ELEMENT".toList.reverse ++ pre))))
  refine ⟨t, ?_, ht2⟩
  unfold datElemsRe
  refine first_seq (first_lit _ _ _ _) ?_
  have hback := star_chr_back (p := fun c => !isSpace c) (w1 := "TYPE=".toList) (w2 := ty ++ (",ELSTRUCTURE".toList ++ ('=' :: a)))
    (r := r') (by decide) (by
      intro c hc
      simp only [Bool.not_eq_true']
      rcases List.mem_append.1 hc with h | h
      · exact hty.visible c h
      · exact hvis c h) hr' (',' :: ("ELEMENT".toList.reverse ++ pre)) []
    (Re.seq (.lit ty) (Re.seq Re.dots1 (Re.seq Re.ws (Re.seq (.group 1 (.plus (.rep (.seq .ds1 .ws1) n))) (.lit "*RETURN".toList))))).runs
    (u := t) (by
      intro v1 v2 e hv
      refine runs_seq_nil ?_
      intro u hu
      obtain ⟨q, hq, -⟩ := mem_lit hu
      have h1 : ty <+: v2 := prefix_word hty.visible hr' ⟨q, hq.symm⟩
      exfalso
      cases v1 with
      | nil => exact hv rfl
      | cons c v1 =>
        obtain ⟨d, ty', hd⟩ : ∃ d ty', ty = d :: ty' := by
          cases hty' : ty with
          | nil => exact absurd hty' hty.ne
          | cons d ty' => exact ⟨d, ty', rfl⟩
        have e3 : (ty.tail ++ ",ELSTRUCTURE".toList) ++ '=' :: a = v1 ++ v2 := by
          rw [hd] at e
          rw [hd, List.tail_cons]
          simpa using (List.cons.inj e).2
        have h2 : ty <:+: (ty.tail ++ ",ELSTRUCTURE".toList) ++ '=' :: a := by
          rw [e3]
          obtain ⟨z, hz⟩ := h1
          exact ⟨v1, z, by rw [← hz, List.append_assoc]⟩
        exact infix_glue hty.eq hty.once hna h2)
    (by
      have e4 : (ty ++ (",ELSTRUCTURE".toList ++ ('=' :: a))) ++ r' =
          ty ++ (",ELSTRUCTURE".toList ++ ('=' :: (name ++ (nl ++ (lead8 b.1 ++ (S ++ ("*RETURN".toList ++ r))))))) := by
        rw [ea]; simp
      rw [e4]
      exact first_seq (first_lit _ _ _ _) ht1)
  have e5 : (",TYPE=".toList ++ ty ++ ",ELSTRUCTURE".toList) ++ ('=' :: (name ++ (nl ++ (lead8 b.1 ++ (S ++ ("*RETURN".toList ++ r)))))) =
      ',' :: ("TYPE=".toList ++ ((ty ++ (",ELSTRUCTURE".toList ++ ('=' :: a))) ++ r')) := by
    have : ",TYPE=".toList = ',' :: "TYPE=".toList := by decide
    rw [ea, this]; simp
  rw [e5]
  unfold Re.first
  have e6 : ∀ (X : Re) (p : Char → Bool) (c : Char) (pre s : Str), p c = true →
      (Re.seq (Re.plus (.chr p)) X).runs ⟨pre, c :: s, []⟩ = ((Re.star (.chr p)).runs ⟨c :: pre, s, []⟩).flatMap X.runs := by
    intro X p c pre s hc
    have : (Re.plus (.chr p)).runs ⟨pre, c :: s, []⟩ = (Re.star (.chr p)).runs ⟨c :: pre, s, []⟩ := by
      show ((Re.chr p).runs ⟨pre, c :: s, []⟩).flatMap _ = _
      rw [runs_chr_cons, if_pos hc]; simp
    show ((Re.plus (.chr p)).runs _).flatMap X.runs = _
    rw [this]
  rw [Re.nonws1, e6 _ _ _ _ _ (by decide)]
  exact hback

/-- The expression for a type does not match a section of another type. -/
lemma datElems_other {name ty ty' : Str} (hty : DatType ty) (hn : ¬ ty <:+: name) {n : ℕ}
    (ho : ¬ ty <:+: ",TYPE=".toList ++ ty' ++ ",ELSTRUCTURE".toList) (r pre : Str) (g : List (ℕ × Str)) :
    (datElemsRe ty n).runs ⟨pre, "ELEMENT".toList ++ ((",TYPE=".toList ++ ty' ++ ",ELSTRUCTURE".toList) ++ ('=' :: (name ++ (nl ++ r)))), g⟩ = [] := by
  unfold datElemsRe
  refine runs_seq_nil ?_
  intro t ht
  obtain ⟨s, hs, rfl⟩ := mem_lit ht
  have hs' := (List.append_cancel_left hs).symm
  subst hs'
  refine runs_seq_nil ?_
  intro t ht
  obtain ⟨w, u, e, -, hw, rfl⟩ := mem_plus_chr ht
  refine runs_seq_nil ?_
  intro t ht
  obtain ⟨q, hq, -⟩ := mem_lit ht
  exfalso
  have h1 : w ++ ty <+: ((",TYPE=".toList ++ ty' ++ ",ELSTRUCTURE".toList) ++ ('=' :: name)) ++ (nl ++ r) := by
    refine ⟨q, ?_⟩
    rw [List.append_assoc w, ← hq, ← e]; simp
  have h2 := prefix_word (w := w ++ ty) (by
    intro c hc
    rcases List.mem_append.1 hc with h | h
    · simpa using hw c h
    · exact hty.visible c h) (stops_cons (by decide) _) h1
  obtain ⟨z, hz⟩ := h2
  exact infix_glue hty.eq ho hn ⟨w, z, hz⟩

/-- A search for an expression which starts with a literal, on a text which does not contain it, up to a character which is
not in the literal. -/
lemma skip_to {w s v pre : Str} {r : Re} {c : Char} (hw : w ≠ []) (hc : c ∉ w) (hs : ¬ w <:+: s) :
    reSearch (.seq (.lit w) r) (s ++ (c :: v)) pre = reSearch (.seq (.lit w) r) v (c :: (s.reverse ++ pre)) := by
  rw [skip_name hs hc]
  have := reSearch_skip (r := .seq (.lit w) r) (w := [c]) (v := v) (pre := s.reverse ++ pre) (by
    intro w1 d w2 e
    refine runs_seq_nil ?_
    intro t ht
    obtain ⟨u, hu, -⟩ := mem_lit ht
    exfalso
    have hd : d ∈ ([c] : Str) := by rw [e]; simp
    rw [List.mem_singleton] at hd
    cases w with
    | nil => exact hw rfl
    | cons a w =>
      have : d = a := (List.cons.inj hu).1
      exact hc (by rw [← hd, this]; exact List.mem_cons_self ..))
  simpa using this

/-- The text of a section after the first letter of `ELEMENT` does not contain a word. -/
lemma block_free {w name ty L : Str} {rows : List (ℕ × List ℕ)} (hn : ¬ w <:+: name) (h1 : '\n' ∉ w) (h2 : '=' ∉ w)
    (h3 : ¬ w <:+: L ++ (",TYPE=".toList ++ ty ++ ",ELSTRUCTURE".toList)) {c : Char} (hc : c ∈ w)
    (hd : isDigit c = false) (hs : isSpace c = false) (h4 : ¬ w <:+: "*RETURN".toList) (hrows : rows ≠ []) :
    ¬ w <:+: (L ++ (",TYPE=".toList ++ ty ++ ",ELSTRUCTURE".toList)) ++ ('=' :: (name ++
      (rows.flatMap (fun p => (nl ++ lead8 p.1) ++ numsBody p) ++ (nl ++ "*RETURN".toList)))) := by
  have hnum : ∀ n : ℕ, c ∉ natStr n := fun n h => by
    have := natStr_digits n c h; rw [hd] at this; exact absurd this (by decide)
  have hsp : ∀ k, c ∉ List.replicate k ' ' := fun k h => by
    rw [List.eq_of_mem_replicate h] at hs; exact absurd hs (by decide)
  have hnl : c ∉ nl := fun h => by
    simp only [nl, List.mem_singleton] at h; rw [h] at hs; exact absurd hs (by decide)
  have hfree : ∀ p : ℕ × List ℕ, c ∉ lead8 p.1 ++ numsBody p := by
    intro p h
    rcases List.mem_append.1 h with h | h
    · exact hsp _ h
    rcases List.mem_append.1 h with h | h
    · exact hnum _ h
    obtain ⟨k, -, h⟩ := List.mem_flatMap.1 h
    rw [fInt8_eq] at h
    rcases List.mem_append.1 h with h | h
    · exact hsp _ h
    · exact hnum _ h
  refine infix_glue h2 h3 ?_
  obtain ⟨b, l, rfl⟩ : ∃ b l, rows = b :: l := by
    cases rows with
    | nil => exact absurd rfl hrows
    | cons b l => exact ⟨b, l, rfl⟩
  have e : name ++ ((b :: l).flatMap (fun p => (nl ++ lead8 p.1) ++ numsBody p) ++ (nl ++ "*RETURN".toList)) =
      name ++ '\n' :: (((lead8 b.1 ++ numsBody b) ++ l.flatMap (fun p => (nl ++ lead8 p.1) ++ numsBody p)) ++
        '\n' :: "*RETURN".toList) := by
    simp [nl]
  rw [e]
  refine infix_glue h1 hn (infix_glue h1 (infix_mem hc ?_) h4)
  intro h
  rcases List.mem_append.1 h with h | h
  · exact hfree b h
  · obtain ⟨p, -, h⟩ := List.mem_flatMap.1 h
    rw [List.append_assoc] at h
    rcases List.mem_append.1 h with h | h
    · exact hnl h
    · exact hfree p h

lemma skip_elems {ty s pre v : Str} {n : ℕ} {c : Char} (hc : c ∉ "ELEMENT".toList) (hs : ¬ "ELEMENT".toList <:+: s) :
    reSearch (datElemsRe ty n) (s ++ (c :: v)) pre = reSearch (datElemsRe ty n) v (c :: (s.reverse ++ pre)) := by
  unfold datElemsRe
  exact skip_to (by decide) hc hs

/-- A section found. -/
lemma search_block {name ty : Str} (hty : DatType ty) (hn : ¬ ty <:+: name) (hp : Plain name) {n : ℕ}
    {rows : List (ℕ × List ℕ)} (hne : rows ≠ []) (hrows : ∀ p ∈ rows, NumsFit n p) {s : Str}
    (hs : ¬ "ELEMENT".toList <:+: s ++ "$\n$".toList) (r pre : Str) :
    ∃ m t, reSearch (datElemsRe ty n) (s ++ (datBlock name ty rows ++ r)) pre = some (m, t) ∧
      m.group 1 = (shift (fun p => nl ++ lead8 p.1) nl rows).flatMap (fun p => numsBody p.1 ++ p.2) := by
  have e : s ++ (datBlock name ty rows ++ r) = (s ++ "$\n$".toList) ++ (' ' :: ("ELEMENT".toList ++
      ((",TYPE=".toList ++ ty ++ ",ELSTRUCTURE".toList) ++ ('=' :: (name ++
      (rows.flatMap (fun p => (nl ++ lead8 p.1) ++ numsBody p) ++ (nl ++ ("*RETURN".toList ++ (nl ++ r))))))))) := by
    simp only [datBlock, List.append_assoc, List.cons_append]
  rw [e]
  obtain ⟨t, h1, h2⟩ := first_datElems hty hn hp hne hrows (nl ++ r) (' ' :: ((s ++ "$\n$".toList).reverse ++ pre))
  rw [skip_elems (by decide) hs, reSearch_hit h1]
  exact ⟨_, _, rfl, by unfold ReMatch.group; rw [h2]; rfl⟩

/-- The section of another type is skipped. -/
lemma skip_block {name ty ty' : Str} (hty : DatType ty) (hn : ¬ ty <:+: name) (he : ¬ "ELEMENT".toList <:+: name)
    (ho : ¬ ty <:+: ",TYPE=".toList ++ ty' ++ ",ELSTRUCTURE".toList)
    (ho' : ¬ "ELEMENT".toList <:+: "LEMENT".toList ++ (",TYPE=".toList ++ ty' ++ ",ELSTRUCTURE".toList)) {n : ℕ}
    {rows : List (ℕ × List ℕ)} (hne : rows ≠ []) {s : Str} (hs : ¬ "ELEMENT".toList <:+: s ++ "$\n$".toList) (r pre : Str) :
    ∃ pre', reSearch (datElemsRe ty n) (s ++ (datBlock name ty' rows ++ r)) pre = reSearch (datElemsRe ty n) r pre' := by
  have e : s ++ (datBlock name ty' rows ++ r) = (s ++ "$\n$".toList) ++ (' ' :: ("ELEMENT".toList ++
      ((",TYPE=".toList ++ ty' ++ ",ELSTRUCTURE".toList) ++ ('=' :: (name ++
      (rows.flatMap (fun p => (nl ++ lead8 p.1) ++ numsBody p) ++ (nl ++ ("*RETURN".toList ++ (nl ++ r))))))))) := by
    simp only [datBlock, List.append_assoc, List.cons_append]
  rw [e, skip_elems (by decide) hs]
  -- the first letter
  have h2 := reSearch_skip (r := datElemsRe ty n) (w := ['E']) (v := "LEMENT".toList ++
      ((",TYPE=".toList ++ ty' ++ ",ELSTRUCTURE".toList) ++ ('=' :: (name ++
      (rows.flatMap (fun p => (nl ++ lead8 p.1) ++ numsBody p) ++ (nl ++ ("*RETURN".toList ++ (nl ++ r))))))))
    (pre := ' ' :: ((s ++ "$\n$".toList).reverse ++ pre)) (by
      intro w1 c w2 ew
      obtain ⟨rfl, rfl, rfl⟩ : w1 = [] ∧ c = 'E' ∧ w2 = [] := by
        cases w1 with
        | nil => have := List.cons.inj ew; exact ⟨rfl, this.1.symm, this.2.symm⟩
        | cons d w1 => have := (List.cons.inj ew).2; simp at this
      obtain ⟨b, l, rfl⟩ : ∃ b l, rows = b :: l := by
        cases rows with
        | nil => exact absurd rfl hne
        | cons b l => exact ⟨b, l, rfl⟩
      have := datElems_other (n := n) (name := name) (ty' := ty') hty hn ho
        ((lead8 b.1 ++ numsBody b) ++ (l.flatMap (fun p => (nl ++ lead8 p.1) ++ numsBody p) ++ (nl ++ ("*RETURN".toList ++ (nl ++ r)))))
        (' ' :: ((s ++ "$\n$".toList).reverse ++ pre)) []
      simp only [List.flatMap_cons, List.append_assoc] at this ⊢
      exact this)
  have e2 : "ELEMENT".toList ++ ((",TYPE=".toList ++ ty' ++ ",ELSTRUCTURE".toList) ++ ('=' :: (name ++
      (rows.flatMap (fun p => (nl ++ lead8 p.1) ++ numsBody p) ++ (nl ++ ("*RETURN".toList ++ (nl ++ r))))))) =
      ['E'] ++ ("LEMENT".toList ++ ((",TYPE=".toList ++ ty' ++ ",ELSTRUCTURE".toList) ++ ('=' :: (name ++
      (rows.flatMap (fun p => (nl ++ lead8 p.1) ++ numsBody p) ++ (nl ++ ("*RETURN".toList ++ (nl ++ r)))))))) := rfl
  rw [e2, h2]
  have e3 : "LEMENT".toList ++ ((",TYPE=".toList ++ ty' ++ ",ELSTRUCTURE".toList) ++ ('=' :: (name ++
      (rows.flatMap (fun p => (nl ++ lead8 p.1) ++ numsBody p) ++ (nl ++ ("*RETURN".toList ++ (nl ++ r))))))) =
      (("LEMENT".toList ++ (",TYPE=".toList ++ ty' ++ ",ELSTRUCTURE".toList)) ++ ('=' :: (name ++
      (rows.flatMap (fun p => (nl ++ lead8 p.1) ++ numsBody p) ++ (nl ++ "*RETURN".toList))))) ++ ('\n' :: r) := by
    simp [nl]
  rw [e3]
  have hfree := block_free (L := "LEMENT".toList) (w := "ELEMENT".toList) (ty := ty') he (by decide) (by decide) ho' (c := 'L') (by decide) (by decide) (by decide)
    (by decide) hne
  rw [skip_elems (by decide) hfree]
  exact ⟨_, rfl⟩

/-- The words of an element line. -/
def datWords (p : ℕ × List ℕ) : List Str := natStr p.1 :: p.2.map natStr

/-- A section, unless it has no line. -/
def optBlock (name ty : Str) (rows : List (ℕ × List ℕ)) : Str := if rows = [] then [] else datBlock name ty rows

lemma datLines_found {ty text : Str} {n : ℕ} {rows : List (ℕ × List ℕ)} (hrows : ∀ p ∈ rows, NumsFit n p)
    (h : ∃ m t, reSearch (datElemsRe ty n) text [] = some (m, t) ∧
      m.group 1 = (shift (fun p => nl ++ lead8 p.1) nl rows).flatMap (fun p => numsBody p.1 ++ p.2)) :
    datLines (findall (datElemsRe ty n) text) = rows.map datWords := by
  obtain ⟨m, t, h1, h2⟩ := h
  unfold findall
  rw [reFindall_step h1]
  show (linesOf (m.group 1)).map split = _
  rw [h2, shift_lines (fun p : ℕ × List ℕ => lead8 p.1) numsBody (fun _ => blank_spaces _) (fun _ => plain_lead8 _) plain_numsBody]
  refine List.map_congr_left fun p hp => ?_
  exact split_numsBody (hrows p hp).2

lemma datLines_none {ty text : Str} {n : ℕ} (h : reSearch (datElemsRe ty n) text [] = none) :
    datLines (findall (datElemsRe ty n) text) = [] := by
  unfold findall
  rw [reFindall_none _ h]; rfl

lemma elems_none {ty s pre : Str} {n : ℕ} (h : ¬ "ELEMENT".toList <:+: s) : reSearch (datElemsRe ty n) s pre = none := by
  unfold datElemsRe
  exact search_none h

/-- The two sections of the file. -/
lemma dat_sections {name S : Str} (hn : DatName name) (hS : ¬ "ELEMENT".toList <:+: S ++ "$\n$".toList)
    {q t : List (ℕ × List ℕ)} (hq : ∀ p ∈ q, NumsFit 5 p) (ht : ∀ p ∈ t, NumsFit 4 p) :
    datLines (findall (datElemsRe t3 4) (S ++ (optBlock name q4 q ++ optBlock name t3 t))) = t.map datWords ∧
    datLines (findall (datElemsRe q4 5) (S ++ (optBlock name q4 q ++ optBlock name t3 t))) = q.map datWords := by
  have hS0 : ¬ "ELEMENT".toList <:+: S := fun h => hS (h.trans ⟨[], "$\n$".toList, rfl⟩)
  have hnil : ¬ "ELEMENT".toList <:+: [] ++ "$\n$".toList := by decide
  have hnil' : ¬ "ELEMENT".toList <:+: ([] : Str) := by decide
  constructor
  · by_cases hq0 : q = [] <;> by_cases ht0 : t = []
    · subst hq0; subst ht0
      simp only [optBlock, if_true, List.append_nil]
      exact datLines_none (elems_none hS0)
    · subst hq0
      simp only [optBlock, if_true, if_neg ht0, List.nil_append]
      have := search_block datType_t3 hn.t3 hn.plain ht0 ht hS [] []
      rw [List.append_nil] at this
      exact datLines_found ht this
    · subst ht0
      simp only [optBlock, if_true, if_neg hq0]
      obtain ⟨pre', h1⟩ := skip_block (n := 4) (ty' := q4) datType_t3 hn.t3 hn.element (by decide) (by decide) hq0 hS [] []
      exact datLines_none (h1.trans (elems_none hnil'))
    · simp only [optBlock, if_neg hq0, if_neg ht0]
      obtain ⟨pre', h1⟩ := skip_block (n := 4) (ty' := q4) datType_t3 hn.t3 hn.element (by decide) (by decide) hq0 hS
        (datBlock name t3 t) []
      obtain ⟨m, u, h2, h3⟩ := search_block datType_t3 hn.t3 hn.plain ht0 ht hnil [] pre'
      rw [List.append_nil, List.nil_append] at h2
      exact datLines_found ht ⟨m, u, h1.trans h2, h3⟩
  · by_cases hq0 : q = [] <;> by_cases ht0 : t = []
    · subst hq0; subst ht0
      simp only [optBlock, if_true, List.append_nil]
      exact datLines_none (elems_none hS0)
    · subst hq0
      simp only [optBlock, if_true, if_neg ht0, List.nil_append]
      obtain ⟨pre', h1⟩ := skip_block (n := 5) (ty' := t3) datType_q4 hn.q4 hn.element (by decide) (by decide) ht0 hS [] []
      rw [List.append_nil] at h1
      exact datLines_none (h1.trans (elems_none hnil'))
    · simp only [optBlock, if_neg hq0]
      exact datLines_found hq (search_block datType_q4 hn.q4 hn.plain hq0 hq hS _ [])
    · simp only [optBlock, if_neg hq0]
      exact datLines_found hq (search_block datType_q4 hn.q4 hn.plain hq0 hq hS _ [])

/-! ### The node section -/

/-- The numbers that `{:13.5E}` prints in a column with blanks before it. -/
def DatRange (x : ℚ) : Prop := x = 0 ∨ (10 : ℚ) ^ (-(99 : ℤ)) ≤ |x| ∧ |x| < 10 ^ (99 : ℤ)

lemma sci5_short {x : ℚ} (h : DatRange x) : (sciStr 5 x).length < 13 := by
  have hexp : (sciParts 5 x).2.natAbs < 10 ^ 2 := by
    unfold sciParts
    rcases h with rfl | ⟨h1, h2⟩
    · simp
    · have hx0 : 0 < |x| := lt_of_lt_of_le (by positivity) h1
      rw [if_neg (by intro h; simp [h] at hx0)]
      have l1 : -99 ≤ Int.log 10 |x| := by
        rw [← Int.zpow_le_iff_le_log (by norm_num) hx0]; exact_mod_cast h1
      have l2 : Int.log 10 |x| < 99 := by
        rw [← Int.lt_zpow_iff_log_lt (by norm_num) hx0]; exact_mod_cast h2
      simp only
      split <;> simp only <;> omega
  have h1 : (natStr ((sciParts 5 x).1 / 10 ^ 5)).length ≤ 1 :=
    natStr_length le_rfl (by simpa using sciParts_mantissa 5 x)
  have h2 := natStr_length (k := 2) (by norm_num) hexp
  have h3 := signStr_length x
  have h4 : (expStr (sciParts 5 x).2).length ≤ 3 := by
    unfold expStr
    by_cases h5 : (sciParts 5 x).2.natAbs < 10
    · rw [if_pos h5, natStr_lt h5]; simp
    · rw [if_neg h5, List.length_cons]; omega
  simp only [sciStr, List.length_append, List.length_cons, digitsW_length]
  omega

/-- The line of a node, without the blanks before its number. -/
def nodeBody (p : V3 ℚ × ℕ) : Str := natStr (p.2 + 1) ++ (fSci5 p.1.x ++ (fSci5 p.1.y ++ fSci5 p.1.z))

def DatRow (v : V3 ℚ) : Prop := DatRange v.x ∧ DatRange v.y ∧ DatRange v.z

lemma plain_fSci5 (x : ℚ) : Plain (fSci5 x) := plain_padL 13 (sciStr_word 5 x).plain

lemma plain_nodeBody (p : V3 ℚ × ℕ) : Plain (nodeBody p) :=
  (natStr_word _).plain.append ((plain_fSci5 _).append ((plain_fSci5 _).append (plain_fSci5 _)))

lemma split_fSci5 (x : ℚ) {r : Str} (hr : Breaks r) : split (fSci5 x ++ r) = sciStr 5 x :: split r :=
  split_padL 13 (sciStr_word 5 x) hr

lemma breaks_fSci5 {x : ℚ} (h : DatRange x) (r : Str) : Breaks (fSci5 x ++ r) := breaks_padL (sci5_short h) r

lemma split_nodeBody {p : V3 ℚ × ℕ} (h : DatRow p.1) :
    split (nodeBody p ++ nl) = [natStr (p.2 + 1), sciStr 5 p.1.x, sciStr 5 p.1.y, sciStr 5 p.1.z] := by
  have h0 := split_tok (s := []) (w := natStr (p.2 + 1)) (r := fSci5 p.1.x ++ (fSci5 p.1.y ++ (fSci5 p.1.z ++ nl)))
    (by intro c hc; cases hc) (natStr_word _) (breaks_padL (sci5_short h.1) _)
  rw [List.nil_append] at h0
  simp only [nodeBody, List.append_assoc]
  rw [h0, split_fSci5 _ (breaks_fSci5 h.2.1 _), split_fSci5 _ (breaks_fSci5 h.2.2 _), split_fSci5 _ breaks_nl', split_nl']

lemma first_coord {x : ℚ} (h : DatRange x) {r : Str} (hr : Breaks r) (pre : Str) (g : List (ℕ × Str)) :
    (Re.seq Re.ws1 Re.nonws1).first ⟨pre, fSci5 x ++ r, g⟩ = some ⟨(fSci5 x).reverse ++ pre, r, g⟩ := by
  have e : fSci5 x = List.replicate (13 - (sciStr 5 x).length) ' ' ++ sciStr 5 x := padL_eq _ _
  rw [e, List.append_assoc]
  have hst : Stops (fun c => !isSpace c) r := by
    rcases hr with rfl | ⟨c, t, rfl, hc⟩
    · exact Stops.nil _
    · exact stops_cons (by simp [hc]) t
  have h2 := first_plus_chr (p := fun c => !isSpace c) (sciStr_word 5 x).1
    (by intro c hc; simp [(sciStr_word 5 x).2 c hc]) hst ((List.replicate (13 - (sciStr 5 x).length) ' ').reverse ++ pre) g
  refine (first_seq (first_ws1 (spaces_ne (sci5_short h)) (blank_spaces _) (Word.stops (sciStr_word 5 x) _)) h2).trans ?_
  simp

lemma first_nodeLine {p : V3 ℚ × ℕ} (h : DatRow p.1) {e R : Str} (he : Blank e) (hne : e ≠ []) (hs : Stops isSpace R)
    (hbr : Breaks (e ++ R)) (pre : Str) (g : List (ℕ × Str)) :
    (Re.seq .ds1 (.seq (.rep (.seq .ws1 .nonws1) 3) .ws1)).first ⟨pre, nodeBody p ++ (e ++ R), g⟩ =
      some ⟨(nodeBody p ++ e).reverse ++ pre, R, g⟩ := by
  obtain ⟨hx, hy, hz⟩ := h
  have e1 : nodeBody p ++ (e ++ R) = natStr (p.2 + 1) ++ (fSci5 p.1.x ++ (fSci5 p.1.y ++ (fSci5 p.1.z ++ (e ++ R)))) := by
    simp only [nodeBody, List.append_assoc]
  have e2 : (nodeBody p ++ e).reverse ++ pre = e.reverse ++ ((fSci5 p.1.z).reverse ++ ((fSci5 p.1.y).reverse ++
      ((fSci5 p.1.x).reverse ++ ((natStr (p.2 + 1)).reverse ++ pre)))) := by
    simp only [nodeBody, List.reverse_append, List.append_assoc]
  rw [e1, e2]
  refine first_seq (first_ds1 (natStr_ne_nil _) (natStr_digits _) (Breaks.stops (breaks_fSci5 hx _))) ?_
  refine first_seq (first_seq (first_coord hx (breaks_fSci5 hy _) _ _) ?_) (first_ws1 hne he hs)
  refine first_seq (first_coord hy (breaks_fSci5 hz _) _ _) ?_
  exact first_seq (first_coord hz hbr _ _) (first_eps _)

/-- The lines of the node section. -/
lemma first_nodeLines {l : List (V3 ℚ × ℕ)} (hl : l ≠ []) (h : ∀ p ∈ l, DatRow p.1) {tail : Str}
    (ht : Stops isSpace tail) (ht' : Stops isDigit tail) (pre : Str) (g : List (ℕ × Str)) :
    (Re.plus (.seq .ds1 (.seq (.rep (.seq .ws1 .nonws1) 3) .ws1))).first
      ⟨pre, (shift (fun p => nl ++ lead8 (p.2 + 1)) nl l).flatMap (fun p => nodeBody p.1 ++ p.2) ++ tail, g⟩ =
      some ⟨((shift (fun p => nl ++ lead8 (p.2 + 1)) nl l).flatMap (fun p => nodeBody p.1 ++ p.2)).reverse ++ pre, tail, g⟩ := by
  refine first_plus_pieces (fun p : (V3 ℚ × ℕ) × Str => nodeBody p.1 ++ p.2) ?_ (fun _ => True) (fun _ _ => trivial) g _
    (shift_ne _ _ hl) tail ?_ ?_ pre trivial
  · intro b hb
    exact natStr_ne_nil _ (List.append_eq_nil_iff.1 (List.append_eq_nil_iff.1 hb).1).1
  · intro l1 b l2 pre e _
    have hb : b ∈ shift (fun p : V3 ℚ × ℕ => nl ++ lead8 (p.2 + 1)) nl l := by rw [e]; simp
    obtain ⟨h1, h2⟩ := shift_mem hb
    have hbl : Blank b.2 ∧ b.2 ≠ [] := by
      rcases h2 with h2 | ⟨c, -, h2⟩ <;> rw [h2]
      · exact ⟨blank_nl, by simp [nl]⟩
      · exact ⟨Blank.append blank_nl (blank_spaces _), by simp [nl]⟩
    obtain ⟨hx, hy, hz⟩ := h b.1 h1
    have hs : Stops isSpace (l2.flatMap (fun p : (V3 ℚ × ℕ) × Str => nodeBody p.1 ++ p.2) ++ tail) := by
      cases l2 with
      | nil => exact ht
      | cons c l2 =>
        simp only [List.flatMap_cons, nodeBody, List.append_assoc]
        exact Word.stops (natStr_word _) _
    have hbr : Breaks (b.2 ++ (l2.flatMap (fun p : (V3 ℚ × ℕ) × Str => nodeBody p.1 ++ p.2) ++ tail)) := by
      obtain ⟨c, w, hc⟩ : ∃ c w, b.2 = c :: w := by
        cases hb2 : b.2 with
        | nil => exact absurd hb2 hbl.2
        | cons c w => exact ⟨c, w, rfl⟩
      rw [hc]
      exact Or.inr ⟨c, _, rfl, hbl.1 c (by rw [hc]; exact List.mem_cons_self ..)⟩
    rw [List.append_assoc]
    exact first_nodeLine ⟨hx, hy, hz⟩ hbl.1 hbl.2 hs hbr pre g
  · intro pre _
    exact runs_seq_nil_left (ds1_fails ht' pre g)

/-! ### The file -/

/-- The date does not contain the words of the format. -/
def DatDate (s : Str) : Prop := (¬ "NODE".toList <:+: s) ∧ ¬ "ELEMENT".toList <:+: s

/-- The text before the blank which precedes `NODE`. -/
def datHead (name date : Str) : Str :=
  "$\n$ Data for DIODORE input file :".toList ++ (' ' :: (name ++ ('\n' :: ("$ GENERATED BY MESHMAGICK ON".toList ++
    (' ' :: (date ++ ('\n' :: "$\n$".toList)))))))

/-- The lines of the nodes. -/
def datNodeLines (m : Mesh ℚ) : Str := m.vertices.zipIdx.flatMap fun p => (nl ++ lead8 (p.2 + 1)) ++ nodeBody p

/-- The lines of the elements. -/
def datQuads (m : Mesh ℚ) : List (ℕ × List ℕ) :=
  (m.faces.zipIdx.filter fun p => p.1.a ≠ p.1.d).map fun p => (p.2 + 1, [p.1.a + 1, p.1.b + 1, p.1.c + 1, p.1.d + 1])
def datTris (m : Mesh ℚ) : List (ℕ × List ℕ) :=
  (m.faces.zipIdx.filter fun p => p.1.a = p.1.d).map fun p => (p.2 + 1, [p.1.a + 1, p.1.b + 1, p.1.c + 1])

/-- The text before the element sections. -/
def datS (name date : Str) (m : Mesh ℚ) : Str :=
  datHead name date ++ (' ' :: ("NODE".toList ++ (datNodeLines m ++ (nl ++ ("*RETURN".toList ++ nl)))))

lemma return_nl : "\n*RETURN\n".toList = nl ++ ("*RETURN".toList ++ nl) := by decide

lemma quads_block (name : Str) (m : Mesh ℚ) : (if (m.faces.zipIdx.filter fun p => p.1.a ≠ p.1.d).length > 0 then
      ("$\n$ ELEMENT,TYPE=Q4C000,ELSTRUCTURE=".toList ++ name) ++ (m.faces.zipIdx.filter fun p => p.1.a ≠ p.1.d).flatMap datQuadLine ++
        "\n*RETURN\n".toList else []) = optBlock name q4 (datQuads m) := by
  have efq : datQuadLine = fun p => nl ++ fInt 8 (p.2 + 1) ++ fInt 8 (p.1.a + 1) ++ fInt 8 (p.1.b + 1) ++ fInt 8 (p.1.c + 1) ++
    fInt 8 (p.1.d + 1) := rfl
  have ez : "$\n$ ELEMENT,TYPE=Q4C000,ELSTRUCTURE=".toList = "$\n$".toList ++ (' ' :: ("ELEMENT".toList ++
    ((",TYPE=".toList ++ q4 ++ ",ELSTRUCTURE".toList) ++ ['=']))) := by decide
  unfold optBlock datQuads
  generalize m.faces.zipIdx.filter (fun p => p.1.a ≠ p.1.d) = l
  by_cases hl : l = []
  · simp [hl]
  · rw [if_pos (List.length_pos_iff.2 hl), if_neg (by simpa using hl), ez, return_nl]
    simp only [datBlock, List.flatMap_map, List.append_assoc, List.cons_append, numsBody, List.flatMap_cons, List.flatMap_nil,
      efq, fInt8_eq, List.append_nil, List.nil_append]

lemma tris_block (name : Str) (m : Mesh ℚ) : (if (m.faces.zipIdx.filter fun p => p.1.a = p.1.d).length > 0 then
      ("$\n$ ELEMENT,TYPE=T3C000,ELSTRUCTURE=".toList ++ name) ++ (m.faces.zipIdx.filter fun p => p.1.a = p.1.d).flatMap datTriLine ++
        "\n*RETURN\n".toList else []) = optBlock name t3 (datTris m) := by
  have eft : datTriLine = fun p => nl ++ fInt 8 (p.2 + 1) ++ fInt 8 (p.1.a + 1) ++ fInt 8 (p.1.b + 1) ++ fInt 8 (p.1.c + 1) := rfl
  have ez : "$\n$ ELEMENT,TYPE=T3C000,ELSTRUCTURE=".toList = "$\n$".toList ++ (' ' :: ("ELEMENT".toList ++
    ((",TYPE=".toList ++ t3 ++ ",ELSTRUCTURE".toList) ++ ['=']))) := by decide
  unfold optBlock datTris
  generalize m.faces.zipIdx.filter (fun p => p.1.a = p.1.d) = l
  by_cases hl : l = []
  · simp [hl]
  · rw [if_pos (List.length_pos_iff.2 hl), if_neg (by simpa using hl), ez, return_nl]
    simp only [datBlock, List.flatMap_map, List.append_assoc, List.cons_append, numsBody, List.flatMap_cons, List.flatMap_nil,
      eft, fInt8_eq, List.append_nil, List.nil_append]

lemma nodes_joined (m : Mesh ℚ) (hv : m.vertices ≠ []) : nl ++ joinWith nl (m.vertices.zipIdx.map fun p =>
    fInt 8 (p.2 + 1) ++ fSci5 p.1.x ++ fSci5 p.1.y ++ fSci5 p.1.z) = datNodeLines m := by
  have hj := nl_joinWith (m.vertices.zipIdx.map fun p => fInt 8 (p.2 + 1) ++ fSci5 p.1.x ++ fSci5 p.1.y ++ fSci5 p.1.z)
    (by simpa using hv)
  rw [List.flatMap_map] at hj
  rw [hj, datNodeLines]
  simp only [fInt8_eq, nodeBody, List.append_assoc]

lemma assemble (A A' N N' name date J L Q T : Str) (b : A = A' ++ [' ']) (b2 : N = N' ++ [' ']) (hL : nl ++ J = L) :
    (A ++ name ++ nl) ++ (N ++ date ++ "\n$\n".toList) ++ "$ NODE\n".toList ++ (J ++ "\n*RETURN\n".toList) ++ Q ++ T =
    (A' ++ (' ' :: (name ++ ('\n' :: (N' ++ (' ' :: (date ++ ('\n' :: "$\n$".toList)))))))) ++
      (' ' :: ("NODE".toList ++ (L ++ (nl ++ ("*RETURN".toList ++ nl))))) ++ (Q ++ T) := by
  have e3 : "$ NODE\n".toList = '$' :: ' ' :: ("NODE".toList ++ nl) := by decide
  have e4 : "\n$\n".toList = '\n' :: '$' :: '\n' :: [] := by decide
  have e5 : "$\n$".toList = '$' :: '\n' :: '$' :: [] := by decide
  rw [b, b2, return_nl, e3, e4, e5, ← hL]
  generalize "NODE".toList = n
  generalize "*RETURN".toList = r
  simp [nl]

lemma writeDAT_eq (name date : Str) (m : Mesh ℚ) (hv : m.vertices ≠ []) : writeDAT name date m =
    datS name date m ++ (optBlock name q4 (datQuads m) ++ optBlock name t3 (datTris m)) := by
  rw [← quads_block, ← tris_block]
  exact assemble _ _ _ _ name date _ _ _ _ (by decide) (by decide) (nodes_joined m hv)

lemma nodeLines_chars (m : Mesh ℚ) {c : Char} (hc : c ∈ datNodeLines m) : isDigit c = true ∨ isSpace c = true ∨ c ∈ ".E+-".toList := by
  have hnum : ∀ n : ℕ, c ∈ natStr n → isDigit c = true := fun n h => natStr_digits n c h
  have hsp : ∀ k, c ∈ List.replicate k ' ' → isSpace c = true := fun k h => by
    rw [List.eq_of_mem_replicate h]; decide
  have hsci : ∀ x : ℚ, c ∈ fSci5 x → isDigit c = true ∨ isSpace c = true ∨ c ∈ ".E+-".toList := by
    intro x h
    have e : fSci5 x = List.replicate (13 - (sciStr 5 x).length) ' ' ++ sciStr 5 x := padL_eq _ _
    rw [e] at h
    rcases List.mem_append.1 h with h | h
    · exact Or.inr (Or.inl (hsp _ h))
    obtain ⟨sg, ip, fp, es, ed, e, h1, h2, h3, h4, h5, h6, h7⟩ := sciStr_parts 5 x
    rw [e] at h
    simp only [List.mem_append, List.mem_cons] at h
    rcases h with h | h | h | h | h | h | h
    · rcases h1 with rfl | rfl
      · cases h
      · rw [List.mem_singleton] at h; subst h; right; right; decide
    · exact Or.inl (h2 c h)
    · subst h; right; right; decide
    · exact Or.inl (h4 c h)
    · subst h; right; right; decide
    · subst h
      simp only [Bool.or_eq_true, beq_iff_eq] at h5
      rcases h5 with rfl | rfl <;> (right; right; decide)
    · exact Or.inl (h6 c h)
  obtain ⟨p, -, h⟩ := List.mem_flatMap.1 hc
  simp only [nodeBody, List.mem_append] at h
  rcases h with (h | h) | h | h | h | h
  · right; left; exact blank_nl c h
  · exact Or.inr (Or.inl (hsp _ h))
  · exact Or.inl (hnum _ h)
  · exact hsci _ h
  · exact hsci _ h
  · exact hsci _ h

lemma head_free {w name date : Str} (hn : ¬ w <:+: name) (hd : ¬ w <:+: date) (h1 : ' ' ∉ w) (h2 : '\n' ∉ w)
    (h3 : ¬ w <:+: "$\n$ Data for DIODORE input file :".toList) (h4 : ¬ w <:+: "$ GENERATED BY MESHMAGICK ON".toList)
    (h5 : ¬ w <:+: "$\n$".toList) : ¬ w <:+: datHead name date :=
  infix_glue h1 h3 (infix_glue h2 hn (infix_glue h1 h4 (infix_glue h2 hd h5)))

lemma element_free {name date : Str} (hn : DatName name) (hd : DatDate date) (m : Mesh ℚ) (hv : m.vertices ≠ []) :
    ¬ "ELEMENT".toList <:+: datS name date m ++ "$\n$".toList := by
  have h1 := head_free hn.element hd.2 (by decide) (by decide) (by decide) (by decide) (by decide)
  have hl : ¬ "ELEMENT".toList <:+: (datNodeLines m).tail := by
    refine infix_mem (c := 'L') (by decide) ?_
    intro h
    rcases nodeLines_chars m (List.mem_of_mem_tail h) with h | h | h <;> revert h <;> decide
  have hcons : datNodeLines m = '\n' :: (datNodeLines m).tail := by
    unfold datNodeLines
    cases hz : m.vertices.zipIdx with
    | nil => exact absurd hz (by simpa using hv)
    | cons p l => simp [nl]
  have e : datS name date m ++ "$\n$".toList = datHead name date ++ (' ' :: ("NODE".toList ++ ('\n' :: ((datNodeLines m).tail ++
      ('\n' :: ("*RETURN".toList ++ ('\n' :: "$\n$".toList))))))) := by
    unfold datS
    rw [hcons]
    simp [nl]
  rw [e]
  exact infix_glue (by decide) h1 (infix_glue (by decide) (by decide) (infix_glue (by decide) hl
    (infix_glue (by decide) (by decide) (by decide))))

lemma block_no_node {name ty : Str} (hn : DatName name)
    (hty : ¬ "NODE".toList <:+: "ELEMENT".toList ++ (",TYPE=".toList ++ ty ++ ",ELSTRUCTURE".toList)) (rows : List (ℕ × List ℕ))
    {r : Str} (hr : ¬ "NODE".toList <:+: r) : ¬ "NODE".toList <:+: optBlock name ty rows ++ r := by
  unfold optBlock
  by_cases h : rows = []
  · rw [if_pos h]; exact hr
  · rw [if_neg h]
    have h1 := block_free (L := "ELEMENT".toList) (ty := ty) hn.node (by decide) (by decide) hty (c := 'N') (by decide) (by decide)
      (by decide) (by decide) h
    have e : datBlock name ty rows ++ r = "$\n$".toList ++ (' ' :: ((("ELEMENT".toList ++ (",TYPE=".toList ++ ty ++ ",ELSTRUCTURE".toList)) ++
        ('=' :: (name ++ (rows.flatMap (fun p => (nl ++ lead8 p.1) ++ numsBody p) ++ (nl ++ "*RETURN".toList))))) ++ ('\n' :: r))) := by
      simp [datBlock, nl]
    rw [e]
    exact infix_glue (by decide) (by decide) (infix_glue (by decide) h1 hr)

/-- The node section is found, and it is the only one. -/
lemma dat_nodes {name date : Str} (hn : DatName name) (hd : DatDate date) (m : Mesh ℚ) (hv : m.vertices ≠ [])
    (hr : ∀ v ∈ m.vertices, DatRow v) : ∃ s, findall datNodesRe (writeDAT name date m) = [s] ∧
      (linesOf (s.group 1)).map split = m.vertices.zipIdx.map fun p =>
        [natStr (p.2 + 1), sciStr 5 p.1.x, sciStr 5 p.1.y, sciStr 5 p.1.z] := by
  have hl : ∀ p ∈ m.vertices.zipIdx, DatRow p.1 := fun p hp => hr p.1 (List.fst_mem_of_mem_zipIdx hp)
  have hz : m.vertices.zipIdx ≠ [] := by simpa using hv
  rw [writeDAT_eq name date m hv]
  generalize hB : optBlock name q4 (datQuads m) ++ optBlock name t3 (datTris m) = B
  have hBfree : ¬ "NODE".toList <:+: '\n' :: B := by
    have := infix_glue (w := "NODE".toList) (a := []) (b := B) (c := '\n') (by decide) (by decide) (by
      rw [← hB]
      refine block_no_node hn (by decide) _ ?_
      have := block_no_node hn (ty := t3) (by decide) (datTris m) (r := []) (by decide)
      rwa [List.append_nil] at this)
    exact this
  have hhead := head_free hn.node hd.1 (by decide) (by decide) (by decide) (by decide) (by decide)
  set S := (shift (fun p : V3 ℚ × ℕ => nl ++ lead8 (p.2 + 1)) nl m.vertices.zipIdx).flatMap (fun p => nodeBody p.1 ++ p.2) with hS
  obtain ⟨b, l, hbl⟩ : ∃ b l, m.vertices.zipIdx = b :: l := by
    cases h : m.vertices.zipIdx with
    | nil => exact absurd h hz
    | cons b l => exact ⟨b, l, rfl⟩
  have e : datS name date m ++ B = datHead name date ++ (' ' :: ("NODE".toList ++ ((nl ++ lead8 (b.2 + 1)) ++ (S ++ ("*RETURN".toList ++
      ('\n' :: B)))))) := by
    have h1 := shift_text (fun p : V3 ℚ × ℕ => nl ++ lead8 (p.2 + 1)) nodeBody nl b l
    have h2 : datNodeLines m ++ nl = (nl ++ lead8 (b.2 + 1)) ++ S := by
      rw [datNodeLines, hS, hbl, h1]
    unfold datS
    have h3 : ∀ r, datNodeLines m ++ (nl ++ r) = (nl ++ lead8 (b.2 + 1)) ++ (S ++ r) := by
      intro r; rw [← List.append_assoc, h2, List.append_assoc]
    simp only [List.append_assoc, List.cons_append, h3]
    rfl
  have hstop : Stops isSpace (S ++ ("*RETURN".toList ++ ('\n' :: B))) := by
    rw [hS, hbl]
    cases l with
    | nil => simp only [shift, List.flatMap_cons, nodeBody, List.append_assoc]; exact Word.stops (natStr_word _) _
    | cons c l => simp only [shift, List.flatMap_cons, nodeBody, List.append_assoc]; exact Word.stops (natStr_word _) _
  have hfirst : ∀ pre, datNodesRe.first ⟨pre, "NODE".toList ++ ((nl ++ lead8 (b.2 + 1)) ++ (S ++ ("*RETURN".toList ++ ('\n' :: B)))), []⟩ =
      some ⟨"*RETURN".toList.reverse ++ (S.reverse ++ ((nl ++ lead8 (b.2 + 1)).reverse ++ ("NODE".toList.reverse ++ pre))), '\n' :: B,
        [(1, S)]⟩ := by
    intro pre
    refine first_seq (first_lit _ _ _ _) (first_seq (first_ws (Blank.append blank_nl (blank_spaces _)) hstop) ?_)
    refine first_seq (first_group' (first_nodeLines hz hl (stops_cons (by decide) _) (stops_cons (by decide) _) _ _)) ?_
    exact first_lit _ _ _ _
  suffices h : ∃ t, findall datNodesRe (datS name date m ++ B) = [⟨t, [(1, S)]⟩] by
    obtain ⟨t, ht⟩ := h
    refine ⟨_, ht, ?_⟩
    rw [show ReMatch.group ⟨t, [(1, S)]⟩ 1 = S from rfl, hS,
      shift_lines (fun p : V3 ℚ × ℕ => lead8 (p.2 + 1)) nodeBody (fun _ => blank_spaces _) (fun _ => plain_lead8 _) plain_nodeBody]
    exact List.map_congr_left fun p hp => split_nodeBody (hl p hp)
  · unfold findall
    rw [e]
    have hsk : ∀ pre v, reSearch datNodesRe (datHead name date ++ (' ' :: v)) pre =
        reSearch datNodesRe v (' ' :: ((datHead name date).reverse ++ pre)) := by
      intro pre v
      unfold datNodesRe
      exact skip_to (by decide) (by decide) hhead
    rw [reFindall_step ((hsk _ _).trans (reSearch_hit (hfirst _))), reFindall_none]
    · exact ⟨_, rfl⟩
    · unfold datNodesRe
      exact search_none hBfree

/-! ### C89: DAT files -/

/-- The faces of the mesh in the order of the file: the triangles, then the quadrangles. -/
def trianglesFirst (m : Mesh ℚ) : List Face :=
  (m.faces.filter fun f => f.a = f.d) ++ m.faces.filter fun f => f.a ≠ f.d

lemma mapAll_map {α β γ : Type} (p : α → Except PyErr β) (w : γ → α) (g : γ → β) (l : List γ)
    (h : ∀ c ∈ l, p (w c) = .ok (g c)) : mapAll p (l.map w) = .ok (l.map g) := by
  induction l with
  | nil => rfl
  | cons c l ih =>
    rw [List.map_cons, mapAll, h c (by simp), ih fun d hd => h d (by simp [hd])]
    rfl

lemma zipIdx_filter {α : Type} (q : α → Bool) (l : List α) (k : ℕ) :
    ((l.zipIdx k).filter fun p => q p.1).map (fun p => p.1) = l.filter q := by
  induction l generalizing k with
  | nil => rfl
  | cons a l ih => by_cases h : q a <;> simp [h, ih]

lemma natStr_injective : Function.Injective natStr := fun a b h => by
  rw [← digitsVal_natStr a, h, digitsVal_natStr]

/-- The identifiers written by `write_DAT`. -/
def datIds (n : ℕ) : List Str := (List.range n).map fun i => natStr (i + 1)

lemma lookup_datIds {n i : ℕ} (h : i < n) : lookup (datIds n) (natStr (i + 1)) = .ok i := by
  unfold lookup
  rw [nodeDict_get (datIds n) ?_ i _ (by simp [datIds, h])]
  unfold datIds
  exact List.nodup_range.map fun a b h => by simpa using natStr_injective h

/-- The coordinates as read in the file. -/
def sci5Row (v : V3 ℚ) : List ℚ := [sciVal 5 v.x, sciVal 5 v.y, sciVal 5 v.z]

/-- **C89**: a mesh written to a DAT file is read back with the same vertices, in the same order, to six digits, and the same
faces, the triangles being first. -/
theorem C89_dat_partial (name date : Str) (hn : DatName name) (hd : DatDate date) (m : Mesh ℚ) (hv : m.vertices ≠ [])
    (hr : ∀ v ∈ m.vertices, DatRow v) (hnv : m.nv < 10 ^ 7) (hf : ∀ f ∈ m.faces, ∀ i ∈ f.toList, i < m.nv) :
    ∃ l, loadDATText (writeDAT name date m) = .ok l ∧ GivesBack Rounded6Digits ⟨m.vertices, trianglesFirst m⟩ l := by
  obtain ⟨s, hs, hlines⟩ := dat_nodes hn hd m hv hr
  have hshort : ∀ f ∈ m.faces, ∀ i ∈ f.toList, (natStr (i + 1)).length < 8 := by
    intro f h i hi
    have := hf f h i hi
    exact Nat.lt_succ_of_le (natStr_length (by norm_num) (by omega))
  have hq : ∀ p ∈ datQuads m, NumsFit 5 p := by
    intro p hp
    obtain ⟨q, hq, rfl⟩ := List.mem_map.1 hp
    have hm := hshort q.1 (List.fst_mem_of_mem_zipIdx (List.mem_filter.1 hq).1)
    refine ⟨rfl, ?_⟩
    intro k hk
    simp only [Face.toList, List.mem_cons, List.not_mem_nil, or_false, forall_eq_or_imp, forall_eq] at hm hk
    rcases hk with rfl | rfl | rfl | rfl
    exacts [hm.1, hm.2.1, hm.2.2.1, hm.2.2.2]
  have ht : ∀ p ∈ datTris m, NumsFit 4 p := by
    intro p hp
    obtain ⟨q, hq, rfl⟩ := List.mem_map.1 hp
    have hm := hshort q.1 (List.fst_mem_of_mem_zipIdx (List.mem_filter.1 hq).1)
    refine ⟨rfl, ?_⟩
    intro k hk
    simp only [Face.toList, List.mem_cons, List.not_mem_nil, or_false, forall_eq_or_imp, forall_eq] at hm hk
    rcases hk with rfl | rfl | rfl
    exacts [hm.1, hm.2.1, hm.2.2.1]
  obtain ⟨hT, hQ⟩ := dat_sections hn (element_free hn hd m hv) hq ht
  rw [← writeDAT_eq name date m hv] at hT hQ
  have hnodes : mapAll datNode (linesOf (s.group 1)) =
      .ok (m.vertices.zipIdx.map fun p => (natStr (p.2 + 1), [sciStr 5 p.1.x, sciStr 5 p.1.y, sciStr 5 p.1.z])) := by
    have key : ∀ (L : List Str) (l : List (V3 ℚ × ℕ)), L.map split = l.map (fun p =>
        [natStr (p.2 + 1), sciStr 5 p.1.x, sciStr 5 p.1.y, sciStr 5 p.1.z]) → mapAll datNode L =
        .ok (l.map fun p => (natStr (p.2 + 1), [sciStr 5 p.1.x, sciStr 5 p.1.y, sciStr 5 p.1.z])) := by
      intro L
      induction L with
      | nil => intro l h; cases l with
        | nil => rfl
        | cons p l => simp at h
      | cons a L ih => intro l h; cases l with
        | nil => simp at h
        | cons p l =>
          rw [List.map_cons, List.map_cons, List.cons.injEq] at h
          rw [mapAll, datNode, h.1, ih l h.2]
          rfl
    exact key _ _ hlines
  have hids : (m.vertices.zipIdx.map fun p => (natStr (p.2 + 1), [sciStr 5 p.1.x, sciStr 5 p.1.y, sciStr 5 p.1.z])).map Prod.fst =
      datIds m.nv := by
    rw [List.map_map, datIds]
    have := List.zipIdx_map_snd 0 m.vertices
    rw [← List.range_eq_range'] at this
    rw [Mesh.nv, ← this, List.map_map]
    rfl
  have hvs : mapAll floats ((m.vertices.zipIdx.map fun p =>
      (natStr (p.2 + 1), [sciStr 5 p.1.x, sciStr 5 p.1.y, sciStr 5 p.1.z])).map Prod.snd) = .ok (m.vertices.map sci5Row) := by
    rw [List.map_map]
    change mapAll floats (List.map (fun p : V3 ℚ × ℕ => List.map (sciStr 5) [p.1.x, p.1.y, p.1.z]) _) = _
    rw [mapAll_map floats _ (fun p : V3 ℚ × ℕ => sci5Row p.1) _ (fun p _ => convAll_map parseFloat (sciStr 5) (sciVal 5)
      (parseFloat_sciStr 5) [p.1.x, p.1.y, p.1.z])]
    congr 1
    conv_rhs => rw [← List.zipIdx_map_fst 0 m.vertices, List.map_map]
    rfl
  have hrect : rect (m.vertices.map sci5Row) = .ok (m.vertices.map sci5Row) :=
    rect_of_length (n := 3) (by intro r hr; obtain ⟨v, -, rfl⟩ := List.mem_map.1 hr; rfl)
  have htris : mapAll (datTriangle (datIds m.nv)) ((datTris m).map datWords) = .ok (m.faces.filter fun f => f.a = f.d) := by
    unfold datTris
    rw [List.map_map, mapAll_map _ _ (fun p => p.1)]
    · exact congrArg Except.ok (zipIdx_filter (fun f : Face => decide (f.a = f.d)) m.faces 0)
    · intro p hp
      obtain ⟨h1, h2⟩ := List.mem_filter.1 hp
      have hm := hf p.1 (List.fst_mem_of_mem_zipIdx h1)
      simp only [Face.toList, List.mem_cons, List.not_mem_nil, or_false, forall_eq_or_imp, forall_eq] at hm
      simp only [Function.comp, datWords, List.map_cons, List.map_nil, datTriangle, lookup_datIds hm.1, lookup_datIds hm.2.1,
        lookup_datIds hm.2.2.1]
      have h3 : p.1.a = p.1.d := by simpa using h2
      congr 1
      rcases p with ⟨⟨a, b, c, d⟩, i⟩
      simp only at h3
      rw [h3]
  have hquads : mapAll (datQuad (datIds m.nv)) ((datQuads m).map datWords) = .ok (m.faces.filter fun f => f.a ≠ f.d) := by
    unfold datQuads
    rw [List.map_map, mapAll_map _ _ (fun p => p.1)]
    · exact congrArg Except.ok (zipIdx_filter (fun f : Face => decide (f.a ≠ f.d)) m.faces 0)
    · intro p hp
      obtain ⟨h1, h2⟩ := List.mem_filter.1 hp
      have hm := hf p.1 (List.fst_mem_of_mem_zipIdx h1)
      simp only [Face.toList, List.mem_cons, List.not_mem_nil, or_false, forall_eq_or_imp, forall_eq] at hm
      simp only [Function.comp, datWords, List.map_cons, List.map_nil, datQuad, lookup_datIds hm.1, lookup_datIds hm.2.1,
        lookup_datIds hm.2.2.1, lookup_datIds hm.2.2.2]
  refine ⟨⟨m.vertices.map sci5Row, (trianglesFirst m).map faceRow⟩, ?_,
    forall2_map (fun v => ⟨_, _, _, rfl, sciVal_near 5 _, sciVal_near 5 _, sciVal_near 5 _⟩) _, rfl⟩
  unfold loadDATText
  rw [hs]
  simp only [hnodes, hvs, hrect, hids]
  have hT' : datLines (findall (datElemsRe "T3C000".toList 4) (writeDAT name date m)) = (datTris m).map datWords := hT
  have hQ' : datLines (findall (datElemsRe "Q4C000".toList 5) (writeDAT name date m)) = (datQuads m).map datWords := hQ
  rw [hT', htris]
  simp only
  rw [hQ', hquads]
  rfl

/-- `DatRow` is not a restriction on a sample of usual coordinates. -/
example : DatRow ⟨1 / 3, -20, 0⟩ := by
  refine ⟨Or.inr ⟨?_, ?_⟩, Or.inr ⟨?_, ?_⟩, Or.inl rfl⟩ <;> norm_num [abs_of_pos, abs_of_neg]

/-- A quadrangle and a triangle meet the hypotheses. -/
example : ∃ l, loadDATText (writeDAT "HULL".toList "Mon Nov 16 10:00:00 2026".toList
    ⟨[⟨0, 0, 0⟩, ⟨1, 0, 0⟩, ⟨1, 1, 1 / 3⟩, ⟨0, -1, 0⟩], [⟨0, 1, 2, 3⟩, ⟨0, 1, 2, 0⟩]⟩) = .ok l ∧
    GivesBack Rounded6Digits ⟨[⟨0, 0, 0⟩, ⟨1, 0, 0⟩, ⟨1, 1, 1 / 3⟩, ⟨0, -1, 0⟩], [⟨0, 1, 2, 0⟩, ⟨0, 1, 2, 3⟩]⟩ l := by
  refine C89_dat_partial _ _ ⟨by unfold Plain; decide, by decide, by decide, by decide, by decide⟩ ⟨by decide, by decide⟩ _ (by simp) ?_
    (by norm_num [Mesh.nv]) (by decide)
  have h0 : DatRange 0 := Or.inl rfl
  have h1 : DatRange 1 := Or.inr ⟨by norm_num, by norm_num⟩
  have h2 : DatRange (1 / 3) := Or.inr ⟨by norm_num, by norm_num⟩
  have h3 : DatRange (-1) := Or.inr ⟨by norm_num, by norm_num⟩
  simp only [List.forall_mem_cons, DatRow, h0, h1, h2, h3, and_self, List.not_mem_nil, false_imp_iff, implies_true]

/-- **C89**, a mesh without vertex is written to a file which is not read. -/
theorem C89_no_vertices_fails (name date : Str) (hn : DatName name) (hd : DatDate date) :
    loadDATText (writeDAT name date ⟨[], []⟩) = .error .indexError := by
  have hhead := head_free hn.node hd.1 (by decide) (by decide) (by decide) (by decide) (by decide)
  have e : writeDAT name date ⟨[], []⟩ = datHead name date ++ (' ' :: "NODE\n\n*RETURN\n".toList) := by
    have h1 := assemble (name := name) (date := date) (J := []) (L := nl) (Q := []) (T := []) (A := "$\n$ Data for DIODORE input file : ".toList)
      (A' := "$\n$ Data for DIODORE input file :".toList) (N := "$ GENERATED BY MESHMAGICK ON ".toList)
      (N' := "$ GENERATED BY MESHMAGICK ON".toList) (by decide) (by decide) (by decide)
    have h2 : ' ' :: ("NODE".toList ++ (nl ++ (nl ++ ("*RETURN".toList ++ nl)))) = ' ' :: "NODE\n\n*RETURN\n".toList := by decide
    rw [h2] at h1
    exact h1.trans (List.append_nil _)
  have hsk : ∀ pre v, reSearch datNodesRe (datHead name date ++ (' ' :: v)) pre =
      reSearch datNodesRe v (' ' :: ((datHead name date).reverse ++ pre)) := by
    intro pre v
    unfold datNodesRe
    exact skip_to (by decide) (by decide) hhead
  have h0 : ∀ pre, reSearch datNodesRe "NODE\n\n*RETURN\n".toList pre = none := fun _ => rfl
  unfold loadDATText findall
  rw [e, reFindall_none _ ((hsk _ _).trans (h0 _))]

/-- The panels of a mesh do not keep their order. -/
theorem C89_order : loadDATText (writeDAT "HULL".toList "Mon Nov 16 10:00:00 2026".toList
    ⟨[⟨0, 0, 0⟩, ⟨1, 0, 0⟩, ⟨1, 1, 0⟩, ⟨0, 1, 0⟩], [⟨0, 1, 2, 3⟩, ⟨0, 1, 2, 0⟩]⟩) =
    .ok ⟨[[0, 0, 0], [1, 0, 0], [1, 1, 0], [0, 1, 0]], [[0, 1, 2, 0], [0, 1, 2, 3]]⟩ := by decide +kernel

/-- A negative coordinate with three digits in the exponent touches what precedes it: the file is not read. -/
theorem C89_fused : loadDATText (writeDAT "HULL".toList "Mon Nov 16 10:00:00 2026".toList
    ⟨[⟨0, -10 ^ 100, 0⟩, ⟨1, 0, 0⟩, ⟨1, 1, 0⟩], [⟨0, 1, 2, 0⟩]⟩) = .error .indexError := by decide +kernel

/-- A file whose triangles are in two sections: those of the second one are lost, without message. -/
def datTwoSections : Str := "$\n$ NODE\n 1 0. 0. 0.\n 2 1. 0. 0.\n 3 1. 1. 0.\n 4 0. 1. 0.\n*RETURN
$\n$ ELEMENT,TYPE=T3C000,ELSTRUCTURE=BOW\n 1 1 2 3\n*RETURN
$\n$ ELEMENT,TYPE=T3C000,ELSTRUCTURE=STERN\n 2 1 3 4\n*RETURN\n".toList

theorem C89_second_section_lost : loadDATText datTwoSections =
    .ok ⟨[[0, 0, 0], [1, 0, 0], [1, 1, 0], [0, 1, 0]], [[0, 1, 2, 0]]⟩ := by decide +kernel

/-- A file whose nodes are in two sections is refused. -/
def datTwoNodes : Str := "$\n$ NODE\n 1 0. 0. 0.\n 2 1. 0. 0.\n*RETURN
$\n$ NODE\n 3 1. 1. 0.\n*RETURN\n$\n$ ELEMENT,TYPE=T3C000,ELSTRUCTURE=BOW\n 1 1 2 3\n*RETURN\n".toList

theorem C89_two_node_sections : loadDATText datTwoNodes = .error .runtimeError := by decide +kernel

/-- A name containing the word of the triangles: four quadrangles are read a second time, as triangles. -/
theorem C89_bad_name : loadDATText (writeDAT "T3C000-HULL".toList "Mon Nov 16 10:00:00 2026".toList
    ⟨[⟨0, 0, 0⟩, ⟨1, 0, 0⟩, ⟨1, 1, 0⟩, ⟨0, 1, 0⟩], [⟨0, 1, 2, 3⟩, ⟨1, 2, 3, 0⟩, ⟨2, 3, 0, 1⟩, ⟨3, 0, 1, 2⟩]⟩) =
    .ok ⟨[[0, 0, 0], [1, 0, 0], [1, 1, 0], [0, 1, 0]],
      [[0, 1, 2, 0], [1, 2, 3, 1], [2, 3, 0, 2], [3, 0, 1, 3], [0, 1, 2, 3], [1, 2, 3, 0], [2, 3, 0, 1], [3, 0, 1, 2]]⟩ := by
  decide +kernel

end MM.Io
