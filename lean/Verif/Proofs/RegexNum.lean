import Verif.Proofs.Regex
import Verif.Model.MmioRegex
import Verif.Props.Io

/-!
# Regular expressions of blanks and numbers
-/

namespace MM.Io

open MM

set_option linter.unusedSimpArgs false

lemma space_not_digit {c : Char} (h : isSpace c = true) : isDigit c = false := by
  by_contra hc
  have := digit_visible (c := c) (by simpa using hc)
  rw [h] at this; simp at this

lemma Breaks.stops {r : Str} (h : Breaks r) : Stops isDigit r := by
  rcases h with rfl | ⟨c, t, rfl, hc⟩
  · exact Stops.nil _
  · exact stops_cons (space_not_digit hc) t

lemma Word.stops {w : Str} (h : Word w) (r : Str) : Stops isSpace (w ++ r) := by
  cases w with
  | nil => exact absurd rfl h.1
  | cons c w => exact stops_cons (h.2 c (List.mem_cons_self ..)) _

lemma first_ws {b r pre : Str} {g : List (ℕ × Str)} (hb : Blank b) (hr : Stops isSpace r) :
    Re.ws.first ⟨pre, b ++ r, g⟩ = some ⟨b.reverse ++ pre, r, g⟩ := first_star_chr hb hr pre g

lemma first_ws1 {b r pre : Str} {g : List (ℕ × Str)} (hne : b ≠ []) (hb : Blank b) (hr : Stops isSpace r) :
    Re.ws1.first ⟨pre, b ++ r, g⟩ = some ⟨b.reverse ++ pre, r, g⟩ := first_plus_chr hne hb hr pre g

lemma first_ds {w r pre : Str} {g : List (ℕ × Str)} (hb : AllDigits w) (hr : Stops isDigit r) :
    Re.ds.first ⟨pre, w ++ r, g⟩ = some ⟨w.reverse ++ pre, r, g⟩ := first_star_chr hb hr pre g

lemma first_ds1 {w r pre : Str} {g : List (ℕ × Str)} (hne : w ≠ []) (hb : AllDigits w) (hr : Stops isDigit r) :
    Re.ds1.first ⟨pre, w ++ r, g⟩ = some ⟨w.reverse ++ pre, r, g⟩ := first_plus_chr hne hb hr pre g

/-- An optional sign which is there. -/
lemma first_opt_sign {c : Char} (hc : (c == '+' || c == '-') = true) (r pre : Str) (g : List (ℕ × Str)) :
    (Re.opt signRe).first ⟨pre, c :: r, g⟩ = some ⟨c :: pre, r, g⟩ := first_alt_left (first_chr hc)

lemma first_opt_nosign {r : Str} (h : Stops (fun c => c == '+' || c == '-') r) (pre : Str) (g : List (ℕ × Str)) :
    (Re.opt signRe).first ⟨pre, r, g⟩ = some ⟨pre, r, g⟩ := by
  unfold Re.opt signRe
  rw [first_alt_right (h.runs pre g)]; rfl

lemma digit_not_sign {c : Char} (h : isDigit c = true) : (c == '+' || c == '-') = false := by
  by_contra hc
  simp only [Bool.not_eq_false, Bool.or_eq_true, beq_iff_eq] at hc
  rcases hc with rfl | rfl <;> exact absurd h (by decide)

lemma AllDigits.stops_sign {w : Str} (h : AllDigits w) (hne : w ≠ []) (r : Str) :
    Stops (fun c => c == '+' || c == '-') (w ++ r) := by
  cases w with
  | nil => exact absurd rfl hne
  | cons c w => exact stops_cons (digit_not_sign (h c (List.mem_cons_self ..))) _

/-- A number with a point and an exponent, when no digit follows. -/
lemma first_real {sg ip fp ed r pre : Str} {es : Char} {g : List (ℕ × Str)} (hsg : sg = [] ∨ sg = ['-']) (hip : AllDigits ip)
    (hne : ip ≠ []) (hfp : AllDigits fp) (hes : (es == '+' || es == '-') = true) (hed : AllDigits ed) (hed' : ed ≠ [])
    (hr : Stops isDigit r) :
    realRe.first ⟨pre, sg ++ (ip ++ ('.' :: (fp ++ ('E' :: es :: (ed ++ r))))), g⟩ =
      some ⟨ed.reverse ++ (es :: 'E' :: (fp.reverse ++ ('.' :: (ip.reverse ++ (sg.reverse ++ pre))))), r, g⟩ := by
  have h1 : (Re.opt signRe).first ⟨pre, sg ++ (ip ++ ('.' :: (fp ++ ('E' :: es :: (ed ++ r))))), g⟩ =
      some ⟨sg.reverse ++ pre, ip ++ ('.' :: (fp ++ ('E' :: es :: (ed ++ r)))), g⟩ := by
    rcases hsg with rfl | rfl
    · exact first_opt_nosign (AllDigits.stops_sign hip hne _) pre g
    · exact first_opt_sign (by decide) _ pre g
  refine first_seq h1 ?_
  have h2 : (Re.seq Re.ds1 (Re.seq (Re.chr (· == '.')) Re.ds)).first
      ⟨sg.reverse ++ pre, ip ++ ('.' :: (fp ++ ('E' :: es :: (ed ++ r)))), g⟩ =
      some ⟨fp.reverse ++ ('.' :: (ip.reverse ++ (sg.reverse ++ pre))), 'E' :: es :: (ed ++ r), g⟩ := by
    refine first_seq (first_ds1 hne hip (stops_cons (by decide) _)) ?_
    refine first_seq (first_chr (by decide)) ?_
    exact first_ds hfp (stops_cons (by decide) _)
  refine first_seq (first_alt_left h2) ?_
  refine first_alt_left ?_
  refine first_seq (first_chr (by decide)) ?_
  refine first_seq (first_opt_sign hes _ _ _) ?_
  exact first_ds1 hed' hed hr

lemma expStr_parts (e : ℤ) : ∃ es ed, expStr e = es :: ed ∧ (es == '+' || es == '-') = true ∧ AllDigits ed ∧ ed ≠ [] := by
  unfold expStr
  refine ⟨_, _, rfl, by split <;> rfl, ?_, ?_⟩
  · split
    · intro c hc
      rcases List.mem_cons.1 hc with rfl | hc
      · decide
      · exact natStr_digits _ c hc
    · exact natStr_digits _
  · split
    · simp
    · exact natStr_ne_nil _

lemma sciStr_parts (d : ℕ) (x : ℚ) : ∃ sg ip fp es ed, sciStr d x = sg ++ (ip ++ ('.' :: (fp ++ ('E' :: es :: ed)))) ∧
    (sg = [] ∨ sg = ['-']) ∧ AllDigits ip ∧ ip ≠ [] ∧ AllDigits fp ∧ (es == '+' || es == '-') = true ∧ AllDigits ed ∧
    ed ≠ [] := by
  obtain ⟨es, ed, he, h1, h2, h3⟩ := expStr_parts (sciParts d x).2
  refine ⟨signStr x, natStr ((sciParts d x).1 / 10 ^ d), digitsW d ((sciParts d x).1 % 10 ^ d), es, ed, ?_, ?_,
    natStr_digits _, natStr_ne_nil _, digitsW_digits _ _, h1, h2, h3⟩
  · simp only [sciStr, he, List.append_assoc]
  · unfold signStr; split <;> simp

/-- A printed number. -/
lemma first_real_sci (d : ℕ) (x : ℚ) {r : Str} (hr : Stops isDigit r) (pre : Str) (g : List (ℕ × Str)) :
    realRe.first ⟨pre, sciStr d x ++ r, g⟩ = some ⟨(sciStr d x).reverse ++ pre, r, g⟩ := by
  obtain ⟨sg, ip, fp, es, ed, e, h1, h2, h3, h4, h5, h6, h7⟩ := sciStr_parts d x
  have := first_real (pre := pre) (g := g) h1 h2 h3 h4 h5 h6 h7 hr
  rw [e]
  simpa using this

/-- Not a real number: digits without a point after them. -/
lemma real_fails {w r : Str} (hw : AllDigits w) (hr : Stops isDigit r) (hr' : Stops (· == '.') r)
    (hs : w = [] → Stops (fun c => c == '+' || c == '-') r) (pre : Str) (g : List (ℕ × Str)) :
    realRe.runs ⟨pre, w ++ r, g⟩ = [] := by
  have hsign : (Re.opt signRe).runs ⟨pre, w ++ r, g⟩ = [⟨pre, w ++ r, g⟩] := by
    have h : Stops (fun c => c == '+' || c == '-') (w ++ r) := by
      cases w with
      | nil => exact hs rfl
      | cons c w => exact AllDigits.stops_sign hw (by simp) r
    show signRe.runs _ ++ [_] = _
    unfold signRe
    rw [h.runs pre g]; rfl
  have hdot : ∀ w1 w2 : Str, w ++ r = w1 ++ w2 → (∀ c ∈ w1, isDigit c = true) → Stops (· == '.') w2 := by
    intro w1 w2 e hd
    rcases List.append_eq_append_iff.1 e with ⟨a, rfl, h⟩ | ⟨a, rfl, h⟩
    · cases a with
      | nil => simp only [List.nil_append] at h; rw [← h]; exact hr'
      | cons c a =>
        have := hr c _ h
        have := hd c (by simp)
        simp_all
    · cases a with
      | nil => simp only [List.nil_append] at h; rw [h]; exact hr'
      | cons c a =>
        rw [h]
        refine stops_cons ?_ _
        have := hw c (by simp)
        by_contra hc
        simp only [Bool.not_eq_false, beq_iff_eq] at hc
        subst hc; exact absurd this (by decide)
  show ((Re.opt signRe).runs ⟨pre, w ++ r, g⟩).flatMap _ = []
  rw [hsign, List.flatMap_singleton]
  refine runs_seq_nil_left ?_
  show Re.runs _ _ ++ Re.runs _ _ = []
  rw [List.append_eq_nil_iff]
  constructor
  · refine runs_seq_nil ?_
    intro t ht
    obtain ⟨w1, w2, e, -, hd, rfl⟩ := mem_plus_chr ht
    exact runs_seq_nil_left ((hdot w1 w2 e hd).runs _ _)
  · refine runs_seq_nil ?_
    intro t ht
    obtain ⟨w1, w2, e, hd, rfl⟩ := mem_star_chr ht
    exact runs_seq_nil_left ((hdot w1 w2 e hd).runs _ _)

/-- The text left after blanks: either it starts with a blank, or all the blanks are read. -/
lemma blank_split {b r w1 w2 : Str} (hb : Blank b) (hr : Stops isSpace r) (e : b ++ r = w1 ++ w2)
    (hw : ∀ c ∈ w1, isSpace c = true) : (w1 = b ∧ w2 = r) ∨ ∃ c t, w2 = c :: t ∧ isSpace c = true := by
  rcases List.append_eq_append_iff.1 e with ⟨a, rfl, h⟩ | ⟨a, rfl, h⟩
  · cases a with
    | nil => left; exact ⟨by simp, by simpa using h.symm⟩
    | cons c a =>
      have h1 := hr c _ h
      have h2 := hw c (by simp)
      simp_all
  · cases a with
    | nil => left; exact ⟨by simp, by simpa using h⟩
    | cons c a => right; exact ⟨c, a ++ r, h, hb c (by simp)⟩

/-- Blanks, then an expression which does not start with a blank and fails after the blanks. -/
lemma ws_fails {a : Re} {b r pre : Str} {g : List (ℕ × Str)} (hb : Blank b) (hr : Stops isSpace r)
    (h1 : ∀ pre c t, isSpace c = true → a.runs ⟨pre, c :: t, g⟩ = []) (h2 : ∀ pre, a.runs ⟨pre, r, g⟩ = []) :
    (Re.seq Re.ws a).runs ⟨pre, b ++ r, g⟩ = [] := by
  refine runs_seq_nil ?_
  intro t ht
  obtain ⟨w1, w2, e, hw, rfl⟩ := mem_star_chr ht
  rcases blank_split hb hr e hw with ⟨rfl, rfl⟩ | ⟨c, t, rfl, hc⟩
  · exact h2 _
  · exact h1 _ c t hc

lemma ws1_fails {a : Re} {b r pre : Str} {g : List (ℕ × Str)} (hb : Blank b) (hr : Stops isSpace r)
    (h1 : ∀ pre c t, isSpace c = true → a.runs ⟨pre, c :: t, g⟩ = []) (h2 : ∀ pre, a.runs ⟨pre, r, g⟩ = []) :
    (Re.seq Re.ws1 a).runs ⟨pre, b ++ r, g⟩ = [] := by
  refine runs_seq_nil ?_
  intro t ht
  obtain ⟨w1, w2, e, -, hw, rfl⟩ := mem_plus_chr ht
  rcases blank_split hb hr e hw with ⟨rfl, rfl⟩ | ⟨c, t, rfl, hc⟩
  · exact h2 _
  · exact h1 _ c t hc

lemma ds1_fails {r : Str} (h : Stops isDigit r) (pre : Str) (g : List (ℕ × Str)) : Re.ds1.runs ⟨pre, r, g⟩ = [] :=
  runs_seq_nil_left (h.runs pre g)

/-- Every string is made of blanks and of a string which does not start with a blank. -/
lemma blank_decomp (s : Str) : ∃ b r, s = b ++ r ∧ Blank b ∧ Stops isSpace r := by
  refine ⟨s.takeWhile isSpace, s.dropWhile isSpace, (List.takeWhile_append_dropWhile).symm, ?_, ?_⟩
  · intro c hc
    have := List.all_takeWhile (p := isSpace) (l := s)
    rw [List.all_eq_true] at this
    exact this c hc
  · intro c t e
    have := List.head?_dropWhile_not isSpace s
    rw [e] at this
    simpa using this

end MM.Io
