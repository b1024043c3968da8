import Verif.Model.ReportOld
import Verif.Props.Report
import Verif.Proofs.RegexNum

/-!
# The hydrostatic report of the class `Hydrostatics` (C110)
-/

namespace MM.ReportOld

open MM MM.Io MM.Report

set_option linter.unusedSimpArgs false

/-! ### Lines -/

lemma padDash40_props {s : Str} (h : GoodLabel s) (t : Str) :
    (padDash40 s ++ ('>' :: t)).dropWhile (· ≠ '>') = '>' :: t ∧
    (padDash40 s ++ ('>' :: t)).takeWhile (fun c => c ≠ '-' && c ≠ '>') = s := by
  unfold padDash40
  constructor
  · rw [List.dropWhile_append_of_pos]
    · simp
    · intro c hc
      rcases List.mem_append.1 hc with hc | hc
      · simpa using (h c hc).2.1
      · rw [List.eq_of_mem_replicate hc]; decide
  · rw [List.append_assoc, List.takeWhile_append_of_pos]
    · cases 40 - s.length <;> simp [List.replicate_succ]
    · intro c hc
      have := h c hc
      simp [this.1, this.2.1]

/-- The line of a label: the value read depends on the words after the arrow. -/
lemma entry_words {s : Str} (h : GoodLabel s) (t : Str) :
    entry ('\t' :: (padDash40 s ++ ('>' :: t))) =
      match floats (split t) with
      | .ok [] => none
      | .ok xs => some (s, xs)
      | .error _ => none := by
  unfold entry
  simp only [(padDash40_props h t).1]
  rw [(padDash40_props h t).2]
  rcases floats (split t) with er | (_ | ⟨a, l⟩) <;> rfl

lemma plain_padDash40 {s : Str} (h : GoodLabel s) : Plain (padDash40 s) := by
  intro c hc
  unfold padDash40 at hc
  rcases List.mem_append.1 hc with hc | hc
  · exact (h c hc).2.2
  · rw [List.eq_of_mem_replicate hc]; decide

/-- The label of an item. -/
def Item.Labelled : Item → Prop
  | .raw s => (s = s.dropLast ++ nl ∧ Plain s.dropLast) ∧ entry s = none
  | .num text _ _ _ => GoodLabel (upper text)
  | .arr text _ _ _ => GoodLabel (upper text)

lemma plain_cells (t : Dtype) (p : ℕ) (xs : List ℚ) : Plain (xs.flatMap fun x => padR 10 (number t p x)) := by
  intro c hc
  obtain ⟨x, -, hx⟩ := List.mem_flatMap.1 hc
  unfold padR at hx
  rcases List.mem_append.1 hx with hx | hx
  · exact plain_number _ _ _ c hx
  · rw [List.eq_of_mem_replicate hx]; decide

lemma Item.isLine {it : Item} (h : it.Labelled) (r : Str) : linesOf (it.str ++ r) = it.str :: linesOf r := by
  cases it with
  | raw s => exact linesOf_lit h.1.1 h.1.2 r
  | num text x p t =>
    have hp : Plain ('\t' :: (padDash40 (upper text) ++ (">  ".toList ++ number t p x))) := by
      intro c hc
      rcases List.mem_cons.1 hc with rfl | hc
      · decide
      · exact ((plain_padDash40 h).append (Plain.append (by intro c hc; revert hc; revert c; decide) (plain_number t p x))) c hc
    have := linesOf_nl hp r
    simpa [Item.str] using this
  | arr text xs p t =>
    have hp : Plain ('\t' :: (padDash40 (upper text) ++ (">  ".toList ++ xs.flatMap (fun x => padR 10 (number t p x))))) := by
      intro c hc
      rcases List.mem_cons.1 hc with rfl | hc
      · decide
      · exact ((plain_padDash40 h).append (Plain.append (by intro c hc; revert hc; revert c; decide) (plain_cells t p xs))) c hc
    have := linesOf_nl hp r
    simpa [Item.str] using this

lemma entries_items (its : List Item) (h : ∀ it ∈ its, it.Labelled) :
    entries (its.flatMap Item.str) = its.filterMap fun it => entry it.str := by
  unfold entries
  induction its with
  | nil => rfl
  | cons it its ih =>
    rw [List.flatMap_cons, Item.isLine (h it (by simp)), List.filterMap_cons, List.filterMap_cons,
      ih fun i hi => h i (by simp [hi])]

lemma entry_num {text : String} (h : GoodLabel (upper text)) (x : ℚ) (p : ℕ) (t : Dtype) :
    entry (Item.num text x p t).str = some (upper text, [readVal t p x]) := by
  have := entry_words h (' ' :: ' ' :: (number t p x ++ nl))
  rw [split_two, split_number _ _ _ breaks_nl', split_nl'] at this
  simp only [floats, convAll, parse_numWord, conv] at this
  exact this

lemma entry_arr {text : String} (h : GoodLabel (upper text)) (xs : List ℚ) (p : ℕ) (t : Dtype) :
    entry (Item.arr text xs p t).str =
      match floats (split (xs.flatMap (fun x => padR 10 (number t p x)) ++ nl)) with
      | .ok [] => none
      | .ok ys => some (upper text, ys)
      | .error _ => none := by
  have := entry_words h (' ' :: ' ' :: (xs.flatMap (fun x => padR 10 (number t p x)) ++ nl))
  rw [split_two] at this
  exact this

/-! ### Arrays of numbers in fixed notation -/

lemma split_cells2 {x y : ℚ} (hx : |x| < 9999) :
    split ([x, y].flatMap (fun x => padR 10 (number .f 3 x)) ++ nl) = [fixedStr 3 x, fixedStr 3 y] := by
  simp only [List.flatMap_cons, List.flatMap_nil, List.append_nil, List.append_assoc]
  rw [split_pad hx, split_pad_last]

lemma split_cells3 {x y z : ℚ} (hx : |x| < 9999) (hy : |y| < 9999) :
    split ([x, y, z].flatMap (fun x => padR 10 (number .f 3 x)) ++ nl) = [fixedStr 3 x, fixedStr 3 y, fixedStr 3 z] := by
  simp only [List.flatMap_cons, List.flatMap_nil, List.append_nil, List.append_assoc]
  rw [split_pad hx, split_pad hy, split_pad_last]

lemma entry_f2 {text : String} (h : GoodLabel (upper text)) {x y : ℚ} (hx : |x| < 9999) :
    entry (Item.arr text [x, y] 3 .f).str = some (upper text, [fixedVal 3 x, fixedVal 3 y]) := by
  rw [entry_arr h, split_cells2 hx]
  simp only [floats, convAll, parseFloat_fixedStr, conv]

lemma entry_f3 {text : String} (h : GoodLabel (upper text)) {v : V3 ℚ} (hv : Near v) :
    entry (Item.arr text (comps v) 3 .f).str = some (upper text, [fixedVal 3 v.x, fixedVal 3 v.y, fixedVal 3 v.z]) := by
  rw [entry_arr h, comps, split_cells3 hv.1 hv.2]
  simp only [floats, convAll, parseFloat_fixedStr, conv]

/-! ### Arrays of numbers in scientific notation -/

lemma natStr_length_pos (n : ℕ) : 1 ≤ (natStr n).length := List.length_pos_iff.2 (natStr_ne_nil n)

lemma expStr_length (e : ℤ) : 3 ≤ (expStr e).length := by
  unfold expStr
  by_cases h : e.natAbs < 10
  · simp only [h, if_true, List.length_cons]
    have := natStr_length_pos e.natAbs
    omega
  · simp only [h, if_false, List.length_cons]
    suffices 2 ≤ (natStr e.natAbs).length by omega
    by_contra hc
    have h1 := natStr_length_pos e.natAbs
    have hlen : (natStr e.natAbs).length = 1 := by omega
    obtain ⟨c, hcs⟩ := List.length_eq_one_iff.1 hlen
    have hv := digitsVal_natStr e.natAbs
    rw [hcs] at hv
    have hd := natStr_digits e.natAbs c (by rw [hcs]; simp)
    have : digitVal c < 10 := by
      unfold isDigit at hd
      unfold digitVal
      simp only [Bool.and_eq_true, decide_eq_true_eq] at hd
      omega
    simp only [digitsVal, List.foldl_cons, List.foldl_nil] at hv
    omega

/-- A number with four digits fills a column of ten characters. -/
lemma padR_sci (x : ℚ) : padR 10 (number .E 3 x) = number .E 3 x := by
  unfold padR
  have h : 10 ≤ (number .E 3 x).length := by
    rw [number_eq]
    simp only [numWord, sciStr, List.length_append, List.length_cons, digitsW_length]
    have h1 := natStr_length_pos ((sciParts 3 x).1 / 10 ^ 3)
    have h2 := expStr_length (sciParts 3 x).2
    by_cases hx : x < 0
    · simp only [hx, if_true, List.length_nil, signStr, List.length_cons]; omega
    · simp only [hx, if_false, List.length_nil, signStr, List.length_cons]; omega
  rw [Nat.sub_eq_zero_of_le h]
  simp

lemma number_breaks {x : ℚ} (h : 0 ≤ x) (t : Dtype) (p : ℕ) (r : Str) : Breaks (number t p x ++ r) := by
  rw [number_eq, if_neg (not_lt.2 h)]
  exact breaks_cons (by decide) _

lemma entry_E3 {text : String} (h : GoodLabel (upper text)) {v : V3 ℚ} (hy : 0 ≤ v.y) (hz : 0 ≤ v.z) :
    entry (Item.arr text (comps v) 3 .E).str = some (upper text, [sciVal 3 v.x, sciVal 3 v.y, sciVal 3 v.z]) := by
  rw [entry_arr h, comps]
  simp only [List.flatMap_cons, List.flatMap_nil, List.append_nil, List.append_assoc, padR_sci]
  rw [split_number _ _ _ (number_breaks hy _ _ _), split_number _ _ _ (number_breaks hz _ _ _), split_number _ _ _ breaks_nl',
    split_nl']
  simp only [numWord, floats, convAll, parseFloat_sciStr, conv]

/-- Two numbers which touch are not a number. -/
lemma parse_glued (x : ℚ) (r : Str) : parseFloat (sciStr 3 x ++ '-' :: r) = none := by
  obtain ⟨sg, ip, fp, es, ed, e, h1, h2, h3, h4, h5, h6, h7⟩ := sciStr_parts 3 x
  have hst : stripSign (sg ++ (ip ++ ('.' :: (fp ++ ('E' :: es :: (ed ++ '-' :: r)))))) =
      (decide (sg = ['-']), ip ++ ('.' :: (fp ++ ('E' :: es :: (ed ++ '-' :: r))))) := by
    rcases h1 with rfl | rfl
    · cases ip with
      | nil => exact absurd rfl h3
      | cons c ip =>
        have hc := h2 c (by simp)
        have n1 : c ≠ '-' := by rintro rfl; exact absurd hc (by decide)
        have n2 : c ≠ '+' := by rintro rfl; exact absurd hc (by decide)
        simp [stripSign, n1, n2]
    · rfl
  have e' : sciStr 3 x ++ '-' :: r = sg ++ (ip ++ ('.' :: (fp ++ ('E' :: es :: (ed ++ '-' :: r))))) := by
    rw [e]; simp
  have tk : ∀ (a b : Str) (c : Char), AllDigits a → isDigit c = false → (a ++ c :: b).takeWhile isDigit = a ∧
      (a ++ c :: b).dropWhile isDigit = c :: b := by
    intro a b c ha hc
    constructor
    · rw [List.takeWhile_append_of_pos ha]; simp [hc]
    · rw [List.dropWhile_append_of_pos ha]; simp [hc]
  have hint : parseInt (es :: (ed ++ '-' :: r)) = none := by
    have hs : (stripSign (es :: (ed ++ '-' :: r))).2 = ed ++ '-' :: r := by
      have : es = '+' ∨ es = '-' := by simpa using h5
      rcases this with rfl | rfl <;> rfl
    unfold parseInt
    simp only [hs]
    rw [if_neg]
    rintro ⟨-, h⟩
    rw [List.all_append, List.all_cons] at h
    simp [isDigit] at h
  unfold parseFloat
  rw [e', hst]
  simp only [(tk ip _ '.' h2 (by decide)).1, (tk ip _ '.' h2 (by decide)).2, (tk fp _ 'E' h4 (by decide)).1,
    (tk fp _ 'E' h4 (by decide)).2, hint, h3, false_and, if_false, Option.map_none]
  simp

/-- The word formed by a number and what touches it. -/
lemma split_glued {w r : Str} (hw : Word w) : ∃ w' ws, split (w ++ '-' :: r) = (w ++ '-' :: w') :: ws := by
  refine ⟨r.takeWhile (fun c => !isSpace c), split (r.dropWhile fun c => !isSpace c), ?_⟩
  have hr : r = r.takeWhile (fun c => !isSpace c) ++ r.dropWhile (fun c => !isSpace c) := (List.takeWhile_append_dropWhile).symm
  have hword : Word (w ++ '-' :: r.takeWhile (fun c => !isSpace c)) := by
    refine ⟨by simp, ?_⟩
    intro c hc
    rcases List.mem_append.1 hc with hc | hc
    · exact hw.2 c hc
    · rcases List.mem_cons.1 hc with rfl | hc
      · decide
      · simpa using List.all_eq_true.1 (List.all_takeWhile (p := fun c => !isSpace c) (l := r)) c hc
  have hbr : Breaks (r.dropWhile fun c => !isSpace c) := by
    rcases hd : r.dropWhile (fun c => !isSpace c) with _ | ⟨c, t⟩
    · exact Or.inl rfl
    · refine Or.inr ⟨c, t, rfl, ?_⟩
      have := List.head?_dropWhile_not (fun c => !isSpace c) r
      simpa [hd] using this
  have := split_tok (s := []) (by intro c hc; cases hc) hword hbr
  rw [List.nil_append] at this
  rw [← this]
  congr 1
  conv_lhs => rw [hr]
  simp

lemma number_neg {x : ℚ} (h : x < 0) : ∃ r, number .E 3 x = '-' :: r := by
  rw [number_eq, if_pos h]
  refine ⟨natStr ((sciParts 3 x).1 / 10 ^ 3) ++ '.' :: (digitsW 3 ((sciParts 3 x).1 % 10 ^ 3) ++ 'E' :: expStr (sciParts 3 x).2), ?_⟩
  simp [numWord, sciStr, signStr, h]

lemma floats_glued (x : ℚ) (w : Str) (ws : List Str) : ∃ er, floats ((sciStr 3 x ++ '-' :: w) :: ws) = .error er := by
  simp only [floats, convAll, parse_glued, conv]
  exact ⟨_, rfl⟩

lemma entry_E3_none {text : String} (h : GoodLabel (upper text)) {v : V3 ℚ} (hn : v.y < 0 ∨ v.z < 0) :
    entry (Item.arr text (comps v) 3 .E).str = none := by
  rw [entry_arr h, comps]
  simp only [List.flatMap_cons, List.flatMap_nil, List.append_nil, List.append_assoc, padR_sci]
  by_cases hy : v.y < 0
  · obtain ⟨r, hr⟩ := number_neg hy
    have e : split (number .E 3 v.x ++ (number .E 3 v.y ++ (number .E 3 v.z ++ nl))) =
        split (sciStr 3 v.x ++ '-' :: (r ++ (number .E 3 v.z ++ nl))) := by
      rw [number_eq .E 3 v.x, hr, List.append_assoc, split_blank (blank_sign _)]
      rfl
    obtain ⟨w, ws, hw⟩ := split_glued (r := r ++ (number .E 3 v.z ++ nl)) (sciStr_word 3 v.x)
    obtain ⟨er, her⟩ := floats_glued v.x w ws
    rw [e, hw, her]
  · have hz : v.z < 0 := hn.resolve_left hy
    obtain ⟨r, hr⟩ := number_neg hz
    have e : split (number .E 3 v.y ++ (number .E 3 v.z ++ nl)) = split (sciStr 3 v.y ++ '-' :: (r ++ nl)) := by
      rw [number_eq .E 3 v.y, hr, List.append_assoc, split_blank (blank_sign _)]
      rfl
    obtain ⟨w, ws, hw⟩ := split_glued (r := r ++ nl) (sciStr_word 3 v.y)
    obtain ⟨er, her⟩ := floats_glued v.y w ws
    rw [split_number _ _ _ (number_breaks (not_lt.1 hy) _ _ _), e, hw]
    have : floats (numWord .E 3 v.x :: (sciStr 3 v.y ++ '-' :: w) :: ws) = .error er := by
      simp only [floats, convAll, parse_numWord, conv] at her ⊢
      rw [her]
    rw [this]

/-! ### C110 -/

/-- What the report must say, line by line, before the residuals. -/
def table (d : Data) : List Line :=
  [⟨"GRAVITY ACCELERATION (M/S**2)", [d.gravity], Decimals 2⟩,
   ⟨"DENSITY OF WATER (KG/M**3)", [d.rhoWater], Decimals 1⟩,
   ⟨"WATERPLANE AREA (M**2)", [d.waterplaneArea], Decimals 1⟩,
   ⟨"WATERPLANE CENTER (M)", [d.flotationCenter.x, d.flotationCenter.y], Decimals 3⟩,
   ⟨"WET AREA (M**2)", [d.wetSurfaceArea], Decimals 1⟩,
   ⟨"DISPLACEMENT VOLUME (M**3)", [d.dispVolume], Decimals 3⟩,
   ⟨"DISPLACEMENT MASS (TONS)", [d.dispMass / 1000], Decimals 3⟩,
   ⟨"BUOYANCY CENTER (M)", [d.buoyCenter.x, d.buoyCenter.y, d.buoyCenter.z], Decimals 3⟩,
   ⟨"CENTER OF GRAVITY (M)", [d.gravityCenter.x, d.gravityCenter.y, d.gravityCenter.z], Decimals 3⟩,
   ⟨"DRAUGHT (M)", [d.draught], Decimals 3⟩,
   ⟨"LENGTH OVERALL SUBMERGED (M)", [d.los], Decimals 2⟩,
   ⟨"BREADTH OVERALL SUBMERGED (M)", [d.bos], Decimals 2⟩,
   ⟨"LENGTH AT WATERLINE LWL (M)", [d.lwl], Decimals 2⟩,
   ⟨"FORWARD PERPENDICULAR (M)", [d.fp], Decimals 2⟩,
   ⟨"TRANSVERSAL METACENTRIC RADIUS (M)", [d.transversalRadius], Decimals 3⟩,
   ⟨"TRANSVERSAL METACENTRIC HEIGHT GMT (M)", [d.gmX], Decimals 3⟩,
   ⟨"LONGITUDINAL METACENTRIC RADIUS (M)", [d.longitudinalRadius], Decimals 3⟩,
   ⟨"LONGITUDINAL METACENTRIC HEIGHT GML (M)", [d.gmY], Decimals 3⟩,
   ⟨"K33 (N/M)", [d.stiffness.r0.x], Digits 4⟩,
   ⟨"K34 (N)", [d.stiffness.r0.y], Digits 4⟩,
   ⟨"K35 (N)", [d.stiffness.r0.z], Digits 4⟩,
   ⟨"K44 (N.M)", [d.stiffness.r1.y], Digits 4⟩,
   ⟨"K45 (N.M)", [d.stiffness.r1.z], Digits 4⟩,
   ⟨"K55 (N.M)", [d.stiffness.r2.z], Digits 4⟩,
   ⟨"IXX", [d.ixx], Digits 3⟩,
   ⟨"IXY", [d.ixy], Digits 3⟩,
   ⟨"IXZ", [d.ixz], Digits 3⟩,
   ⟨"IYY", [d.iyy], Digits 3⟩,
   ⟨"IYZ", [d.iyz], Digits 3⟩,
   ⟨"IZZ", [d.izz], Digits 3⟩]

/-- The lines of the residuals: the heave force is divided by the weight, the moments about `x` and `y` by the weight times the
breadth and the length at the waterline. -/
def residualTable (d : Data) : List Line :=
  [⟨"ABSOLUTE", [d.residual.x, d.residual.y, d.residual.z], Digits 3⟩,
   ⟨"RELATIVE", [d.residual.x / d.mg, d.residual.y / (d.mg * d.breadth), d.residual.z / (d.mg * d.lwl)], Digits 3⟩]

/-- The last line. -/
def lastTable (d : Data) : List Line := [⟨"RELATIVE TOLERANCE", [d.reltol], Digits 1⟩]

lemma good_hspace : hspace.Labelled := by refine ⟨⟨by decide, by unfold Plain; decide⟩, by decide⟩

lemma good_raw {s : Str} (h : (s = s.dropLast ++ nl ∧ ∀ c ∈ s.dropLast, c ≠ '\n') ∧ entry s = none) : (Item.raw s).Labelled := h

lemma good_num {text : String} (x : ℚ) (p : ℕ) (t : Dtype) (h : GoodLabel (upper text)) : (Item.num text x p t).Labelled := h

lemma good_arr {text : String} (xs : List ℚ) (p : ℕ) (t : Dtype) (h : GoodLabel (upper text)) : (Item.arr text xs p t).Labelled := h

lemma items_good (d : Data) : ∀ it ∈ items d, it.Labelled := by
  have a1 : ∀ it ∈ part1 d, it.Labelled := by
    unfold part1
    simp only [List.forall_mem_cons]
    refine ⟨good_hspace, good_hspace, good_num _ _ _ (by decide), good_num _ _ _ (by decide), good_hspace,
      good_num _ _ _ (by decide), good_arr _ _ _ (by decide), good_num _ _ _ (by decide), good_num _ _ _ (by decide),
      good_num _ _ _ (by decide), good_arr _ _ _ (by decide), good_arr _ _ _ (by decide), fun _ h => by cases h⟩
  have a2 : ∀ it ∈ part2 d, it.Labelled := by
    unfold part2
    simp only [List.forall_mem_cons]
    refine ⟨good_hspace, good_num _ _ _ (by decide), good_num _ _ _ (by decide), good_num _ _ _ (by decide),
      good_num _ _ _ (by decide), good_num _ _ _ (by decide), good_hspace, good_num _ _ _ (by decide), good_num _ _ _ (by decide),
      good_num _ _ _ (by decide), good_num _ _ _ (by decide), fun _ h => by cases h⟩
  have a3 : ∀ it ∈ part3 d, it.Labelled := by
    unfold part3
    simp only [List.forall_mem_cons]
    refine ⟨good_hspace, good_raw (by decide), good_num _ _ _ (by decide), good_num _ _ _ (by decide), good_num _ _ _ (by decide),
      good_num _ _ _ (by decide), good_num _ _ _ (by decide), good_num _ _ _ (by decide), good_hspace, good_raw (by decide),
      good_num _ _ _ (by decide), good_num _ _ _ (by decide), good_num _ _ _ (by decide), good_num _ _ _ (by decide),
      good_num _ _ _ (by decide), good_num _ _ _ (by decide), fun _ h => by cases h⟩
  have a4 : ∀ it ∈ part4 d, it.Labelled := by
    unfold part4
    simp only [List.forall_mem_cons]
    refine ⟨good_hspace, good_raw (by decide), good_arr _ _ _ (by decide), good_arr _ _ _ (by decide), good_num _ _ _ (by decide),
      fun _ h => by cases h⟩
  unfold items
  intro it hit
  simp only [List.mem_append] at hit
  rcases hit with ((h | h) | h) | h
  exacts [a1 it h, a2 it h, a3 it h, a4 it h]

lemma entry_hspace : entry hspace.str = none := good_hspace.2

lemma says_num {l : Line} {it : Item} {its : List Item} {ls : List Line} {e : Str × List ℚ} (he : entry it.str = some e)
    (hs : Says l e) (h : List.Forall₂ Says ls (its.filterMap fun i => entry i.str)) :
    List.Forall₂ Says (l :: ls) ((it :: its).filterMap fun i => entry i.str) := by
  rw [List.filterMap_cons, he]
  exact .cons hs h

lemma says_skip {it : Item} {its : List Item} {ls : List Line} (he : entry it.str = none)
    (h : List.Forall₂ Says ls (its.filterMap fun i => entry i.str)) :
    List.Forall₂ Says ls ((it :: its).filterMap fun i => entry i.str) := by
  rw [List.filterMap_cons, he]
  exact h

lemma line_f (label text : String) (x : ℚ) (p : ℕ) (h : upper text = label.toList) (hg : GoodLabel (upper text))
    {its : List Item} {ls : List Line} (hr : List.Forall₂ Says ls (its.filterMap fun i => entry i.str)) :
    List.Forall₂ Says (⟨label, [x], Decimals p⟩ :: ls) ((Item.num text x p .f :: its).filterMap fun i => entry i.str) :=
  says_num (entry_num hg x p .f) (says_f label text x p h) hr

lemma line_E (label text : String) (x : ℚ) (p : ℕ) (h : upper text = label.toList) (hg : GoodLabel (upper text))
    {its : List Item} {ls : List Line} (hr : List.Forall₂ Says ls (its.filterMap fun i => entry i.str)) :
    List.Forall₂ Says (⟨label, [x], Digits p⟩ :: ls) ((Item.num text x p .E :: its).filterMap fun i => entry i.str) :=
  says_num (entry_num hg x p .E) (says_E label text x p h) hr

lemma line_v (label text : String) (v : V3 ℚ) (hv : Near v) (h : upper text = label.toList) (hg : GoodLabel (upper text))
    {its : List Item} {ls : List Line} (hr : List.Forall₂ Says ls (its.filterMap fun i => entry i.str)) :
    List.Forall₂ Says (⟨label, [v.x, v.y, v.z], Decimals 3⟩ :: ls)
      ((Item.arr text (comps v) 3 .f :: its).filterMap fun i => entry i.str) :=
  says_num (entry_f3 hg hv) (says_v label text v 3 h) hr

lemma line_r (label text : String) (v : V3 ℚ) (hy : 0 ≤ v.y) (hz : 0 ≤ v.z) (h : upper text = label.toList)
    (hg : GoodLabel (upper text)) {its : List Item} {ls : List Line}
    (hr : List.Forall₂ Says ls (its.filterMap fun i => entry i.str)) :
    List.Forall₂ Says (⟨label, [v.x, v.y, v.z], Digits 3⟩ :: ls)
      ((Item.arr text (comps v) 3 .E :: its).filterMap fun i => entry i.str) :=
  says_num (entry_E3 hg hy hz)
    ⟨h, .cons (sciVal_near 3 _) (.cons (sciVal_near 3 _) (.cons (sciVal_near 3 _) .nil))⟩ hr

/-- The lines before the residuals, then others. -/
lemma lines_before {d : Data} (h1 : |d.flotationCenter.x| < 9999) (h2 : Near d.buoyCenter) (h3 : Near d.gravityCenter)
    {ls : List Line} (hr : List.Forall₂ Says ls ((part4 d).filterMap fun i => entry i.str)) :
    List.Forall₂ Says (table d ++ ls) (entries (report d)) := by
  unfold report
  rw [entries_items _ (items_good d)]
  unfold items
  rw [List.append_assoc, List.append_assoc]
  unfold table part1
  simp only [List.cons_append, List.nil_append]
  iterate 2 refine says_skip entry_hspace ?_
  iterate 2 refine line_f _ _ _ _ (by decide) (by decide) ?_
  refine says_skip entry_hspace ?_
  refine line_f _ _ _ _ (by decide) (by decide) ?_
  refine says_num (entry_f2 (by decide) h1)
    ⟨show upper "Waterplane center (M)" = "WATERPLANE CENTER (M)".toList by decide,
      .cons (fixedVal_near 3 _) (.cons (fixedVal_near 3 _) .nil)⟩ ?_
  iterate 3 refine line_f _ _ _ _ (by decide) (by decide) ?_
  refine line_v _ _ _ h2 (by decide) (by decide) ?_
  refine line_v _ _ _ h3 (by decide) (by decide) ?_
  unfold part2
  simp only [List.cons_append, List.nil_append]
  refine says_skip entry_hspace ?_
  iterate 5 refine line_f _ _ _ _ (by decide) (by decide) ?_
  refine says_skip entry_hspace ?_
  iterate 4 refine line_f _ _ _ _ (by decide) (by decide) ?_
  unfold part3
  simp only [List.cons_append, List.nil_append]
  refine says_skip entry_hspace ?_
  refine says_skip (by decide) ?_
  iterate 6 refine line_E _ _ _ _ (by decide) (by decide) ?_
  refine says_skip entry_hspace ?_
  refine says_skip (by decide) ?_
  iterate 6 refine line_E _ _ _ _ (by decide) (by decide) ?_
  exact hr

/-- **C110**: the values read in the report are, in order and under their labels, those of the hydrostatic data with the precision
announced, when no moment of the residual is negative. -/
theorem C110_report_partial (d : Data) (h1 : |d.flotationCenter.x| < 9999) (h2 : Near d.buoyCenter) (h3 : Near d.gravityCenter)
    (hr : 0 ≤ d.residual.y ∧ 0 ≤ d.residual.z) (hs : 0 < d.mg ∧ 0 < d.breadth ∧ 0 < d.lwl) :
    List.Forall₂ Says (table d ++ residualTable d ++ lastTable d) (entries (report d)) := by
  rw [List.append_assoc]
  refine lines_before h1 h2 h3 ?_
  obtain ⟨s1, s2, s3⟩ := hs
  unfold part4 residualTable lastTable
  simp only [List.cons_append, List.nil_append]
  refine says_skip entry_hspace ?_
  refine says_skip (by decide) ?_
  refine line_r _ _ _ hr.1 hr.2 (by decide) (by decide) ?_
  refine line_r _ _ (relative d) (div_nonneg hr.1 (mul_pos s1 s2).le) (div_nonneg hr.2 (mul_pos s1 s3).le) (by decide) (by decide) ?_
  refine line_E _ _ _ _ (by decide) (by decide) ?_
  exact .nil

/-- **C110** is false as soon as a moment of the residual is negative: its number touches the one before, and neither line of the
residuals holds a value. The other lines are right. -/
theorem C110_residual_unreadable (d : Data) (h1 : |d.flotationCenter.x| < 9999) (h2 : Near d.buoyCenter)
    (h3 : Near d.gravityCenter) (hr : d.residual.y < 0 ∨ d.residual.z < 0) (hs : 0 < d.mg ∧ 0 < d.breadth ∧ 0 < d.lwl) :
    List.Forall₂ Says (table d ++ lastTable d) (entries (report d)) := by
  refine lines_before h1 h2 h3 ?_
  obtain ⟨s1, s2, s3⟩ := hs
  unfold part4 lastTable
  refine says_skip entry_hspace ?_
  refine says_skip (by decide) ?_
  refine says_skip (entry_E3_none (by decide) hr) ?_
  refine says_skip (entry_E3_none (by decide) (hr.imp (fun h => ?_) fun h => ?_)) ?_
  · exact div_neg_of_neg_of_pos h (mul_pos s1 s2)
  · exact div_neg_of_neg_of_pos h (mul_pos s1 s3)
  refine line_E _ _ _ _ (by decide) (by decide) ?_
  exact .nil

/-- The half immersed cube of side 1, with a mass of 490 kg and a centre of gravity 1 cm off the axis. -/
def cube : Data where
  gravity := 981 / 100
  rhoWater := 1000
  waterplaneArea := 1
  flotationCenter := ⟨1 / 2, 1 / 2, 0⟩
  wetSurfaceArea := 3
  dispVolume := 1 / 2
  dispMass := 500
  buoyCenter := ⟨1 / 2, 1 / 2, -1 / 4⟩
  gravityCenter := ⟨51 / 100, 1 / 2, 0⟩
  draught := 1 / 2
  los := 1
  bos := 1
  lwl := 1
  fp := 1
  breadth := 1
  transversalRadius := 1 / 6
  longitudinalRadius := 1 / 6
  gmX := -1 / 12
  gmY := -1 / 12
  stiffness := ⟨⟨9810, 0, 0⟩, ⟨0, -40875 / 100, 0⟩, ⟨0, 0, -40875 / 100⟩⟩
  ixx := 52
  ixy := 0
  ixz := 0
  iyy := 52
  iyz := 0
  izz := 83
  residual := ⟨981 / 10, 981 / 20, -981 / 20000⟩
  mg := 48069 / 10
  reltol := 1 / 100

example : List.Forall₂ Says (table cube ++ lastTable cube) (entries (report cube)) :=
  C110_residual_unreadable _ (by norm_num [cube]) (by unfold Near; norm_num [cube]) (by unfold Near; norm_num [cube])
    (by norm_num [cube]) (by norm_num [cube])

/-- Lighter by nothing, the same cube turned: no negative moment. -/
def cube' : Data := { cube with residual := ⟨-981 / 10, 981 / 20, 981 / 20000⟩ }

example : List.Forall₂ Says (table cube' ++ residualTable cube' ++ lastTable cube') (entries (report cube')) :=
  C110_report_partial _ (by norm_num [cube', cube]) (by unfold Near; norm_num [cube', cube])
    (by unfold Near; norm_num [cube', cube]) (by norm_num [cube', cube]) (by norm_num [cube', cube])

/-- The two numbers touch. -/
theorem C110_fails : (Item.arr "Absolute" (comps cube.residual) 3 .E).str =
    "\tABSOLUTE-------------------------------->   9.810E+01 4.905E+01-4.905E-02\n".toList ∧
    ((entries (report cube)).map Prod.fst).contains "ABSOLUTE".toList = false := by decide +kernel

end MM.ReportOld
