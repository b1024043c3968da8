import Verif.Model.Report
import Verif.Spec.Report
import Verif.Proofs.Io
import Verif.Props.IoPnl

/-!
# The hydrostatic report (C91)
-/

namespace MM.Report

open MM MM.Io

set_option linter.unusedSimpArgs false

/-! ### Lines -/

/-- A label without the characters which end it. -/
def GoodLabel (s : Str) : Prop := ∀ c ∈ s, c ≠ '-' ∧ c ≠ '>' ∧ c ≠ '\n'

instance (s : Str) : Decidable (GoodLabel s) := by unfold GoodLabel; infer_instance

/-- The value read for a number. -/
def readVal : Dtype → ℕ → ℚ → ℚ
  | .f, p, x => fixedVal p x
  | .E, p, x => sciVal p x

/-- The word printed for a number. -/
def numWord : Dtype → ℕ → ℚ → Str
  | .f, p, x => fixedStr p x
  | .E, p, x => sciStr p x

lemma numWord_word (t : Dtype) (p : ℕ) (x : ℚ) : Word (numWord t p x) := by
  cases t
  · exact fixedStr_word p x
  · exact sciStr_word p x

lemma parse_numWord (t : Dtype) (p : ℕ) (x : ℚ) : parseFloat (numWord t p x) = some (readVal t p x) := by
  cases t
  · exact parseFloat_fixedStr p x
  · exact parseFloat_sciStr p x

lemma number_eq (t : Dtype) (p : ℕ) (x : ℚ) : number t p x = (if x < 0 then [] else [' ']) ++ numWord t p x := by
  cases t <;> (unfold number numWord; by_cases h : x < 0 <;> simp [h])

lemma blank_sign (x : ℚ) : Blank (if x < 0 then [] else [' ']) := by
  by_cases h : x < 0
  · rw [if_pos h]; intro c hc; cases hc
  · rw [if_neg h]; intro c hc; rw [List.mem_singleton] at hc; subst hc; decide

lemma split_number (t : Dtype) (p : ℕ) (x : ℚ) {r : Str} (hr : Breaks r) :
    split (number t p x ++ r) = numWord t p x :: split r := by
  rw [number_eq, List.append_assoc]
  exact split_tok (blank_sign x) (numWord_word t p x) hr

lemma plain_number (t : Dtype) (p : ℕ) (x : ℚ) : Plain (number t p x) := by
  rw [number_eq]
  refine Plain.append ?_ (numWord_word t p x).plain
  by_cases h : x < 0
  · rw [if_pos h]; intro c hc; cases hc
  · rw [if_neg h]; intro c hc; rw [List.mem_singleton] at hc; subst hc; decide

lemma padDash_props {s : Str} (h : GoodLabel s) (t : Str) :
    (padDash s ++ ('>' :: t)).dropWhile (· ≠ '>') = '>' :: t ∧
    (padDash s ++ ('>' :: t)).takeWhile (fun c => c ≠ '-' && c ≠ '>') = s := by
  unfold padDash
  constructor
  · rw [List.dropWhile_append_of_pos]
    · simp
    · intro c hc
      rcases List.mem_append.1 hc with hc | hc
      · simpa using (h c hc).2.1
      · rw [List.eq_of_mem_replicate hc]; decide
  · rw [List.append_assoc, List.takeWhile_append_of_pos]
    · cases 45 - s.length <;> simp [List.replicate_succ]
    · intro c hc
      have := h c hc
      simp [this.1, this.2.1]

lemma entry_label {s : Str} (h : GoodLabel s) {t : Str} {xs : List ℚ} (hx : xs ≠ []) (ht : floats (split t) = .ok xs) :
    entry ('\t' :: (padDash s ++ ('>' :: t))) = some (s, xs) := by
  unfold entry
  simp only [(padDash_props h t).1, ht]
  cases xs with
  | nil => exact absurd rfl hx
  | cons x xs =>
    simp only [Option.some.injEq, Prod.mk.injEq, and_true]
    exact (padDash_props h t).2

lemma split_two (r : Str) : split (' ' :: ' ' :: r) = split r := by
  have := split_blank (s := [' ', ' ']) (by unfold Blank; decide) r
  exact this

/-- What a reader finds in an item. -/
def Item.value : Item → Option (Str × List ℚ)
  | .raw _ => none
  | .num text x p t => some (upper text, [readVal t p x])
  | .vec text v p => some (upper text, [fixedVal p v.x, fixedVal p v.y, fixedVal p v.z])

/-- The item is one line, and its columns are separate. -/
def Item.Good : Item → Prop
  | .raw s => (s = s.dropLast ++ nl ∧ Plain s.dropLast) ∧ entry s = none
  | .num text _ _ _ => GoodLabel (upper text)
  | .vec text v p => GoodLabel (upper text) ∧ p = 3 ∧ |v.x| < 9999 ∧ |v.y| < 9999

lemma plain_padDash {s : Str} (h : GoodLabel s) : Plain (padDash s) := by
  intro c hc
  unfold padDash at hc
  rcases List.mem_append.1 hc with hc | hc
  · exact (h c hc).2.2
  · rw [List.eq_of_mem_replicate hc]; decide

lemma breaks_pad {x : ℚ} (h : |x| < 9999) (r : Str) : ∃ r', padR 10 (number .f 3 x) ++ r = number .f 3 x ++ (' ' :: r') ∧
    split (' ' :: r') = split r := by
  have hl := fixedStr_length (dec := 3) (k := 4) (x := x) (by norm_num) (by norm_num at h ⊢; linarith)
  have hlen : (number .f 3 x).length ≤ 9 := by
    rw [number_eq, List.length_append]
    by_cases hx : x < 0
    · simp only [hx, if_true, List.length_nil, numWord] at hl ⊢; omega
    · simp only [hx, if_false, List.length_cons, List.length_nil, numWord] at hl ⊢; omega
  unfold padR
  obtain ⟨k, hk⟩ : ∃ k, 10 - (number .f 3 x).length = k + 1 := ⟨9 - (number .f 3 x).length, by omega⟩
  rw [hk, List.replicate_succ]
  refine ⟨List.replicate k ' ' ++ r, by simp, ?_⟩
  have := split_blank (s := List.replicate (k + 1) ' ') (blank_spaces _) r
  rwa [List.replicate_succ, List.cons_append] at this

lemma split_pad {x : ℚ} (h : |x| < 9999) (r : Str) :
    split (padR 10 (number .f 3 x) ++ r) = fixedStr 3 x :: split r := by
  obtain ⟨r', h1, h2⟩ := breaks_pad h r
  rw [h1, split_number _ _ _ (breaks_cons (by decide) _), h2]
  rfl

lemma split_pad_last (x : ℚ) : split (padR 10 (number .f 3 x) ++ nl) = [fixedStr 3 x] := by
  unfold padR
  rw [List.append_assoc, split_number]
  · rw [split_blank (blank_spaces _), split_nl']; rfl
  · cases 10 - (number .f 3 x).length with
    | zero => exact breaks_nl'
    | succ k => exact breaks_cons (by decide) _

lemma Item.entry_str {it : Item} (h : it.Good) : entry it.str = it.value := by
  cases it with
  | raw s => exact h.2
  | num text x p t =>
    refine entry_label h (by simp) (t := ' ' :: ' ' :: (number t p x ++ nl)) ?_
    rw [split_two, split_number _ _ _ breaks_nl', split_nl']
    simp only [floats, convAll, parse_numWord, conv]
  | vec text v p =>
    obtain ⟨h1, rfl, h2, h3⟩ := h
    refine entry_label h1 (by simp) (t := ' ' :: ' ' :: ([v.x, v.y, v.z].flatMap (fun x => padR 10 (number .f 3 x)) ++ nl)) ?_
    simp only [List.flatMap_cons, List.flatMap_nil, List.append_nil, List.append_assoc]
    rw [split_two, split_pad h2, split_pad h3, split_pad_last]
    simp only [floats, convAll, parseFloat_fixedStr, conv]

lemma Item.isLine {it : Item} (h : it.Good) (r : Str) : linesOf (it.str ++ r) = it.str :: linesOf r := by
  cases it with
  | raw s => exact linesOf_lit h.1.1 h.1.2 r
  | num text x p t =>
    have hp : Plain ('\t' :: (padDash (upper text) ++ (">  ".toList ++ number t p x))) := by
      intro c hc
      rcases List.mem_cons.1 hc with rfl | hc
      · decide
      · exact ((plain_padDash h).append (Plain.append (by intro c hc; revert hc; revert c; decide) (plain_number t p x))) c hc
    have := linesOf_nl hp r
    simpa [Item.str] using this
  | vec text v p =>
    have hp : Plain ('\t' :: (padDash (upper text) ++ (">  ".toList ++
        [v.x, v.y, v.z].flatMap (fun x => padR 10 (number .f p x))))) := by
      intro c hc
      rcases List.mem_cons.1 hc with rfl | hc
      · decide
      · refine ((plain_padDash h.1).append (Plain.append (by intro c hc; revert hc; revert c; decide) ?_)) c hc
        intro c hc
        obtain ⟨x, -, hx⟩ := List.mem_flatMap.1 hc
        unfold padR at hx
        rcases List.mem_append.1 hx with hx | hx
        · exact plain_number _ _ _ c hx
        · rw [List.eq_of_mem_replicate hx]; decide
    have := linesOf_nl hp r
    simpa [Item.str] using this

lemma linesOf_items (its : List Item) (h : ∀ it ∈ its, it.Good) (r : Str) :
    linesOf (its.flatMap Item.str ++ r) = its.map Item.str ++ linesOf r := by
  induction its with
  | nil => rfl
  | cons it its ih =>
    rw [List.flatMap_cons, List.append_assoc, Item.isLine (h it (by simp)), ih fun i hi => h i (by simp [hi])]
    rfl

lemma entries_items (its : List Item) (h : ∀ it ∈ its, it.Good) (r : Str) :
    entries (its.flatMap Item.str ++ r) = its.filterMap Item.value ++ entries r := by
  unfold entries
  rw [linesOf_items its h, List.filterMap_append, List.filterMap_map]
  congr 1
  exact List.filterMap_congr fun it hit => Item.entry_str (h it hit)

/-! ### C91 -/

/-- A line of the report: its label, the true values, and how precisely they are printed. -/
structure Line where
  label : String
  values : List ℚ
  precise : ℚ → ℚ → Prop

/-- What the report must say, line by line. -/
def table (sqrt : ℚ → ℚ) (heel trim : ℚ) (d : Data) : List Line :=
  [⟨"Z CORRECTION (M)", [d.zEq], Decimals 3⟩,
   ⟨"HEEL CORRECTION (DEG)", [heel], Decimals 3⟩,
   ⟨"TRIM CORRECTION (DEG)", [trim], Decimals 3⟩,
   ⟨"GRAVITY ACCELERATION (M/S**2)", [d.grav], Decimals 2⟩,
   ⟨"DENSITY OF WATER (KG/M**3)", [d.rhoWater], Decimals 1⟩,
   ⟨"WATERPLANE AREA (M**2)", [d.waterplaneArea], Decimals 1⟩,
   ⟨"WATERPLANE CENTER (M)", [d.waterplaneCenter.x, d.waterplaneCenter.y, d.waterplaneCenter.z], Decimals 3⟩,
   ⟨"WETTED SURFACE AREA (M**2)", [d.wetSurfaceArea], Decimals 1⟩,
   ⟨"DISPLACEMENT VOLUME (M**3)", [d.dispVolume], Decimals 3⟩,
   ⟨"DISPLACEMENT MASS (TONS)", [d.dispMass / 1000], Decimals 3⟩,
   ⟨"BUOYANCY CENTER (M)", [d.buoyancyCenter.x, d.buoyancyCenter.y, d.buoyancyCenter.z], Decimals 3⟩,
   ⟨"CENTER OF GRAVITY (M)", [d.cog.x, d.cog.y, d.cog.z], Decimals 3⟩,
   ⟨"DRAFT (M)", [d.draught], Decimals 3⟩,
   ⟨"LENGTH OVERALL SUBMERGED (M)", [d.lengthOverallSubmerged], Decimals 2⟩,
   ⟨"BREADTH OVERALL SUBMERGED (M)", [d.breadthOverallSubmerged], Decimals 2⟩,
   ⟨"LENGTH AT WATERLINE LWL (M)", [d.lengthAtWaterline], Decimals 2⟩,
   ⟨"FORWARD PERPENDICULAR FP (M)", [d.forwardPerpendicular], Decimals 2⟩,
   ⟨if d.trustLpp then "LENGTH BETWEEN PERPENDICULARS LPP (M)" else "[2] LENGTH BETWEEN PERPENDICULARS LPP (M)", [d.lpp], Decimals 2⟩,
   ⟨"TRANSVERSAL METACENTRIC RADIUS (M)", [d.transversalRadius], Decimals 3⟩,
   ⟨"LONGITUDINAL METACENTRIC RADIUS (M)", [d.longitudinalRadius], Decimals 3⟩,
   ⟨"TRANSVERSAL METACENTRIC HEIGHT GMT (M)", [d.transversalHeight], Decimals 3⟩,
   ⟨"LONGITUDINAL METACENTRIC HEIGHT GML (M)", [d.longitudinalHeight], Decimals 3⟩,
   ⟨"K33 (N/M)", [d.stiffness.r0.x], Digits 4⟩,
   ⟨"K34 (N)", [d.stiffness.r0.y], Digits 4⟩,
   ⟨"K35 (N)", [d.stiffness.r0.z], Digits 4⟩,
   ⟨"K44 (N.M)", [d.stiffness.r1.y], Digits 4⟩,
   ⟨"K45 (N.M)", [d.stiffness.r1.z], Digits 4⟩,
   ⟨"K55 (N.M)", [d.stiffness.r2.z], Digits 4⟩,
   ⟨"RXX (M)", [3 / 10 * d.breadthOverallSubmerged], Decimals 3⟩,
   ⟨"RYY (M)", [1 / 4 * d.lpp], Decimals 3⟩,
   ⟨"RZZ (M)", [1 / 4 * d.lpp], Decimals 3⟩,
   ⟨"IXX", [(3 / 10 * d.breadthOverallSubmerged) ^ 2 * d.dispMass], Digits 3⟩,
   ⟨"IYY", [(1 / 4 * d.lpp) ^ 2 * d.dispMass], Digits 3⟩,
   ⟨"IZZ", [(1 / 4 * d.lpp) ^ 2 * d.dispMass], Digits 3⟩,
   ⟨"RXX", [sqrt (d.ixx / d.dispMass)], Decimals 3⟩,
   ⟨"RYY", [sqrt (d.iyy / d.dispMass)], Decimals 3⟩,
   ⟨"RZZ", [sqrt (d.izz / d.dispMass)], Decimals 3⟩,
   ⟨"IXX", [d.ixx], Digits 3⟩,
   ⟨"IYY", [d.iyy], Digits 3⟩,
   ⟨"IZZ", [d.izz], Digits 3⟩]

/-- What is read on a line is what it must say. -/
def Says (l : Line) (e : Str × List ℚ) : Prop := e.1 = l.label.toList ∧ List.Forall₂ l.precise l.values e.2

/-- The first two coordinates of the centres printed on one line. -/
def Near (v : V3 ℚ) : Prop := |v.x| < 9999 ∧ |v.y| < 9999

lemma good_hspace : hspace.Good := by refine ⟨⟨by decide, by unfold Plain; decide⟩, by decide⟩

lemma good_raw {s : Str} (h : (s = s.dropLast ++ nl ∧ ∀ c ∈ s.dropLast, c ≠ '\n') ∧ entry s = none) : (Item.raw s).Good := h

lemma good_title' (a version : Str) (ha : Plain a) (hv : Plain version) (he : entry (a ++ version ++ ")\n".toList) = none) :
    (Item.raw (a ++ version ++ ")\n".toList)).Good := by
  have e : a ++ version ++ ")\n".toList = (a ++ version ++ ")".toList) ++ nl := by
    rw [List.append_assoc _ _ nl]; rfl
  have hd : (a ++ version ++ ")\n".toList).dropLast = a ++ version ++ ")".toList := by
    rw [e]; exact List.dropLast_concat
  refine ⟨⟨?_, ?_⟩, he⟩
  · rw [hd, e]
  · rw [hd]
    exact Plain.append (Plain.append ha hv) (by unfold Plain; decide)

lemma good_title {version : Str} (hv : Plain version) :
    (Item.raw ("HYDROSTATIC REPORT (Meshmagick version ".toList ++ version ++ ")\n".toList)).Good :=
  good_title' _ _ (by unfold Plain; decide) hv rfl

lemma good_vec {text : String} {v : V3 ℚ} (h : GoodLabel (upper text)) (hv : Near v) : (Item.vec text v 3).Good :=
  ⟨h, rfl, hv.1, hv.2⟩

lemma good_num {text : String} (x : ℚ) (p : ℕ) (t : Dtype) (h : GoodLabel (upper text)) : (Item.num text x p t).Good := h

lemma items_good {version : Str} (hv : Plain version) (sqrt : ℚ → ℚ) (heel trim : ℚ) {d : Data} (h1 : Near d.waterplaneCenter)
    (h2 : Near d.buoyancyCenter) (h3 : Near d.cog) : ∀ it ∈ items version sqrt heel trim d, it.Good := by
  have a1 : ∀ it ∈ part1 version heel trim d, it.Good := by
    unfold part1
    simp only [List.forall_mem_cons]
    refine ⟨good_title hv, good_hspace, good_raw (by decide), good_num _ _ _ (by decide), good_num _ _ _ (by decide),
      good_num _ _ _ (by decide), good_hspace, good_num _ _ _ (by decide), good_num _ _ _ (by decide), good_hspace,
      good_num _ _ _ (by decide), good_vec (by decide) h1, good_num _ _ _ (by decide), good_num _ _ _ (by decide),
      good_num _ _ _ (by decide), good_vec (by decide) h2, good_vec (by decide) h3, good_hspace, good_num _ _ _ (by decide),
      good_num _ _ _ (by decide), good_num _ _ _ (by decide), good_num _ _ _ (by decide), good_num _ _ _ (by decide),
      fun _ h => by cases h⟩
  have a2 : ∀ it ∈ lppPart d, it.Good := by
    unfold lppPart
    split <;> (intro it hit; rw [List.mem_singleton] at hit; subst hit; exact good_num _ _ _ (by decide))
  have a3 : ∀ it ∈ part2 d, it.Good := by
    unfold part2
    simp only [List.forall_mem_cons]
    refine ⟨good_hspace, good_num _ _ _ (by decide), good_num _ _ _ (by decide), good_num _ _ _ (by decide),
      good_num _ _ _ (by decide), fun _ h => by cases h⟩
  have a4 : ∀ it ∈ warnings d, it.Good := by
    unfold warnings
    intro it hit
    rcases List.mem_append.1 hit with hit | hit
    · split at hit
      · rw [List.mem_singleton] at hit; subst hit; exact good_raw (by decide)
      · cases hit
    · split at hit
      · rw [List.mem_singleton] at hit; subst hit; exact good_raw (by decide)
      · cases hit
  have a5 : ∀ it ∈ part3 d, it.Good := by
    unfold part3
    simp only [List.forall_mem_cons]
    refine ⟨good_hspace, good_raw (by decide), good_num _ _ _ (by decide), good_num _ _ _ (by decide), good_num _ _ _ (by decide),
      good_num _ _ _ (by decide), good_num _ _ _ (by decide), good_num _ _ _ (by decide), good_hspace, fun _ h => by cases h⟩
  have a6 : ∀ it ∈ inertiaTitle d, it.Good := by
    unfold inertiaTitle
    split <;> (intro it hit; rw [List.mem_singleton] at hit; subst hit; exact good_raw (by decide))
  have a7 : ∀ it ∈ part4 sqrt d, it.Good := by
    unfold part4
    simp only [List.forall_mem_cons]
    refine ⟨good_num _ _ _ (by decide), good_num _ _ _ (by decide), good_num _ _ _ (by decide), good_num _ _ _ (by decide),
      good_num _ _ _ (by decide), good_num _ _ _ (by decide), good_hspace, good_raw (by decide), good_num _ _ _ (by decide),
      good_num _ _ _ (by decide), good_num _ _ _ (by decide), good_num _ _ _ (by decide), good_num _ _ _ (by decide),
      good_num _ _ _ (by decide), good_hspace, good_hspace, good_raw (by decide), good_raw (by decide), good_raw (by decide),
      good_raw (by decide), good_raw (by decide), good_raw (by decide), fun _ h => by cases h⟩
  have a8 : ∀ it ∈ note2 d, it.Good := by
    unfold note2
    split
    · intro it hit; cases hit
    · simp only [List.forall_mem_cons]
      exact ⟨good_raw (by decide), good_raw (by decide), fun _ h => by cases h⟩
  unfold items
  intro it hit
  simp only [List.mem_append] at hit
  rcases hit with ((((((h | h) | h) | h) | h) | h) | h) | h
  exacts [a1 it h, a2 it h, a3 it h, a4 it h, a5 it h, a6 it h, a7 it h, a8 it h]

lemma says_f (label text : String) (x : ℚ) (p : ℕ) (h : upper text = label.toList) :
    Says ⟨label, [x], Decimals p⟩ (upper text, [readVal .f p x]) :=
  ⟨h, .cons (fixedVal_near p x) .nil⟩

lemma says_E (label text : String) (x : ℚ) (p : ℕ) (h : upper text = label.toList) :
    Says ⟨label, [x], Digits p⟩ (upper text, [readVal .E p x]) :=
  ⟨h, .cons (sciVal_near p x) .nil⟩

lemma says_v (label text : String) (v : V3 ℚ) (p : ℕ) (h : upper text = label.toList) :
    Says ⟨label, [v.x, v.y, v.z], Decimals p⟩ (upper text, [fixedVal p v.x, fixedVal p v.y, fixedVal p v.z]) :=
  ⟨h, .cons (fixedVal_near p _) (.cons (fixedVal_near p _) (.cons (fixedVal_near p _) .nil))⟩

lemma entries_lastNote (d : Data) : entries (lastNote d) = [] := by
  unfold lastNote
  split
  · rfl
  · decide

lemma warnings_values (d : Data) : (warnings d).filterMap Item.value = [] := by
  unfold warnings
  split <;> split <;> rfl

lemma inertiaTitle_values (d : Data) : (inertiaTitle d).filterMap Item.value = [] := by
  unfold inertiaTitle
  split <;> rfl

lemma note2_values (d : Data) : (note2 d).filterMap Item.value = [] := by
  unfold note2
  split <;> rfl

/-- **C91**: the values read in the report are, in order and under their labels, those of the hydrostatic data, with the
precision announced. -/
theorem C91_report_partial (version : Str) (hv : Plain version) (sqrt : ℚ → ℚ) (heel trim : ℚ) (d : Data)
    (h1 : Near d.waterplaneCenter) (h2 : Near d.buoyancyCenter) (h3 : Near d.cog) :
    List.Forall₂ Says (table sqrt heel trim d) (entries (report version sqrt heel trim d)) := by
  unfold report
  rw [entries_items _ (items_good hv sqrt heel trim h1 h2 h3), entries_lastNote, List.append_nil]
  unfold items
  simp only [List.filterMap_append, warnings_values, inertiaTitle_values, note2_values, List.append_nil, List.append_assoc,
    List.nil_append]
  unfold table
  have hl : ∃ text, (lppPart d).filterMap Item.value = [(upper text, [readVal .f 2 d.lpp])] ∧ upper text =
      (if d.trustLpp then "LENGTH BETWEEN PERPENDICULARS LPP (M)" else "[2] LENGTH BETWEEN PERPENDICULARS LPP (M)").toList := by
    unfold lppPart
    cases d.trustLpp
    · exact ⟨_, rfl, by decide⟩
    · exact ⟨_, rfl, by decide⟩
  obtain ⟨text, hl1, hl2⟩ := hl
  rw [hl1]
  iterate 6 refine .cons (says_f _ _ _ _ (by decide)) ?_
  refine .cons (says_v _ _ _ _ (by decide)) ?_
  iterate 3 refine .cons (says_f _ _ _ _ (by decide)) ?_
  iterate 2 refine .cons (says_v _ _ _ _ (by decide)) ?_
  iterate 5 refine .cons (says_f _ _ _ _ (by decide)) ?_
  refine .cons (says_f _ _ _ _ hl2) ?_
  iterate 4 refine .cons (says_f _ _ _ _ (by decide)) ?_
  iterate 6 refine .cons (says_E _ _ _ _ (by decide)) ?_
  iterate 3 refine .cons (says_f _ _ _ _ (by decide)) ?_
  iterate 3 refine .cons (says_E _ _ _ _ (by decide)) ?_
  iterate 3 refine .cons (says_f _ _ _ _ (by decide)) ?_
  iterate 3 refine .cons (says_E _ _ _ _ (by decide)) ?_
  exact .nil

/-- The item is not one of the three lines of warning. -/
def Item.quiet : Item → Prop
  | .raw s => ∀ w ∈ ["\t<<<  TRANSVERSALLY UNSTABLE  >>>\n", "\t<<<  LONGITUDINALLY UNSTABLE  >>>\n",
      "[2] Not enough information to get a trusted Lpp. It has been approximated by Lwl instead.\n"].map String.toList, s ≠ w
  | .num text _ _ _ => (upper text).head? ≠ none ∧ (upper text).head? ≠ some '<'
  | .vec text _ _ => (upper text).head? ≠ none ∧ (upper text).head? ≠ some '<'

lemma label_head {l : Str} (h : l.head? ≠ none ∧ l.head? ≠ some '<') (r : Str) (w : Str) (hw : w ∈
    ["\t<<<  TRANSVERSALLY UNSTABLE  >>>\n", "\t<<<  LONGITUDINALLY UNSTABLE  >>>\n",
      "[2] Not enough information to get a trusted Lpp. It has been approximated by Lwl instead.\n"].map String.toList) :
    '\t' :: (padDash l ++ r) ≠ w := by
  have hh : (w.head? ≠ some '\t') ∨ w.tail.head? = some '<' := by
    revert w; decide
  rintro rfl
  rcases hh with hh | hh
  · exact hh rfl
  · cases l with
    | nil => exact h.1 rfl
    | cons c l =>
      simp only [List.tail_cons, padDash, List.cons_append, List.head?_cons] at hh
      exact h.2 (by simpa using hh)

lemma Item.quiet_str {it : Item} (h : it.quiet) {w : Str} (hw : w ∈
    ["\t<<<  TRANSVERSALLY UNSTABLE  >>>\n", "\t<<<  LONGITUDINALLY UNSTABLE  >>>\n",
      "[2] Not enough information to get a trusted Lpp. It has been approximated by Lwl instead.\n"].map String.toList) : it.str ≠ w := by
  cases it with
  | raw s => exact h w hw
  | num text x p t => exact label_head h _ w hw
  | vec text v p => exact label_head h _ w hw

lemma quiet_num {text : String} (x : ℚ) (p : ℕ) (t : Dtype) (h : (upper text).head? ≠ none ∧ (upper text).head? ≠ some '<') :
    (Item.num text x p t).quiet := h

lemma quiet_vec {text : String} (v : V3 ℚ) (p : ℕ) (h : (upper text).head? ≠ none ∧ (upper text).head? ≠ some '<') :
    (Item.vec text v p).quiet := h

lemma quiet_raw {s : Str} (h : ∀ w ∈ ["\t<<<  TRANSVERSALLY UNSTABLE  >>>\n", "\t<<<  LONGITUDINALLY UNSTABLE  >>>\n",
      "[2] Not enough information to get a trusted Lpp. It has been approximated by Lwl instead.\n"].map String.toList, s ≠ w) :
    (Item.raw s).quiet := h

lemma quiet_hspace : hspace.quiet := quiet_raw (by decide)

lemma quiet_title (version : Str) :
    (Item.raw ("HYDROSTATIC REPORT (Meshmagick version ".toList ++ version ++ ")\n".toList)).quiet := by
  refine quiet_raw ?_
  intro w hw e
  have hh : w.head? ≠ some 'H' := by revert hw; clear e; revert w; decide
  rw [← e] at hh
  exact hh rfl

/-- The items which are always there. -/
def steady (version : Str) (sqrt : ℚ → ℚ) (heel trim : ℚ) (d : Data) : List Item :=
  part1 version heel trim d ++ lppPart d ++ part2 d ++ part3 d ++ inertiaTitle d ++ part4 sqrt d

lemma steady_quiet (version : Str) (sqrt : ℚ → ℚ) (heel trim : ℚ) (d : Data) : ∀ it ∈ steady version sqrt heel trim d, it.quiet := by
  have a1 : ∀ it ∈ part1 version heel trim d, it.quiet := by
    unfold part1
    simp only [List.forall_mem_cons]
    refine ⟨quiet_title _, quiet_hspace, quiet_raw (by decide), quiet_num _ _ _ (by decide), quiet_num _ _ _ (by decide),
      quiet_num _ _ _ (by decide), quiet_hspace, quiet_num _ _ _ (by decide), quiet_num _ _ _ (by decide), quiet_hspace,
      quiet_num _ _ _ (by decide), quiet_vec _ _ (by decide), quiet_num _ _ _ (by decide), quiet_num _ _ _ (by decide),
      quiet_num _ _ _ (by decide), quiet_vec _ _ (by decide), quiet_vec _ _ (by decide), quiet_hspace, quiet_num _ _ _ (by decide),
      quiet_num _ _ _ (by decide), quiet_num _ _ _ (by decide), quiet_num _ _ _ (by decide), quiet_num _ _ _ (by decide),
      fun _ h => by cases h⟩
  have a2 : ∀ it ∈ lppPart d, it.quiet := by
    unfold lppPart
    split <;> (intro it hit; rw [List.mem_singleton] at hit; subst hit; exact quiet_num _ _ _ (by decide))
  have a3 : ∀ it ∈ part2 d, it.quiet := by
    unfold part2
    simp only [List.forall_mem_cons]
    refine ⟨quiet_hspace, quiet_num _ _ _ (by decide), quiet_num _ _ _ (by decide), quiet_num _ _ _ (by decide),
      quiet_num _ _ _ (by decide), fun _ h => by cases h⟩
  have a5 : ∀ it ∈ part3 d, it.quiet := by
    unfold part3
    simp only [List.forall_mem_cons]
    refine ⟨quiet_hspace, quiet_raw (by decide), quiet_num _ _ _ (by decide), quiet_num _ _ _ (by decide),
      quiet_num _ _ _ (by decide), quiet_num _ _ _ (by decide), quiet_num _ _ _ (by decide), quiet_num _ _ _ (by decide),
      quiet_hspace, fun _ h => by cases h⟩
  have a6 : ∀ it ∈ inertiaTitle d, it.quiet := by
    unfold inertiaTitle
    split <;> (intro it hit; rw [List.mem_singleton] at hit; subst hit; exact quiet_raw (by decide))
  have a7 : ∀ it ∈ part4 sqrt d, it.quiet := by
    unfold part4
    simp only [List.forall_mem_cons]
    refine ⟨quiet_num _ _ _ (by decide), quiet_num _ _ _ (by decide), quiet_num _ _ _ (by decide), quiet_num _ _ _ (by decide),
      quiet_num _ _ _ (by decide), quiet_num _ _ _ (by decide), quiet_hspace, quiet_raw (by decide), quiet_num _ _ _ (by decide),
      quiet_num _ _ _ (by decide), quiet_num _ _ _ (by decide), quiet_num _ _ _ (by decide), quiet_num _ _ _ (by decide),
      quiet_num _ _ _ (by decide), quiet_hspace, quiet_hspace, quiet_raw (by decide), quiet_raw (by decide), quiet_raw (by decide),
      quiet_raw (by decide), quiet_raw (by decide), quiet_raw (by decide), fun _ h => by cases h⟩
  unfold steady
  intro it hit
  simp only [List.mem_append] at hit
  rcases hit with ((((h | h) | h) | h) | h) | h
  exacts [a1 it h, a2 it h, a3 it h, a5 it h, a6 it h, a7 it h]

lemma lastNote_quiet (d : Data) {w : Str} (hw : w ∈
    ["\t<<<  TRANSVERSALLY UNSTABLE  >>>\n", "\t<<<  LONGITUDINALLY UNSTABLE  >>>\n",
      "[2] Not enough information to get a trusted Lpp. It has been approximated by Lwl instead.\n"].map String.toList) :
    w ∉ linesOf (lastNote d) := by
  unfold lastNote
  split
  · intro h; cases h
  · have e : linesOf "    To get more accurate results, please specify a Lpp.".toList =
        ["    To get more accurate results, please specify a Lpp.".toList] := by decide +kernel
    rw [e, List.mem_singleton]
    intro h
    have hh : w.head? ≠ some ' ' := by revert hw; clear h e; revert w; decide
    rw [h] at hh
    exact hh rfl

lemma mem_lines {version : Str} (hv : Plain version) (sqrt : ℚ → ℚ) (heel trim : ℚ) {d : Data} (h1 : Near d.waterplaneCenter)
    (h2 : Near d.buoyancyCenter) (h3 : Near d.cog) {w : Str} (hw : w ∈
    ["\t<<<  TRANSVERSALLY UNSTABLE  >>>\n", "\t<<<  LONGITUDINALLY UNSTABLE  >>>\n",
      "[2] Not enough information to get a trusted Lpp. It has been approximated by Lwl instead.\n"].map String.toList) :
    w ∈ linesOf (report version sqrt heel trim d) ↔ w ∈ (warnings d).map Item.str ∨ w ∈ (note2 d).map Item.str := by
  have hlast := lastNote_quiet d hw
  have hst : w ∉ (steady version sqrt heel trim d).map Item.str := by
    intro h
    obtain ⟨it, hit, e⟩ := List.mem_map.1 h
    exact Item.quiet_str (steady_quiet version sqrt heel trim d it hit) hw e
  unfold report
  rw [linesOf_items _ (items_good hv sqrt heel trim h1 h2 h3)]
  unfold steady at hst
  unfold items
  rw [List.mem_append, or_iff_left hlast]
  simp only [List.map_append, List.mem_append, not_or] at hst ⊢
  obtain ⟨⟨⟨⟨⟨b1, b2⟩, b3⟩, b4⟩, b5⟩, b6⟩ := hst
  constructor
  · rintro (((((((h | h) | h) | h) | h) | h) | h) | h)
    exacts [absurd h b1, absurd h b2, absurd h b3, Or.inl h, absurd h b4, absurd h b5, absurd h b6, Or.inr h]
  · rintro (h | h)
    · exact Or.inl (Or.inl (Or.inl (Or.inl (Or.inr h))))
    · exact Or.inr h

/-- **C91**, warnings: the report says that the hull is unstable exactly when a metacentric height is negative, and that the length
between perpendiculars is not to be trusted exactly when it was not given. -/
theorem C91_warnings (version : Str) (hv : Plain version) (sqrt : ℚ → ℚ) (heel trim : ℚ) (d : Data)
    (h1 : Near d.waterplaneCenter) (h2 : Near d.buoyancyCenter) (h3 : Near d.cog) :
    ("\t<<<  TRANSVERSALLY UNSTABLE  >>>\n".toList ∈ linesOf (report version sqrt heel trim d) ↔ d.transversalHeight < 0) ∧
    ("\t<<<  LONGITUDINALLY UNSTABLE  >>>\n".toList ∈ linesOf (report version sqrt heel trim d) ↔ d.longitudinalHeight < 0) ∧
    ("[2] Not enough information to get a trusted Lpp. It has been approximated by Lwl instead.\n".toList ∈
      linesOf (report version sqrt heel trim d) ↔ d.trustLpp = false) := by
  refine ⟨?_, ?_, ?_⟩ <;>
  · rw [mem_lines hv sqrt heel trim h1 h2 h3 (by decide)]
    unfold warnings note2
    by_cases a : d.transversalHeight < 0 <;> by_cases b : d.longitudinalHeight < 0 <;> cases c : d.trustLpp <;>
      simp only [a, b, if_true, if_false, Bool.false_eq_true, iff_true, iff_false, reduceCtorEq] <;> decide

/-- The data of the half immersed cube, of side 1. -/
def cubeData : Data where
  zEq := 0
  grav := 981 / 100
  rhoWater := 1000
  waterplaneArea := 1
  waterplaneCenter := ⟨1 / 2, 1 / 2, 0⟩
  wetSurfaceArea := 3
  dispVolume := 1 / 2
  dispMass := 500
  buoyancyCenter := ⟨1 / 2, 1 / 2, -1 / 4⟩
  cog := ⟨1 / 2, 1 / 2, 0⟩
  draught := 1 / 2
  lengthOverallSubmerged := 1
  breadthOverallSubmerged := 1
  lengthAtWaterline := 1
  forwardPerpendicular := 1
  trustLpp := false
  lpp := 1
  transversalRadius := 1 / 6
  longitudinalRadius := 1 / 6
  transversalHeight := -1 / 12
  longitudinalHeight := -1 / 12
  stiffness := ⟨⟨9810, 0, 0⟩, ⟨0, -40875 / 100, 0⟩, ⟨0, 0, -40875 / 100⟩⟩
  ixx := 52
  iyy := 52
  izz := 83

example : List.Forall₂ Says (table (fun _ => 0) 0 0 cubeData) (entries (report "3.1".toList (fun _ => 0) 0 0 cubeData)) :=
  C91_report_partial _ (by unfold Plain; decide) _ _ _ _ (by unfold Near; norm_num [cubeData]) (by unfold Near; norm_num [cubeData])
    (by unfold Near; norm_num [cubeData])

example : "\t<<<  TRANSVERSALLY UNSTABLE  >>>\n".toList ∈ linesOf (report "3.1".toList (fun _ => 0) 0 0 cubeData) :=
  (C91_warnings _ (by unfold Plain; decide) _ _ _ _ (by unfold Near; norm_num [cubeData]) (by unfold Near; norm_num [cubeData])
    (by unfold Near; norm_num [cubeData])).1.2 (by norm_num [cubeData])

/-- **C91** is false for a hull in millimetres: the abscissa and a negative ordinate of a centre touch, and no value can be read
on this line. -/
theorem C91_fails : ((entries (report "3.1".toList (fun _ => 0) 0 0 { cubeData with buoyancyCenter := ⟨12345, -5, -3⟩ })).map
    Prod.fst).contains "BUOYANCY CENTER (M)".toList = false := by decide +kernel

end MM.Report
