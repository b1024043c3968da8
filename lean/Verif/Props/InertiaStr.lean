import Verif.Model.InertiaStr
import Verif.Spec.InertiaStr
import Verif.Props.Report
import Verif.Props.MeshStr
import Verif.Props.Exchange

/-!
# The texts shown for an inertia (C126)
-/

namespace MM.InertiaText

open MM MM.Io MM.Report MM.Info

/-- A piece of a line: words, or a number. -/
inductive Tok
  | word (w : Str)
  | num (w : Str) (x y : ℚ) (R : ℚ → ℚ → Prop)

def Tok.str : Tok → Str
  | .word w => w
  | .num w _ _ _ => w

def Tok.Ok : Tok → Prop
  | .word w => parseFloat w = none
  | .num w x y R => parseFloat w = some y ∧ R x y

def tokWords : List Tok → List Str
  | [] => []
  | .word w :: ts => w :: tokWords ts
  | .num _ _ _ _ :: ts => tokWords ts

def tokNums : List Tok → List (ℚ × (ℚ → ℚ → Prop))
  | [] => []
  | .word _ :: ts => tokNums ts
  | .num _ x _ R :: ts => (x, R) :: tokNums ts

lemma reads_tokens {e : Line} {line : Str} (ts : List Tok) (h : split line = ts.map Tok.str) (hok : ∀ t ∈ ts, t.Ok)
    (hw : tokWords ts = e.words.map String.toList) (hn : tokNums ts = e.numbers) : e.Reads line := by
  unfold Line.Reads
  rw [h, ← hw, ← hn]
  clear h hw hn
  induction ts with
  | nil => exact ⟨rfl, .nil⟩
  | cons t ts ih =>
    obtain ⟨i1, i2⟩ := ih (fun t ht => hok t (by simp [ht]))
    have ht := hok t (by simp)
    cases t with
    | word w =>
      have ht : parseFloat w = none := ht
      constructor
      · simp [Tok.str, tokWords, ht, i1]
      · simpa [Tok.str, tokNums, ht] using i2
    | num w x y R =>
      obtain ⟨h1, h2⟩ : parseFloat w = some y ∧ R x y := ht
      constructor
      · simp [Tok.str, tokWords, h1, i1]
      · simp only [List.map_cons, Tok.str, tokNums, List.filterMap_cons, h1]
        exact .cons h2 i2

lemma cell_length {x : ℚ} (h : FloatRange x) : (number .E 6 x).length ≤ 14 := by
  rw [number_eq, List.length_append]
  have hl := sciStr_length (dec := 6) h
  by_cases hx : x < 0
  · simp only [hx, if_true, List.length_nil, numWord]; omega
  · have e : sciStr 6 x ≠ [] ∧ (sciStr 6 x).length ≤ 13 := by
      have h1 : (natStr ((sciParts 6 x).1 / 10 ^ 6)).length ≤ 1 :=
        natStr_length le_rfl (by simpa using sciParts_mantissa 6 x)
      have h2 := natStr_length (k := 3) (by norm_num) (sciParts_exp (dec := 6) h)
      have h3 : signStr x = [] := by unfold signStr; rw [if_neg hx]
      have h4 : (expStr (sciParts 6 x).2).length ≤ 4 := by
        unfold expStr
        by_cases h5 : (sciParts 6 x).2.natAbs < 10
        · split <;> simp [h5, natStr_lt h5]
        · split <;> simp [h5] <;> omega
      constructor
      · simp [sciStr]
      · simp only [sciStr, List.length_append, List.length_cons, digitsW_length, h3, List.length_nil]
        omega
    simp only [hx, if_false, List.length_cons, List.length_nil, numWord]
    omega

lemma split_cell {x : ℚ} (h : FloatRange x) (r : Str) : split (cell x ++ r) = sciStr 6 x :: split r := by
  unfold cell padR
  have hl := cell_length h
  obtain ⟨k, hk⟩ : ∃ k, 15 - (number .E 6 x).length = k + 1 := ⟨14 - (number .E 6 x).length, by omega⟩
  rw [hk, List.append_assoc, split_number _ _ _ (by rw [List.replicate_succ]; exact breaks_cons (by decide) _),
    split_blank (blank_spaces _)]
  rfl

lemma split_cells {v : V3 ℚ} (h : FloatPoint v) : split (cells v) = [sciStr 6 v.x, sciStr 6 v.y, sciStr 6 v.z] := by
  unfold cells
  rw [split_cell h.1, split_cell h.2.1, split_cell h.2.2, show split nl = [] from split_nl]

lemma plain_cell (x : ℚ) : Plain (cell x) := by
  unfold cell padR
  refine Plain.append (plain_number _ _ _) ?_
  intro c hc
  rw [List.eq_of_mem_replicate hc]; decide

lemma linesOf_cells {s : Str} (hs : Plain s) (v : V3 ℚ) (r : Str) : linesOf (s ++ (cells v ++ r)) = (s ++ cells v) :: linesOf r := by
  have h := linesOf_line (s := s ++ (cell v.x ++ (cell v.y ++ cell v.z)))
    (Plain.append hs (Plain.append (plain_cell _) (Plain.append (plain_cell _) (plain_cell _)))) r
  have e : s ++ (cells v ++ r) = s ++ (cell v.x ++ (cell v.y ++ cell v.z)) ++ '\n' :: r := by simp [cells, nl]
  have e' : s ++ (cell v.x ++ (cell v.y ++ cell v.z)) ++ ['\n'] = s ++ cells v := by simp [cells, nl]
  rw [e, h, e']

lemma linesOf_cells' {s : Str} (hs : Plain s) (v : V3 ℚ) : linesOf (s ++ cells v) = [s ++ cells v] := by
  have := linesOf_cells hs v []
  rw [List.append_nil] at this
  rw [this]; rfl

/-- The three numbers of a line. -/
def sci6 (v : V3 ℚ) : List Tok := [v.x, v.y, v.z].map (fun x => .num (sciStr 6 x) x (sciVal 6 x) (Digits 6))
def sciToks (v : V3 ℚ) : List Tok := [v.x, v.y, v.z].map (fun x => .num (sciStr 3 x) x (sciVal 3 x) (Digits 3))

lemma ok_sci (p : ℕ) (x : ℚ) : (Tok.num (sciStr p x) x (sciVal p x) (Digits p)).Ok := ⟨parseFloat_sciStr p x, sciVal_near p x⟩
lemma ok_fixed (p : ℕ) (x : ℚ) : (Tok.num (fixedStr p x) x (fixedVal p x) (Decimals p)).Ok :=
  ⟨parseFloat_fixedStr p x, fixedVal_near p x⟩

lemma linesOf_one {s : Str} (hs : Plain s) (r : Str) : linesOf (s ++ (nl ++ r)) = (s ++ nl) :: linesOf r := linesOf_line hs r

lemma plain_sci (p : ℕ) (x : ℚ) : Plain (sciStr p x) := (sciStr_word p x).plain
lemma plain_fixed (p : ℕ) (x : ℚ) : Plain (fixedStr p x) := (fixedStr_word p x).plain

/-- **C126.** `str(inertia)` shows the mass, the centre of gravity, the point at which the matrix is expressed and the three rows of
the inertia matrix, each on its line, to seven digits, and nothing else: for all values in the range of floating point numbers,
whatever their signs. -/
theorem C126_inertia_text (i : Data) (hm : FloatRange i.mass) (hc : FloatPoint i.cog) (hp : FloatPoint i.point)
    (h0 : FloatPoint i.mat.r0) (h1 : FloatPoint i.mat.r1) (h2 : FloatPoint i.mat.r2) :
    Reads (str i) [⟨[], []⟩, ⟨["Pincipal", "inertial", "parameters:"], []⟩,
      ⟨["Mass:", "kg"], [(i.mass, Digits 6)]⟩, ⟨["COG:"], three i.cog (Digits 6)⟩,
      ⟨["Inertia", "matrix", "expressed", "at:"], three i.point (Digits 6)⟩,
      ⟨[], three i.mat.r0 (Digits 6)⟩, ⟨[], three i.mat.r1 (Digits 6)⟩, ⟨[], three i.mat.r2 (Digits 6)⟩] := by
  have hmass := linesOf_line (s := "\tMass: ".toList ++ (cell i.mass ++ " kg".toList))
    (Plain.append (by unfold Plain; decide) (Plain.append (plain_cell _) (by unfold Plain; decide)))
  have row : ∀ v : V3 ℚ, FloatPoint v → (⟨[], three v (Digits 6)⟩ : Line).Reads ("\t\t".toList ++ cells v) := by
    intro v hv
    refine reads_tokens (sci6 v) ?_ ?_ rfl rfl
    · rw [split_blank (s := "\t\t".toList) (by unfold Blank; decide), split_cells hv]; rfl
    · intro t ht
      simp only [sci6, List.map_cons, List.map_nil, List.mem_cons, List.not_mem_nil, or_false] at ht
      rcases ht with rfl | rfl | rfl <;> exact ok_sci _ _
  unfold Reads str
  rw [Info.linesOf_nl, linesOf_one (by unfold Plain; decide)]
  have e : ∀ r, "\tMass: ".toList ++ (cell i.mass ++ (" kg".toList ++ (nl ++ r))) =
      "\tMass: ".toList ++ (cell i.mass ++ " kg".toList) ++ '\n' :: r := by intro r; simp [nl]
  rw [e, hmass, linesOf_cells (by unfold Plain; decide), linesOf_cells (by unfold Plain; decide),
    linesOf_cells (by unfold Plain; decide), linesOf_cells (by unfold Plain; decide), linesOf_cells' (by unfold Plain; decide)]
  refine .cons ?_ (.cons ?_ (.cons ?_ (.cons ?_ (.cons ?_ (.cons (row _ h0) (.cons (row _ h1) (.cons (row _ h2) .nil)))))))
  · exact reads_tokens [] split_nl (by simp) rfl rfl
  · refine reads_tokens [.word "Pincipal".toList, .word "inertial".toList, .word "parameters:".toList] (by decide +kernel) ?_ rfl rfl
    intro t ht
    simp only [List.mem_cons, List.not_mem_nil, or_false] at ht
    rcases ht with rfl | rfl | rfl <;> (show parseFloat _ = none; decide +kernel)
  · refine reads_tokens [.word "Mass:".toList, .num (sciStr 6 i.mass) i.mass (sciVal 6 i.mass) (Digits 6), .word "kg".toList] ?_ ?_
      rfl rfl
    · have e : "\tMass: ".toList ++ (cell i.mass ++ " kg".toList) ++ ['\n'] =
          "\t".toList ++ ("Mass:".toList ++ ' ' :: (cell i.mass ++ " kg\n".toList)) := by simp
      rw [e, split_blank (by unfold Blank; decide), split_word (by unfold Word; decide) (by decide), split_cell hm]
      have : split " kg\n".toList = ["kg".toList] := by decide +kernel
      rw [this]; rfl
    · intro t ht
      simp only [List.mem_cons, List.not_mem_nil, or_false] at ht
      rcases ht with rfl | rfl | rfl
      · show parseFloat _ = none; decide +kernel
      · exact ok_sci _ _
      · show parseFloat _ = none; decide +kernel
  · refine reads_tokens (.word "COG:".toList :: sci6 i.cog) ?_ ?_ rfl rfl
    · have e : "\tCOG:  ".toList ++ cells i.cog = "\t".toList ++ ("COG:".toList ++ ' ' :: (" ".toList ++ cells i.cog)) := by simp
      rw [e, split_blank (by unfold Blank; decide), split_word (by unfold Word; decide) (by decide),
        split_blank (by unfold Blank; decide), split_cells hc]; rfl
    · intro t ht
      simp only [sci6, List.map_cons, List.map_nil, List.mem_cons, List.not_mem_nil, or_false] at ht
      rcases ht with rfl | rfl | rfl | rfl
      · show parseFloat _ = none; decide +kernel
      all_goals exact ok_sci _ _
  · refine reads_tokens (.word "Inertia".toList :: .word "matrix".toList :: .word "expressed".toList :: .word "at:".toList ::
      sci6 i.point) ?_ ?_ rfl rfl
    · have e : "\tInertia matrix expressed at: ".toList ++ cells i.point = "\t".toList ++ ("Inertia".toList ++ ' ' ::
          ("matrix".toList ++ ' ' :: ("expressed".toList ++ ' ' :: ("at:".toList ++ ' ' :: cells i.point)))) := by simp
      rw [e, split_blank (by unfold Blank; decide), split_word (by unfold Word; decide) (by decide),
        split_word (by unfold Word; decide) (by decide), split_word (by unfold Word; decide) (by decide),
        split_word (by unfold Word; decide) (by decide), split_cells hp]; rfl
    · intro t ht
      simp only [sci6, List.map_cons, List.map_nil, List.mem_cons, List.not_mem_nil, or_false] at ht
      rcases ht with rfl | rfl | rfl | rfl | rfl | rfl | rfl
      · show parseFloat _ = none; decide +kernel
      · show parseFloat _ = none; decide +kernel
      · show parseFloat _ = none; decide +kernel
      · show parseFloat _ = none; decide +kernel
      all_goals exact ok_sci _ _

lemma linesOf_sci3 {s : Str} (hs : Plain s) (v : V3 ℚ) (r : Str) : linesOf (s ++ (sci3 v ++ r)) = (s ++ sci3 v) :: linesOf r := by
  have ht : Plain ['\t'] := by unfold Plain; decide
  have h := linesOf_line (s := s ++ (sciStr 3 v.x ++ (['\t'] ++ (sciStr 3 v.y ++ (['\t'] ++ sciStr 3 v.z)))))
    (hs.append ((plain_sci _ _).append (ht.append ((plain_sci _ _).append (ht.append (plain_sci _ _)))))) r
  have e : s ++ (sci3 v ++ r) = s ++ (sciStr 3 v.x ++ (['\t'] ++ (sciStr 3 v.y ++ (['\t'] ++ sciStr 3 v.z)))) ++ '\n' :: r := by
    simp [sci3, nl]
  have e' : s ++ (sciStr 3 v.x ++ (['\t'] ++ (sciStr 3 v.y ++ (['\t'] ++ sciStr 3 v.z)))) ++ ['\n'] = s ++ sci3 v := by
    simp [sci3, nl]
  rw [e, h, e']

lemma split_sci3 (v : V3 ℚ) : split (sci3 v) = [sciStr 3 v.x, sciStr 3 v.y, sciStr 3 v.z] := by
  unfold sci3
  rw [split_word (sciStr_word _ _) (by decide), split_word (sciStr_word _ _) (by decide), nl,
    split_word (r := []) (sciStr_word _ _) (by decide)]
  rfl

lemma linesOf_fixed {s t : Str} (hs : Plain s) (ht : Plain t) (p : ℕ) (x : ℚ) (r : Str) :
    linesOf (s ++ (fixedStr p x ++ (t ++ (nl ++ r)))) = (s ++ (fixedStr p x ++ (t ++ nl))) :: linesOf r := by
  have h := linesOf_line (s := s ++ (fixedStr p x ++ t)) (hs.append ((plain_fixed _ _).append ht)) r
  have e : s ++ (fixedStr p x ++ (t ++ (nl ++ r))) = s ++ (fixedStr p x ++ t) ++ '\n' :: r := by simp [nl]
  have e' : s ++ (fixedStr p x ++ t) ++ ['\n'] = s ++ (fixedStr p x ++ (t ++ nl)) := by simp [nl]
  rw [e, h, e']

lemma linesOf_fixed' {s : Str} (hs : Plain s) (p : ℕ) (x : ℚ) (r : Str) :
    linesOf (s ++ (fixedStr p x ++ (nl ++ r))) = (s ++ (fixedStr p x ++ nl)) :: linesOf r :=
  linesOf_fixed (t := []) hs (by unfold Plain; decide) p x r

lemma reads_row {e : Line} {s : Str} (ws : List Str) (v : V3 ℚ) (hs : split (s ++ sci3 v) = ws ++ split (sci3 v))
    (hn : ∀ w ∈ ws, parseFloat w = none) (hw : ws = e.words.map String.toList) (he : e.numbers = three v (Digits 3)) :
    e.Reads (s ++ sci3 v) := by
  have a : ∀ (ws : List Str) (ts : List Tok), tokWords (ws.map Tok.word ++ ts) = ws ++ tokWords ts := by
    intro ws ts; induction ws with
    | nil => rfl
    | cons w ws ih => simp [tokWords, ih]
  have b : ∀ (ws : List Str) (ts : List Tok), tokNums (ws.map Tok.word ++ ts) = tokNums ts := by
    intro ws ts; induction ws with
    | nil => rfl
    | cons w ws ih => simp [tokNums, ih]
  refine reads_tokens (ws.map Tok.word ++ sciToks v) ?_ ?_ ?_ ?_
  · rw [hs, split_sci3, List.map_append, List.map_map]
    have : ws.map (Tok.str ∘ Tok.word) = ws := by
      conv_rhs => rw [← List.map_id ws]
      rfl
    rw [this]; rfl
  · intro t ht
    rcases List.mem_append.1 ht with ht | ht
    · obtain ⟨w, hw, rfl⟩ := List.mem_map.1 ht
      exact hn w hw
    · simp only [sciToks, List.map_cons, List.map_nil, List.mem_cons, List.not_mem_nil, or_false] at ht
      rcases ht with rfl | rfl | rfl <;> exact ok_sci _ _
  · rw [a, ← hw]; simp [sciToks, tokWords]
  · rw [b, he]; rfl

lemma reads_words {e : Line} {line : Str} (h : split line = e.words.map String.toList)
    (hn : ∀ w ∈ e.words, parseFloat w.toList = none) (he : e.numbers = []) : e.Reads line := by
  constructor
  · rw [h, List.filter_eq_self]
    intro w hw
    obtain ⟨w, hw', rfl⟩ := List.mem_map.1 hw
    simp [hn w hw']
  · rw [h, he]
    have : (e.words.map String.toList).filterMap parseFloat = [] := by
      rw [List.filterMap_eq_nil_iff]
      intro w hw
      obtain ⟨w, hw', rfl⟩ := List.mem_map.1 hw
      exact hn w hw'
    rw [this]; exact .nil

lemma reads_coord {a : String} {s : Str} (x : ℚ) (ha : Word a.toList) (hn : parseFloat a.toList = none)
    (hs : ∀ r, s ++ r = "\t\t".toList ++ (a.toList ++ ' ' :: ("=".toList ++ ' ' :: r))) :
    (⟨[a, "="], [(x, Decimals 3)]⟩ : Line).Reads (s ++ (fixedStr 3 x ++ nl)) := by
  refine reads_tokens [.word a.toList, .word "=".toList, .num (fixedStr 3 x) x (fixedVal 3 x) (Decimals 3)] ?_ ?_ rfl rfl
  · rw [hs, split_blank (by unfold Blank; decide), split_word ha (by decide), split_word (by unfold Word; decide) (by decide), nl,
      split_word (r := []) (fixedStr_word _ _) (by decide)]
    rfl
  · intro t ht
    simp only [List.mem_cons, List.not_mem_nil, or_false] at ht
    rcases ht with rfl | rfl | rfl
    · exact hn
    · show parseFloat _ = none; decide +kernel
    · exact ok_fixed _ _

lemma body_reads (i : Data) : Reads (body i) (expected i.mass i.cog i.mat.r0 i.mat.r1 i.mat.r2 i.point) := by
  have hlast : linesOf ("\tExpressed at point : \t\t".toList ++ sci3 i.point) =
      ["\tExpressed at point : \t\t".toList ++ sci3 i.point] := by
    have := linesOf_sci3 (s := "\tExpressed at point : \t\t".toList) (by unfold Plain; decide) i.point []
    rw [List.append_nil] at this
    rw [this]; rfl
  have row : ∀ v : V3 ℚ, (⟨[], three v (Digits 3)⟩ : Line).Reads ("\t\t".toList ++ sci3 v) := by
    intro v
    exact reads_row [] v (split_blank (by unfold Blank; decide) _) (by simp) rfl rfl
  unfold Reads body expected
  rw [linesOf_fixed (by unfold Plain; decide) (by unfold Plain; decide), linesOf_one (by unfold Plain; decide),
    linesOf_fixed' (by unfold Plain; decide), linesOf_fixed' (by unfold Plain; decide), linesOf_fixed' (by unfold Plain; decide),
    linesOf_one (by unfold Plain; decide), linesOf_sci3 (by unfold Plain; decide), linesOf_sci3 (by unfold Plain; decide),
    linesOf_sci3 (by unfold Plain; decide), hlast]
  refine .cons ?_ (.cons ?_ (.cons ?_ (.cons ?_ (.cons ?_ (.cons ?_ (.cons (row _) (.cons (row _) (.cons (row _) (.cons ?_ .nil)))))))))
  · refine reads_tokens [.word "Mass".toList, .word "=".toList,
      .num (fixedStr 3 (i.mass / 1000)) (i.mass / 1000) (fixedVal 3 (i.mass / 1000)) (Decimals 3), .word "tons".toList] ?_ ?_ rfl rfl
    · have e : ∀ r : Str, "\tMass = ".toList ++ (r ++ (" tons".toList ++ nl)) =
          "\t".toList ++ ("Mass".toList ++ ' ' :: ("=".toList ++ ' ' :: (r ++ ' ' :: "tons\n".toList))) := by intro r; simp [nl]
      rw [e, split_blank (by unfold Blank; decide), split_word (by unfold Word; decide) (by decide),
        split_word (by unfold Word; decide) (by decide), split_word (fixedStr_word _ _) (by decide)]
      have : split "tons\n".toList = ["tons".toList] := by decide +kernel
      rw [this]; rfl
    · intro t ht
      simp only [List.mem_cons, List.not_mem_nil, or_false] at ht
      rcases ht with rfl | rfl | rfl | rfl
      · show parseFloat _ = none; decide +kernel
      · show parseFloat _ = none; decide +kernel
      · exact ok_fixed _ _
      · show parseFloat _ = none; decide +kernel
  · exact reads_words (by decide +kernel) (by decide +kernel) rfl
  · exact reads_coord _ (by unfold Word; decide) (by decide +kernel) (by intro r; simp)
  · exact reads_coord _ (by unfold Word; decide) (by decide +kernel) (by intro r; simp)
  · exact reads_coord _ (by unfold Word; decide) (by decide +kernel) (by intro r; simp)
  · exact reads_words (by decide +kernel) (by decide +kernel) rfl
  · refine reads_row ["Expressed".toList, "at".toList, "point".toList, ":".toList] i.point ?_ (by decide +kernel) rfl rfl
    have e : ∀ r : Str, "\tExpressed at point : \t\t".toList ++ r = "\t".toList ++ ("Expressed".toList ++ ' ' :: ("at".toList ++
        ' ' :: ("point".toList ++ ' ' :: (":".toList ++ ' ' :: ("\t\t".toList ++ r))))) := by intro r; simp
    rw [e, split_blank (by unfold Blank; decide), split_word (by unfold Word; decide) (by decide),
      split_word (by unfold Word; decide) (by decide), split_word (by unfold Word; decide) (by decide),
      split_word (by unfold Word; decide) (by decide), split_blank (by unfold Blank; decide)]
    rfl

lemma ok_words {l : List String} {t : Tok} (h : ∀ w ∈ l, parseFloat w.toList = none)
    (ht : t ∈ l.map (fun w => Tok.word w.toList)) : t.Ok := by
  obtain ⟨w, hw, rfl⟩ := List.mem_map.1 ht
  exact h w hw

lemma empty_line : (⟨[], []⟩ : Line).Reads nl := reads_tokens [] split_nl (by simp) rfl rfl

/-- **C126.** What `--plain-inertia` prints, for all values: the density to one decimal, the mass in tons and the centre of gravity to
three decimals, the rows of the inertia matrix and the point at which it is expressed to four digits. -/
theorem C126_plain_inertia_text (rho : ℚ) (i : Data) :
    Reads (plainText rho i) (⟨[], []⟩ :: ⟨["Inertial", "parameters", "for", "a", "uniform", "distribution", "of", "a", "medium", "of",
      "density", "kg/m**3", "in", "the", "mesh:"], [(rho, Decimals 1)]⟩ :: ⟨[], []⟩ ::
      expected i.mass i.cog i.mat.r0 i.mat.r1 i.mat.r2 i.point) := by
  unfold Reads plainText
  rw [Info.linesOf_nl, linesOf_fixed (by unfold Plain; decide) (by unfold Plain; decide), Info.linesOf_nl]
  refine .cons empty_line (.cons ?_ (.cons empty_line (body_reads i)))
  refine reads_tokens ((["Inertial", "parameters", "for", "a", "uniform", "distribution", "of", "a", "medium", "of",
      "density"].map (fun w => Tok.word w.toList)) ++ .num (fixedStr 1 rho) rho (fixedVal 1 rho) (Decimals 1) ::
      (["kg/m**3", "in", "the", "mesh:"].map (fun w => Tok.word w.toList))) ?_ ?_ rfl rfl
  · have e : ∀ r : Str, "Inertial parameters for a uniform distribution of a medium of density ".toList ++ (r ++
        (" kg/m**3 in the mesh:".toList ++ nl)) = "Inertial".toList ++ ' ' :: ("parameters".toList ++ ' ' :: ("for".toList ++ ' ' ::
        ("a".toList ++ ' ' :: ("uniform".toList ++ ' ' :: ("distribution".toList ++ ' ' :: ("of".toList ++ ' ' :: ("a".toList ++ ' ' ::
        ("medium".toList ++ ' ' :: ("of".toList ++ ' ' :: ("density".toList ++ ' ' ::
        (r ++ ' ' :: "kg/m**3 in the mesh:\n".toList))))))))))) := by intro r; simp [nl]
    rw [e]
    iterate 11 rw [split_word (by unfold Word; decide) (by decide)]
    rw [split_word (fixedStr_word _ _) (by decide),
      show split "kg/m**3 in the mesh:\n".toList = ["kg/m**3".toList, "in".toList, "the".toList, "mesh:".toList] by decide +kernel]
    rfl
  · intro t ht
    rcases List.mem_append.1 ht with ht | ht
    · exact ok_words (by decide +kernel) ht
    · rcases List.mem_cons.1 ht with rfl | ht
      · exact ok_fixed _ _
      · exact ok_words (by decide +kernel) ht

/-- **C126.** The same for `--shell-inertia`, with the thickness to three decimals. -/
theorem C126_shell_inertia_text (rho thickness : ℚ) (i : Data) :
    Reads (shellText rho thickness i) (⟨[], []⟩ :: ⟨["Inertial", "parameters", "for", "a", "shell", "distribution", "of", "a", "medium",
      "of", "density", "kg/m**3", "and", "a", "thickness", "of", "m", "over", "the", "mesh:"],
      [(rho, Decimals 1), (thickness, Decimals 3)]⟩ :: ⟨[], []⟩ ::
      expected i.mass i.cog i.mat.r0 i.mat.r1 i.mat.r2 i.point) := by
  unfold Reads shellText
  have e0 : ∀ r t b : Str, "Inertial parameters for a shell distribution of a medium of density ".toList ++ (r ++
      (" kg/m**3 and a thickness of ".toList ++ (t ++ (" m over the mesh:".toList ++ (nl ++ b))))) =
      ("Inertial parameters for a shell distribution of a medium of density ".toList ++ (r ++
        " kg/m**3 and a thickness of ".toList)) ++ (t ++ (" m over the mesh:".toList ++ (nl ++ b))) := by intro r t b; simp
  rw [Info.linesOf_nl, e0, linesOf_fixed (Plain.append (by unfold Plain; decide) ((plain_fixed _ _).append (by unfold Plain; decide)))
    (by unfold Plain; decide), Info.linesOf_nl]
  refine .cons empty_line (.cons ?_ (.cons empty_line (body_reads i)))
  refine reads_tokens ((["Inertial", "parameters", "for", "a", "shell", "distribution", "of", "a", "medium", "of",
      "density"].map (fun w => Tok.word w.toList)) ++ .num (fixedStr 1 rho) rho (fixedVal 1 rho) (Decimals 1) ::
      ((["kg/m**3", "and", "a", "thickness", "of"].map (fun w => Tok.word w.toList)) ++
        .num (fixedStr 3 thickness) thickness (fixedVal 3 thickness) (Decimals 3) ::
      (["m", "over", "the", "mesh:"].map (fun w => Tok.word w.toList)))) ?_ ?_ rfl rfl
  · have e : ∀ r t : Str, "Inertial parameters for a shell distribution of a medium of density ".toList ++ (r ++
        " kg/m**3 and a thickness of ".toList) ++ (t ++ (" m over the mesh:".toList ++ nl)) =
        "Inertial".toList ++ ' ' :: ("parameters".toList ++ ' ' :: ("for".toList ++ ' ' ::
        ("a".toList ++ ' ' :: ("shell".toList ++ ' ' :: ("distribution".toList ++ ' ' :: ("of".toList ++ ' ' :: ("a".toList ++ ' ' ::
        ("medium".toList ++ ' ' :: ("of".toList ++ ' ' :: ("density".toList ++ ' ' ::
        (r ++ ' ' :: ("kg/m**3".toList ++ ' ' :: ("and".toList ++ ' ' :: ("a".toList ++ ' ' :: ("thickness".toList ++ ' ' ::
        ("of".toList ++ ' ' :: (t ++ ' ' :: "m over the mesh:\n".toList))))))))))))))))) := by intro r t; simp [nl]
    rw [e]
    iterate 11 rw [split_word (by unfold Word; decide) (by decide)]
    rw [split_word (fixedStr_word _ _) (by decide)]
    iterate 5 rw [split_word (by unfold Word; decide) (by decide)]
    rw [split_word (fixedStr_word _ _) (by decide),
      show split "m over the mesh:\n".toList = ["m".toList, "over".toList, "the".toList, "mesh:".toList] by decide +kernel]
    rfl
  · intro t ht
    rcases List.mem_append.1 ht with ht | ht
    · exact ok_words (by decide +kernel) ht
    · rcases List.mem_cons.1 ht with rfl | ht
      · exact ok_fixed _ _
      · rcases List.mem_append.1 ht with ht | ht
        · exact ok_words (by decide +kernel) ht
        · rcases List.mem_cons.1 ht with rfl | ht
          · exact ok_fixed _ _
          · exact ok_words (by decide +kernel) ht

/-- An inertia with negative entries, large and small numbers. -/
def sample : Data :=
  ⟨1025 / 3, ⟨1 / 2, -1 / 3, 0⟩, ⟨-10, 0, 1 / 7⟩, ⟨⟨12345678, -5 / 9, 1 / 100000⟩, ⟨-5 / 9, 7, 0⟩, ⟨1 / 100000, 0, 10 ^ 12⟩⟩⟩

/-- The hypotheses of `C126_inertia_text` hold for it. -/
example : FloatRange sample.mass ∧ FloatPoint sample.cog ∧ FloatPoint sample.point ∧ FloatPoint sample.mat.r0 ∧
    FloatPoint sample.mat.r1 ∧ FloatPoint sample.mat.r2 := by
  unfold FloatPoint FloatRange
  decide +kernel

/-- The text of the sample. -/
example : str sample = ("\nPincipal inertial parameters:\n\tMass:  3.416667E+02   kg\n\tCOG:   5.000000E-01  -3.333333E-01   " ++
    "0.000000E+00  \n\tInertia matrix expressed at: -1.000000E+01   0.000000E+00   1.428571E-01  \n\t\t 1.234568E+07  " ++
    "-5.555556E-01   1.000000E-05  \n\t\t-5.555556E-01   7.000000E+00   0.000000E+00  \n\t\t 1.000000E-05   0.000000E+00   " ++
    "1.000000E+12  \n").toList := by decide +kernel

end MM.InertiaText
