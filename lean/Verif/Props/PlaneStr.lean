import Verif.Model.PlaneStr
import Verif.Spec.PlaneStr
import Verif.Proofs.Io
import Verif.Spec.Report

/-!
# C145: the text of a plane; C146: the file of `quick_save`
-/

namespace MM

open Report

/-! ### C145 -/

lemma fixedStr_numberChars (dec : ℕ) (x : ℚ) : ∀ c ∈ fixedStr dec x, isNumberChar c = true := by
  have dig : ∀ {s : Str}, AllDigits s → ∀ c ∈ s, isNumberChar c = true := fun h c hc => by simp [isNumberChar, h c hc]
  intro c hc
  simp only [fixedStr, List.mem_append, List.mem_cons] at hc
  rcases hc with (h | h) | h | h
  · unfold signStr at h
    split at h
    · rw [List.mem_singleton] at h; rw [h]; decide
    · simp at h
  · exact dig (natStr_digits _) c h
  · rw [h]; decide
  · exact dig (digitsW_digits _ _) c h

lemma map_fixedStr (dec : ℕ) (x : ℚ) : (fixedStr dec x).map (fun c => if isNumberChar c then c else ' ') = fixedStr dec x := by
  conv_rhs => rw [← List.map_id (fixedStr dec x)]
  apply List.map_congr_left
  intro c hc
  simp [fixedStr_numberChars dec x c hc]

lemma split_number {s r : Str} (hs : Blank s) (x : ℚ) (hr : Breaks r) : (split (s ++ (fixedStr 6 x ++ r))).filterMap parseFloat =
    fixedVal 6 x :: (split r).filterMap parseFloat := by
  rw [split_tok hs (fixedStr_word 6 x) hr, List.filterMap_cons, parseFloat_fixedStr]

lemma numbersIn_planeStr (n : V3 ℚ) (c : ℚ) :
    numbersIn (planeStr n c) = [fixedVal 6 n.x, fixedVal 6 n.y, fixedVal 6 n.z, fixedVal 6 c] := by
  have b1 : Blank ("Plane{normal=[".toList.map fun c => if isNumberChar c then c else ' ') := by unfold Blank; decide +kernel
  have b2 : Blank (", ".toList.map fun c => if isNumberChar c then c else ' ') := by unfold Blank; decide +kernel
  have b3 : Blank ("], scalar=".toList.map fun c => if isNumberChar c then c else ' ') := by unfold Blank; decide +kernel
  have e2 : ", ".toList.map (fun c => if isNumberChar c then c else ' ') = [' ', ' '] := by decide +kernel
  have e3 : "], scalar=".toList.map (fun c => if isNumberChar c then c else ' ') = ' ' :: "         ".toList := by decide +kernel
  have e4 : "}".toList.map (fun c => if isNumberChar c then c else ' ') = [' '] := by decide +kernel
  unfold numbersIn planeStr
  simp only [List.map_append, map_fixedStr]
  rw [split_number b1 n.x (by rw [e2]; exact breaks_cons (by decide) _), split_number b2 n.y (by rw [e2]; exact breaks_cons (by decide) _),
    split_number b2 n.z (by rw [e3]; exact breaks_cons (by decide) _), split_number b3 c (by rw [e4]; exact breaks_cons (by decide) _), e4]
  rfl

/-- **C145.** The text of a plane has four numbers: the components of the normal and the scalar, each within half of the sixth decimal. -/
theorem C145_plane_text (n : V3 ℚ) (c : ℚ) : List.Forall₂ (Decimals 6) [n.x, n.y, n.z, c] (numbersIn (planeStr n c)) := by
  rw [numbersIn_planeStr]
  exact .cons (fixedVal_near 6 _) (.cons (fixedVal_near 6 _) (.cons (fixedVal_near 6 _) (.cons (fixedVal_near 6 _) .nil)))

/-- **C145.** The plane read in the text has the same signed distance to each point up to `5·10⁻⁷ (|x| + |y| + |z| + 1)`. -/
theorem C145_same_plane (n : V3 ℚ) (c : ℚ) : ∃ n' c', numbersIn (planeStr n c) = [n'.x, n'.y, n'.z, c'] ∧
    ∀ v : V3 ℚ, |(v.dot n' - c') - (v.dot n - c)| ≤ 5 / 10 ^ 7 * (|v.x| + |v.y| + |v.z| + 1) := by
  refine ⟨⟨fixedVal 6 n.x, fixedVal 6 n.y, fixedVal 6 n.z⟩, fixedVal 6 c, numbersIn_planeStr n c, fun v => ?_⟩
  have key : ∀ a x : ℚ, |a * (fixedVal 6 x - x)| ≤ |a| * (1 / 2 / 10 ^ 6) := fun a x => by
    rw [abs_mul]
    exact mul_le_mul_of_nonneg_left (fixedVal_near 6 x) (abs_nonneg a)
  have e : (v.dot ⟨fixedVal 6 n.x, fixedVal 6 n.y, fixedVal 6 n.z⟩ - fixedVal 6 c) - (v.dot n - c) =
      v.x * (fixedVal 6 n.x - n.x) + v.y * (fixedVal 6 n.y - n.y) + v.z * (fixedVal 6 n.z - n.z) + -1 * (fixedVal 6 c - c) := by
    simp only [V3.dot]; ring
  rw [e]
  have h1 := key v.x n.x
  have h2 := key v.y n.y
  have h3 := key v.z n.z
  have h4 := key (-1) c
  rw [abs_neg, abs_one] at h4
  have t1 := abs_add_le (v.x * (fixedVal 6 n.x - n.x)) (v.y * (fixedVal 6 n.y - n.y))
  have t2 := abs_add_le (v.x * (fixedVal 6 n.x - n.x) + v.y * (fixedVal 6 n.y - n.y)) (v.z * (fixedVal 6 n.z - n.z))
  have t3 := abs_add_le (v.x * (fixedVal 6 n.x - n.x) + v.y * (fixedVal 6 n.y - n.y) + v.z * (fixedVal 6 n.z - n.z)) (-1 * (fixedVal 6 c - c))
  linarith

/-- A plane and its text. -/
theorem plane_meets_C145 : planeStr ⟨3 / 5, 0, -4 / 5⟩ (-7 / 3) = "Plane{normal=[0.600000, 0.000000, -0.800000], scalar=-2.333333}".toList ∧
    numbersIn "Plane{normal=[0.600000, 0.000000, -0.800000], scalar=-2.333333}".toList = [3 / 5, 0, -4 / 5, -2333333 / 1000000] := by
  constructor <;> decide +kernel

/-! ### C146 -/

/-- **C146.** `quick_save` writes one file, whose name ends with `.vtp`: the name given when it ends so, the name given followed by
`.vtp` otherwise, `quick_save.vtp` when no name or an empty name is given. It contains what the VTP writer makes of the mesh; the other files are
unchanged. -/
theorem C146_quick_save {α β : Type*} (write : α → β) (mesh : α) (filename : Option Str) (files : Str → Option β) :
    ∃ name, quickSave write mesh filename files name = some (write mesh) ∧
      (∀ s, s ≠ name → quickSave write mesh filename files s = files s) ∧
      ".vtp".toList <:+ name ∧
      ((filename = none ∨ filename = some []) → name = "quick_save.vtp".toList) ∧
      ∀ s, filename = some s → s ≠ [] → (".vtp".toList <:+ s → name = s) ∧ (¬ ".vtp".toList <:+ s → name = s ++ ".vtp".toList) := by
  refine ⟨quickSaveName filename, by simp [quickSave], fun s hs => by simp [quickSave, hs], ?_, ?_, ?_⟩
  · unfold quickSaveName
    extract_lets f
    split_ifs with h
    · exact List.isSuffixOf_iff_suffix.1 h
    · exact List.suffix_append _ _
  · rintro (rfl | rfl) <;> decide +kernel
  · rintro s rfl hs
    simp only [quickSaveName, if_neg hs]
    exact ⟨fun h => if_pos (List.isSuffixOf_iff_suffix.2 h), fun h => if_neg (fun h' => h (List.isSuffixOf_iff_suffix.1 h'))⟩

/-- Four calls. -/
theorem names_meet_C146 : [none, some "".toList, some "hull.vtp".toList, some "hull.obj".toList].map quickSaveName =
    ["quick_save.vtp".toList, "quick_save.vtp".toList, "hull.vtp".toList, "hull.obj.vtp".toList] := by decide +kernel

end MM
