import Verif.Proofs.Text
import Verif.Spec.Io
import Mathlib.Data.List.Forall2

/-!
# Lines, fields and rows of the text formats
-/

namespace MM.Io

open MM

/-! ### Fields -/

theorem split_fInt (w n : ℕ) {r : Str} (hr : Breaks r) : split (fInt w n ++ r) = natStr n :: split r :=
  split_padL w (natStr_word n) hr

theorem split_fFix (w : ℕ) (x : ℚ) {r : Str} (hr : Breaks r) : split (fFix w x ++ r) = fixedStr 6 x :: split r :=
  split_padL w (fixedStr_word 6 x) hr

theorem split_fSci (w : ℕ) (x : ℚ) {r : Str} (hr : Breaks r) : split (fSci w x ++ r) = sciStr 6 x :: split r :=
  split_padL w (sciStr_word 6 x) hr

theorem split_tab (r : Str) : split ('\t' :: r) = split r :=
  split_blank (s := ['\t']) (by intro c hc; simp at hc; rw [hc]; decide) r

theorem breaks_fInt {w n : ℕ} {k : ℕ} (hk : 1 ≤ k) (hw : k < w) (h : n < 10 ^ k) (r : Str) : Breaks (fInt w n ++ r) :=
  breaks_padL (lt_of_le_of_lt (natStr_length hk h) hw) r

theorem breaks_fSci {w : ℕ} {x : ℚ} (hw : 14 < w) (h : FloatRange x) (r : Str) : Breaks (fSci w x ++ r) :=
  breaks_padL (lt_of_le_of_lt (sciStr_length h) hw) r

theorem breaks_nl (r : Str) : Breaks (nl ++ r) := breaks_cons (by decide) r

theorem breaks_nl' : Breaks nl := breaks_cons (by decide) []

theorem breaks_tab (r : Str) : Breaks ('\t' :: r) := breaks_cons (by decide) r

theorem plain_fInt (w n : ℕ) : Plain (fInt w n) := plain_padL w (natStr_word n).plain
theorem plain_fFix (w : ℕ) (x : ℚ) : Plain (fFix w x) := plain_padL w (fixedStr_word 6 x).plain
theorem plain_fSci (w : ℕ) (x : ℚ) : Plain (fSci w x) := plain_padL w (sciStr_word 6 x).plain

theorem plain_tab {s : Str} (h : Plain s) : Plain ('\t' :: s) := by
  intro c hc
  rcases List.mem_cons.1 hc with rfl | hc
  · decide
  · exact h c hc

theorem linesOf_nl {s : Str} (hs : Plain s) (r : Str) : linesOf (s ++ (nl ++ r)) = (s ++ nl) :: linesOf r :=
  linesOf_line hs r

theorem split_nl' : split nl = [] := split_nl

/-! ### Conversions -/

theorem floats_fixed (x y z : ℚ) :
    floats [fixedStr 6 x, fixedStr 6 y, fixedStr 6 z] = .ok [fixedVal 6 x, fixedVal 6 y, fixedVal 6 z] := by
  simp [floats, convAll, conv, parseFloat_fixedStr]

theorem floats_sci (x y z : ℚ) :
    floats [sciStr 6 x, sciStr 6 y, sciStr 6 z] = .ok [sciVal 6 x, sciVal 6 y, sciVal 6 z] := by
  simp [floats, convAll, conv, parseFloat_sciStr]

theorem ints_nats (l : List ℕ) : ints (l.map natStr) = .ok (l.map (Nat.cast : ℕ → ℤ)) := by
  induction l with
  | nil => rfl
  | cons n l ih =>
    simp only [ints, List.map_cons, convAll, conv, parseInt_natStr] at ih ⊢
    rw [ih]

theorem ints4 (a b c d : ℕ) :
    ints [natStr a, natStr b, natStr c, natStr d] = .ok [(a : ℤ), (b : ℤ), (c : ℤ), (d : ℤ)] :=
  ints_nats [a, b, c, d]

theorem ints2 (a b : ℕ) : ints [natStr a, natStr b] = .ok [(a : ℤ), (b : ℤ)] := ints_nats [a, b]

/-! ### Rows -/

theorem readRows_lines {α β : Type} (p : List Str → Except PyErr α) (line : β → Str) (g : β → α) (l : List β)
    (hplain : ∀ b ∈ l, Plain (line b)) (hp : ∀ b ∈ l, p (split (line b ++ nl)) = .ok (g b)) (t : Str) :
    readRows p l.length (linesOf (l.flatMap (fun b => line b ++ nl) ++ t)) = .ok (l.map g, linesOf t) := by
  induction l with
  | nil => rfl
  | cons b l ih =>
    have h1 := ih (fun b hb => hplain b (by simp [hb])) (fun b hb => hp b (by simp [hb]))
    simp only [List.flatMap_cons, List.append_assoc, List.length_cons, List.map_cons]
    rw [linesOf_nl (hplain b (by simp))]
    simp only [readRows, List.headD_cons, List.tail_cons, hp b (by simp), h1]

theorem rect_of_length {α : Type} {rows : List (List α)} {n : ℕ} (h : ∀ r ∈ rows, r.length = n) :
    rect rows = .ok rows := by
  unfold rect
  rw [if_pos]
  intro r hr
  rw [h r hr]
  cases rows with
  | nil => simp at hr
  | cons r' rs => simp [h r' (by simp)]

/-- The row of a vertex printed with `'%.6f'`, of a vertex printed with `'%.6E'`, of a face. -/
def fixRow (v : V3 ℚ) : List ℚ := [fixedVal 6 v.x, fixedVal 6 v.y, fixedVal 6 v.z]
def sciRow (v : V3 ℚ) : List ℚ := [sciVal 6 v.x, sciVal 6 v.y, sciVal 6 v.z]
def faceRow (f : Face) : List ℤ := [(f.a : ℤ), (f.b : ℤ), (f.c : ℤ), (f.d : ℤ)]
def faceRow1 (f : Face) : List ℤ := [((f.a + 1 : ℕ) : ℤ), ((f.b + 1 : ℕ) : ℤ), ((f.c + 1 : ℕ) : ℤ), ((f.d + 1 : ℕ) : ℤ)]

theorem minusOne_faceRow1 (l : List Face) : minusOne (l.map faceRow1) = l.map faceRow := by
  simp [minusOne, faceRow1, faceRow]

theorem rounded6_fixedVal (x : ℚ) : Rounded6 x (fixedVal 6 x) := by
  refine ⟨⟨(if x < 0 then -1 else 1) * (fixedUnits 6 x : ℤ), ?_⟩, fixedVal_near 6 x⟩
  unfold fixedVal sgn
  push_cast
  field_simp

theorem rounded7_sciVal (x : ℚ) : Rounded7Digits x (sciVal 6 x) := sciVal_near 6 x

theorem forall2_map {R : V3 ℚ → List ℚ → Prop} {g : V3 ℚ → List ℚ} (h : ∀ v, R v (g v)) (l : List (V3 ℚ)) :
    List.Forall₂ R l (l.map g) := by
  induction l with
  | nil => simp
  | cons v l ih => simp [h v, ih]

theorem givesBack_fix (m : Mesh ℚ) : GivesBack Rounded6 m ⟨m.vertices.map fixRow, m.faces.map faceRow⟩ :=
  ⟨forall2_map (fun v => ⟨_, _, _, rfl, rounded6_fixedVal _, rounded6_fixedVal _, rounded6_fixedVal _⟩) _, rfl⟩

theorem givesBack_sci (m : Mesh ℚ) : GivesBack Rounded7Digits m ⟨m.vertices.map sciRow, m.faces.map faceRow⟩ :=
  ⟨forall2_map (fun v => ⟨_, _, _, rfl, rounded7_sciVal _, rounded7_sciVal _, rounded7_sciVal _⟩) _, rfl⟩

/-- The two blocks of a file. -/
theorem loadBlocks_lines (m : Mesh ℚ) (vline : V3 ℚ → Str) (fline : Face → Str) (g : V3 ℚ → List ℚ)
    (hg : ∀ v, (g v).length = 3)
    (hv : ∀ v ∈ m.vertices, Plain (vline v) ∧ floats (split (vline v ++ nl)) = .ok (g v))
    (hf : ∀ f ∈ m.faces, Plain (fline f) ∧ ints (split (fline f ++ nl)) = .ok (faceRow1 f)) :
    loadBlocks m.nv m.nf (linesOf (m.vertices.flatMap (fun v => vline v ++ nl) ++ m.faces.flatMap (fun f => fline f ++ nl)))
      = .ok ⟨m.vertices.map g, m.faces.map faceRow⟩ := by
  have h1 := readRows_lines floats vline g m.vertices (fun v hm => (hv v hm).1) (fun v hm => (hv v hm).2)
    (m.faces.flatMap (fun f => fline f ++ nl))
  have h2 := readRows_lines ints fline faceRow1 m.faces (fun f hm => (hf f hm).1) (fun f hm => (hf f hm).2) []
  rw [List.append_nil] at h2
  have r1 : rect (m.vertices.map g) = .ok (m.vertices.map g) := rect_of_length (n := 3) (by
    intro r hr; obtain ⟨v, -, rfl⟩ := List.mem_map.1 hr; exact hg v)
  have r2 : rect (m.faces.map faceRow1) = .ok (m.faces.map faceRow1) := rect_of_length (n := 4) (by
    intro r hr; obtain ⟨v, -, rfl⟩ := List.mem_map.1 hr; rfl)
  unfold loadBlocks
  simp only [Int.toNat_natCast, Mesh.nv, Mesh.nf, h1, h2, r1, r2, minusOne_faceRow1]

end MM.Io
