import Verif.Props.Io

/-!
# MAR files (C51)
-/

namespace MM.Io

open MM

theorem natStr_succ_ne_zero (n : ℕ) : natStr (n + 1) ≠ ['0'] := by
  intro h
  have h1 := digitsVal_natStr (n + 1)
  rw [h] at h1
  have h2 : digitsVal ['0'] = 0 := by decide
  omega

theorem natStr_zero : natStr 0 = ['0'] := by decide

theorem untilZero_lines {α β : Type} (p : List Str → Except PyErr α) (line : β → Str) (g : β → α) (l : List β)
    (hplain : ∀ b ∈ l, Plain (line b))
    (hp : ∀ b ∈ l, ∃ w ws, split (line b ++ nl) = w :: ws ∧ w ≠ ['0'] ∧ p (w :: ws) = .ok (g b))
    {z : Str} (hz : Plain z) {zs : List Str} (hz' : split (z ++ nl) = ['0'] :: zs) (t : Str) :
    untilZero p (linesOf (l.flatMap (fun b => line b ++ nl) ++ (z ++ (nl ++ t)))) = .ok (l.map g, linesOf t) := by
  induction l with
  | nil =>
    simp only [List.flatMap_nil, List.nil_append, List.map_nil]
    rw [linesOf_nl hz]
    simp only [untilZero, hz', if_true]
  | cons b l ih =>
    have h1 := ih (fun b hb => hplain b (by simp [hb])) (fun b hb => hp b (by simp [hb]))
    obtain ⟨w, ws, h2, h3, h4⟩ := hp b (by simp)
    simp only [List.flatMap_cons, List.append_assoc, List.map_cons]
    rw [linesOf_nl (hplain b (by simp))]
    simp only [untilZero, h2, if_neg h3, h4, h1]

theorem joinWith_nl (l : List Str) (h : l ≠ []) : joinWith nl l ++ nl = l.flatMap (fun s => s ++ nl) := by
  induction l with
  | nil => exact absurd rfl h
  | cons s l ih =>
    cases l with
    | nil => simp [joinWith]
    | cons t l =>
      have := ih (by simp)
      simp only [joinWith, List.flatMap_cons, List.append_assoc] at this ⊢
      rw [this]

/-- The coordinates that the columns of MAR files can hold. -/
def MarRange (x : ℚ) : Prop := -9999999 ≤ x ∧ x ≤ 99999999

theorem fixed_short {w kn kp : ℕ} {x : ℚ} (hkn : 1 ≤ kn) (hkp : 1 ≤ kp) (h1 : -(10 ^ kn - 1) ≤ x) (h2 : x ≤ 10 ^ kp - 1)
    (hw1 : kn + 8 < w) (hw2 : kp + 7 < w) : (fixedStr 6 x).length < w := by
  have hs : (1 : ℚ) / 2 / 10 ^ 6 < 1 := by norm_num
  rcases lt_or_ge x 0 with hx | hx
  · have := fixedStr_length (dec := 6) (k := kn) (x := x) hkn (by rw [abs_of_neg hx]; linarith)
    rw [if_pos hx] at this; omega
  · have := fixedStr_length (dec := 6) (k := kp) (x := x) hkp (by rw [abs_of_nonneg hx]; linarith)
    rw [if_neg (not_lt.2 hx)] at this; omega

theorem MarRange.breaks {x : ℚ} (h : MarRange x) (r : Str) : Breaks (fFix 16 x ++ r) :=
  breaks_padL (fixed_short (kn := 7) (kp := 8) (by norm_num) (by norm_num) (by norm_num; exact h.1) (by norm_num; exact h.2)
    (by norm_num) (by norm_num)) r

/-- The coordinates and the vertex numbers fit in the columns of a MAR file. -/
def FitsMAR (m : Mesh ℚ) : Prop :=
  (∀ v ∈ m.vertices, MarRange v.x ∧ MarRange v.y ∧ MarRange v.z) ∧ ∀ f ∈ m.faces, ∀ i ∈ f.toList, i + 1 < 10 ^ 9

theorem FitsMAR.face {m : Mesh ℚ} (h : FitsMAR m) {f : Face} (hf : f ∈ m.faces) :
    f.a + 1 < 10 ^ 9 ∧ f.b + 1 < 10 ^ 9 ∧ f.c + 1 < 10 ^ 9 ∧ f.d + 1 < 10 ^ 9 := by
  have := h.2 f hf
  simp only [Face.toList, List.mem_cons, List.not_mem_nil, or_false, forall_eq_or_imp, forall_eq] at this
  exact this

theorem zipIdx_map_fst (l : List (V3 ℚ)) : l.zipIdx.map (fun p => fixRow p.1) = l.map fixRow := by
  have : (fun p : V3 ℚ × ℕ => fixRow p.1) = fixRow ∘ Prod.fst := rfl
  rw [this, ← List.map_map, List.zipIdx_map_fst]

/-- Reading of the first block of a MAR file. -/
theorem mar_vertices (m : Mesh ℚ) (h : FitsMAR m) (t : Str) :
    untilZero (fun ws => floats ws.tail) (linesOf (m.vertices.zipIdx.flatMap
        (fun p => fInt 6 (p.2 + 1) ++ fFix 16 p.1.x ++ fFix 16 p.1.y ++ fFix 16 p.1.z ++ nl)
      ++ (fInt 6 0 ++ fInt 6 0 ++ fInt 6 0 ++ fInt 6 0 ++ fInt 6 0 ++ (nl ++ t)))) = .ok (m.vertices.map fixRow, linesOf t) := by
  have b0 (r : Str) : Breaks (fInt 6 0 ++ r) := breaks_fInt (k := 1) (by norm_num) (by norm_num) (by norm_num) r
  rw [← zipIdx_map_fst]
  refine untilZero_lines (fun ws => floats ws.tail)
    (fun p : V3 ℚ × ℕ => fInt 6 (p.2 + 1) ++ fFix 16 p.1.x ++ fFix 16 p.1.y ++ fFix 16 p.1.z) (fun p => fixRow p.1)
    m.vertices.zipIdx ?_ ?_ (z := fInt 6 0 ++ fInt 6 0 ++ fInt 6 0 ++ fInt 6 0 ++ fInt 6 0)
    (zs := [['0'], ['0'], ['0'], ['0']]) ?_ ?_ t
  · intro p _
    exact (((plain_fInt _ _).append (plain_fFix _ _)).append (plain_fFix _ _)).append (plain_fFix _ _)
  · intro p hp
    obtain ⟨h1, h2, h3⟩ := h.1 p.1 (by
      have := List.mem_map_of_mem (f := Prod.fst) hp
      rwa [List.zipIdx_map_fst] at this)
    refine ⟨natStr (p.2 + 1), [fixedStr 6 p.1.x, fixedStr 6 p.1.y, fixedStr 6 p.1.z], ?_, natStr_succ_ne_zero _,
      floats_fixed _ _ _⟩
    simp only [List.append_assoc]
    rw [split_fInt _ _ (h1.breaks _), split_fFix _ _ (h2.breaks _), split_fFix _ _ (h3.breaks _),
      split_fFix _ _ breaks_nl', split_nl']
  · exact ((((plain_fInt _ _).append (plain_fInt _ _)).append (plain_fInt _ _)).append (plain_fInt _ _)).append
      (plain_fInt _ _)
  · simp only [List.append_assoc]
    rw [split_fInt _ _ (b0 _), split_fInt _ _ (b0 _), split_fInt _ _ (b0 _), split_fInt _ _ (b0 _), split_fInt _ _ breaks_nl',
      split_nl', natStr_zero]

theorem mar_header (r : Str) : (linesOf (fInt 6 2 ++ fInt 6 0 ++ nl ++ r)).tail = linesOf r := by
  have h1 := linesOf_nl ((plain_fInt 6 2).append (plain_fInt 6 0)) r
  simp only [List.append_assoc] at h1 ⊢
  rw [h1, List.tail_cons]

theorem rect_fixRow (l : List (V3 ℚ)) : rect (l.map fixRow) = .ok (l.map fixRow) :=
  rect_of_length (n := 3) (by intro r hr; obtain ⟨v, -, rfl⟩ := List.mem_map.1 hr; rfl)

theorem rect_faceRow1 (l : List Face) : rect (l.map faceRow1) = .ok (l.map faceRow1) :=
  rect_of_length (n := 4) (by intro r hr; obtain ⟨v, -, rfl⟩ := List.mem_map.1 hr; rfl)

/-- What the reader makes of a MAR file. -/
theorem loadMAR_write (m : Mesh ℚ) (h : FitsMAR m) (hf : m.faces ≠ []) :
    loadMAR (writeMAR m) = .ok ⟨m.vertices.map fixRow, m.faces.map faceRow⟩ := by
  have b0 (r : Str) : Breaks (fInt 6 0 ++ r) := breaks_fInt (k := 1) (by norm_num) (by norm_num) (by norm_num) r
  have hfaces := untilZero_lines ints
    (fun f : Face => fInt 10 (f.a + 1) ++ fInt 10 (f.b + 1) ++ fInt 10 (f.c + 1) ++ fInt 10 (f.d + 1)) faceRow1 m.faces
    (fun f hf => (face_line (h.face hf)).1)
    (by
      intro f hf
      exact ⟨_, _, (face_line (h.face hf)).2, natStr_succ_ne_zero _, ints4 _ _ _ _⟩)
    (z := fInt 6 0 ++ fInt 6 0 ++ fInt 6 0 ++ fInt 6 0) (zs := [['0'], ['0'], ['0']])
    (((((plain_fInt _ _).append (plain_fInt _ _)).append (plain_fInt _ _)).append (plain_fInt _ _)))
    (by
      simp only [List.append_assoc]
      rw [split_fInt _ _ (b0 _), split_fInt _ _ (b0 _), split_fInt _ _ (b0 _), split_fInt _ _ breaks_nl', split_nl',
        natStr_zero]) []
  have hj := joinWith_nl (m.faces.map fun f : Face =>
    fInt 10 (f.a + 1) ++ fInt 10 (f.b + 1) ++ fInt 10 (f.c + 1) ++ fInt 10 (f.d + 1)) (by simpa using hf)
  rw [List.flatMap_map] at hj
  have hv := mar_vertices m h (m.faces.flatMap (fun f : Face =>
    fInt 10 (f.a + 1) ++ fInt 10 (f.b + 1) ++ fInt 10 (f.c + 1) ++ fInt 10 (f.d + 1) ++ nl) ++
      (fInt 6 0 ++ fInt 6 0 ++ fInt 6 0 ++ fInt 6 0 ++ nl))
  rw [List.append_nil] at hfaces
  unfold loadMAR writeMAR
  rw [hj]
  simp only [List.append_assoc] at hv hfaces ⊢
  have hh := mar_header (m.vertices.zipIdx.flatMap
        (fun p => fInt 6 (p.2 + 1) ++ (fFix 16 p.1.x ++ (fFix 16 p.1.y ++ (fFix 16 p.1.z ++ nl))))
      ++ (fInt 6 0 ++ (fInt 6 0 ++ (fInt 6 0 ++ (fInt 6 0 ++ (fInt 6 0 ++ (nl ++
        (m.faces.flatMap (fun f : Face =>
    fInt 10 (f.a + 1) ++ (fInt 10 (f.b + 1) ++ (fInt 10 (f.c + 1) ++ (fInt 10 (f.d + 1) ++ nl)))) ++
      (fInt 6 0 ++ (fInt 6 0 ++ (fInt 6 0 ++ (fInt 6 0 ++ nl))))))))))))
  simp only [List.append_assoc] at hh
  rw [hh, hv]
  simp only [rect_fixRow, hfaces, rect_faceRow1, minusOne_faceRow1]

/-- C51, what holds: a mesh with at least one face, whose coordinates are between -9999999 and 99999999, written to a MAR
file is read back with the same faces, and the same vertices rounded to six decimals. -/
theorem C51_mar_partial (m : Mesh ℚ) (h : FitsMAR m) (hf : m.faces ≠ []) :
    ∃ l, loadMAR (writeMAR m) = .ok l ∧ GivesBack Rounded6 m l :=
  ⟨_, loadMAR_write m h hf, givesBack_fix m⟩

/-- C51 is violated: a mesh without faces written to a MAR file cannot be loaded. -/
theorem C51_no_faces_fails (m : Mesh ℚ) (h : FitsMAR m) (hf : m.faces = []) :
    loadMAR (writeMAR m) = .error .indexError := by
  have hv := mar_vertices m h (nl ++ (fInt 6 0 ++ fInt 6 0 ++ fInt 6 0 ++ fInt 6 0 ++ nl))
  unfold loadMAR writeMAR
  rw [hf]
  simp only [List.append_assoc, List.map_nil, joinWith, List.nil_append] at hv ⊢
  have hh := mar_header (m.vertices.zipIdx.flatMap
        (fun p => fInt 6 (p.2 + 1) ++ (fFix 16 p.1.x ++ (fFix 16 p.1.y ++ (fFix 16 p.1.z ++ nl))))
      ++ (fInt 6 0 ++ (fInt 6 0 ++ (fInt 6 0 ++ (fInt 6 0 ++ (fInt 6 0 ++ (nl ++
        (nl ++ (fInt 6 0 ++ (fInt 6 0 ++ (fInt 6 0 ++ (fInt 6 0 ++ nl))))))))))))
  simp only [List.append_assoc] at hh
  rw [hh, hv]
  have h0 := linesOf_nl (s := []) (by intro c hc; cases hc) (fInt 6 0 ++ (fInt 6 0 ++ (fInt 6 0 ++ (fInt 6 0 ++ nl))))
  simp only [List.nil_append] at h0
  simp only [rect_fixRow, h0, untilZero, split_nl']

theorem sample_fits : FitsMAR sample := by
  constructor
  · simp only [MarRange]; decide +kernel
  · decide

example : ∃ l, loadMAR (writeMAR sample) = .ok l ∧ GivesBack Rounded6 sample l :=
  C51_mar_partial sample sample_fits (by decide)

example : loadMAR (writeMAR sample) = .ok
    ⟨[[0, 0, 0], [333333 / 1000000, 0, -2], [333333 / 1000000, 1234567 / 10, -2], [0, 1, 0]],
      [[0, 1, 2, 3], [0, 1, 2, 0], [0, 2, 3, 0], [3, 2, 1, 0]]⟩ := by decide +kernel

/-- A triangle whose vertices have the abscissa ten million below zero. -/
def farTriangle : Mesh ℚ where
  vertices := [⟨-10000000, 0, 0⟩, ⟨-10000000, 1, 0⟩, ⟨-10000000, 0, 1⟩]
  faces := [⟨0, 1, 2, 0⟩]

/-- C51 is violated: columns touch each other beyond the range, and here the file is read without an error, with the
abscissas lost. -/
theorem C51_far_fails :
    loadMAR (writeMAR farTriangle) = .ok ⟨[[0, 0], [1, 0], [0, 1]], [[0, 1, 2, 0]]⟩ := by decide +kernel

theorem C51_fails : ¬ ∀ m : Mesh ℚ, m.WF → m.faces ≠ [] → ∃ l, loadMAR (writeMAR m) = .ok l ∧ GivesBack Rounded6 m l := by
  intro h
  obtain ⟨l, h1, h2⟩ := h farTriangle (by decide) (by decide)
  rw [C51_far_fails] at h1
  cases h1
  have := h2.1
  simp [farTriangle, RowOf] at this

end MM.Io
