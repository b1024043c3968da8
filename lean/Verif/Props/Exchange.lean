import Verif.Model.MmioExport
import Verif.Spec.Exchange
import Verif.Proofs.Io
import Verif.Props.IoIds

/-!
# VTK, OBJ and STL files (C97, C98, C99)
-/

namespace MM.Io

open MM

/-! ### Words -/

theorem splitAux_break {c : Char} (hc : isSpace c = true) (s cur r : Str) :
    splitAux cur (s ++ c :: r) = splitAux cur (s ++ [c]) ++ split r := by
  induction s generalizing cur with
  | nil =>
    simp only [List.nil_append, splitAux, hc, if_true, split]
    split <;> simp
  | cons d s ih =>
    simp only [List.cons_append, splitAux]
    split
    · split <;> simp [ih]
    · exact ih _

/-- The words of a text that begins with a piece whose last character is a blank. -/
theorem split_lit {s : Str} {ws : List Str} (h : s.getLast?.elim false isSpace = true) (hw : split s = ws) (r : Str) :
    split (s ++ r) = ws ++ split r := by
  rcases List.eq_nil_or_concat s with rfl | ⟨t, c, rfl⟩
  · simp at h
  · simp at h
    rw [← hw, List.concat_eq_append, List.append_assoc]
    exact splitAux_break h t [] r

theorem breaks_lit {s : Str} (h : s.head?.elim false isSpace = true) (r : Str) : Breaks (s ++ r) := by
  cases s with
  | nil => simp at h
  | cons c s => exact breaks_cons (by simpa using h) _

theorem split_sp (r : Str) : split (' ' :: r) = split r :=
  split_blank (s := [' ']) (by intro c hc; simp at hc; rw [hc]; decide) r

theorem split_nl_cons (r : Str) : split (nl ++ r) = split r :=
  split_blank (s := nl) (by intro c hc; simp [nl] at hc; rw [hc]; decide) r

theorem breaks_sp (r : Str) : Breaks (' ' :: r) := breaks_cons (by decide) r

theorem split_flatMap {α : Type} (line : α → Str) (toks : α → List Str) (l : List α)
    (h : ∀ a ∈ l, ∀ r, split (line a ++ r) = toks a ++ split r) (r : Str) :
    split (l.flatMap line ++ r) = l.flatMap toks ++ split r := by
  induction l with
  | nil => rfl
  | cons a l ih =>
    simp only [List.flatMap_cons, List.append_assoc]
    rw [h a (by simp), ih (fun b hb => h b (by simp [hb]))]

/-! ### Lines -/

theorem firstLine_plain {s : Str} (hs : Plain s) (r : Str) : firstLine (s ++ (nl ++ r)) = s := by
  unfold firstLine
  induction s with
  | nil => rfl
  | cons c s ih =>
    have := hs c (by simp)
    simpa [this] using ih (fun c hc => hs c (by simp [hc]))

theorem afterLine_plain {s : Str} (hs : Plain s) (r : Str) : afterLine (s ++ (nl ++ r)) = r := by
  unfold afterLine
  induction s with
  | nil => rfl
  | cons c s ih =>
    have := hs c (by simp)
    simpa [this] using ih (fun c hc => hs c (by simp [hc]))

/-! ### C97: VTK -/

def vtkCell (f : Face) : List Str := natStr f.corners.length :: f.corners.map natStr

theorem values_ints (l : List ℕ) : values parseInt (l.map natStr) = some (l.map (Nat.cast : ℕ → ℤ)) := by
  induction l with
  | nil => rfl
  | cons n l ih => simp [values, parseInt_natStr, ih]

theorem values_fixed (x y z : ℚ) :
    values parseFloat [fixedStr 6 x, fixedStr 6 y, fixedStr 6 z] = some [fixedVal 6 x, fixedVal 6 y, fixedVal 6 z] := by
  simp [values, parseFloat_fixedStr]

def fixToks (v : V3 ℚ) : List Str := [fixedStr 6 v.x, fixedStr 6 v.y, fixedStr 6 v.z]

theorem split_vtkVertexLine (v : V3 ℚ) (r : Str) : split (vtkVertexLine v ++ r) = fixToks v ++ split r := by
  unfold vtkVertexLine fixToks
  simp only [List.append_assoc, List.cons_append]
  rw [split_fFix _ _ (breaks_sp _), split_sp, split_fFix _ _ (breaks_sp _), split_sp, split_fFix _ _ (breaks_nl _),
    split_nl_cons]
  rfl

theorem split_vtkFaceLine (f : Face) (r : Str) : split (vtkFaceLine f ++ r) = vtkCell f ++ split r := by
  unfold vtkFaceLine vtkCell Face.corners Face.isTri
  by_cases h : f.a = f.d
  · rw [if_pos h, if_pos (by simpa using h)]
    simp only [List.append_assoc, List.cons_append]
    rw [split_lit (ws := [natStr 3]) (by decide) (by decide), split_fInt _ _ (breaks_sp _), split_sp,
      split_fInt _ _ (breaks_sp _), split_sp, split_fInt _ _ (breaks_nl _), split_nl_cons]
    rfl
  · rw [if_neg h, if_neg (by simpa using h)]
    simp only [List.append_assoc, List.cons_append]
    rw [split_lit (ws := [natStr 4]) (by decide) (by decide), split_fInt _ _ (breaks_sp _), split_sp,
      split_fInt _ _ (breaks_sp _), split_sp, split_fInt _ _ (breaks_sp _), split_sp, split_fInt _ _ (breaks_nl _),
      split_nl_cons]
    rfl

theorem readPoints_fix (l : List (V3 ℚ)) (r : List Str) :
    readPoints l.length (l.flatMap fixToks ++ r) = some (l.map fixRow, r) := by
  induction l with
  | nil => rfl
  | cons v l ih =>
    simp only [List.flatMap_cons, List.length_cons, readPoints, fixToks, List.cons_append, List.nil_append,
      List.take_succ_cons, List.take_zero, List.drop_succ_cons, List.drop_zero] at ih ⊢
    rw [values_fixed, ih]
    rfl

theorem readPolygons_cells (l : List Face) :
    readPolygons l.length (l.flatMap vtkCell) = some (l.map (fun f => f.corners.map (Nat.cast : ℕ → ℤ)), []) := by
  induction l with
  | nil => rfl
  | cons f l ih =>
    simp only [List.flatMap_cons, List.length_cons, vtkCell, List.cons_append, readPolygons, parseInt_natStr] at ih ⊢
    have h1 : (f.corners.map natStr ++ l.flatMap vtkCell).take (Int.toNat (f.corners.length : ℤ)) =
        f.corners.map natStr := by simp
    have h2 : (f.corners.map natStr ++ l.flatMap vtkCell).drop (Int.toNat (f.corners.length : ℤ)) =
        l.flatMap vtkCell := by simp
    rw [h1, h2, values_ints, ih]
    simp

theorem vtk_size (l : List Face) :
    ((l.map (fun f => f.corners.map (Nat.cast : ℕ → ℤ))).map fun f => f.length + 1).sum =
      4 * (l.filter fun f => f.a = f.d).length + 5 * (l.filter fun f => f.a ≠ f.d).length := by
  induction l with
  | nil => rfl
  | cons f l ih =>
    simp only [List.map_cons, List.sum_cons, ih, List.length_map]
    by_cases h : f.a = f.d
    · have : f.corners.length = 3 := by simp [Face.corners, Face.isTri, h]
      simp [h, this]; ring
    · have : f.corners.length = 4 := by simp [Face.corners, Face.isTri, h]
      simp [h, this]; ring

theorem readVtk_write (date : Str) (m : Mesh ℚ) (hd : Plain date) (hl : date.length ≤ 200) :
    readVtk (writeVTK date m) =
      some (m.vertices.map fixRow, m.faces.map (fun f => f.corners.map (Nat.cast : ℕ → ℤ))) := by
  obtain ⟨body, hb⟩ : ∃ body, body = "DATASET POLYDATA\n".toList ++
      ("POINTS ".toList ++ (fInt 0 m.nv ++ (" float\n".toList ++
      (m.vertices.flatMap vtkVertexLine ++
      ("POLYGONS ".toList ++ (fInt 0 m.nf ++ (' ' :: (fInt 0 (4 * (m.faces.filter fun f => f.a = f.d).length +
        5 * (m.faces.filter fun f => f.a ≠ f.d).length) ++ (nl ++
      m.faces.flatMap vtkFaceLine))))))))) := ⟨_, rfl⟩
  have hw : writeVTK date m = "# vtk DataFile Version 4.0".toList ++ (nl ++
      (("vtk file generated by meshmagick on ".toList ++ date) ++ (nl ++ ("ASCII".toList ++ (nl ++ body))))) := by
    have e1 : "# vtk DataFile Version 4.0\n".toList = "# vtk DataFile Version 4.0".toList ++ nl := by decide
    have e2 : "ASCII\n".toList = "ASCII".toList ++ nl := by decide
    rw [hb]
    unfold writeVTK
    rw [e1, e2]
    simp only [List.append_assoc, List.cons_append]
  have hp1 : Plain "# vtk DataFile Version 4.0".toList := by unfold Plain; decide
  have hp2 : Plain ("vtk file generated by meshmagick on ".toList ++ date) :=
    Plain.append (by unfold Plain; decide) hd
  have hp3 : Plain "ASCII".toList := by unfold Plain; decide
  have hsplit : split body = "DATASET".toList :: "POLYDATA".toList :: "POINTS".toList :: natStr m.nv :: "float".toList ::
      (m.vertices.flatMap fixToks ++ "POLYGONS".toList :: natStr m.nf ::
        natStr (4 * (m.faces.filter fun f => f.a = f.d).length + 5 * (m.faces.filter fun f => f.a ≠ f.d).length) ::
        m.faces.flatMap vtkCell) := by
    rw [hb, split_lit (ws := ["DATASET".toList, "POLYDATA".toList]) (by decide) (by decide),
      split_lit (ws := ["POINTS".toList]) (by decide) (by decide), split_fInt _ _ (breaks_lit (by decide) _),
      split_lit (ws := ["float".toList]) (by decide) (by decide),
      split_flatMap _ fixToks _ (fun v _ => split_vtkVertexLine v),
      split_lit (ws := ["POLYGONS".toList]) (by decide) (by decide), split_fInt _ _ (breaks_sp _), split_sp,
      split_fInt _ _ (breaks_nl _), split_nl_cons]
    have := split_flatMap _ vtkCell m.faces (fun f _ => split_vtkFaceLine f) []
    simp only [List.append_nil] at this
    rw [this]
    simp [split, splitAux]
  have hlen : ("vtk file generated by meshmagick on ".toList ++ date).length ≤ 256 := by
    have : "vtk file generated by meshmagick on ".toList.length = 36 := by decide
    rw [List.length_append, this]; omega
  unfold readVtk
  rw [hw, firstLine_plain hp1, afterLine_plain hp1, firstLine_plain hp2, afterLine_plain hp2, firstLine_plain hp3,
    afterLine_plain hp3, if_pos ⟨by decide, hlen, rfl⟩, hsplit]
  simp only [if_true, parseInt_natStr, Int.toNat_natCast, Mesh.nv, Mesh.nf]
  rw [readPoints_fix]
  simp only [parseInt_natStr, Int.toNat_natCast]
  rw [readPolygons_cells]
  simp only
  rw [if_pos]
  refine ⟨trivial, by simp, by simp, ?_⟩
  rw [vtk_size]

/-- C97: a VTK file gives back every mesh: a reader of the format accepts it, and finds the vertices in the same order,
rounded to six decimals, and the faces in the same order with their three or four vertices; the announced numbers of points,
polygons and integers are right. No condition on the mesh; the date has no end of line and at most 200 characters. -/
theorem C97_vtk (date : Str) (m : Mesh ℚ) (hd : '\n' ∉ date) (hl : date.length ≤ 200) :
    ∃ ps fs, readVtk (writeVTK date m) = some (ps, fs) ∧ List.Forall₂ (RowOf Rounded6) m.vertices ps ∧
      fs = m.faces.map (fun f => if f.a = f.d then [(f.a : ℤ), f.b, f.c] else [(f.a : ℤ), f.b, f.c, f.d]) := by
  refine ⟨_, _, readVtk_write date m (fun c hc e => hd (e ▸ hc)) hl,
    forall2_map (fun v => ⟨_, _, _, rfl, rounded6_fixedVal _, rounded6_fixedVal _, rounded6_fixedVal _⟩) _, ?_⟩
  apply List.map_congr_left
  intro f _
  by_cases h : f.a = f.d <;> simp [Face.corners, Face.isTri, h]

example : readVtk (writeVTK "Mon Nov 16 2026".toList sample) = some
    ([[0, 0, 0], [333333 / 1000000, 0, -2], [333333 / 1000000, 1234567 / 10, -2], [0, 1, 0]],
      [[0, 1, 2, 3], [0, 1, 2], [0, 2, 3], [3, 2, 1, 0]]) := by decide +kernel

/-! ### C98: OBJ -/

/-- Blank lines and comments. -/
theorem readObj_skip {s : Str} (hs : Plain s) (r : Str)
    (h : split (s ++ nl) = [] ∨ ∃ w ws, split (s ++ nl) = w :: ws ∧ w.head? = some '#') :
    readObj (s ++ (nl ++ r)) = readObj r := by
  unfold readObj
  rw [linesOf_nl hs, readObjLines]
  cases readObjLines (linesOf r) with
  | none => rfl
  | some p =>
    rcases h with h | ⟨w, ws, h, hw⟩ <;> simp [h, *]

theorem readObj_nl (r : Str) : readObj (nl ++ r) = readObj r :=
  readObj_skip (s := []) (by unfold Plain; decide) r (Or.inl (by decide))

theorem split_head {c : Char} (hc : isSpace c = false) (s : Str) : ∃ w ws, split (c :: s) = w :: ws ∧ w.head? = some c := by
  suffices h : ∀ cur : Str, cur.getLast? = some c → ∃ w ws, splitAux cur s = w :: ws ∧ w.head? = some c by
    obtain ⟨w, ws, h1, h2⟩ := h [c] rfl
    exact ⟨w, ws, by simpa [split, splitAux, hc] using h1, h2⟩
  induction s with
  | nil =>
    intro cur h
    have hne : cur ≠ [] := by rintro rfl; simp at h
    exact ⟨cur.reverse, [], by simp [splitAux, hne], by simpa using h⟩
  | cons d s ih =>
    intro cur h
    have hne : cur ≠ [] := by rintro rfl; simp at h
    simp only [splitAux, if_neg hne]
    split
    · exact ⟨cur.reverse, _, rfl, by simpa using h⟩
    · exact ih (d :: cur) (by rw [List.getLast?_cons]; simp [h])

theorem readObj_comment {s : Str} (hs : Plain ('#' :: s)) (r : Str) :
    readObj ('#' :: s ++ (nl ++ r)) = readObj r :=
  readObj_skip hs r (Or.inr (by
    obtain ⟨w, ws, h⟩ := split_head (c := '#') (by decide) (s ++ nl)
    exact ⟨w, ws, h⟩))

theorem split_nl_end {s : Str} {ws : List Str} (h : ∀ r, split (s ++ (nl ++ r)) = ws ++ split r) : split (s ++ nl) = ws := by
  have := h []
  simpa [split, splitAux] using this

theorem split_objVertexLine (v : V3 ℚ) (r : Str) :
    split (objVertexLine v ++ (nl ++ r)) = ['v'] :: fixToks v ++ split r := by
  unfold objVertexLine fixToks
  simp only [List.append_assoc, List.cons_append]
  rw [split_lit (ws := [['v']]) (by decide) (by decide), split_fFix _ _ (breaks_tab _), split_tab,
    split_fFix _ _ (breaks_tab _), split_tab, split_fFix _ _ (breaks_nl _), split_nl_cons]
  rfl

theorem split_objFaceLine (f : Face) (r : Str) :
    split (objFaceLine f ++ (nl ++ r)) = ['f'] :: f.corners.map (fun i => natStr (i + 1)) ++ split r := by
  have hb : Blank "  ".toList := by unfold Blank; decide
  have hbr : ∀ r, Breaks ("  ".toList ++ r) := breaks_lit (by decide)
  unfold objFaceLine Face.corners Face.isTri
  by_cases h : f.a = f.d
  · rw [if_pos h, if_pos (by simpa using h)]
    simp only [List.append_assoc, List.nil_append]
    rw [split_lit (ws := [['f']]) (by decide) (by decide), split_fInt _ _ (hbr _), split_blank hb, split_fInt _ _ (hbr _),
      split_blank hb, split_fInt _ _ (breaks_nl _), split_nl_cons]
    rfl
  · rw [if_neg h, if_neg (by simpa using h)]
    simp only [List.append_assoc]
    rw [split_lit (ws := [['f']]) (by decide) (by decide), split_fInt _ _ (hbr _), split_blank hb, split_fInt _ _ (hbr _),
      split_blank hb, split_fInt _ _ (hbr _), split_blank hb, split_fInt _ _ (breaks_nl _), split_nl_cons]
    rfl

theorem plain_lit {s : Str} (h : s.all (· ≠ '\n') = true) : Plain s := by
  intro c hc
  simpa using List.all_eq_true.1 h c hc

theorem plain_objVertexLine (v : V3 ℚ) : Plain (objVertexLine v) :=
  (((plain_lit (by decide)).append (plain_fFix _ _)).append (plain_tab (plain_fFix _ _))).append
    (plain_tab (plain_fFix _ _))

theorem plain_objFaceLine (f : Face) : Plain (objFaceLine f) := by
  have hp : Plain "  ".toList := plain_lit (by decide)
  unfold objFaceLine
  refine Plain.append ((((((plain_lit (by decide)).append (plain_fInt _ _)).append hp).append (plain_fInt _ _)).append
    hp).append (plain_fInt _ _)) ?_
  split
  · exact plain_lit (by decide)
  · exact hp.append (plain_fInt _ _)

theorem readObj_vertices (l : List (V3 ℚ)) (r : Str) :
    readObj (l.flatMap (fun v => objVertexLine v ++ nl) ++ r) =
      (readObj r).map fun p => (l.map fixRow ++ p.1, p.2) := by
  induction l with
  | nil => cases h : readObj r <;> simp [h]
  | cons v l ih =>
    have hs := split_nl_end (split_objVertexLine v)
    simp only [List.flatMap_cons, List.append_assoc]
    unfold readObj at ih ⊢
    rw [linesOf_nl (plain_objVertexLine v), readObjLines, ih]
    cases readObjLines (linesOf r) with
    | none => rfl
    | some p =>
      simp only [Option.map_some, hs]
      rw [if_neg (by decide), if_pos trivial]
      simp [fixToks, values_fixed, fixRow]

theorem readObj_faces (l : List Face) :
    readObj (l.flatMap (fun f => objFaceLine f ++ nl)) = some ([], l.map fun f => f.corners.map (Nat.cast : ℕ → ℤ)) := by
  induction l with
  | nil => rfl
  | cons f l ih =>
    have hs := split_nl_end (split_objFaceLine f)
    simp only [List.flatMap_cons, List.append_assoc]
    unfold readObj at ih ⊢
    rw [linesOf_nl (plain_objFaceLine f), readObjLines, ih]
    simp only [hs]
    rw [if_neg (by decide), if_neg (by decide), if_pos trivial]
    have : f.corners.map (fun i => natStr (i + 1)) = (f.corners.map (· + 1)).map natStr := by simp
    rw [this, values_ints]
    simp

theorem readObj_write (date : Str) (m : Mesh ℚ) (hd : Plain date) :
    readObj (writeOBJ date m) =
      some (m.vertices.map fixRow, m.faces.map (fun f => f.corners.map (Nat.cast : ℕ → ℤ))) := by
  have hc : ∀ t s r, Plain t → Plain s → readObj ('#' :: t ++ (s ++ (nl ++ r))) = readObj r := by
    intro t s r ht hs
    have := readObj_comment (s := t ++ s) (by
      intro c hc
      rcases List.mem_cons.1 hc with rfl | hc
      · decide
      · exact (ht.append hs) c hc) r
    rw [← this]; simp
  have e1 : "# Wavefront OBJ file exported by Meshmagick (Copyright Ecole Centrale de Nantes)".toList =
    '#' :: " Wavefront OBJ file exported by Meshmagick (Copyright Ecole Centrale de Nantes)".toList := by decide
  have e2 : "# File Created: ".toList = '#' :: " File Created: ".toList := by decide
  have e3 : "# Vertices: ".toList = '#' :: " Vertices: ".toList := by decide
  have e4 : "# Faces: ".toList = '#' :: " Faces: ".toList := by decide
  unfold writeOBJ
  simp only [List.append_assoc]
  rw [e1, e2, e3, e4, readObj_comment (by
      intro c hc
      rcases List.mem_cons.1 hc with rfl | hc
      · decide
      · exact (plain_lit (by decide)) c hc),
    hc _ _ _ (plain_lit (by decide)) hd, readObj_nl, readObj_nl, hc _ _ _ (plain_lit (by decide)) (plain_fInt _ _),
    readObj_nl, readObj_vertices, readObj_nl, readObj_nl, readObj_nl,
    hc _ _ _ (plain_lit (by decide)) (plain_fInt _ _), readObj_nl, readObj_faces]
  simp

/-- C98: an OBJ file gives back every mesh: a reader of the format accepts every line, and finds the vertices in the same
order, rounded to six decimals, and the faces in the same order with their three or four vertices. No condition on the mesh;
the date has no end of line. -/
theorem C98_obj (date : Str) (m : Mesh ℚ) (hd : '\n' ∉ date) :
    ∃ ps fs, readObj (writeOBJ date m) = some (ps, fs) ∧ List.Forall₂ (RowOf Rounded6) m.vertices ps ∧
      fs = m.faces.map (fun f => if f.a = f.d then [(f.a : ℤ), f.b, f.c] else [(f.a : ℤ), f.b, f.c, f.d]) := by
  refine ⟨_, _, readObj_write date m (fun c hc e => hd (e ▸ hc)),
    forall2_map (fun v => ⟨_, _, _, rfl, rounded6_fixedVal _, rounded6_fixedVal _, rounded6_fixedVal _⟩) _, ?_⟩
  apply List.map_congr_left
  intro f _
  by_cases h : f.a = f.d <;> simp [Face.corners, Face.isTri, h]

example : readObj (writeOBJ "Mon Nov 16 2026".toList sample) = some
    ([[0, 0, 0], [333333 / 1000000, 0, -2], [333333 / 1000000, 1234567 / 10, -2], [0, 1, 0]],
      [[0, 1, 2, 3], [0, 1, 2], [0, 2, 3], [3, 2, 1, 0]]) := by decide +kernel

/-! ### C99: STL -/

/-- The word printed by `'%.6e'`. -/
def lowStr (x : ℚ) : Str := (sciStr 6 x).map fun c => if c = 'E' then 'e' else c

theorem allDigits_low {s : Str} (h : AllDigits s) : s.map (fun c => if c = 'E' then 'e' else c) = s := by
  conv_rhs => rw [← List.map_id s]
  apply List.map_congr_left
  intro c hc
  have := h c hc
  rw [if_neg]; rfl
  rintro rfl
  exact absurd this (by decide)

theorem expStr_low (e : ℤ) : (expStr e).map (fun c => if c = 'E' then 'e' else c) = expStr e := by
  unfold expStr
  have := allDigits_low (natStr_digits e.natAbs)
  by_cases h1 : e < 0 <;> by_cases h2 : e.natAbs < 10 <;> simp [h1, h2, this]

theorem lowStr_eq (x : ℚ) : lowStr x = signStr x ++ natStr ((sciParts 6 x).1 / 10 ^ 6) ++
    '.' :: (digitsW 6 ((sciParts 6 x).1 % 10 ^ 6) ++ 'e' :: expStr (sciParts 6 x).2) := by
  have h : (signStr x).map (fun c => if c = 'E' then 'e' else c) = signStr x := by
    unfold signStr; split <;> simp
  unfold lowStr sciStr
  simp only [List.map_append, List.map_cons, h, allDigits_low (natStr_digits _), allDigits_low (digitsW_digits _ _),
    expStr_low]
  simp

theorem parseFloat_lowStr (x : ℚ) : parseFloat (lowStr x) = some (sciVal 6 x) := by
  have h1 := natStr_digits ((sciParts 6 x).1 / 10 ^ 6)
  have hne := natStr_ne_nil ((sciParts 6 x).1 / 10 ^ 6)
  have h2 := digitsW_digits 6 ((sciParts 6 x).1 % 10 ^ 6)
  have hs : stripSign (lowStr x) = (decide (x < 0), natStr ((sciParts 6 x).1 / 10 ^ 6) ++
      '.' :: (digitsW 6 ((sciParts 6 x).1 % 10 ^ 6) ++ 'e' :: expStr (sciParts 6 x).2)) := by
    rw [lowStr_eq, signStr_eq]
    by_cases hx : x < 0
    · simp only [hx, decide_true]; rfl
    · simp only [hx, decide_false]; simpa using stripSign_digits h1 _ hne
  have ht := takeWhile_digits h1
    (r := '.' :: (digitsW 6 ((sciParts 6 x).1 % 10 ^ 6) ++ 'e' :: expStr (sciParts 6 x).2))
    (by intro c t h; cases h; decide)
  have ht2 := takeWhile_digits h2 (r := 'e' :: expStr (sciParts 6 x).2) (by intro c t h; cases h; decide)
  unfold parseFloat
  simp only [hs, ht.1, ht.2, ht2.1, ht2.2]
  rw [if_neg (fun h => hne h.1)]
  simp only [true_or, if_true, parseInt_expStr, Option.map_some]
  rw [digitsVal_append, digitsVal_natStr, digitsVal_digitsW, digitsW_length, Nat.mod_mod, Nat.div_add_mod']
  simp [sciVal, sgn]

theorem lowStr_word (x : ℚ) : Word (lowStr x) := by
  have h := sciStr_word 6 x
  refine ⟨by simpa [lowStr] using h.1, ?_⟩
  intro c hc
  unfold lowStr at hc
  obtain ⟨d, hd, rfl⟩ := List.mem_map.1 hc
  split
  · decide
  · exact h.2 d hd

theorem lowStr_length {x : ℚ} (h : FloatRange x) : (lowStr x).length < 15 := by
  have := sciStr_length (dec := 6) h
  unfold lowStr
  rw [List.length_map]; omega

theorem fSciLow_eq (x : ℚ) : fSciLow x = padL 15 (lowStr x) := rfl

/-- The word of a component of a normal. -/
def normalWord (norm ni : ℚ) : Str :=
  if norm = 0 then (if ni = 0 then "nan".toList else if 0 < ni then "inf".toList else "-inf".toList) else lowStr (ni / norm)

theorem stlNormalField_eq (norm ni : ℚ) : stlNormalField norm ni = padL 15 (normalWord norm ni) := by
  unfold stlNormalField normalWord
  split <;> rfl

theorem normalWord_word (norm ni : ℚ) : Word (normalWord norm ni) := by
  unfold normalWord
  split
  · unfold Word
    split
    · decide
    · split <;> decide
  · exact lowStr_word _

theorem normalWord_length {norm ni : ℚ} (h : FloatRange (ni / norm)) : (normalWord norm ni).length < 15 := by
  unfold normalWord
  split
  · split
    · decide
    · split <;> decide
  · exact lowStr_length h

def lowToks (v : V3 ℚ) : List Str := [lowStr v.x, lowStr v.y, lowStr v.z]

/-- The coordinates are in the range of floating point numbers. -/
def FloatPoint (v : V3 ℚ) : Prop := FloatRange v.x ∧ FloatRange v.y ∧ FloatRange v.z

theorem split_stlPoint {v : V3 ℚ} (h : FloatPoint v) (r : Str) :
    split ("      vertex".toList ++ (stlPoint v ++ r)) = "vertex".toList :: lowToks v ++ split r := by
  unfold stlPoint lowToks
  simp only [List.append_assoc, fSciLow_eq]
  have e : "      vertex".toList = "      ".toList ++ "vertex".toList := by decide
  rw [e, List.append_assoc, split_tok (by unfold Blank; decide) (by unfold Word; decide)
      (breaks_padL (lowStr_length h.1) _),
    split_padL _ (lowStr_word _) (breaks_padL (lowStr_length h.2.1) _),
    split_padL _ (lowStr_word _) (breaks_padL (lowStr_length h.2.2) _),
    split_padL _ (lowStr_word _) (breaks_nl _), split_nl_cons]
  rfl

/-- The words of a facet. -/
def facetToks (norm : V3 ℚ → ℚ) (v0 v1 v2 : V3 ℚ) : List Str :=
  let n := (v1 - v0).cross (v2 - v0)
  ["facet".toList, "normal".toList] ++ [normalWord (norm n) n.x, normalWord (norm n) n.y, normalWord (norm n) n.z] ++
  ["outer".toList, "loop".toList] ++ ("vertex".toList :: lowToks v0) ++ ("vertex".toList :: lowToks v1) ++
  ("vertex".toList :: lowToks v2) ++ ["endloop".toList, "endfacet".toList]

/-- The components of the normal of a triangle are in the range of floating point numbers. -/
def FloatNormal (norm : V3 ℚ → ℚ) (v0 v1 v2 : V3 ℚ) : Prop :=
  let n := (v1 - v0).cross (v2 - v0)
  FloatRange (n.x / norm n) ∧ FloatRange (n.y / norm n) ∧ FloatRange (n.z / norm n)

theorem split_stlFacet {norm : V3 ℚ → ℚ} {v0 v1 v2 : V3 ℚ} (h0 : FloatPoint v0) (h1 : FloatPoint v1) (h2 : FloatPoint v2)
    (hn : FloatNormal norm v0 v1 v2) (r : Str) :
    split (stlFacet norm v0 v1 v2 ++ r) = facetToks norm v0 v1 v2 ++ split r := by
  unfold stlFacet facetToks
  unfold FloatNormal at hn
  generalize (v1 - v0).cross (v2 - v0) = n at *
  simp only [List.append_assoc, stlNormalField_eq]
  rw [split_lit (ws := ["facet".toList, "normal".toList]) (by decide) (by decide),
    split_padL _ (normalWord_word _ _) (breaks_padL (normalWord_length hn.2.1) _),
    split_padL _ (normalWord_word _ _) (breaks_padL (normalWord_length hn.2.2) _),
    split_padL _ (normalWord_word _ _) (breaks_nl _), split_nl_cons,
    split_lit (ws := ["outer".toList, "loop".toList]) (by decide) (by decide),
    split_stlPoint h0, split_stlPoint h1, split_stlPoint h2,
    split_lit (ws := ["endloop".toList]) (by decide) (by decide),
    split_lit (ws := ["endfacet".toList]) (by decide) (by decide)]
  simp only [List.append_assoc, List.cons_append, List.nil_append]

/-- What a reader finds. -/
def facetRead (norm : V3 ℚ → ℚ) (v0 v1 v2 : V3 ℚ) : Facet :=
  let n := (v1 - v0).cross (v2 - v0)
  ⟨[parseFloat (normalWord (norm n) n.x), parseFloat (normalWord (norm n) n.y), parseFloat (normalWord (norm n) n.z)],
    [sciRow v0, sciRow v1, sciRow v2]⟩

theorem values_low (v : V3 ℚ) : values parseFloat (lowToks v) = some (sciRow v) := by
  simp [lowToks, values, parseFloat_lowStr, sciRow]

theorem readFacets_cons (norm : V3 ℚ → ℚ) (v0 v1 v2 : V3 ℚ) (ws : List Str) :
    readFacets (facetToks norm v0 v1 v2 ++ ws) = (readFacets ws).map fun r => facetRead norm v0 v1 v2 :: r := by
  have e0 := values_low v0
  have e1 := values_low v1
  have e2 := values_low v2
  unfold facetToks facetRead
  unfold lowToks at *
  simp only [List.cons_append, List.nil_append]
  rw [readFacets, if_pos rfl, e0, e1, e2]
  cases readFacets ws <;> rfl

theorem facetOf_read (norm : V3 ℚ → ℚ) (v0 v1 v2 : V3 ℚ) : FacetOf norm v0 v1 v2 (facetRead norm v0 v1 v2) := by
  have hr : ∀ v, RowOf Rounded7Digits v (sciRow v) := fun v =>
    ⟨_, _, _, rfl, rounded7_sciVal _, rounded7_sciVal _, rounded7_sciVal _⟩
  refine ⟨⟨_, _, _, rfl, hr _, hr _, hr _⟩, fun hn => ?_⟩
  unfold facetRead normalWord
  simp only [if_neg hn, parseFloat_lowStr]
  exact ⟨_, _, _, rfl, rounded7_sciVal _, rounded7_sciVal _, rounded7_sciVal _⟩

theorem stlFacets_read (norm : V3 ℚ → ℚ) (m : Mesh ℚ) (hv : ∀ v ∈ m.vertices, FloatPoint v) (l : List Face)
    (htri : ∀ f ∈ l, f.isTri = true) (hwf : ∀ f ∈ l, ∀ i ∈ f.toList, i < m.nv)
    (hn : ∀ f ∈ l, FloatNormal norm (m.vert f.a) (m.vert f.b) (m.vert f.c)) :
    ∃ s, stlFacets norm m.vertices l = .ok s ∧
      ∀ r, readFacets (split (s ++ r)) = (readFacets (split r)).map fun t =>
        l.map (fun f => facetRead norm (m.vert f.a) (m.vert f.b) (m.vert f.c)) ++ t := by
  induction l with
  | nil => exact ⟨[], rfl, fun r => by cases h : readFacets (split r) <;> simp [h]⟩
  | cons f l ih =>
    obtain ⟨s, hs, hr⟩ := ih (fun f hf => htri f (by simp [hf])) (fun f hf => hwf f (by simp [hf]))
      (fun f hf => hn f (by simp [hf]))
    have ht : f.a = f.d := by simpa [Face.isTri] using htri f (by simp)
    have hget : ∀ i ∈ f.toList, m.vertices[i]? = some (m.vert i) := by
      intro i hi
      have := hwf f (by simp) i hi
      unfold Mesh.vert
      rw [List.getD_eq_getElem?_getD, List.getElem?_eq_getElem this]; rfl
    have hmem : ∀ i ∈ f.toList, FloatPoint (m.vert i) := fun i hi => hv _ (List.mem_of_getElem? (hget i hi))
    refine ⟨stlFacet norm (m.vert f.a) (m.vert f.b) (m.vert f.c) ++ s, ?_, fun r => ?_⟩
    · rw [stlFacets, if_neg (by simpa using ht), hget f.a (by simp [Face.toList]), hget f.b (by simp [Face.toList]),
        hget f.c (by simp [Face.toList]), hs]
    · rw [List.append_assoc, split_stlFacet (hmem _ (by simp [Face.toList])) (hmem _ (by simp [Face.toList]))
        (hmem _ (by simp [Face.toList])) (hn f (by simp)), readFacets_cons, hr]
      cases readFacets (split r) <;> simp

/-- What the file contains, exactly. -/
theorem readStl_write (norm : V3 ℚ → ℚ) (m : Mesh ℚ) (hwf : m.WF) (hv : ∀ v ∈ m.vertices, FloatPoint v)
    (hn : ∀ f ∈ m.faces.flatMap triangles, FloatNormal norm (m.vert f.a) (m.vert f.b) (m.vert f.c)) :
    ∃ s, writeSTL norm m = .ok s ∧ readStl s = some ((stlFaces m.faces).2.map
      (fun f => facetRead norm (m.vert f.a) (m.vert f.b) (m.vert f.c))) := by
  obtain ⟨hp, htri⟩ := C74_stl m.faces
  have hwf' : ∀ f ∈ (stlFaces m.faces).2, ∀ i ∈ f.toList, i < m.nv := by
    intro f hf
    have := hp.mem_iff.1 hf
    obtain ⟨g, hg, hfg⟩ := List.mem_flatMap.1 this
    have h4 := hwf g hg
    unfold triangles at hfg
    intro i hi
    apply h4
    split at hfg
    · simp at hfg; subst hfg; exact hi
    · simp at hfg
      rcases hfg with rfl | rfl <;> simp [Face.toList] at hi ⊢ <;> tauto
  obtain ⟨s, hs, hr⟩ := stlFacets_read norm m hv _ htri hwf' (fun f hf => hn f (hp.mem_iff.1 hf))
  refine ⟨"solid meshmagick\n".toList ++ s ++ "endsolid meshmagick\n".toList, by simp only [writeSTL, hs], ?_⟩
  · have e : "solid meshmagick\n".toList = "solid meshmagick".toList ++ nl := by decide
    have hpl : Plain "solid meshmagick".toList := plain_lit (by decide)
    unfold readStl
    rw [e]
    simp only [List.append_assoc]
    rw [firstLine_plain hpl, afterLine_plain hpl, if_pos (by decide), hr]
    have : readFacets (split "endsolid meshmagick\n".toList) = some [] := by decide
    rw [this]; simp

/-- C99: an STL file describes the surface of the mesh. For every mesh whose faces refer to existing vertices, the writer does
not raise; a reader of the format accepts the file; and it finds, up to their order, the triangles of the faces
(quadrangles cut along their first diagonal), with their corners in the same order and, for the triangles which are not
flat, the unit normal given by the right-hand rule, to seven digits. `norm` is the norm computed by numpy; the numbers
printed are in the range of floating point numbers. -/
theorem C99_stl (norm : V3 ℚ → ℚ) (m : Mesh ℚ) (hwf : m.WF) (hv : ∀ v ∈ m.vertices, FloatPoint v)
    (hn : ∀ f ∈ m.faces.flatMap triangles, FloatNormal norm (m.vert f.a) (m.vert f.b) (m.vert f.c)) :
    ∃ s ts tris, writeSTL norm m = .ok s ∧ readStl s = some ts ∧ tris.Perm (m.faces.flatMap triangles) ∧
      List.Forall₂ (fun f t => FacetOf norm (m.vert f.a) (m.vert f.b) (m.vert f.c) t) tris ts := by
  obtain ⟨s, hs, hr⟩ := readStl_write norm m hwf hv hn
  refine ⟨s, _, (stlFaces m.faces).2, hs, hr, (C74_stl m.faces).1, ?_⟩
  generalize (stlFaces m.faces).2 = l
  induction l with
  | nil => simp
  | cons f l ih => simp [facetOf_read, ih]

/-- A quadrangle, a triangle and a flat triangle. -/
def stlSample : Mesh ℚ where
  vertices := [⟨0, 0, 0⟩, ⟨3, 0, 0⟩, ⟨3, 2, 0⟩, ⟨0, 2, 0⟩, ⟨0, 0, 1 / 3⟩]
  faces := [⟨0, 1, 2, 3⟩, ⟨0, 4, 1, 0⟩, ⟨0, 1, 1, 0⟩]

/-- The norm of the vectors which have two zero components. -/
def axisNorm (v : V3 ℚ) : ℚ := |v.x| + |v.y| + |v.z|

theorem stlSample_meets_C99 : stlSample.WF ∧ (∀ v ∈ stlSample.vertices, FloatPoint v) ∧
    (∀ f ∈ stlSample.faces.flatMap triangles,
      FloatNormal axisNorm (stlSample.vert f.a) (stlSample.vert f.b) (stlSample.vert f.c)) := by
  refine ⟨by decide +kernel, ?_, ?_⟩
  · unfold FloatPoint FloatRange; decide +kernel
  · unfold FloatNormal FloatRange; decide +kernel

example : (match writeSTL axisNorm stlSample with | .ok s => readStl s | .error _ => none) = some
    [⟨[some 0, some 0, some 1], [[0, 0, 0], [3, 2, 0], [0, 2, 0]]⟩,
      ⟨[some 0, some 1, some 0], [[0, 0, 0], [0, 0, 3333333 / 10000000], [3, 0, 0]]⟩,
      ⟨[none, none, none], [[0, 0, 0], [3, 0, 0], [3, 0, 0]]⟩,
      ⟨[some 0, some 0, some 1], [[0, 0, 0], [3, 0, 0], [3, 2, 0]]⟩] := by decide +kernel

end MM.Io
