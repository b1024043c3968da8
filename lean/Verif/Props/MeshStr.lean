import Verif.Model.MeshStr
import Verif.Spec.MeshStr
import Verif.Proofs.Io
import Verif.Props.IoPnl

/-!
# The text shown for a mesh (C112)
-/

namespace MM.Info

open MM MM.Io

/-! ### The lines -/

lemma linesOf_line' {s : Str} (hs : Plain s) (r : Str) : linesOf (line s ++ r) = line s :: linesOf r := by
  have h := linesOf_line (s := ind ++ s) (Plain.append (by unfold Plain; decide) hs) r
  have e : line s ++ r = (ind ++ s) ++ '\n' :: r := by simp [line, nl]
  have e' : (ind ++ s) ++ ['\n'] = line s := by simp [line, nl]
  rw [e, h, e']

lemma linesOf_nl (r : Str) : linesOf (nl ++ r) = nl :: linesOf r :=
  linesOf_line (s := []) (by intro c hc; cases hc) r

lemma plain_bounds {l1 l2 : Str} (h1 : Plain l1) (h2 : Plain l2) (x y : ℚ) : Plain (bounds l1 x l2 y) := by
  unfold bounds
  refine Plain.append h1 (Plain.append (s := [' ', '=', ' ']) (by unfold Plain; decide) ?_)
  refine Plain.append (fixedStr_word 6 x).plain (Plain.append (s := ['\t']) (by unfold Plain; decide) ?_)
  exact Plain.append h2 (Plain.append (s := [' ', '=', ' ']) (by unfold Plain; decide) (fixedStr_word 6 y).plain)

lemma linesOf_str {name : Str} (hn : Plain name) (m : Mesh ℚ) :
    linesOf (str name m) =
      [nl, line "--------------------------------------------".toList, line ("\tMESH NAME : ".toList ++ name),
       line "--------------------------------------------".toList, nl,
       line ("Number of vertices: ".toList ++ natStr m.nv), line ("Number of faces:    ".toList ++ natStr m.nf), nl,
       line ("Number of triangles:   ".toList ++ natStr (nbTriangles m)),
       line ("Number of quadrangles: ".toList ++ natStr (nbQuadrangles m)), nl,
       line (bounds "xmin".toList m.bbox.xmin "xmax".toList m.bbox.xmax),
       line (bounds "ymin".toList m.bbox.ymin "ymax".toList m.bbox.ymax),
       line (bounds "zmin".toList m.bbox.zmin "zmax".toList m.bbox.zmax), nl, nl, ind] := by
  have hw : ∀ n, Plain (natStr n) := fun n => (natStr_word n).plain
  unfold str
  simp only []
  rw [linesOf_nl, linesOf_line' (by unfold Plain; decide),
    linesOf_line' (Plain.append (by unfold Plain; decide) hn), linesOf_line' (by unfold Plain; decide), linesOf_nl,
    linesOf_line' (Plain.append (by unfold Plain; decide) (hw _)),
    linesOf_line' (Plain.append (by unfold Plain; decide) (hw _)), linesOf_nl,
    linesOf_line' (Plain.append (by unfold Plain; decide) (hw _)),
    linesOf_line' (Plain.append (by unfold Plain; decide) (hw _)), linesOf_nl,
    linesOf_line' (plain_bounds (by unfold Plain; decide) (by unfold Plain; decide) _ _),
    linesOf_line' (plain_bounds (by unfold Plain; decide) (by unfold Plain; decide) _ _),
    linesOf_line' (plain_bounds (by unfold Plain; decide) (by unfold Plain; decide) _ _), linesOf_nl, linesOf_nl]
  have : linesOf ind = [ind] := by decide
  rw [this]

/-! ### The words of a line -/

/-- The words of a label are read off, before what follows a blank. -/
lemma split_ind (s : Str) : split (line s) = split (s ++ nl) := split_blank (blank_spaces 8) _

lemma split_last {w : Str} (hw : Word w) : split (w ++ nl) = [w] := by
  have := split_tok (s := []) (w := w) (r := nl) (by intro c hc; cases hc) hw (breaks_cons (by decide) [])
  rw [List.nil_append] at this
  rw [this, show split nl = [] from split_nl]

lemma split_word {w : Str} (hw : Word w) {c : Char} (hc : isSpace c = true) (r : Str) :
    split (w ++ c :: r) = w :: split r := by
  have h := split_tok (s := []) (w := w) (r := c :: r) (by intro c hc; cases hc) hw (breaks_cons hc r)
  rw [List.nil_append] at h
  rw [h]
  have h2 := split_blank (s := [c]) (by intro d hd; rw [List.mem_singleton] at hd; rw [hd]; exact hc) r
  rw [← h2]; rfl

lemma split_name (name : Str) : split (line ("\tMESH NAME : ".toList ++ name)) =
    "MESH".toList :: "NAME".toList :: ":".toList :: split (name ++ nl) := by
  rw [split_ind]
  have h1 := split_blank (s := ['\t']) (by unfold Blank; decide)
    ("MESH".toList ++ ' ' :: ("NAME".toList ++ ' ' :: (":".toList ++ ' ' :: (name ++ nl))))
  rw [split_word (by unfold Word; decide) (by decide), split_word (by unfold Word; decide) (by decide),
    split_word (by unfold Word; decide) (by decide)] at h1
  exact h1

lemma split_count (k : ℕ) (l : Str) (hl : Word l) (n : ℕ) :
    split (line ("Number of ".toList ++ (l ++ (List.replicate (k + 1) ' ' ++ natStr n)))) =
      ["Number".toList, "of".toList, l, natStr n] := by
  rw [split_ind]
  have h1 : ("Number of ".toList ++ (l ++ (List.replicate (k + 1) ' ' ++ natStr n))) ++ nl =
      "Number".toList ++ ' ' :: ("of".toList ++ ' ' :: (l ++ ' ' :: (List.replicate k ' ' ++ (natStr n ++ nl)))) := by
    simp [List.replicate_succ]
  rw [h1, split_word (by unfold Word; decide) (by decide), split_word (by unfold Word; decide) (by decide),
    split_word hl (by decide), split_blank (blank_spaces k), split_last (natStr_word n)]

lemma split_bounds {l1 l2 : Str} (h1 : Word l1) (h2 : Word l2) (x y : ℚ) :
    split (line (bounds l1 x l2 y)) = [l1, "=".toList, fixedStr 6 x, l2, "=".toList, fixedStr 6 y] := by
  rw [split_ind]
  have e : bounds l1 x l2 y ++ nl = l1 ++ ' ' :: ("=".toList ++ ' ' :: (fixedStr 6 x ++ '\t' :: (l2 ++ ' ' ::
      ("=".toList ++ ' ' :: (fixedStr 6 y ++ nl))))) := by simp [bounds]
  rw [e, split_word h1 (by decide), split_word (by unfold Word; decide) (by decide),
    split_word (fixedStr_word 6 x) (by decide), split_word h2 (by decide),
    split_word (by unfold Word; decide) (by decide), split_last (fixedStr_word 6 y)]

/-- The words of every line of the text. -/
lemma words_str {name : Str} (hn : Plain name) (m : Mesh ℚ) :
    (linesOf (str name m)).map split =
      [[], ["--------------------------------------------".toList],
       "MESH".toList :: "NAME".toList :: ":".toList :: split (name ++ nl),
       ["--------------------------------------------".toList], [],
       ["Number".toList, "of".toList, "vertices:".toList, natStr m.nv],
       ["Number".toList, "of".toList, "faces:".toList, natStr m.nf], [],
       ["Number".toList, "of".toList, "triangles:".toList, natStr (nbTriangles m)],
       ["Number".toList, "of".toList, "quadrangles:".toList, natStr (nbQuadrangles m)], [],
       ["xmin".toList, "=".toList, fixedStr 6 m.bbox.xmin, "xmax".toList, "=".toList, fixedStr 6 m.bbox.xmax],
       ["ymin".toList, "=".toList, fixedStr 6 m.bbox.ymin, "ymax".toList, "=".toList, fixedStr 6 m.bbox.ymax],
       ["zmin".toList, "=".toList, fixedStr 6 m.bbox.zmin, "zmax".toList, "=".toList, fixedStr 6 m.bbox.zmax],
       [], [], []] := by
  have hd : split (line "--------------------------------------------".toList) =
      ["--------------------------------------------".toList] := by decide +kernel
  have hi : split ind = [] := by decide
  have h1 := split_count 0 "vertices:".toList (by unfold Word; decide) m.nv
  have h2 := split_count 3 "faces:".toList (by unfold Word; decide) m.nf
  have h3 := split_count 2 "triangles:".toList (by unfold Word; decide) (nbTriangles m)
  have h4 := split_count 0 "quadrangles:".toList (by unfold Word; decide) (nbQuadrangles m)
  have hx := split_bounds (l1 := "xmin".toList) (l2 := "xmax".toList) (by unfold Word; decide) (by unfold Word; decide)
    m.bbox.xmin m.bbox.xmax
  have hy := split_bounds (l1 := "ymin".toList) (l2 := "ymax".toList) (by unfold Word; decide) (by unfold Word; decide)
    m.bbox.ymin m.bbox.ymax
  have hz := split_bounds (l1 := "zmin".toList) (l2 := "zmax".toList) (by unfold Word; decide) (by unfold Word; decide)
    m.bbox.zmin m.bbox.zmax
  rw [linesOf_str hn]
  simp only [List.map_cons, List.map_nil]
  rw [show split nl = [] from split_nl, hd, split_name, hi, hx, hy, hz]
  have e1 : "Number of ".toList ++ ("vertices:".toList ++ (List.replicate (0 + 1) ' ' ++ natStr m.nv)) =
      "Number of vertices: ".toList ++ natStr m.nv := by simp [List.replicate_succ]
  have e2 : "Number of ".toList ++ ("faces:".toList ++ (List.replicate (3 + 1) ' ' ++ natStr m.nf)) =
      "Number of faces:    ".toList ++ natStr m.nf := by simp [List.replicate_succ]
  have e3 : "Number of ".toList ++ ("triangles:".toList ++ (List.replicate (2 + 1) ' ' ++ natStr (nbTriangles m))) =
      "Number of triangles:   ".toList ++ natStr (nbTriangles m) := by simp [List.replicate_succ]
  have e4 : "Number of ".toList ++ ("quadrangles:".toList ++ (List.replicate (0 + 1) ' ' ++ natStr (nbQuadrangles m))) =
      "Number of quadrangles: ".toList ++ natStr (nbQuadrangles m) := by simp [List.replicate_succ]
  rw [e1] at h1
  rw [e2] at h2
  rw [e3] at h3
  rw [e4] at h4
  rw [h1, h2, h3, h4]

/-- The lines which begin with a label, from the words of the lines. -/
lemma after_eq (label : List String) (text : Str) : after label text =
    ((linesOf text).map split).filterMap fun ws =>
      if ws.take (label.map String.toList).length = label.map String.toList
      then some (ws.drop (label.map String.toList).length) else none := by
  unfold after
  rw [List.filterMap_map]
  rfl

/-! ### The quantities -/

lemma range_foldl (f : V3 ℚ → ℚ) (v : V3 ℚ) (vs : List (V3 ℚ)) :
    Range ((v :: vs).map f) (vs.foldl (fun a w => min a (f w)) (f v)) (vs.foldl (fun a w => max a (f w)) (f v)) := by
  have key : ∀ (vs : List (V3 ℚ)) (a b : ℚ),
      (vs.foldl (fun a w => min a (f w)) a ∈ a :: vs.map f) ∧ (vs.foldl (fun a w => max a (f w)) b ∈ b :: vs.map f) ∧
      (vs.foldl (fun a w => min a (f w)) a ≤ a) ∧ (b ≤ vs.foldl (fun a w => max a (f w)) b) ∧
      ∀ w ∈ vs, vs.foldl (fun a w => min a (f w)) a ≤ f w ∧ f w ≤ vs.foldl (fun a w => max a (f w)) b := by
    intro vs
    induction vs with
    | nil => intro a b; simp
    | cons u us ih =>
      intro a b
      obtain ⟨h1, h2, h3, h4, h5⟩ := ih (min a (f u)) (max b (f u))
      simp only [List.foldl_cons, List.map_cons, List.mem_cons] at *
      refine ⟨?_, ?_, h3.trans (min_le_left _ _), (le_max_left _ _).trans h4, ?_⟩
      · rcases h1 with h1 | h1
        · rcases min_choice a (f u) with h | h <;> rw [h] at h1 ⊢ <;> simp [h1]
        · exact Or.inr (Or.inr h1)
      · rcases h2 with h2 | h2
        · rcases max_choice b (f u) with h | h <;> rw [h] at h2 ⊢ <;> simp [h2]
        · exact Or.inr (Or.inr h2)
      · rintro w (rfl | hw)
        · exact ⟨h3.trans (min_le_right _ _), (le_max_right _ _).trans h4⟩
        · exact h5 w hw
  obtain ⟨h1, h2, h3, h4, h5⟩ := key vs (f v) (f v)
  refine ⟨fun h => by simp at h, fun _ => ⟨h1, h2⟩, ?_⟩
  intro x hx
  simp only [List.map_cons, List.mem_cons, List.mem_map] at hx
  rcases hx with rfl | ⟨w, hw, rfl⟩
  · exact ⟨h3, h4⟩
  · exact h5 w hw

lemma range_bbox (m : Mesh ℚ) :
    Range (m.vertices.map V3.x) m.bbox.xmin m.bbox.xmax ∧ Range (m.vertices.map V3.y) m.bbox.ymin m.bbox.ymax ∧
    Range (m.vertices.map V3.z) m.bbox.zmin m.bbox.zmax := by
  unfold Mesh.bbox
  cases m.vertices with
  | nil => simp [Range]
  | cons v vs => exact ⟨range_foldl V3.x v vs, range_foldl V3.y v vs, range_foldl V3.z v vs⟩

lemma range_filter {α : Type} (p : α → Bool) (l : List α) :
    ((List.range l.length).filter fun i => (l[i]?.map p).getD false).length = l.countP p := by
  induction l using List.reverseRecOn with
  | nil => rfl
  | append_singleton l a ih =>
    rw [List.length_append, List.length_singleton, List.range_succ, List.filter_append, List.length_append,
      List.countP_append, ← ih]
    congr 1
    · congr 1
      apply List.filter_congr
      intro i hi
      rw [List.getElem?_append_left (List.mem_range.1 hi)]
    · simp only [List.getElem?_append_right (le_refl _), Nat.sub_self, List.getElem?_cons_zero, Option.map_some,
        Option.getD_some, List.filter_cons, List.filter_nil, List.countP_cons, List.countP_nil]
      cases p a <;> simp

lemma nbTriangles_eq (m : Mesh ℚ) : nbTriangles m = m.faces.countP fun f => decide (f.a = f.d) := by
  unfold nbTriangles Mesh.trianglesIds
  rw [show m.nf = m.faces.length from rfl, range_filter]
  congr 1

lemma nbQuadrangles_eq (m : Mesh ℚ) : nbQuadrangles m = m.faces.countP fun f => decide (f.a ≠ f.d) := by
  unfold nbQuadrangles Mesh.quadranglesIds
  rw [show m.nf = m.faces.length from rfl, range_filter]
  apply List.countP_congr
  intro f _
  simp [Face.isTri]

/-- **C112.** The text shown for a mesh (`print(mesh)`, `--info`) gives each quantity on exactly one line: the exact
numbers of vertices, faces, triangles (faces whose first and last vertex numbers are equal) and quadrangles, and, to 6
decimals, the least and greatest coordinates of the vertices along each axis (zeros when there is no vertex). For every
mesh, empty ones included, and every name without an end of line; the name is shown on its line. -/
theorem C112_mesh_text (name : Str) (hn : '\n' ∉ name) (m : Mesh ℚ) :
    Shows (str name m) ["Number", "of", "vertices:"] m.vertices.length ∧
    Shows (str name m) ["Number", "of", "faces:"] m.faces.length ∧
    Shows (str name m) ["Number", "of", "triangles:"] (m.faces.countP fun f => decide (f.a = f.d)) ∧
    Shows (str name m) ["Number", "of", "quadrangles:"] (m.faces.countP fun f => decide (f.a ≠ f.d)) ∧
    (∃ x y, Range (m.vertices.map V3.x) x y ∧ ShowsRange (str name m) "xmin" "xmax" x y) ∧
    (∃ x y, Range (m.vertices.map V3.y) x y ∧ ShowsRange (str name m) "ymin" "ymax" x y) ∧
    (∃ x y, Range (m.vertices.map V3.z) x y ∧ ShowsRange (str name m) "zmin" "zmax" x y) ∧
    ("        \tMESH NAME : ".toList ++ name ++ ['\n'] ∈ linesOf (str name m) ∧
      (after ["MESH", "NAME", ":"] (str name m)).length = 1) := by
  have hp : Plain name := fun c hc h => hn (h ▸ hc)
  have hws := words_str hp m
  obtain ⟨bx, by_, bz⟩ := range_bbox m
  have hr : ∀ (lo hi : String) (x y : ℚ),
      after [lo, "="] (str name m) = [[fixedStr 6 x, hi.toList, "=".toList, fixedStr 6 y]] →
      ShowsRange (str name m) lo hi x y := fun lo hi x y h =>
    ⟨_, _, _, _, h, parseFloat_fixedStr 6 x, parseFloat_fixedStr 6 y, fixedVal_near 6 x, fixedVal_near 6 y⟩
  refine ⟨⟨_, ?_, parseInt_natStr _⟩, ⟨_, ?_, parseInt_natStr _⟩, ⟨_, ?_, parseInt_natStr _⟩,
    ⟨_, ?_, parseInt_natStr _⟩, ⟨_, _, bx, hr _ _ _ _ ?_⟩, ⟨_, _, by_, hr _ _ _ _ ?_⟩, ⟨_, _, bz, hr _ _ _ _ ?_⟩, ?_⟩
  · rw [after_eq, hws]; simp [Mesh.nv]
  · rw [after_eq, hws]; simp [Mesh.nf]
  · rw [after_eq, hws, ← nbTriangles_eq]; simp
  · rw [after_eq, hws, ← nbQuadrangles_eq]; simp
  · rw [after_eq, hws]; simp
  · rw [after_eq, hws]; simp
  · rw [after_eq, hws]; simp
  · refine ⟨?_, ?_⟩
    · rw [linesOf_str hp]
      have : "        \tMESH NAME : ".toList ++ name ++ ['\n'] = line ("\tMESH NAME : ".toList ++ name) := by
        simp [line, ind, nl, List.replicate_succ]
      rw [this]
      simp
    · rw [after_eq, hws]; simp

/-- A mesh with a triangle and a quadrangle. -/
def roof : Mesh ℚ := ⟨[⟨0, 0, 0⟩, ⟨1, 0, 0⟩, ⟨1, 1, -1 / 3⟩, ⟨0, 1, 0⟩, ⟨1 / 2, 2, 2 / 3⟩], [⟨0, 1, 2, 3⟩, ⟨3, 2, 4, 3⟩]⟩

/-- The hypothesis of `C112_mesh_text` and what it says, on a mesh. -/
theorem roof_meets_C112 : '\n' ∉ "hull".toList ∧ Shows (str "hull".toList roof) ["Number", "of", "vertices:"] 5 ∧
    Shows (str "hull".toList roof) ["Number", "of", "triangles:"] 1 ∧
    after ["zmin", "="] (str "hull".toList roof) =
      [["-0.333333".toList, "zmax".toList, "=".toList, "0.666667".toList]] :=
  ⟨by decide, (C112_mesh_text _ (by decide) roof).1, (C112_mesh_text _ (by decide) roof).2.2.1, by decide +kernel⟩

/-- Without the condition on the name, the text can show two numbers of vertices. -/
theorem C112_fails_for_names_with_lines :
    after ["Number", "of", "vertices:"] (str "hull\nNumber of vertices: 9".toList roof) =
      [["9".toList], ["5".toList]] := by decide +kernel

end MM.Info
