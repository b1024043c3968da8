import Verif.Props.IoMar

/-!
# PNL files (C55)
-/

namespace MM.Io

open MM

/-- The coordinates that the columns of PNL files can hold. -/
def PnlRange (x : ℚ) : Prop := -999999999 ≤ x ∧ x ≤ 9999999999

theorem PnlRange.breaks {x : ℚ} (h : PnlRange x) (r : Str) : Breaks (fFix 18 x ++ r) :=
  breaks_padL (fixed_short (kn := 9) (kp := 10) (by norm_num) (by norm_num) (by norm_num; exact h.1) (by norm_num; exact h.2)
    (by norm_num) (by norm_num)) r

/-- The coordinates and the vertex numbers fit in the columns of a PNL file. -/
def FitsPNL (m : Mesh ℚ) : Prop :=
  (∀ v ∈ m.vertices, PnlRange v.x ∧ PnlRange v.y ∧ PnlRange v.z) ∧ ∀ f ∈ m.faces, ∀ i ∈ f.toList, i + 1 < 10 ^ 9

theorem FitsPNL.face {m : Mesh ℚ} (h : FitsPNL m) {f : Face} (hf : f ∈ m.faces) :
    f.a + 1 < 10 ^ 9 ∧ f.b + 1 < 10 ^ 9 ∧ f.c + 1 < 10 ^ 9 ∧ f.d + 1 < 10 ^ 9 := by
  have := h.2 f hf
  simp only [Face.toList, List.mem_cons, List.not_mem_nil, or_false, forall_eq_or_imp, forall_eq] at this
  exact this

instance (s : Str) : Decidable (Plain s) := by unfold Plain; infer_instance

theorem linesOf_lit {s : Str} (h : s = s.dropLast ++ nl) (hp : Plain s.dropLast) (r : Str) :
    linesOf (s ++ r) = s :: linesOf r := by
  conv_lhs => rw [h]
  rw [List.append_assoc, linesOf_nl hp, ← h]

theorem linesOf_blank (r : Str) : linesOf (nl ++ r) = nl :: linesOf r :=
  linesOf_nl (s := []) (by intro c hc; cases hc) r

/-- The line of a face. -/
theorem pnlFace_line (i : ℕ) {f : Face} (h : f.a + 1 < 10 ^ 9 ∧ f.b + 1 < 10 ^ 9 ∧ f.c + 1 < 10 ^ 9 ∧ f.d + 1 < 10 ^ 9) :
    ∃ s, pnlFace i f = s ++ nl ∧ Plain s ∧ pnlRow i (split (s ++ nl)) = .ok (faceRow1 f) := by
  obtain ⟨h1, h2, h3, h4⟩ := h
  have b {n : ℕ} (hn : n < 10 ^ 9) (r : Str) : Breaks (fInt 10 n ++ r) := breaks_fInt (k := 9) (by norm_num) (by norm_num) hn r
  have b5 {n : ℕ} (hn : n < 10) (r : Str) : Breaks (fInt 5 n ++ r) :=
    breaks_fInt (k := 1) (by norm_num) (by norm_num) (by simpa using hn) r
  unfold pnlFace
  split
  · rename_i hcd
    refine ⟨_, rfl, (((((plain_fInt _ _).append (plain_fInt _ _)).append (plain_fInt _ _)).append (plain_fInt _ _)).append
      (plain_fInt _ _)), ?_⟩
    simp only [List.append_assoc]
    rw [split_fInt _ _ (b5 (by norm_num) _), split_fInt _ _ (b h1 _), split_fInt _ _ (b h2 _), split_fInt _ _ (b h3 _),
      split_fInt _ _ breaks_nl', split_nl']
    have := ints_nats [i + 1, 3, f.a + 1, f.b + 1, f.c + 1]
    simp only [List.map_cons, List.map_nil] at this
    unfold pnlRow
    rw [this]
    simp [faceRow1]
    omega
  · refine ⟨_, rfl, ((((((plain_fInt _ _).append (plain_fInt _ _)).append (plain_fInt _ _)).append (plain_fInt _ _)).append
      (plain_fInt _ _)).append (plain_fInt _ _)), ?_⟩
    simp only [List.append_assoc]
    rw [split_fInt _ _ (b5 (by norm_num) _), split_fInt _ _ (b h1 _), split_fInt _ _ (b h2 _), split_fInt _ _ (b h3 _),
      split_fInt _ _ (b h4 _), split_fInt _ _ breaks_nl', split_nl']
    have := ints_nats [i + 1, 4, f.a + 1, f.b + 1, f.c + 1, f.d + 1]
    simp only [List.map_cons, List.map_nil] at this
    unfold pnlRow
    rw [this]
    simp [faceRow1]

theorem pnl_faces (l : List Face) (h : ∀ f ∈ l, f.a + 1 < 10 ^ 9 ∧ f.b + 1 < 10 ^ 9 ∧ f.c + 1 < 10 ^ 9 ∧ f.d + 1 < 10 ^ 9)
    (i : ℕ) (t : Str) :
    pnlRows i l.length (linesOf ((l.zipIdx i).flatMap (fun p => pnlFace p.2 p.1) ++ t)) = .ok (l.map faceRow1) := by
  induction l generalizing i with
  | nil => rfl
  | cons f l ih =>
    obtain ⟨s, h1, h2, h3⟩ := pnlFace_line i (h f (by simp))
    have := ih (fun f hf => h f (by simp [hf])) (i + 1)
    simp only [List.zipIdx_cons, List.flatMap_cons, h1, List.append_assoc, List.length_cons, List.map_cons]
    rw [linesOf_nl h2]
    simp only [pnlRows, List.headD_cons, List.tail_cons, h3, this]

/-- The header line with the counts. -/
theorem pnl_counts (a b : ℕ) :
    ∃ s, "         ".toList ++ natStr a ++ "         ".toList ++ natStr b ++ "         0         0\n".toList = s ++ nl ∧
      Plain s ∧ ints (split (s ++ nl)) = .ok [(a : ℤ), (b : ℤ), 0, 0] := by
  refine ⟨"         ".toList ++ natStr a ++ "         ".toList ++ natStr b ++ "         0         0".toList, ?_, ?_, ?_⟩
  · have : "         0         0\n".toList = "         0         0".toList ++ nl := by decide
    rw [this]; simp only [List.append_assoc]
  · have p1 : Plain "         ".toList := by decide
    have p2 : Plain "         0         0".toList := by decide
    exact (((p1.append (natStr_word a).plain).append p1).append (natStr_word b).plain).append p2
  · have hb : Blank "         ".toList := by
      intro c hc
      have : "         ".toList = List.replicate 9 ' ' := by decide
      rw [this] at hc
      exact blank_spaces 9 c hc
    have hbr : ∀ r : Str, Breaks ("         ".toList ++ r) := fun r => Or.inr ⟨' ', "        ".toList ++ r, rfl, by decide⟩
    have hbr0 : Breaks ("         0         0".toList ++ nl) :=
      Or.inr ⟨' ', "        0         0".toList ++ nl, by decide, by decide⟩
    simp only [List.append_assoc]
    rw [split_tok hb (natStr_word a) (hbr _), split_tok hb (natStr_word b) hbr0]
    have : split ("         0         0".toList ++ nl) = [natStr 0, natStr 0] := by decide
    rw [this]
    exact ints_nats [a, b, 0, 0]

/-- What a PNL file gives back: the vertices array and the rows of the faces array. -/
def GivesBackPNL (m : Mesh ℚ) (l : NpArr × List (List ℤ)) : Prop :=
  ∃ rows, l.1 = .rows rows ∧ GivesBack Rounded6 m ⟨rows, l.2⟩

theorem pnl_load (m : Mesh ℚ) (h : FitsPNL m) :
    loadPNL (writePNL m) = .ok (squeeze (m.vertices.map fixRow), m.faces.map faceRow) := by
  obtain ⟨s, h1, h2, h3⟩ := pnl_counts m.nf m.nv
  have hverts (t : Str) : readRows cols123 m.nv (linesOf (m.vertices.zipIdx.flatMap
        (fun p => fInt 5 (p.2 + 1) ++ fFix 18 p.1.x ++ fFix 18 p.1.y ++ fFix 18 p.1.z ++ nl) ++ t)) =
        .ok (m.vertices.map fixRow, linesOf t) := by
    rw [← zipIdx_map_fst]
    have := readRows_lines cols123
      (fun p : V3 ℚ × ℕ => fInt 5 (p.2 + 1) ++ fFix 18 p.1.x ++ fFix 18 p.1.y ++ fFix 18 p.1.z) (fun p => fixRow p.1)
      m.vertices.zipIdx
      (by
        intro p _
        exact (((plain_fInt _ _).append (plain_fFix _ _)).append (plain_fFix _ _)).append (plain_fFix _ _))
      (by
        intro p hp
        obtain ⟨h1, h2, h3⟩ := h.1 p.1 (by
          have := List.mem_map_of_mem (f := Prod.fst) hp
          rwa [List.zipIdx_map_fst] at this)
        simp only [List.append_assoc]
        rw [split_fInt _ _ (h1.breaks _), split_fFix _ _ (h2.breaks _), split_fFix _ _ (h3.breaks _),
          split_fFix _ _ breaks_nl', split_nl']
        exact floats_fixed _ _ _) t
    rw [List.length_zipIdx] at this
    exact this
  have hfaces (t : Str) := pnl_faces m.faces (fun f hf => h.face hf) 0 t
  unfold loadPNL writePNL
  rw [h1]
  simp only [List.append_assoc] at hverts h3 ⊢
  rw [linesOf_lit (s := "    --------------Hull Mesh File---------------\n".toList) (by decide +kernel) (by decide +kernel),
    linesOf_blank,
    linesOf_lit (s := "    # Number of Panels, Nodes, X-Symmetry and Y-Symmetry\n".toList) (by decide +kernel)
      (by decide +kernel),
    linesOf_nl h2, linesOf_blank,
    linesOf_lit (s := "    #Start Definition of Node Coordinates     ! node_number   x   y   z\n".toList) (by decide +kernel)
      (by decide +kernel)]
  simp only [List.drop_succ_cons, List.drop_zero, List.headD_cons, h3, ne_eq, not_true_eq_false, or_self, if_false,
    Int.toNat_natCast, hverts]
  rw [linesOf_lit (s := "   #End Definition of Node Coordinates\n".toList) (by decide +kernel) (by decide +kernel),
    linesOf_blank,
    linesOf_lit (by decide +kernel) (by decide +kernel)]
  simp only [List.drop_succ_cons, List.drop_zero]
  rw [if_neg (by simp)]
  simp only [Mesh.nf, hfaces, minusOne_faceRow1]

/-- C55, what holds: a mesh with at least two vertices, whose coordinates are between -999999999 and 9999999999, written to
a PNL file is read back with the same faces, and the same vertices rounded to six decimals. -/
theorem C55_pnl_partial (m : Mesh ℚ) (h : FitsPNL m) (hv : 2 ≤ m.nv) :
    ∃ l, loadPNL (writePNL m) = .ok l ∧ GivesBackPNL m l := by
  refine ⟨_, pnl_load m h, m.vertices.map fixRow, ?_, givesBack_fix m⟩
  unfold Mesh.nv at hv
  match hm : m.vertices, hv with
  | a :: b :: l, _ => rfl

/-- A mesh with a single vertex is read back with a vertices array of dimension one. -/
theorem C55_single_fails (m : Mesh ℚ) (h : FitsPNL m) (hv : m.nv = 1) :
    ∃ l, loadPNL (writePNL m) = .ok l ∧ ¬ GivesBackPNL m l := by
  refine ⟨_, pnl_load m h, ?_⟩
  rintro ⟨rows, h1, -⟩
  unfold Mesh.nv at hv
  obtain ⟨v, hv⟩ := List.length_eq_one_iff.1 hv
  rw [hv] at h1
  simp [squeeze] at h1

theorem sample_fitsPNL : FitsPNL sample := by
  constructor
  · simp only [PnlRange]; decide +kernel
  · decide

example : ∃ l, loadPNL (writePNL sample) = .ok l ∧ GivesBackPNL sample l :=
  C55_pnl_partial sample sample_fitsPNL (by decide)

/-- A mesh with faces of all kinds: a quadrangle, a triangle, and a face which repeats its last vertex. -/
example : loadPNL (writePNL ⟨sample.vertices, [⟨0, 1, 2, 3⟩, ⟨0, 1, 2, 0⟩, ⟨0, 1, 2, 2⟩]⟩) = .ok
    (.rows [[0, 0, 0], [333333 / 1000000, 0, -2], [333333 / 1000000, 1234567 / 10, -2], [0, 1, 0]],
      [[0, 1, 2, 3], [0, 1, 2, 0], [0, 1, 2, 2]]) := by decide +kernel

/-- C55 is violated for coordinates beyond the columns. -/
theorem C55_far_fails : loadPNL (writePNL ⟨[⟨-1000000000, 0, 0⟩, ⟨-1000000000, 1, 0⟩, ⟨-1000000000, 0, 1⟩],
    [⟨0, 1, 2, 0⟩]⟩) = .error .valueError := by decide +kernel

/-- Every triangular panel of a PNL file is loaded as a face which repeats its third vertex, whereas `Mesh` takes for
triangles the faces which repeat their first vertex: unless the first and the third vertices are the same, the face is not
a triangle for `Mesh`. -/
theorem C73_pnl_triangle_fails (i a b c : ℕ) (hac : a ≠ c) :
    ∃ f : Face, pnlRow i [natStr (i + 1), natStr 3, natStr (a + 1), natStr (b + 1), natStr (c + 1)] = .ok (faceRow1 f) ∧
      f.isTri = false := by
  refine ⟨⟨a, b, c, c⟩, ?_, by simpa [Face.isTri] using hac⟩
  have := ints_nats [i + 1, 3, a + 1, b + 1, c + 1]
  simp only [List.map_cons, List.map_nil] at this
  unfold pnlRow
  rw [this]
  simp [faceRow1]

end MM.Io
