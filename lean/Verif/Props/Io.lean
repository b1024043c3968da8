import Verif.Proofs.Io
import Verif.Spec.Witness

/-!
# Files give back the mesh (C51–C55)
-/

namespace MM.Io

open MM

/-! ### NEM (C53) -/

/-- What the reader makes of a NEM file. -/
theorem loadNEM_write (m : Mesh ℚ) :
    loadNEM (writeNEM m) = .ok ⟨m.vertices.map fixRow, m.faces.map faceRow⟩ := by
  have key := loadBlocks_lines m
    (fun v => fFix 15 v.x ++ '\t' :: fFix 15 v.y ++ '\t' :: fFix 15 v.z)
    (fun f => fInt 10 (f.a + 1) ++ '\t' :: fInt 10 (f.b + 1) ++ '\t' :: fInt 10 (f.c + 1) ++ '\t' :: fInt 10 (f.d + 1))
    fixRow (fun _ => rfl)
    (by
      intro v _
      refine ⟨(((plain_fFix _ _).append (plain_tab (plain_fFix _ _))).append (plain_tab (plain_fFix _ _))), ?_⟩
      simp only [List.append_assoc, List.cons_append]
      rw [split_fFix _ _ (breaks_tab _), split_tab, split_fFix _ _ (breaks_tab _), split_tab, split_fFix _ _ breaks_nl',
        split_nl']
      exact floats_fixed _ _ _)
    (by
      intro f _
      refine ⟨((((plain_fInt _ _).append (plain_tab (plain_fInt _ _))).append (plain_tab (plain_fInt _ _))).append
        (plain_tab (plain_fInt _ _))), ?_⟩
      simp only [List.append_assoc, List.cons_append]
      rw [split_fInt _ _ (breaks_tab _), split_tab, split_fInt _ _ (breaks_tab _), split_tab, split_fInt _ _ (breaks_tab _),
        split_tab, split_fInt _ _ breaks_nl', split_nl']
      exact ints4 _ _ _ _)
  have hl : ∀ n, intLine (fInt 0 n ++ nl) = .ok (n : ℤ) := by
    intro n
    unfold intLine
    rw [split_fInt _ _ breaks_nl', split_nl']
    simp [conv, parseInt_natStr]
  unfold loadNEM writeNEM
  simp only [List.append_assoc, List.cons_append] at key ⊢
  rw [linesOf_nl (plain_fInt _ _), linesOf_nl (plain_fInt _ _)]
  simp only [List.headD_cons, List.tail_cons, hl]
  exact key

/-- C53: every mesh written to a NEM file is read back with the same faces, and the same vertices rounded to six
decimals. There is no condition on the number of vertices and faces, on the vertex numbers or on the size of the
coordinates. -/
theorem C53_nem (m : Mesh ℚ) : ∃ l, loadNEM (writeNEM m) = .ok l ∧ GivesBack Rounded6 m l :=
  ⟨_, loadNEM_write m, givesBack_fix m⟩

/-- A mesh with a quadrangle and a triangle, negative and large coordinates. -/
def sample : Mesh ℚ where
  vertices := [⟨0, 0, 0⟩, ⟨1 / 3, 0, -2⟩, ⟨1 / 3, 1234567 / 10, -2⟩, ⟨0, 1, 1 / 2000000⟩]
  faces := [⟨0, 1, 2, 3⟩, ⟨0, 1, 2, 0⟩, ⟨0, 2, 3, 0⟩, ⟨3, 2, 1, 0⟩]

example : loadNEM (writeNEM sample) = .ok
    ⟨[[0, 0, 0], [333333 / 1000000, 0, -2], [333333 / 1000000, 1234567 / 10, -2], [0, 1, 0]],
      [[0, 1, 2, 3], [0, 1, 2, 0], [0, 2, 3, 0], [3, 2, 1, 0]]⟩ := by decide +kernel

/-! ### NAT (C52) -/

/-- The coordinates are in the range of floating point numbers; vertex numbers have less than ten digits. -/
def Usual (m : Mesh ℚ) : Prop :=
  (∀ v ∈ m.vertices, FloatRange v.x ∧ FloatRange v.y ∧ FloatRange v.z) ∧
    ∀ f ∈ m.faces, ∀ i ∈ f.toList, i + 1 < 10 ^ 9

theorem Usual.face {m : Mesh ℚ} (h : Usual m) {f : Face} (hf : f ∈ m.faces) :
    f.a + 1 < 10 ^ 9 ∧ f.b + 1 < 10 ^ 9 ∧ f.c + 1 < 10 ^ 9 ∧ f.d + 1 < 10 ^ 9 := by
  have := h.2 f hf
  simp only [Face.toList, List.mem_cons, List.not_mem_nil, or_false, forall_eq_or_imp, forall_eq] at this
  exact this

/-- The line of a face in fixed columns. -/
theorem face_line {f : Face} (h : f.a + 1 < 10 ^ 9 ∧ f.b + 1 < 10 ^ 9 ∧ f.c + 1 < 10 ^ 9 ∧ f.d + 1 < 10 ^ 9) :
    Plain (fInt 10 (f.a + 1) ++ fInt 10 (f.b + 1) ++ fInt 10 (f.c + 1) ++ fInt 10 (f.d + 1)) ∧
    split ((fInt 10 (f.a + 1) ++ fInt 10 (f.b + 1) ++ fInt 10 (f.c + 1) ++ fInt 10 (f.d + 1)) ++ nl)
      = [natStr (f.a + 1), natStr (f.b + 1), natStr (f.c + 1), natStr (f.d + 1)] := by
  obtain ⟨-, h2, h3, h4⟩ := h
  refine ⟨(((plain_fInt _ _).append (plain_fInt _ _)).append (plain_fInt _ _)).append (plain_fInt _ _), ?_⟩
  have b {n : ℕ} (hn : n < 10 ^ 9) (r : Str) : Breaks (fInt 10 n ++ r) := breaks_fInt (k := 9) (by norm_num) (by norm_num) hn r
  simp only [List.append_assoc]
  rw [split_fInt _ _ (b h2 _), split_fInt _ _ (b h3 _), split_fInt _ _ (b h4 _), split_fInt _ _ breaks_nl', split_nl']

/-- The header line of a NAT file. -/
theorem nat_header {a b : ℕ} (hb : b < 10 ^ 5) (r : Str) :
    (linesOf (fInt 6 0 ++ fInt 6 0 ++ nl ++ (fInt 6 a ++ fInt 6 b ++ nl ++ r))).tail
      = (fInt 6 a ++ fInt 6 b ++ nl) :: linesOf r ∧
    ints (split (fInt 6 a ++ fInt 6 b ++ nl)) = .ok [(a : ℤ), (b : ℤ)] := by
  constructor
  · have h1 := linesOf_nl ((plain_fInt 6 0).append (plain_fInt 6 0)) (fInt 6 a ++ fInt 6 b ++ nl ++ r)
    have h2 := linesOf_nl ((plain_fInt 6 a).append (plain_fInt 6 b)) r
    simp only [List.append_assoc] at h1 h2 ⊢
    rw [h1, List.tail_cons, h2]
  · rw [List.append_assoc, split_fInt _ _ (breaks_fInt (k := 5) (by norm_num) (by norm_num) hb _),
      split_fInt _ _ breaks_nl', split_nl']
    exact ints2 _ _

/-- What `load_NAT` returns for the file of a mesh. -/
theorem loadNAT_write (m : Mesh ℚ) (hu : Usual m) (hv : 3 ≤ m.nv) (hf : 4 ≤ m.nf) (hf' : m.nf < 100000) :
    loadNAT (writeNAT m) = .ok ⟨m.vertices.map sciRow, m.faces.map faceRow⟩ := by
  have key := loadBlocks_lines m (fun v => fSci 15 v.x ++ fSci 15 v.y ++ fSci 15 v.z)
    (fun f => fInt 10 (f.a + 1) ++ fInt 10 (f.b + 1) ++ fInt 10 (f.c + 1) ++ fInt 10 (f.d + 1))
    sciRow (fun _ => rfl)
    (by
      intro v hv
      obtain ⟨-, h2, h3⟩ := hu.1 v hv
      refine ⟨((plain_fSci _ _).append (plain_fSci _ _)).append (plain_fSci _ _), ?_⟩
      simp only [List.append_assoc]
      rw [split_fSci _ _ (breaks_fSci (by norm_num) h2 _), split_fSci _ _ (breaks_fSci (by norm_num) h3 _),
        split_fSci _ _ breaks_nl', split_nl']
      exact floats_sci _ _ _)
    (by
      intro f hf
      obtain ⟨h1, h2⟩ := face_line (hu.face hf)
      refine ⟨h1, ?_⟩
      rw [h2]; exact ints4 _ _ _ _)
  have hd := nat_header (a := m.nv) (b := m.nf) (by simpa using hf')
    (m.vertices.flatMap (fun v => fSci 15 v.x ++ fSci 15 v.y ++ fSci 15 v.z ++ nl)
    ++ m.faces.flatMap (fun f => fInt 10 (f.a + 1) ++ fInt 10 (f.b + 1) ++ fInt 10 (f.c + 1) ++ fInt 10 (f.d + 1) ++ nl))
  unfold loadNAT writeNAT
  simp only [max_eq_left hv, max_eq_left hf]
  rw [List.append_assoc, List.append_assoc, hd.1]
  simp only [List.headD_cons, List.tail_cons, hd.2]
  exact key

/-- C52, what holds: with at least three vertices and from 4 to 99999 faces, a mesh written to a NAT file is read back with
the same faces and the same vertices up to seven significant digits. -/
theorem C52_nat_partial (m : Mesh ℚ) (hu : Usual m) (hv : 3 ≤ m.nv) (hf : 4 ≤ m.nf) (hf' : m.nf < 100000) :
    ∃ l, loadNAT (writeNAT m) = .ok l ∧ GivesBack Rounded7Digits m l :=
  ⟨_, loadNAT_write m hu hv hf hf', givesBack_sci m⟩

theorem readRows_length {α : Type} (p : List Str → Except PyErr α) (n : ℕ) (ls : List Str) (q : List α × List Str)
    (h : readRows p n ls = .ok q) : q.1.length = n := by
  induction n generalizing ls q with
  | zero => simp only [readRows, Except.ok.injEq] at h; rw [← h]; rfl
  | succ n ih =>
    simp only [readRows] at h
    split at h
    · cases h
    · split at h
      · cases h
      · rename_i h2
        cases h
        simp [ih _ _ h2]

theorem rect_eq {α : Type} {rows r : List (List α)} (h : rect rows = .ok r) : r = rows := by
  unfold rect at h; split at h
  · cases h; rfl
  · cases h

theorem loadBlocks_length {nv nf : ℤ} {ls : List Str} {l : Loaded} (h : loadBlocks nv nf ls = .ok l) :
    l.vertices.length = nv.toNat ∧ l.faces.length = nf.toNat := by
  unfold loadBlocks at h
  split at h
  · cases h
  · rename_i h1
    split at h
    · cases h
    · rename_i h2
      split at h
      · cases h
      · rename_i h3
        split at h
        · cases h
        · rename_i h4
          cases h
          have e1 := rect_eq h2
          have e2 := rect_eq h4
          subst e1 e2
          exact ⟨readRows_length _ _ _ _ h1, by simpa [minusOne] using readRows_length _ _ _ _ h3⟩

/-- Two numbers written without a blank between them. -/
theorem split_fused {a b : ℕ} (hb : 10 ^ 5 ≤ b) :
    split (fInt 6 a ++ fInt 6 b ++ nl) = [natStr a ++ natStr b] := by
  have hlen : 6 ≤ (natStr b).length := by
    by_contra h
    have h1 : (natStr b).length ≤ 5 := by omega
    have h2 : ∀ s : Str, AllDigits s → digitsVal s < 10 ^ s.length := by
      intro s
      induction s using List.reverseRecOn with
      | nil => simp [digitsVal]
      | append_singleton s c ih =>
        intro hs
        have h3 := ih (fun d hd => hs d (by simp [hd]))
        have h4 : digitVal c ≤ 9 := by
          have := hs c (by simp)
          simp only [isDigit, Bool.and_eq_true, decide_eq_true_eq] at this
          unfold digitVal; omega
        rw [digitsVal_append, digitsVal_singleton, List.length_append]
        simp only [List.length_cons, List.length_nil, Nat.zero_add, pow_one, pow_succ]
        omega
    have h3 := h2 _ (natStr_digits b)
    rw [digitsVal_natStr] at h3
    have h4 : (10 : ℕ) ^ (natStr b).length ≤ 10 ^ 5 := Nat.pow_le_pow_right (by norm_num) h1
    omega
  have e : fInt 6 b = natStr b := by unfold fInt padL; rw [Nat.sub_eq_zero_of_le hlen]; rfl
  rw [e]
  have hw : Word (natStr a ++ natStr b) := by
    refine ⟨by simp [natStr_ne_nil], ?_⟩
    intro c hc
    rcases List.mem_append.1 hc with h | h
    · exact (natStr_word a).2 c h
    · exact (natStr_word b).2 c h
  have := split_padL (w := natStr a ++ natStr b) (6 - (natStr a).length + (natStr a ++ natStr b).length) hw breaks_nl'
  rw [split_nl'] at this
  rw [← this]
  unfold fInt padL
  simp

/-- C52 is violated: a mesh with less than four faces, or less than three vertices, written to a NAT file is never read
back; neither is a mesh of 100000 faces or more. -/
theorem C52_nat_fails (m : Mesh ℚ) (h : m.nv < 3 ∨ m.nf < 4 ∨ 100000 ≤ m.nf) (R : ℚ → ℚ → Prop) :
    ¬ ∃ l, loadNAT (writeNAT m) = .ok l ∧ GivesBack R m l := by
  rintro ⟨l, hl, hg⟩
  have hlen : l.vertices.length = m.nv ∧ l.faces.length = m.nf := by
    refine ⟨hg.1.length_eq.symm, ?_⟩
    rw [hg.2]; simp [Mesh.nf]
  unfold loadNAT writeNAT at hl
  simp only at hl
  rw [List.append_assoc, List.append_assoc] at hl
  generalize m.vertices.flatMap _ ++ m.faces.flatMap _ = t at hl
  by_cases hb : max m.nf 4 < 10 ^ 5
  · have hd := nat_header (a := max m.nv 3) hb t
    rw [hd.1] at hl
    simp only [List.headD_cons, List.tail_cons, hd.2] at hl
    have := loadBlocks_length hl
    simp only [Int.toNat_natCast] at this
    omega
  · have h1 := linesOf_nl ((plain_fInt 6 0).append (plain_fInt 6 0)) (fInt 6 (max m.nv 3) ++ fInt 6 (max m.nf 4) ++ nl ++ t)
    have h2 := linesOf_nl ((plain_fInt 6 (max m.nv 3)).append (plain_fInt 6 (max m.nf 4))) t
    simp only [List.append_assoc] at h1 h2 hl
    rw [h1, List.tail_cons, h2] at hl
    have h3 := split_fused (a := max m.nv 3) (not_lt.1 hb)
    simp only [List.append_assoc] at h3
    rw [List.headD_cons, h3] at hl
    have h4 : AllDigits (natStr (max m.nv 3) ++ natStr (max m.nf 4)) := by
      intro c hc
      rcases List.mem_append.1 hc with h | h
      · exact natStr_digits _ c h
      · exact natStr_digits _ c h
    have h5 := parseInt_digits h4 (by simp [natStr_ne_nil])
    simp [ints, convAll, conv, h5] at hl

theorem sample_usual : Usual sample := by
  constructor
  · have : ∀ v ∈ sample.vertices, (v.x = 0 ∨ (1 : ℚ) / 10 ^ 400 ≤ |v.x| ∧ |v.x| < 10 ^ 400) ∧
        (v.y = 0 ∨ (1 : ℚ) / 10 ^ 400 ≤ |v.y| ∧ |v.y| < 10 ^ 400) ∧
        (v.z = 0 ∨ (1 : ℚ) / 10 ^ 400 ≤ |v.z| ∧ |v.z| < 10 ^ 400) := by decide +kernel
    have e : (10 : ℚ) ^ (-(400 : ℤ)) = 1 / 10 ^ 400 := by rw [zpow_neg]; norm_cast; rw [one_div]
    have e2 : (10 : ℚ) ^ (400 : ℤ) = 10 ^ 400 := by norm_cast
    simpa only [FloatRange, e, e2] using this
  · decide

example : ∃ l, loadNAT (writeNAT sample) = .ok l ∧ GivesBack Rounded7Digits sample l :=
  C52_nat_partial sample sample_usual (by decide) (by decide) (by decide)

example : loadNAT (writeNAT sample) = .ok
    ⟨[[0, 0, 0], [3333333 / 10000000, 0, -2], [3333333 / 10000000, 1234567 / 10, -2], [0, 1, 1 / 2000000]],
      [[0, 1, 2, 3], [0, 1, 2, 0], [0, 2, 3, 0], [3, 2, 1, 0]]⟩ := by decide +kernel

/-- A triangle written to a NAT file cannot be loaded. -/
example : loadNAT (writeNAT ⟨[⟨0, 0, 0⟩, ⟨1, 0, 0⟩, ⟨0, 1, 0⟩], [⟨0, 1, 2, 0⟩]⟩) = .error .valueError := by
  decide +kernel

end MM.Io
