import Verif.Props.IoMar

/-!
# GDF files (C54)
-/

namespace MM.Io

open MM

/-- The loaded faces have, corner by corner, the points of the faces of the mesh, with coordinates related by `R`. -/
def GivesBackCorners (R : ℚ → ℚ → Prop) (m : Mesh ℚ) (l : Loaded) : Prop :=
  List.Forall₂ (fun (f : Face) (r : List ℤ) => List.Forall₂ (fun (i : ℕ) (q : ℤ) =>
    ∃ v row, m.vertices[i]? = some v ∧ 0 ≤ q ∧ l.vertices[q.toNat]? = some row ∧ RowOf R v row) f.toList r) m.faces l.faces

/-- The line of a corner. -/
def gdfLine (v : V3 ℚ) : Str := fSci 16 v.x ++ fSci 16 v.y ++ fSci 16 v.z

theorem gdfLine_plain (v : V3 ℚ) : Plain (gdfLine v) := ((plain_fSci _ _).append (plain_fSci _ _)).append (plain_fSci _ _)

theorem gdfLine_floats {v : V3 ℚ} (h : FloatRange v.x ∧ FloatRange v.y ∧ FloatRange v.z) :
    floats (split (gdfLine v ++ nl)) = .ok (sciRow v) := by
  obtain ⟨-, h2, h3⟩ := h
  unfold gdfLine
  simp only [List.append_assoc]
  rw [split_fSci _ _ (breaks_fSci (by norm_num) h2 _), split_fSci _ _ (breaks_fSci (by norm_num) h3 _),
    split_fSci _ _ breaks_nl', split_nl']
  exact floats_sci _ _ _

theorem gdfCorners_ok (m : Mesh ℚ) (is : List ℕ) (h : ∀ i ∈ is, i < m.nv) :
    gdfCorners m is = .ok (is.flatMap fun i => gdfLine (m.vertices.getD i ⟨0, 0, 0⟩) ++ nl) := by
  induction is with
  | nil => rfl
  | cons i is ih =>
    have hi : m.vertices[i]? = some (m.vertices.getD i ⟨0, 0, 0⟩) := by
      have : i < m.vertices.length := h i (by simp)
      simp [this]
    simp only [gdfCorners, gdfCorner, hi, ih (fun i hi => h i (by simp [hi])), List.flatMap_cons]
    simp [gdfLine]

/-- The numbers of one face. -/
def gdfNums (m : Mesh ℚ) (f : Face) : List ℚ :=
  sciRow (m.vertices.getD f.a ⟨0, 0, 0⟩) ++ sciRow (m.vertices.getD f.b ⟨0, 0, 0⟩) ++ sciRow (m.vertices.getD f.c ⟨0, 0, 0⟩)
    ++ sciRow (m.vertices.getD f.d ⟨0, 0, 0⟩)

theorem gdfFace_lines (fuel : ℕ) (l1 l2 l3 l4 : Str) (rest : List Str) (v1 v2 v3 v4 : V3 ℚ)
    (h1 : floats (split l1) = .ok (sciRow v1)) (h2 : floats (split l2) = .ok (sciRow v2))
    (h3 : floats (split l3) = .ok (sciRow v3)) (h4 : floats (split l4) = .ok (sciRow v4)) :
    gdfFace (fuel + 4) (l1 :: l2 :: l3 :: l4 :: rest) [] =
      some (.ok (sciRow v1 ++ sciRow v2 ++ sciRow v3 ++ sciRow v4, rest)) := by
  have hl : ∀ v, (sciRow v).length = 3 := fun _ => rfl
  simp only [gdfFace, List.length_nil, List.headD_cons, List.tail_cons, h1, h2, h3, h4, hl, List.length_append, List.nil_append]
  cases fuel <;> simp [gdfFace, hl]

theorem gdfFace_mono (fuel : ℕ) (ls : List Str) (cs : List ℚ) (r) (h : gdfFace fuel ls cs = some r) :
    gdfFace (fuel + 1) ls cs = some r := by
  induction fuel generalizing ls cs with
  | zero =>
    unfold gdfFace at h ⊢
    split at h
    · rw [if_pos (by assumption)]; exact h
    · simp at h
  | succ fuel ih =>
    unfold gdfFace at h ⊢
    split at h
    · rw [if_pos (by assumption)]; exact h
    · rw [if_neg (by assumption)]
      simp only at h ⊢
      split at h
      · exact h
      · split at h
        · rw [if_pos (by assumption)]; exact h
        · rw [if_neg (by assumption)]; exact ih _ _ h

theorem gdfFaces_mono (fuel n : ℕ) (ls : List Str) (r) (h : gdfFaces fuel n ls = some r) :
    gdfFaces (fuel + 1) n ls = some r := by
  induction n generalizing ls r with
  | zero => simpa [gdfFaces] using h
  | succ n ih =>
    simp only [gdfFaces] at h ⊢
    rcases h1 : gdfFace fuel ls [] with _ | (e | ⟨cs, ls'⟩)
    · simp [h1] at h
    · rw [gdfFace_mono _ _ _ _ h1]; simpa [h1] using h
    · rw [gdfFace_mono _ _ _ _ h1]
      simp only [h1] at h ⊢
      rcases h2 : gdfFaces fuel n ls' with _ | (e | r')
      · simp [h2] at h
      · rw [ih _ _ h2]; simpa [h2] using h
      · rw [ih _ _ h2]; simpa [h2] using h

theorem gdfFaces_mono' (fuel k n : ℕ) (ls : List Str) (r) (h : gdfFaces fuel n ls = some r) :
    gdfFaces (fuel + k) n ls = some r := by
  induction k with
  | zero => exact h
  | succ k ih => exact gdfFaces_mono _ _ _ _ ih

/-- At the end of the file the loop never ends. -/
theorem gdfFace_eof (fuel : ℕ) : gdfFace fuel [] [] = none := by
  induction fuel with
  | zero => rfl
  | succ fuel ih =>
    unfold gdfFace
    simp only [List.length_nil, List.headD_nil, List.tail_nil]
    have : floats (split []) = .ok [] := by rfl
    rw [if_neg (by norm_num), this]
    simpa using ih

/-- The text of the corners of faces. -/
def gdfText (m : Mesh ℚ) (fs : List Face) : Str :=
  (fs.flatMap Face.toList).flatMap fun i => gdfLine (m.vertices.getD i ⟨0, 0, 0⟩) ++ nl

theorem gdfFaces_lines (m : Mesh ℚ) (hm : ∀ i, FloatRange (m.vertices.getD i ⟨0, 0, 0⟩).x ∧
    FloatRange (m.vertices.getD i ⟨0, 0, 0⟩).y ∧ FloatRange (m.vertices.getD i ⟨0, 0, 0⟩).z)
    (fuel k : ℕ) (fs : List Face) :
    gdfFaces (fuel + 4) (fs.length + k) (linesOf (gdfText m fs)) =
      (gdfFaces (fuel + 4) k []).map (fun r => r.map (fun r => fs.map (gdfNums m) ++ r)) := by
  induction fs with
  | nil =>
    have h0 : linesOf (gdfText m []) = [] := rfl
    rw [h0]
    simp only [List.length_nil, Nat.zero_add, List.map_nil, List.nil_append]
    rcases gdfFaces (fuel + 4) k [] with _ | (e | r) <;> rfl
  | cons f fs ih =>
    have e : linesOf (gdfText m (f :: fs)) = (gdfLine (m.vertices.getD f.a ⟨0, 0, 0⟩) ++ nl) ::
        (gdfLine (m.vertices.getD f.b ⟨0, 0, 0⟩) ++ nl) :: (gdfLine (m.vertices.getD f.c ⟨0, 0, 0⟩) ++ nl) ::
        (gdfLine (m.vertices.getD f.d ⟨0, 0, 0⟩) ++ nl) :: linesOf (gdfText m fs) := by
      simp only [gdfText, List.flatMap_cons, Face.toList, List.cons_append, List.nil_append, List.append_assoc]
      rw [linesOf_nl (gdfLine_plain _), linesOf_nl (gdfLine_plain _), linesOf_nl (gdfLine_plain _),
        linesOf_nl (gdfLine_plain _)]
    have hn : (f :: fs).length + k = (fs.length + k) + 1 := by simp; omega
    rw [e, hn]
    simp only [gdfFaces]
    rw [gdfFace_lines fuel _ _ _ _ _ _ _ _ _ (gdfLine_floats (hm _)) (gdfLine_floats (hm _)) (gdfLine_floats (hm _))
      (gdfLine_floats (hm _))]
    simp only [ih]
    rcases gdfFaces (fuel + 4) k [] with _ | (e | r) <;> simp [Except.map, gdfNums]

theorem Usual.getD {m : Mesh ℚ} (h : Usual m) (i : ℕ) : FloatRange (m.vertices.getD i ⟨0, 0, 0⟩).x ∧
    FloatRange (m.vertices.getD i ⟨0, 0, 0⟩).y ∧ FloatRange (m.vertices.getD i ⟨0, 0, 0⟩).z := by
  by_cases hi : i < m.vertices.length
  · have : m.vertices.getD i ⟨0, 0, 0⟩ ∈ m.vertices := by simp [hi]
    exact h.1 _ this
  · have : m.vertices.getD i ⟨0, 0, 0⟩ = ⟨0, 0, 0⟩ := by simp [hi]
    rw [this]
    exact ⟨Or.inl rfl, Or.inl rfl, Or.inl rfl⟩

/-- What the loader does with a written file. -/
theorem gdf_load (date : Str) (hdate : Plain date) (m : Mesh ℚ) (h : Usual m) (hw : m.WF) (fuel : ℕ) :
    ∃ text, writeGDF date m = .ok text ∧
      loadGDF fuel text =
        match gdfFaces fuel (max m.nf 4) (linesOf (gdfText m m.faces)) with
        | none => none
        | some (.error e) => some (.error e)
        | some (.ok r) => some (.ok ⟨r.flatMap quarter,
            (List.range (max m.nf 4)).map fun (k : ℕ) => [4 * (k : ℤ), 4 * (k : ℤ) + 1, 4 * (k : ℤ) + 2, 4 * (k : ℤ) + 3]⟩) := by
  have hc := gdfCorners_ok m (m.faces.flatMap Face.toList) (by
    intro i hi
    obtain ⟨f, hf, hi⟩ := List.mem_flatMap.1 hi
    exact hw f hf i hi)
  refine ⟨_, by unfold writeGDF; rw [hc], ?_⟩
  have p0 : Plain ("GDF file generated by meshmagick on ".toList) := by
    unfold Plain; decide +kernel
  have hb : Breaks (fFix 16 (981 / 100) ++ nl) := by
    have := MarRange.breaks (x := 981 / 100) (by constructor <;> norm_num) nl
    exact this
  have hb1 : Breaks (fInt 12 1 ++ nl) := breaks_fInt (k := 1) (by norm_num) (by norm_num) (by norm_num) nl
  have s1 : split (fFix 16 100 ++ fFix 16 (981 / 100) ++ nl) = [fixedStr 6 100, fixedStr 6 (981 / 100)] := by
    rw [List.append_assoc, split_fFix _ _ hb, split_fFix _ _ breaks_nl', split_nl']
  have s2 : split (fInt 12 0 ++ fInt 12 1 ++ nl) = [natStr 0, natStr 1] := by
    rw [List.append_assoc, split_fInt _ _ hb1, split_fInt _ _ breaks_nl', split_nl']
  have s3 : split (fInt 12 (max m.nf 4) ++ nl) = [natStr (max m.nf 4)] := by
    rw [split_fInt _ _ breaks_nl', split_nl']
  have e : linesOf ("GDF file generated by meshmagick on ".toList ++ date ++ nl
      ++ (fFix 16 100 ++ fFix 16 (981 / 100) ++ nl) ++ (fInt 12 0 ++ fInt 12 1 ++ nl) ++ (fInt 12 (max m.nf 4) ++ nl)
      ++ gdfText m m.faces) = ("GDF file generated by meshmagick on ".toList ++ date ++ nl) ::
        (fFix 16 100 ++ fFix 16 (981 / 100) ++ nl) :: (fInt 12 0 ++ fInt 12 1 ++ nl) :: (fInt 12 (max m.nf 4) ++ nl) ::
        linesOf (gdfText m m.faces) := by
    have t0 (r : Str) := linesOf_nl (p0.append hdate) r
    have t1 (r : Str) := linesOf_nl ((plain_fFix 16 100).append (plain_fFix 16 (981 / 100))) r
    have t2 (r : Str) := linesOf_nl ((plain_fInt 12 0).append (plain_fInt 12 1)) r
    have t3 (r : Str) := linesOf_nl (plain_fInt 12 (max m.nf 4)) r
    simp only [List.append_assoc] at t0 t1 t2 t3 ⊢
    rw [t0, t1, t2, t3]
  change loadGDF fuel (_ ++ gdfText m m.faces) = _
  unfold loadGDF
  rw [e]
  simp only [List.tail_cons, List.headD_cons, s1, s2, s3]
  rw [if_neg (by simp), if_neg (by simp)]
  simp only [parseInt_natStr]
  rw [if_neg (by omega)]
  simp only [Int.toNat_natCast]
  rcases gdfFaces fuel (max m.nf 4) (linesOf (gdfText m m.faces)) with _ | (e | r) <;> rfl

theorem flatMap_quarter_get (m : Mesh ℚ) (fs : List Face) (k : ℕ) (f : Face) (hk : fs[k]? = some f) :
    ∀ j i, f.toList[j]? = some i →
      ((fs.map (gdfNums m)).flatMap quarter)[4 * k + j]? = some (sciRow (m.vertices.getD i ⟨0, 0, 0⟩)) := by
  induction fs generalizing k with
  | nil => simp at hk
  | cons g fs ih =>
    intro j i hj
    have hq : quarter (gdfNums m g) = [sciRow (m.vertices.getD g.a ⟨0, 0, 0⟩), sciRow (m.vertices.getD g.b ⟨0, 0, 0⟩),
        sciRow (m.vertices.getD g.c ⟨0, 0, 0⟩), sciRow (m.vertices.getD g.d ⟨0, 0, 0⟩)] := by
      simp [quarter, gdfNums, sciRow]
    rw [List.map_cons, List.flatMap_cons, hq]
    cases k with
    | zero =>
      simp only [List.getElem?_cons_zero, Option.some.injEq] at hk
      subst hk
      match j, hj with
      | 0, hj => simp [Face.toList] at hj ⊢; rw [hj]
      | 1, hj => simp [Face.toList] at hj ⊢; rw [hj]
      | 2, hj => simp [Face.toList] at hj ⊢; rw [hj]
      | 3, hj => simp [Face.toList] at hj ⊢; rw [hj]
      | j + 4, hj => simp [Face.toList] at hj
    | succ k =>
      have := ih k (by simpa using hk) j i hj
      have e : 4 * (k + 1) + j = (4 * k + j) + 4 := by ring
      rw [e]
      simpa using this

/-- C54, what holds: with at least four faces, a mesh written to a GDF file is read back — the loader ends as soon as it may
read four lines for each face — with faces having the same corners up to seven significant digits. -/
theorem C54_gdf_partial (date : Str) (hdate : Plain date) (m : Mesh ℚ) (h : Usual m) (hw : m.WF) (hf : 4 ≤ m.nf)
    (fuel : ℕ) (hfuel : 4 ≤ fuel) :
    ∃ text l, writeGDF date m = .ok text ∧ loadGDF fuel text = some (.ok l) ∧ GivesBackCorners Rounded7Digits m l := by
  obtain ⟨text, h1, h2⟩ := gdf_load date hdate m h hw fuel
  obtain ⟨f', rfl⟩ : ∃ f', fuel = f' + 4 := ⟨fuel - 4, by omega⟩
  have h3 := gdfFaces_lines m h.getD f' 0 m.faces
  simp only [Nat.add_zero] at h3
  rw [max_eq_left hf] at h2
  unfold Mesh.nf at h2
  rw [h3] at h2
  simp only [gdfFaces, Option.map_some, Except.map, List.append_nil] at h2
  refine ⟨text, _, h1, h2, ?_⟩
  unfold GivesBackCorners
  rw [List.forall₂_iff_get]
  refine ⟨by simp, ?_⟩
  intro k hk1 hk2
  simp only [List.get_eq_getElem, List.getElem_map, List.getElem_range]
  have hq := flatMap_quarter_get m m.faces k m.faces[k] (List.getElem?_eq_getElem hk1)
  have key : ∀ j i, (m.faces[k]).toList[j]? = some i → ∃ v row, m.vertices[i]? = some v ∧ 0 ≤ ((4 * k + j : ℕ) : ℤ) ∧
      ((m.faces.map (gdfNums m)).flatMap quarter)[((4 * k + j : ℕ) : ℤ).toNat]? = some row ∧ RowOf Rounded7Digits v row := by
    intro j i hj
    have hi : i < m.vertices.length := hw _ (List.getElem_mem hk1) i (List.mem_of_getElem? hj)
    refine ⟨m.vertices.getD i ⟨0, 0, 0⟩, sciRow (m.vertices.getD i ⟨0, 0, 0⟩), by simp [hi], by positivity, ?_, ?_⟩
    · rw [Int.toNat_natCast]; exact hq j i hj
    · exact ⟨_, _, _, rfl, rounded7_sciVal _, rounded7_sciVal _, rounded7_sciVal _⟩
  have k0 := key 0 _ rfl
  have k1 := key 1 _ rfl
  have k2 := key 2 _ rfl
  have k3 := key 3 _ rfl
  simp only [Nat.cast_add, Nat.cast_mul, Nat.cast_ofNat, Nat.cast_zero, add_zero, Nat.cast_one] at k0 k1 k2 k3
  simp only [Face.toList, List.forall₂_cons, List.forall₂_nil_left_iff, and_true]
  exact ⟨k0, k1, k2, k3⟩

/-- C54 is violated: a mesh with less than four faces written to a GDF file makes the loader loop for ever. -/
theorem C54_gdf_fails (date : Str) (hdate : Plain date) (m : Mesh ℚ) (h : Usual m) (hw : m.WF) (hf : m.nf < 4) :
    ∃ text, writeGDF date m = .ok text ∧ ∀ fuel, loadGDF fuel text = none := by
  obtain ⟨text, h1, -⟩ := gdf_load date hdate m h hw 0
  refine ⟨text, h1, ?_⟩
  intro fuel
  obtain ⟨text', h1', h2⟩ := gdf_load date hdate m h hw fuel
  rw [h1] at h1'
  cases h1'
  rw [h2]
  have hn : gdfFaces fuel (max m.nf 4) (linesOf (gdfText m m.faces)) = none := by
    by_contra hne
    obtain ⟨r, hr⟩ := Option.ne_none_iff_exists'.1 hne
    have h4 := gdfFaces_mono' fuel 4 _ _ _ hr
    obtain ⟨k, hk⟩ : ∃ k, max m.nf 4 = m.faces.length + (k + 1) := ⟨3 - m.nf, by unfold Mesh.nf at hf ⊢; omega⟩
    rw [hk, gdfFaces_lines m h.getD] at h4
    simp [gdfFaces, gdfFace_eof] at h4
  rw [hn]

/-- The premises hold of concrete meshes. -/
example : ∃ text l, writeGDF "today".toList sample = .ok text ∧ loadGDF 4 text = some (.ok l) ∧
    GivesBackCorners Rounded7Digits sample l :=
  C54_gdf_partial _ (by unfold Plain; decide) sample sample_usual (by decide) (by decide) 4 le_rfl

/-- The unit triangle. -/
def triangle : Mesh ℚ := ⟨[⟨0, 0, 0⟩, ⟨0, 0, 0⟩, ⟨0, 0, 0⟩], [⟨0, 1, 2, 0⟩]⟩

example : ∃ text, writeGDF "today".toList triangle = .ok text ∧ ∀ fuel, loadGDF fuel text = none :=
  C54_gdf_fails _ (by unfold Plain; decide) triangle
    ⟨by intro v hv; simp [triangle] at hv; subst hv; exact ⟨Or.inl rfl, Or.inl rfl, Or.inl rfl⟩, by decide⟩
    (by decide) (by decide)

end MM.Io
