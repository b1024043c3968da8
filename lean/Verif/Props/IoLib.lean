import Verif.Spec.Lib
import Verif.Props.Exchange
import Verif.Props.IoDat
import Verif.Props.Merge

/-!
# C103 to C106: loaders which call a library (vtk, h5py, gmshparser)
-/

namespace MM.Io

open MM

set_option linter.unusedSimpArgs false

/-! ### C103: vtk -/

lemma mapAll_forall₂ {α β : Type} (p : α → Except PyErr β) : ∀ (l : List α) (r : List β),
    mapAll p l = .ok r ↔ List.Forall₂ (fun a b => p a = .ok b) l r
  | [], r => by cases r <;> simp [mapAll]
  | a :: l, r => by
    unfold mapAll
    cases ha : p a with
    | error e => cases r <;> simp [ha]
    | ok b =>
      cases hl : mapAll p l with
      | error e =>
        cases r with
        | nil => simp
        | cons c r =>
          simp only [reduceCtorEq, List.forall₂_cons, false_iff, not_and]
          intro _ h
          rw [(mapAll_forall₂ p l r).2 h] at hl
          cases hl
      | ok s =>
        cases r with
        | nil => simp
        | cons c r =>
          simp only [Except.ok.injEq, List.cons.injEq, List.forall₂_cons, ha]
          rw [← mapAll_forall₂ p l r, hl]
          simp

lemma mapAll_error {α β : Type} (p : α → Except PyErr β) (e : PyErr) (hp : ∀ a e', p a = .error e' → e' = e) :
    ∀ l : List α, (∃ a ∈ l, p a = .error e) → mapAll p l = .error e
  | [], h => by simp at h
  | a :: l, h => by
    unfold mapAll
    cases ha : p a with
    | error e' => rw [hp a e' ha]
    | ok b =>
      have : ∃ a ∈ l, p a = .error e := by
        obtain ⟨c, hc, he⟩ := h
        rcases List.mem_cons.1 hc with rfl | hc
        · rw [ha] at he; cases he
        · exact ⟨c, hc, he⟩
      rw [mapAll_error p e hp l this]

lemma dumpRow_error {c : List ℕ} {e : PyErr} (h : dumpRow c = .error e) : e = .indexError ∧ 5 ≤ c.length := by
  rcases c with _ | ⟨a, _ | ⟨b, _ | ⟨c, _ | ⟨d, _ | ⟨e, l⟩⟩⟩⟩⟩ <;> simp [dumpRow] at h ⊢
  exact h.symm

lemma dumpRow_long {c : List ℕ} (h : 5 ≤ c.length) : dumpRow c = .error .indexError := by
  rcases c with _ | ⟨a, _ | ⟨b, _ | ⟨c, _ | ⟨d, _ | ⟨e, l⟩⟩⟩⟩⟩ <;> simp [dumpRow] at h ⊢

/-- **C103 (what holds).** From what the reader of vtk returns for a file VTK, VTP, VTU or OBJ whose cells have three or four
different points, the loader gives a mesh with the same points in the same order and one face for each cell, in the same order,
with the points of the cell in the same order around it. Missing: cells with other numbers of points. -/
theorem C103_vtk_partial (d : VtkData) (h : ∀ c ∈ d.cells, (c.length = 3 ∨ c.length = 4) ∧ c.Nodup) :
    ∃ m, dumpVtk d = .ok m ∧ m.vertices = d.points ∧ m.faces.map around = d.cells := by
  have key : ∀ l : List (List ℕ), (∀ c ∈ l, (c.length = 3 ∨ c.length = 4) ∧ c.Nodup) →
      ∃ fs, mapAll dumpRow l = .ok fs ∧ fs.map around = l := by
    intro l
    induction l with
    | nil => intro _; exact ⟨[], rfl, rfl⟩
    | cons c l ih =>
      intro h
      obtain ⟨fs, h1, h2⟩ := ih (fun c hc => h c (by simp [hc]))
      obtain ⟨hl, hn⟩ := h c (by simp)
      have : ∃ f, dumpRow c = .ok f ∧ around f = c := by
        rcases c with _ | ⟨a, _ | ⟨b, _ | ⟨c, _ | ⟨d, _ | ⟨e, l⟩⟩⟩⟩⟩ <;> simp at hl
        · exact ⟨_, rfl, by simp [around]⟩
        · refine ⟨_, rfl, ?_⟩
          have : a ≠ d := by simp at hn; tauto
          simp [around, this]
      obtain ⟨f, h3, h4⟩ := this
      exact ⟨f :: fs, by unfold mapAll; rw [h3, h1], by simp [h2, h4]⟩
  obtain ⟨fs, h1, h2⟩ := key d.cells h
  exact ⟨⟨d.points, fs⟩, by unfold dumpVtk; rw [h1], rfl, h2⟩

/-- **C103.** The loader raises `IndexError` exactly when a cell has more than four points. -/
theorem C103_error (d : VtkData) : dumpVtk d = .error .indexError ↔ ∃ c ∈ d.cells, 5 ≤ c.length := by
  constructor
  · intro h
    by_contra hc
    push_neg at hc
    have : ∀ l : List (List ℕ), (∀ c ∈ l, c.length < 5) → ∃ fs, mapAll dumpRow l = .ok fs := by
      intro l
      induction l with
      | nil => intro _; exact ⟨[], rfl⟩
      | cons c l ih =>
        intro h
        obtain ⟨fs, h1⟩ := ih (fun c hc => h c (by simp [hc]))
        cases hd : dumpRow c with
        | error e => exact absurd (dumpRow_error hd).2 (by have := h c (by simp); omega)
        | ok f => exact ⟨f :: fs, by unfold mapAll; rw [hd, h1]⟩
    obtain ⟨fs, hfs⟩ := this d.cells hc
    unfold dumpVtk at h
    rw [hfs] at h
    cases h
  · rintro ⟨c, hc, hl⟩
    unfold dumpVtk
    rw [mapAll_error dumpRow .indexError (fun a e' h => (dumpRow_error h).1) d.cells ⟨c, hc, dumpRow_long hl⟩]

/-- **C103 fails** for cells of two points (lines) or one: a face is made of them with the vertex 0, which may not be among
their points. Every file with such a cell that does not contain the point 0, and no cell of more than four points. -/
theorem C103_lines_fail (d : VtkData) (c : List ℕ) (k : ℕ) (hc : d.cells[k]? = some c) (hl : c.length < 3) (h0 : 0 ∉ c)
    (h : ∀ c ∈ d.cells, c.length < 5) :
    ∃ m f, dumpVtk d = .ok m ∧ m.faces[k]? = some f ∧ 0 ∈ around f ∧ ∀ i ∈ c, i ∈ around f := by
  cases hm : dumpVtk d with
  | error e =>
    exfalso
    have he : e = .indexError := by
      unfold dumpVtk at hm
      cases hl : mapAll dumpRow d.cells with
      | ok fs => rw [hl] at hm; cases hm
      | error e' =>
        rw [hl] at hm
        cases hm
        revert hl
        generalize d.cells = l
        induction l with
        | nil => intro h; simp [mapAll] at h
        | cons a l ih =>
          intro h
          unfold mapAll at h
          cases ha : dumpRow a with
          | error e1 => rw [ha] at h; cases h; exact (dumpRow_error ha).1
          | ok b =>
            rw [ha] at h
            cases hl : mapAll dumpRow l with
            | error e2 => rw [hl] at h; cases h; exact ih hl
            | ok s => rw [hl] at h; cases h
    subst he
    obtain ⟨c, hc, h5⟩ := (C103_error d).1 hm
    have := h c hc
    omega
  | ok m =>
    unfold dumpVtk at hm
    cases hl' : mapAll dumpRow d.cells with
    | error e => rw [hl'] at hm; cases hm
    | ok fs =>
      rw [hl'] at hm
      cases hm
      have hf := (mapAll_forall₂ _ _ _).1 hl'
      have hk : k < d.cells.length := (List.getElem?_eq_some_iff.1 hc).1
      have hk' : k < fs.length := by rw [← hf.length_eq]; exact hk
      have hr := hf.get hk hk'
      simp only [List.get_eq_getElem] at hr
      rw [(List.getElem?_eq_some_iff.1 hc).2] at hr
      refine ⟨_, fs[k], rfl, List.getElem?_eq_getElem hk', ?_⟩
      rcases c with _ | ⟨a, _ | ⟨b, _ | ⟨c, l⟩⟩⟩
      · simp [dumpRow] at hr; rw [← hr]; simp [around]
      · simp [dumpRow] at hr; rw [← hr]
        have : a ≠ 0 := by simp at h0; tauto
        simp [around, this]
      · simp [dumpRow] at hr; rw [← hr]
        have : a ≠ 0 ∧ b ≠ 0 := by simp at h0; tauto
        simp [around, this]
      · simp at hl; omega

/-- A triangle and a quadrangle meet the hypotheses of `C103_vtk_partial`; with a line the file gives a wrong face. -/
example : ∀ c ∈ ([[0, 1, 2], [0, 1, 2, 3]] : List (List ℕ)), (c.length = 3 ∨ c.length = 4) ∧ c.Nodup := by decide
example : mapAll dumpRow [[0, 1, 2], [1, 2]] = .ok [⟨0, 1, 2, 0⟩, ⟨1, 2, 0, 0⟩] := by decide

/-! ### C104: STL -/

/-- What a cell refers to. -/
lemma stlReads_cells {d : StlData} {facets : List (V3 ℚ × V3 ℚ × V3 ℚ)} (h : StlReads d facets) :
    ∃ ts : List (ℕ × ℕ × ℕ), d.cells = ts.map some ∧ List.Forall₂ (fun c t => d.points[c.1]? = some t.1 ∧
      d.points[c.2.1]? = some t.2.1 ∧ d.points[c.2.2]? = some t.2.2) ts facets := by
  unfold StlReads at h
  generalize d.cells = cs at h
  induction h with
  | nil => exact ⟨[], rfl, .nil⟩
  | cons hab _ ih =>
    obtain ⟨ts, h1, h2⟩ := ih
    obtain ⟨i, j, k, rfl, a1, a2, a3⟩ := hab
    exact ⟨(i, j, k) :: ts, by simp [h1], .cons ⟨a1, a2, a3⟩ h2⟩

lemma newFace_ok {ids : List ℕ} {n : ℕ} (hlen : ids.length = n) {i j k : ℕ} (hi : i < n) (hj : j < n) (hk : k < n) :
    newFace ids (stlRow (some (i, j, k))) = .ok ⟨ids.getD i 0, ids.getD j 0, ids.getD k 0, ids.getD i 0⟩ := by
  subst hlen
  simp [newFace, newIdOf, stlRow, hi, hj, hk]

/-- **C104 (what holds).** From what the STL reader of vtk returns for a file with at least one facet, the loader gives a mesh
without two equal vertices, whose faces are triangles that refer to existing vertices, one for each facet, in the same order,
with their corners in the same order, at most `1e-8` away in each coordinate from those of the facet; two corners which are equal
in the file are the same vertex of the mesh, and two corners which are the same vertex are at most `1e-8` apart in the file. -/
theorem C104_stl_partial (srt : (ℕ → ℚ) → List ℕ → List ℕ) (hsrt : IsArgsort srt) (d : StlData)
    (facets : List (V3 ℚ × V3 ℚ × V3 ℚ)) (hne : facets ≠ []) (h : StlReads d facets) :
    ∃ m, loadSTL srt d = .ok m ∧ m.WF ∧ m.vertices.Nodup ∧
      List.Forall₂ (fun f t => f.a = f.d ∧ OptClose (1 / 100000000) (some t.1) m.vertices[f.a]? ∧
        OptClose (1 / 100000000) (some t.2.1) m.vertices[f.b]? ∧ OptClose (1 / 100000000) (some t.2.2) m.vertices[f.c]?)
        m.faces facets ∧
      (∀ (p q : ℕ) (u : V3 ℚ), (facetCorners facets)[p]? = some u → (facetCorners facets)[q]? = some u →
        (triangleCorners m)[p]? = (triangleCorners m)[q]?) ∧
      (∀ (p q : ℕ) (u v : V3 ℚ), (facetCorners facets)[p]? = some u → (facetCorners facets)[q]? = some v →
        (triangleCorners m)[p]? = (triangleCorners m)[q]? → V3.Close (1 / 100000000) u v) := by
  obtain ⟨ts, hcells, hts⟩ := stlReads_cells h
  have hpts : d.points ≠ [] := by
    cases hts with
    | nil => exact absurd rfl hne
    | cons hab _ => intro h0; rw [h0] at hab; simp at hab
  have h0 : (0 : ℚ) ≤ 1 / 100000000 := by norm_num
  obtain ⟨r, hr, hlen, hrange, honto, hle⟩ :=
    (C03_renumbering_total_in_range_onto srt hsrt (1 / 100000000 : ℚ) h0 (d.points.map V3.coord)).2 (by simpa using hpts)
  obtain ⟨hsame, hclose⟩ := C01_merged_rows_within_tolerance srt hsrt _ h0 _ r hr
  obtain ⟨hdup, hnodup, _⟩ := C02_exact_duplicates_merged srt hsrt _ h0 _ r hr
  have hlen' : r.newID.length = d.points.length := by simpa using hlen
  have pt : ∀ {i : ℕ} {u : V3 ℚ}, d.points[i]? = some u → i < d.points.length ∧ ∃ id, r.newID[i]? = some id ∧
      id < r.rows.length ∧ OptClose (1 / 100000000) (some u) (r.rows.map V3.ofCoord)[id]? := by
    intro i u hu
    have hi := (List.getElem?_eq_some_iff.1 hu).1
    obtain ⟨id, h1, h2⟩ := hrange i (by simpa using hi)
    refine ⟨hi, id, h1, h2, ?_⟩
    have hu' : (d.points.map V3.coord)[i]? = some u.coord := by simp [hu]
    have := hclose i _ id _ hu' h1 (List.getElem?_eq_getElem h2)
    have hcl : V3.Close (1 / 100000000) u (V3.ofCoord r.rows[id]) :=
      ⟨by simpa [V3.ofCoord] using this 0, by simpa [V3.ofCoord] using this 1, by simpa [V3.ofCoord] using this 2⟩
    simpa [h2, OptClose] using hcl
  set fc : ℕ × ℕ × ℕ → Face := fun c => ⟨r.newID.getD c.1 0, r.newID.getD c.2.1 0, r.newID.getD c.2.2 0, r.newID.getD c.1 0⟩ with hfc
  have hmap : mapAll (newFace r.newID) (d.cells.map stlRow) = .ok (ts.map fc) := by
    rw [hcells, List.map_map]
    apply mapAll_map
    intro c hc
    obtain ⟨k, hk, rfl⟩ := List.getElem_of_mem hc
    have hk' : k < facets.length := by rw [← hts.length_eq]; exact hk
    have := hts.get hk hk'
    simp only [List.get_eq_getElem] at this
    exact newFace_ok hlen' (pt this.1).1 (pt this.2.1).1 (pt this.2.2).1
  refine ⟨⟨r.rows.map V3.ofCoord, ts.map fc⟩, by simp only [loadSTL, hr, hmap], ?_, ?_, ?_, ?_, ?_⟩
  · intro f hf i hi
    obtain ⟨c, hc, rfl⟩ := List.mem_map.1 hf
    obtain ⟨k, hk, rfl⟩ := List.getElem_of_mem hc
    have hk' : k < facets.length := by rw [← hts.length_eq]; exact hk
    have := hts.get hk hk'
    simp only [List.get_eq_getElem] at this
    obtain ⟨_, i1, e1, l1, _⟩ := pt this.1
    obtain ⟨_, i2, e2, l2, _⟩ := pt this.2.1
    obtain ⟨_, i3, e3, l3, _⟩ := pt this.2.2
    simp only [Face.toList, hfc, List.getD_eq_getElem?_getD, e1, e2, e3, Option.getD_some, List.mem_cons, List.not_mem_nil,
      or_false] at hi
    simp only [Mesh.nv, List.length_map]
    rcases hi with rfl | rfl | rfl | rfl <;> assumption
  · refine List.Nodup.map ?_ hnodup
    intro u v huv
    have := congrArg V3.coord huv
    simpa using this
  · rw [List.forall₂_map_left_iff]
    refine hts.imp ?_
    rintro c t ⟨a1, a2, a3⟩
    obtain ⟨_, i1, e1, _, c1⟩ := pt a1
    obtain ⟨_, i2, e2, _, c2⟩ := pt a2
    obtain ⟨_, i3, e3, _, c3⟩ := pt a3
    simp only [hfc, List.getD_eq_getElem?_getD, e1, e2, e3, Option.getD_some]
    exact ⟨trivial, c1, c2, c3⟩
  all_goals
    have hpos : ∃ ids : List ℕ, facetCorners facets = ids.filterMap (fun i => d.points[i]?) ∧ (∀ i ∈ ids, i < d.points.length) ∧
        triangleCorners ⟨r.rows.map V3.ofCoord, ts.map fc⟩ = ids.map (fun i => r.newID.getD i 0) := by
      clear hcells hmap h hne
      unfold facetCorners triangleCorners
      dsimp only
      induction hts with
      | nil => exact ⟨[], rfl, by simp, rfl⟩
      | @cons c t cs fs hab _ ih =>
        obtain ⟨ids, h1, h2, h3⟩ := ih
        obtain ⟨a1, a2, a3⟩ := hab
        refine ⟨c.1 :: c.2.1 :: c.2.2 :: ids, ?_, ?_, ?_⟩
        · simp [h1, a1, a2, a3]
        · intro i hi
          simp only [List.mem_cons] at hi
          rcases hi with rfl | rfl | rfl | hi
          · exact (pt a1).1
          · exact (pt a2).1
          · exact (pt a3).1
          · exact h2 i hi
        · rw [List.map_cons, List.flatMap_cons, h3]
          rfl
    obtain ⟨ids, g1, g2, g3⟩ := hpos
    have g1' : ∀ (p : ℕ) (u : V3 ℚ), (facetCorners facets)[p]? = some u → ∃ i, ids[p]? = some i ∧ d.points[i]? = some u := by
      rw [g1]
      clear g1 g3
      induction ids with
      | nil => intro p u h; simp at h
      | cons a ids ih =>
        intro p u h
        have ha := g2 a (by simp)
        rw [List.filterMap_cons, List.getElem?_eq_getElem ha] at h
        cases p with
        | zero => simp at h; exact ⟨a, rfl, by rw [List.getElem?_eq_getElem ha, h]⟩
        | succ p =>
          simp only [List.getElem?_cons_succ] at h ⊢
          exact ih (fun i hi => g2 i (by simp [hi])) p u h
  · intro p q u hp hq
    obtain ⟨i, hi, hiu⟩ := g1' p u hp
    obtain ⟨j, hj, hju⟩ := g1' q u hq
    rw [g3, List.getElem?_map, List.getElem?_map, hi, hj]
    have := hdup i j u.coord (by simp [hiu]) (by simp [hju])
    simp only [Option.map_some, List.getD_eq_getElem?_getD, this]
  · intro p q u v hp hq he
    obtain ⟨i, hi, hiu⟩ := g1' p u hp
    obtain ⟨j, hj, hjv⟩ := g1' q v hq
    rw [g3, List.getElem?_map, List.getElem?_map, hi, hj] at he
    obtain ⟨_, i1, e1, _, _⟩ := pt hiu
    obtain ⟨_, i2, e2, _, _⟩ := pt hjv
    simp only [Option.map_some, List.getD_eq_getElem?_getD, e1, e2, Option.getD_some, Option.some.injEq] at he
    subst he
    have := hsame i j u.coord v.coord i1 (by simp [hiu]) (by simp [hjv]) e1 e2
    exact ⟨by simpa using this 0, by simpa using this 1, by simpa using this 2⟩

/-- **C104 fails** for a file without points: `IndexError`. -/
theorem C104_empty_fails (srt : (ℕ → ℚ) → List ℕ → List ℕ) (hsrt : IsArgsort srt) (cells : List (Option (ℕ × ℕ × ℕ))) :
    loadSTL srt ⟨[], cells⟩ = .error .indexError := by
  unfold loadSTL
  have := (C03_renumbering_total_in_range_onto (d := 3) srt hsrt (1 / 100000000 : ℚ) (by norm_num) []).1 rfl
  simp only [List.map_nil, this]

/-- Two facets with a common edge, given by the reader with six points, meet the hypotheses of `C104_stl_partial`. -/
example : StlReads ⟨[⟨0, 0, 0⟩, ⟨1, 0, 0⟩, ⟨0, 1, 0⟩, ⟨1, 0, 0⟩, ⟨1, 1, 0⟩, ⟨0, 1, 0⟩], [some (0, 1, 2), some (3, 4, 5)]⟩
    [(⟨0, 0, 0⟩, ⟨1, 0, 0⟩, ⟨0, 1, 0⟩), (⟨1, 0, 0⟩, ⟨1, 1, 0⟩, ⟨0, 1, 0⟩)] := by
  refine .cons ⟨0, 1, 2, rfl, rfl, rfl, rfl⟩ (.cons ⟨3, 4, 5, rfl, rfl, rfl, rfl⟩ .nil)

/-! ### C105: MED -/

lemma reshapeT_three {α β : Type} [Inhabited α] (f g h : β → α) (ps : List β) :
    reshapeT 3 (ps.map f ++ ps.map g ++ ps.map h) = .ok (ps.map fun p => [f p, g p, h p]) := by
  have hlen : (ps.map f ++ ps.map g ++ ps.map h).length = 3 * ps.length := by simp; omega
  unfold reshapeT
  rw [if_neg (by rw [hlen]; simp)]
  congr 1
  rw [hlen, Nat.mul_div_cancel_left _ (by norm_num : 0 < 3)]
  apply List.ext_getElem (by simp)
  intro i h1 h2
  simp only [List.length_map, List.length_range] at h1
  simp only [List.getElem_map, List.getElem_range, List.range_succ, List.range_zero, List.nil_append, List.map_append, List.map_cons,
    List.map_nil, List.cons_append, List.cons.injEq, and_true]
  refine ⟨?_, ?_, ?_⟩
  · rw [getElem!_pos _ _ (by simp; omega)]
    simp [List.getElem_append, h1]
  · rw [getElem!_pos _ _ (by simp; omega)]
    simp [List.getElem_append, h1]
  · rw [getElem!_pos _ _ (by simp; omega)]
    rw [List.getElem_append_right (by simp; omega)]
    simp only [List.getElem_map]
    congr 2
    simp; omega

lemma reshapeT_four {α β : Type} [Inhabited α] (f g h k : β → α) (ps : List β) :
    reshapeT 4 (ps.map f ++ ps.map g ++ ps.map h ++ ps.map k) = .ok (ps.map fun p => [f p, g p, h p, k p]) := by
  have hlen : (ps.map f ++ ps.map g ++ ps.map h ++ ps.map k).length = 4 * ps.length := by simp; omega
  unfold reshapeT
  rw [if_neg (by rw [hlen]; simp)]
  congr 1
  rw [hlen, Nat.mul_div_cancel_left _ (by norm_num : 0 < 4)]
  apply List.ext_getElem (by simp)
  intro i h1 h2
  simp only [List.length_map, List.length_range] at h1
  simp only [List.getElem_map, List.getElem_range, List.range_succ, List.range_zero, List.nil_append, List.map_append, List.map_cons,
    List.map_nil, List.cons_append, List.cons.injEq, and_true]
  refine ⟨?_, ?_, ?_, ?_⟩
  · rw [getElem!_pos _ _ (by simp; omega)]
    simp [List.getElem_append, h1]
  · rw [getElem!_pos _ _ (by simp; omega)]
    simp [List.getElem_append, h1]
  · rw [getElem!_pos _ _ (by simp; omega)]
    rw [List.getElem_append_left (by simp; omega), List.getElem_append_right (by simp; omega)]
    simp only [List.getElem_map]
    congr 2
    simp; omega
  · rw [getElem!_pos _ _ (by simp; omega)]
    rw [List.getElem_append_right (by simp; omega)]
    simp only [List.getElem_map]
    congr 2
    simp; omega

/-- The rows of an array that can be reshaped. -/
def rowsT {α : Type} [Inhabited α] (k : ℕ) (xs : List α) : List (List α) :=
  match reshapeT k xs with
  | .ok r => r
  | .error _ => []

lemma medLoop_ok : ∀ (items : List MedItem) (s : MedState),
    (∀ a ∈ items.filterMap MedItem.coo?, reshapeT 3 a = .ok (rowsT 3 a)) →
    (∀ a ∈ items.filterMap MedItem.tr3?, reshapeT 3 a = .ok (rowsT 3 a)) →
    (∀ a ∈ items.filterMap MedItem.qu4?, reshapeT 4 a = .ok (rowsT 4 a)) →
    medLoop s items = .ok ⟨(items.filterMap MedItem.coo?).foldl (fun _ a => some (rowsT 3 a)) s.vertices,
      (items.filterMap MedItem.tr3?).foldl (fun _ a => (rowsT 3 a).map fun l => l.map (· - 1)) s.triangles,
      (items.filterMap MedItem.qu4?).foldl (fun _ a => (rowsT 4 a).map fun l => l.map (· - 1)) s.quadrangles⟩
  | [], s, _, _, _ => rfl
  | i :: items, s, h1, h2, h3 => by
    cases i with
    | coo xs =>
      simp only [List.filterMap_cons, MedItem.coo?, MedItem.tr3?, MedItem.qu4?, List.mem_cons, forall_eq_or_imp] at h1 h2 h3 ⊢
      simp only [medLoop, medStep, h1.1]
      rw [medLoop_ok items _ h1.2 h2 h3]
      rfl
    | tr3 xs =>
      simp only [List.filterMap_cons, MedItem.coo?, MedItem.tr3?, MedItem.qu4?, List.mem_cons, forall_eq_or_imp] at h1 h2 h3 ⊢
      simp only [medLoop, medStep, h2.1]
      rw [medLoop_ok items _ h1 h2.2 h3]
      rfl
    | qu4 xs =>
      simp only [List.filterMap_cons, MedItem.coo?, MedItem.tr3?, MedItem.qu4?, List.mem_cons, forall_eq_or_imp] at h1 h2 h3 ⊢
      simp only [medLoop, medStep, h3.1]
      rw [medLoop_ok items _ h1 h2 h3.2]
      rfl
    | other =>
      simp only [List.filterMap_cons, MedItem.coo?, MedItem.tr3?, MedItem.qu4?] at h1 h2 h3 ⊢
      simp only [medLoop, medStep]
      exact medLoop_ok items _ h1 h2 h3

/-- **C105 (what holds).** The entries of a MED file which has one mesh give the nodes of the mesh, in their order, then its
triangles (first node repeated) and its quadrangles, in their order, numbered from 0, whatever the order of the entries and
whatever the other entries. Missing: files with several meshes (`C105_two_meshes_fail`). -/
theorem C105_med_partial (items : List MedItem) (ps : List (V3 ℚ)) (ts : List (ℤ × ℤ × ℤ)) (qs : List (ℤ × ℤ × ℤ × ℤ))
    (h : MedFile items ps ts qs) :
    loadMED items = .ok ⟨ps.map fun p => [p.x, p.y, p.z],
      ts.map (fun t => [t.1 - 1, t.2.1 - 1, t.2.2 - 1, t.1 - 1]) ++
      qs.map (fun q => [q.1 - 1, q.2.1 - 1, q.2.2.1 - 1, q.2.2.2 - 1])⟩ := by
  have e1 : reshapeT 3 (cooEntry ps) = .ok (ps.map fun p => [p.x, p.y, p.z]) := reshapeT_three _ _ _ _
  have e2 : reshapeT 3 (tr3Entry ts) = .ok (ts.map fun p => [p.1, p.2.1, p.2.2]) := reshapeT_three _ _ _ _
  have e3 : reshapeT 4 (qu4Entry qs) = .ok (qs.map fun p => [p.1, p.2.1, p.2.2.1, p.2.2.2]) := reshapeT_four _ _ _ _ _
  have r1 : rowsT 3 (cooEntry ps) = ps.map fun p => [p.x, p.y, p.z] := by simp [rowsT, e1]
  have r2 : rowsT 3 (tr3Entry ts) = ts.map fun p => [p.1, p.2.1, p.2.2] := by simp [rowsT, e2]
  have r3 : rowsT 4 (qu4Entry qs) = qs.map fun p => [p.1, p.2.1, p.2.2.1, p.2.2.2] := by simp [rowsT, e3]
  unfold loadMED
  rw [medLoop_ok items {} ?_ ?_ ?_]
  · simp only [h.coo, List.foldl_cons, List.foldl_nil, r1]
    congr 2
    congr 1
    · rcases h.tr3 with h2 | ⟨h2, rfl⟩
      · rw [h2]; simp [r2]
      · rw [h2]; simp
    · rcases h.qu4 with h2 | ⟨h2, rfl⟩
      · rw [h2]; simp [r3]
      · rw [h2]; simp
  · rw [h.coo]; simp [e1, r1]
  · rcases h.tr3 with h2 | ⟨h2, rfl⟩
    · rw [h2]; simp [e2, r2]
    · rw [h2]; simp
  · rcases h.qu4 with h2 | ⟨h2, rfl⟩
    · rw [h2]; simp [e3, r3]
    · rw [h2]; simp

/-- **C105.** A file without coordinates is refused, whatever its other entries (if they can be reshaped): `NameError`. -/
theorem C105_no_nodes (items : List MedItem) (h1 : items.filterMap MedItem.coo? = [])
    (h2 : ∀ a ∈ items.filterMap MedItem.tr3?, a.length % 3 = 0) (h3 : ∀ a ∈ items.filterMap MedItem.qu4?, a.length % 4 = 0) :
    loadMED items = .error .nameError := by
  unfold loadMED
  rw [medLoop_ok items {} (by rw [h1]; simp) ?_ ?_]
  · simp [h1]
  · intro a ha
    simp [rowsT, reshapeT, h2 a ha]
  · intro a ha
    simp [rowsT, reshapeT, h3 a ha]

/-- **C105 fails** for a file with two meshes, for instance a triangle and a quadrangle: the arrays given are the nodes of the
second one with the triangle of the first one and the quadrangle of the second one. -/
theorem C105_two_meshes_fail (ps ps' : List (V3 ℚ)) (t : ℤ × ℤ × ℤ) (q : ℤ × ℤ × ℤ × ℤ) :
    loadMED [.coo (cooEntry ps), .tr3 (tr3Entry [t]), .coo (cooEntry ps'), .qu4 (qu4Entry [q])] =
      .ok ⟨ps'.map fun p => [p.x, p.y, p.z],
        [[t.1 - 1, t.2.1 - 1, t.2.2 - 1, t.1 - 1], [q.1 - 1, q.2.1 - 1, q.2.2.1 - 1, q.2.2.2 - 1]]⟩ := by
  have e1 : ∀ ps, reshapeT 3 (cooEntry ps) = .ok (ps.map fun p => [p.x, p.y, p.z]) := fun ps => reshapeT_three _ _ _ _
  have e2 : reshapeT 3 (tr3Entry [t]) = .ok ([t].map fun p => [p.1, p.2.1, p.2.2]) := reshapeT_three _ _ _ _
  have e3 : reshapeT 4 (qu4Entry [q]) = .ok ([q].map fun p => [p.1, p.2.1, p.2.2.1, p.2.2.2]) := reshapeT_four _ _ _ _ _
  simp [loadMED, medLoop, medStep, e1, e2, e3]

/-- A square cut into a triangle and a quadrangle that shares an edge with it. -/
example : MedFile [.other, .qu4 [1, 2, 3, 4], .tr3 [2, 5, 3], .coo [0, 1, 1, 0, 2, 0, 0, 1, 1, 0, 0, 0, 0, 0, 0]]
    [⟨0, 0, 0⟩, ⟨1, 0, 0⟩, ⟨1, 1, 0⟩, ⟨0, 1, 0⟩, ⟨2, 0, 0⟩] [(2, 5, 3)] [(1, 2, 3, 4)] :=
  ⟨rfl, .inl rfl, .inl rfl⟩

/-! ### C106: GMSH 4 -/

lemma find_seq : ∀ (l : List (ℕ × V3 ℚ)) (b : ℕ), l.map Prod.fst = (List.range l.length).map (· + b) → ∀ (k : ℕ) (hk : k < l.length),
    l.find? (fun n => (n.1 : ℤ) = ((k + b : ℕ) : ℤ)) = some l[k] := by
  intro l
  induction l with
  | nil => intro b _ k hk; simp at hk
  | cons a l ih =>
    intro b h k hk
    rw [List.length_cons, List.range_succ_eq_map] at h
    simp only [List.map_cons, List.map_map, List.cons.injEq] at h
    obtain ⟨ha, hl⟩ := h
    cases k with
    | zero => rw [List.find?_cons_of_pos (by simp [ha])]; rfl
    | succ k =>
      rw [List.find?_cons_of_neg (by simp [ha]; omega)]
      have := ih (b + 1) (by rw [hl]; apply List.map_congr_left; intro x _; simp; omega) k (by simpa using hk)
      rw [show k + 1 + b = k + (b + 1) by omega, this]
      rfl

lemma vertices_flat (l : List (List (ℕ × V3 ℚ))) : l.flatMap (fun e => e.map fun n => [n.2.x, n.2.y, n.2.z]) =
    l.flatten.map fun n => [n.2.x, n.2.y, n.2.z] := by
  induction l with
  | nil => rfl
  | cons a l ih => simp [ih]

lemma rows_flat : ∀ (l : List (ℕ × List (List ℤ))), (∀ e ∈ l, e.1 = 2 → ∀ c ∈ e.2, c.length = 3) →
    (∀ e ∈ l, e.1 = 3 → ∀ c ∈ e.2, c.length = 4) →
    l.flatMap msh41Rows = ((l.filter fun e => e.1 = 2 ∨ e.1 = 3).flatMap Prod.snd).map
      (fun c => if c.length = 3 then c ++ c.take 1 else c)
  | [], _, _ => rfl
  | (t, els) :: l, h2, h3 => by
    have ih := rows_flat l (fun e he => h2 e (by simp [he])) (fun e he => h3 e (by simp [he]))
    have a2 : t = 2 → ∀ c ∈ els, c.length = 3 := h2 (t, els) (by simp)
    have a3 : t = 3 → ∀ c ∈ els, c.length = 4 := h3 (t, els) (by simp)
    rw [List.flatMap_cons, ih]
    by_cases e2 : t = 2
    · rw [List.filter_cons_of_pos (by simp [e2]), List.flatMap_cons, List.map_append]
      congr 1
      simp only [msh41Rows, e2, if_true]
      apply List.map_congr_left
      intro c hc
      rw [if_pos (a2 e2 c hc)]
    · by_cases e3 : t = 3
      · rw [List.filter_cons_of_pos (by simp [e3]), List.flatMap_cons, List.map_append]
        congr 1
        simp only [msh41Rows, e2, e3, if_false, if_true]
        rw [if_neg (by norm_num)]
        conv_lhs => rw [← List.map_id els]
        apply List.map_congr_left
        intro c hc
        rw [if_neg (by rw [a3 e3 c hc]; norm_num)]
        rfl
      · rw [List.filter_cons_of_neg (by simp [e2, e3])]
        simp [msh41Rows, e2, e3]

/-- **C106 (what holds).** From what gmshparser returns for a file of version 4 whose nodes have the tags 1, 2, 3, … in the order
of the file, the loader gives the nodes in their order, and one face for each triangle and quadrangle, in their order,
whose corners are the nodes of the element (the first one repeated at the end for a triangle); the other elements are left out.
Missing: other tags (`C106_tags_fail`). -/
theorem C106_msh41_partial (d : GmshData) (htag : d.nodes.flatten.map Prod.fst = (List.range d.nodes.flatten.length).map (· + 1))
    (h2 : ∀ e ∈ d.elements, e.1 = 2 → ∀ c ∈ e.2, c.length = 3) (h3 : ∀ e ∈ d.elements, e.1 = 3 → ∀ c ∈ e.2, c.length = 4)
    (hin : ∀ c ∈ d.surface, ∀ t ∈ c, 1 ≤ t ∧ t ≤ d.nodes.flatten.length) :
    (loadMSH41 d).vertices = d.nodes.flatten.map (fun n => [n.2.x, n.2.y, n.2.z]) ∧
    List.Forall₂ (fun c row => row.length = 4 ∧ List.Forall₂ (fun t i => ∃ p, d.node t = some p ∧ 0 ≤ i ∧
      (loadMSH41 d).vertices[i.toNat]? = some [p.x, p.y, p.z]) (if c.length = 3 then c ++ c.take 1 else c) row)
      d.surface (loadMSH41 d).faces := by
  have hv : (loadMSH41 d).vertices = d.nodes.flatten.map (fun n => [n.2.x, n.2.y, n.2.z]) := vertices_flat _
  refine ⟨hv, ?_⟩
  have hf : (loadMSH41 d).faces = d.surface.map fun c => (if c.length = 3 then c ++ c.take 1 else c).map (· - 1) := by
    show minusOne (d.elements.flatMap msh41Rows) = _
    rw [rows_flat _ h2 h3]
    simp only [minusOne, List.map_map]
    rfl
  have hlen : ∀ c ∈ d.surface, c.length = 3 ∨ c.length = 4 := by
    intro c hc
    obtain ⟨e, he, hce⟩ := List.mem_flatMap.1 hc
    obtain ⟨he1, he2⟩ := List.mem_filter.1 he
    simp only [decide_eq_true_eq] at he2
    rcases he2 with he2 | he2
    · exact .inl (h2 e he1 he2 c hce)
    · exact .inr (h3 e he1 he2 c hce)
  rw [hf, hv, List.forall₂_map_right_iff, List.forall₂_same]
  intro c hc
  refine ⟨?_, ?_⟩
  · rcases hlen c hc with h | h
    · simp [h]
    · simp [h]
  · rw [List.forall₂_map_right_iff, List.forall₂_same]
    intro t ht
    have ht' : t ∈ c := by
      split at ht
      · rcases List.mem_append.1 ht with h | h
        · exact h
        · exact List.mem_of_mem_take h
      · exact ht
    obtain ⟨b1, b2⟩ := hin c hc t ht'
    have hk : (t - 1).toNat < d.nodes.flatten.length := by omega
    have := find_seq d.nodes.flatten 1 htag (t - 1).toNat hk
    rw [show (((t - 1).toNat + 1 : ℕ) : ℤ) = t by omega] at this
    refine ⟨d.nodes.flatten[(t - 1).toNat].2, ?_, by omega, ?_⟩
    · unfold GmshData.node
      rw [this]; rfl
    · rw [List.getElem?_map, List.getElem?_eq_getElem hk]
      rfl

/-- **C106 fails** when the tags of the nodes are not 1, 2, 3, …: here the nodes of the triangle have the tags 2, 3, 4, and the
face given refers to the second node, the third one, and a vertex which does not exist. -/
theorem C106_tags_fail : loadMSH41 ⟨[[(2, ⟨0, 0, 0⟩)], [(3, ⟨1, 0, 0⟩), (4, ⟨0, 1, 0⟩)]], [(15, [[2]]), (2, [[2, 3, 4]])]⟩ =
    ⟨[[0, 0, 0], [1, 0, 0], [0, 1, 0]], [[1, 2, 3, 1]]⟩ := by decide +kernel

/-- A triangle and a quadrangle, with a point element, meet the hypotheses of `C106_msh41_partial`. -/
example : let d : GmshData := ⟨[[(1, ⟨0, 0, 0⟩), (2, ⟨1, 0, 0⟩)], [(3, ⟨1, 1, 0⟩), (4, ⟨0, 1, 0⟩)]],
      [(15, [[1]]), (2, [[1, 2, 3]]), (3, [[1, 2, 3, 4]])]⟩
    d.nodes.flatten.map Prod.fst = (List.range d.nodes.flatten.length).map (· + 1) ∧
    (∀ e ∈ d.elements, e.1 = 2 → ∀ c ∈ e.2, c.length = 3) ∧ (∀ e ∈ d.elements, e.1 = 3 → ∀ c ∈ e.2, c.length = 4) ∧
    ∀ c ∈ d.surface, ∀ t ∈ c, 1 ≤ t ∧ t ≤ d.nodes.flatten.length := by decide +kernel

end MM.Io
