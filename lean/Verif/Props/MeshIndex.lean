import Verif.Proofs.MeshIndex
import Verif.Props.Merge
import Mathlib.Data.List.Rotate
import Mathlib.Tactic.Positivity

/-!
# Properties C05–C12: index operations of `Mesh`
-/

namespace MM

set_option linter.unusedSectionVars false

variable {K : Type*}

/-! ## extract_faces -/

/-- **C06.** On a mesh with valid indices, `extract_faces(ids)` succeeds when all the ids are face numbers
(and raises `IndexError` otherwise); the `k`-th face of the result has, corner by corner, the coordinates
of the face `ids[k]`; the returned index array gives the old number of each new vertex; the result has
valid indices. -/
theorem C06_extract_faces_geometry [CommRing K] (m : Mesh K) (hwf : m.WF) (ids : List ℕ) :
    ((∀ k ∈ ids, k < m.nf) →
      ∃ m' idv, m.extractFaces ids = .ok (m', idv) ∧
        m'.nf = ids.length ∧
        (∀ k id : ℕ, ids[k]? = some id → m'.geometry[k]? = m.geometry[id]?) ∧
        (m'.vertices.map some = idv.map (fun i => m.vertices[i]?)) ∧ m'.WF) ∧
    ((∃ k ∈ ids, ¬ k < m.nf) → m.extractFaces ids = .error .indexError) := by
  constructor
  · intro hids
    unfold Mesh.extractFaces
    have hall : ids.all (fun k => decide (k < m.nf)) = true := by
      rw [List.all_eq_true]; intro k hk; simpa using hids k hk
    rw [if_pos hall]
    set sel := ids.map (fun k => m.faces.getD k ⟨0, 0, 0, 0⟩) with hsel
    have hselmem : ∀ f ∈ sel, f ∈ m.faces := by
      intro f hf
      obtain ⟨k, hk, rfl⟩ := List.mem_map.1 hf
      have hk' : k < m.faces.length := hids k hk
      rw [List.getD_eq_getElem?_getD, List.getElem?_eq_getElem hk']
      exact List.getElem_mem hk'
    have hused : ∀ i ∈ sel.flatMap Face.toList, i < m.nv := by
      intro i hi
      obtain ⟨f, hf, hi⟩ := List.mem_flatMap.1 hi
      exact hwf f (hselmem f hf) i hi
    have hall2 : (sel.flatMap Face.toList).all (fun i => decide (i < m.nv)) = true := by
      rw [List.all_eq_true]; intro i hi; simpa using hused i hi
    simp only [hall2, if_true]
    refine ⟨_, _, rfl, ?_, ?_, ?_, ?_⟩
    · simp [Mesh.nf, hsel]
    · intro k id hk
      have hid : id < m.faces.length := hids id (List.mem_of_getElem? hk)
      have hf : sel[k]? = some m.faces[id] := by
        rw [hsel, List.getElem?_map, hk]; simp [hid]
      simp only [Mesh.geometry, List.getElem?_map, hf, List.getElem?_eq_getElem hid, Option.map_some]
      congr 1
      apply cornerPoints_map
      intro i hi
      have hiu : i ∈ sel.flatMap Face.toList :=
        List.mem_flatMap.2 ⟨_, List.mem_of_getElem? hf, hi⟩
      obtain ⟨k', h1, _, h3⟩ := renumber_spec m _ i (hused i hiu) hiu
      rw [h1]; exact h3
    · simp only [List.map_map]
      apply List.map_congr_left
      intro i hi
      have : i < m.vertices.length := (mem_idV.1 hi).1
      simp [Mesh.vert, this]
    · intro f hf i hi
      obtain ⟨f0, hf0, rfl⟩ := List.mem_map.1 hf
      rw [Face.toList_map] at hi
      obtain ⟨j, hj, rfl⟩ := List.mem_map.1 hi
      have hju : j ∈ sel.flatMap Face.toList := List.mem_flatMap.2 ⟨f0, hf0, hj⟩
      obtain ⟨k', h1, h2, _⟩ := renumber_spec m _ j (hused j hju) hju
      have h2' := (List.getElem?_eq_some_iff.1 h2).1
      rw [← h1] at h2'
      simpa [Mesh.nv] using h2'
  · rintro ⟨k, hk, hlt⟩
    unfold Mesh.extractFaces
    rw [if_neg]
    intro hall
    exact hlt (by simpa using List.all_eq_true.1 hall k hk)

/-- **C07.** The vertices of the extracted mesh are exactly those used by the selected faces, each once,
in increasing order of their original number. -/
theorem C07_extract_faces_used_vertices [CommRing K] (m m' : Mesh K) (ids idv : List ℕ)
    (h : m.extractFaces ids = .ok (m', idv)) :
    idv.Pairwise (· < ·) ∧ m'.nv = idv.length ∧
    (∀ i, i ∈ idv ↔ ∃ k ∈ ids, ∃ f, m.faces[k]? = some f ∧ i ∈ f.toList) := by
  unfold Mesh.extractFaces at h
  split at h
  · rename_i hall
    simp only at h
    split at h
    · rename_i hall2
      injection h with h; injection h with h1 h2
      subst h2; subst h1
      refine ⟨idV_pairwise _ _, by simp [Mesh.nv], ?_⟩
      intro i
      rw [mem_idV, List.mem_flatMap]
      constructor
      · rintro ⟨_, f, hf, hi⟩
        obtain ⟨k, hk, rfl⟩ := List.mem_map.1 hf
        have hk' : k < m.faces.length := of_decide_eq_true (List.all_eq_true.1 hall k hk)
        refine ⟨k, hk, m.faces[k], List.getElem?_eq_getElem hk', ?_⟩
        simpa [hk'] using hi
      · rintro ⟨k, hk, f, hf, hi⟩
        have hmem : f ∈ ids.map (fun k => m.faces.getD k ⟨0, 0, 0, 0⟩) :=
          List.mem_map.2 ⟨k, hk, by simp [hf]⟩
        refine ⟨?_, f, hmem, hi⟩
        have := List.all_eq_true.1 hall2 i (List.mem_flatMap.2 ⟨f, hmem, hi⟩)
        simpa using this
    · cases h
  · cases h

/-! ## remove_unused_vertices -/

theorem removeUnused_full [CommRing K] (m : Mesh K) (hused : ∀ i < m.nv, m.Uses i) (hwf : m.WF) :
    m.removeUnusedVertices = .ok m := by
  unfold Mesh.removeUnusedVertices
  have hall : (m.faces.flatMap Face.toList).all (fun i => decide (i < m.nv)) = true := by
    rw [List.all_eq_true]; intro i hi
    obtain ⟨f, hf, hi⟩ := List.mem_flatMap.1 hi
    simpa using hwf f hf i hi
  simp only [hall, if_true]
  rw [if_neg]
  have : Mesh.idV m.nv (m.faces.flatMap Face.toList) = List.range m.nv := by
    unfold Mesh.idV
    rw [List.filter_eq_self]
    intro i hi
    have hi' := List.mem_range.1 hi
    rw [usedMask_getD _ _ _ hi']
    obtain ⟨f, hf, h⟩ := hused i hi'
    simpa using List.mem_flatMap.2 ⟨f, hf, h⟩
  rw [this]; simp

/-- **C08.** `remove_unused_vertices` leaves the corners of every face where they were, every remaining
vertex is used, the remaining vertices keep their relative order, the result has valid indices, and a
second call changes nothing. -/
theorem C08_remove_unused_vertices [CommRing K] (m : Mesh K) (hwf : m.WF) :
    ∃ m', m.removeUnusedVertices = .ok m' ∧ m'.geometry = m.geometry ∧
      (∀ i < m'.nv, m'.Uses i) ∧ m'.vertices.Sublist m.vertices ∧ m'.WF ∧
      m'.removeUnusedVertices = .ok m' := by
  have hall : (m.faces.flatMap Face.toList).all (fun i => decide (i < m.nv)) = true := by
    rw [List.all_eq_true]; intro i hi
    obtain ⟨f, hf, hi⟩ := List.mem_flatMap.1 hi
    simpa using hwf f hf i hi
  have hlt : ∀ i ∈ m.faces.flatMap Face.toList, i < m.nv := by
    intro i hi; simpa using List.all_eq_true.1 hall i hi
  by_cases hlen : (Mesh.idV m.nv (m.faces.flatMap Face.toList)).length < m.nv
  · set idv := Mesh.idV m.nv (m.faces.flatMap Face.toList) with hidv
    set m' : Mesh K := ⟨idv.map m.vert,
      m.faces.map (Face.map (fun i => (Mesh.newIds m.nv idv).getD i 0))⟩ with hm'
    have hok : m.removeUnusedVertices = .ok m' := by
      unfold Mesh.removeUnusedVertices
      simp only [hall, if_true]
      rw [if_pos hlen]
    have hren : ∀ f ∈ m.faces, ∀ i ∈ f.toList, ∃ k, (Mesh.newIds m.nv idv).getD i 0 = k ∧
      idv[k]? = some i ∧ (idv.map m.vert)[k]? = m.vertices[i]? := by
      intro f hf i hi
      have hiu := List.mem_flatMap.2 ⟨f, hf, hi⟩
      exact renumber_spec m _ i (hlt i hiu) hiu
    have huse : ∀ i < m'.nv, m'.Uses i := by
      intro i hi
      have hi' : i < idv.length := by simpa [hm', Mesh.nv] using hi
      have hmem : idv[i] ∈ idv := List.getElem_mem hi'
      obtain ⟨_, hu⟩ := mem_idV.1 hmem
      obtain ⟨f, hf, hif⟩ := List.mem_flatMap.1 hu
      obtain ⟨k, h1, h2, _⟩ := hren f hf _ hif
      obtain ⟨hk, h2⟩ := List.getElem?_eq_some_iff.1 h2
      have hki : k = i := (idV_nodup _ _).getElem_inj_iff.1 h2
      refine ⟨f.map (fun i => (Mesh.newIds m.nv idv).getD i 0), List.mem_map.2 ⟨f, hf, rfl⟩, ?_⟩
      rw [Face.toList_map]
      exact List.mem_map.2 ⟨_, hif, by rw [h1, hki]⟩
    have hwf' : m'.WF := by
      intro f hf i hi
      obtain ⟨f0, hf0, rfl⟩ := List.mem_map.1 hf
      rw [Face.toList_map] at hi
      obtain ⟨j, hj, rfl⟩ := List.mem_map.1 hi
      obtain ⟨k, h1, h2, _⟩ := hren f0 hf0 j hj
      have h2' := (List.getElem?_eq_some_iff.1 h2).1
      rw [← h1] at h2'
      simpa [Mesh.nv, hm'] using h2'
    refine ⟨m', hok, ?_, huse, ?_, hwf', removeUnused_full m' huse hwf'⟩
    · simp only [Mesh.geometry, hm', List.map_map]
      apply List.map_congr_left
      intro f hf
      simp only [Function.comp]
      apply cornerPoints_map
      intro i hi
      obtain ⟨k, h1, _, h3⟩ := hren f hf i hi
      rw [h1]; exact h3
    · have : m.vertices = (List.range m.nv).map m.vert := by
        apply List.ext_getElem?
        intro i
        by_cases hi : i < m.vertices.length
        · simp [Mesh.nv, Mesh.vert, hi]
        · simp [Mesh.nv, hi]
      rw [this]
      exact List.Sublist.map _ List.filter_sublist
  · have hok : m.removeUnusedVertices = .ok m := by
      unfold Mesh.removeUnusedVertices
      simp only [hall, if_true]
      rw [if_neg hlen]
    refine ⟨m, hok, rfl, ?_, List.Sublist.refl _, hwf, hok⟩
    intro i hi
    have hfull : Mesh.idV m.nv (m.faces.flatMap Face.toList) = List.range m.nv := by
      apply List.filter_sublist.eq_of_length_le
      have := not_lt.1 hlen
      rw [List.length_range]
      exact this
    have : i ∈ Mesh.idV m.nv (m.faces.flatMap Face.toList) := by rw [hfull]; simpa using hi
    obtain ⟨f, hf, h⟩ := List.mem_flatMap.1 (mem_idV.1 this).2
    exact ⟨f, hf, h⟩

/-! ## heal_triangles -/

/-- **C09.** After `heal_triangles` the vertices are unchanged and each face is a cyclic rotation of what
it was; a face that has two cyclically consecutive equal corners is recognised as a triangle (first index
equal to last); a face already recognised is unchanged. -/
theorem C09_heal_triangles [CommRing K] (m : Mesh K) :
    m.healTriangles.vertices = m.vertices ∧ m.healTriangles.nf = m.nf ∧
    ∀ (k : ℕ) (f f' : Face), m.faces[k]? = some f → m.healTriangles.faces[k]? = some f' →
      (f'.toList.IsRotated f.toList) ∧
      (f.a = f.b ∨ f.b = f.c ∨ f.c = f.d ∨ f.d = f.a → f'.a = f'.d) ∧
      (f.a = f.d → f' = f) := by
  refine ⟨rfl, by simp [Mesh.healTriangles, Mesh.nf], ?_⟩
  intro k f f' hf hf'
  simp only [Mesh.healTriangles, List.getElem?_map, hf, Option.map_some, Option.some.injEq] at hf'
  subst hf'
  obtain ⟨a, b, c, d⟩ := f
  by_cases h1 : a = d
  · have e : Mesh.healStep ⟨a, b, c, d⟩ = ⟨a, b, c, d⟩ := by simp [Mesh.healStep, Face.isTri, h1]
    rw [e, e, e]
    exact ⟨List.IsRotated.refl _, fun _ => h1, fun _ => rfl⟩
  have e1 : Mesh.healStep ⟨a, b, c, d⟩ = ⟨d, a, b, c⟩ := by
    simp [Mesh.healStep, Face.isTri, Face.roll, h1]
  rw [e1]
  by_cases h2 : d = c
  · have e : Mesh.healStep ⟨d, a, b, c⟩ = ⟨d, a, b, c⟩ := by simp [Mesh.healStep, Face.isTri, h2]
    rw [e, e]
    exact ⟨⟨1, rfl⟩, fun _ => h2, fun h => absurd h h1⟩
  have e2 : Mesh.healStep ⟨d, a, b, c⟩ = ⟨c, d, a, b⟩ := by
    simp [Mesh.healStep, Face.isTri, Face.roll, h2]
  rw [e2]
  by_cases h3 : c = b
  · have e : Mesh.healStep ⟨c, d, a, b⟩ = ⟨c, d, a, b⟩ := by simp [Mesh.healStep, Face.isTri, h3]
    rw [e]
    exact ⟨⟨2, rfl⟩, fun _ => h3, fun h => absurd h h1⟩
  have e3 : Mesh.healStep ⟨c, d, a, b⟩ = ⟨b, c, d, a⟩ := by
    simp [Mesh.healStep, Face.isTri, Face.roll, h3]
  rw [e3]
  refine ⟨⟨3, rfl⟩, ?_, fun h => absurd h h1⟩
  simp only
  rintro (h | h | h | h)
  · exact h.symm
  · exact absurd h.symm h3
  · exact absurd h.symm h2
  · exact absurd h.symm h1

/-! ## triangulate_quadrangles (combinatorial part) -/

/-- **C10 (combinatorial part).** Only triangles remain; the number of faces grows by the number of
quadrangles; triangles keep their place; a quadrangle `a b c d` at place `k` becomes the triangle `a c d`
at the same place, and the triangles `a b c` of the quadrangles, in order, are the new faces. -/
theorem C10_triangulate_structure [CommRing K] (m : Mesh K) :
    (∀ f ∈ m.triangulateQuadrangles.faces, f.a = f.d) ∧
    m.triangulateQuadrangles.vertices = m.vertices ∧
    m.triangulateQuadrangles.nf = m.nf + m.quadranglesIds.length ∧
    (∀ (k : ℕ) (f : Face), m.faces[k]? = some f →
      m.triangulateQuadrangles.faces[k]? =
        some (if f.a = f.d then f else ⟨f.a, f.c, f.d, f.a⟩)) ∧
    (∀ (j k : ℕ) (f : Face), m.quadranglesIds[j]? = some k → m.faces[k]? = some f →
      m.triangulateQuadrangles.faces[m.nf + j]? = some ⟨f.a, f.b, f.c, f.a⟩) := by
  have hquads : m.faces.filter (fun f => !f.isTri) =
      m.quadranglesIds.map (fun k => m.faces.getD k ⟨0, 0, 0, 0⟩) := by
    unfold Mesh.quadranglesIds Mesh.nf
    generalize m.faces = l
    induction l using List.reverseRecOn with
    | nil => simp
    | append_singleton l f ih =>
      have hr : (List.range l.length).filter
            (fun i => ((l ++ [f])[i]?.map (fun f => !f.isTri)).getD false) =
          (List.range l.length).filter (fun i => (l[i]?.map (fun f => !f.isTri)).getD false) := by
        apply List.filter_congr
        intro i hi
        rw [List.getElem?_append_left (List.mem_range.1 hi)]
      have hm : ∀ L : List ℕ, (∀ i ∈ L, i < l.length) →
          L.map (fun k => (l ++ [f]).getD k ⟨0, 0, 0, 0⟩) = L.map (fun k => l.getD k ⟨0, 0, 0, 0⟩) := by
        intro L hL
        apply List.map_congr_left
        intro i hi
        simp only [List.getD_eq_getElem?_getD]
        rw [List.getElem?_append_left (hL i hi)]
      rw [List.length_append, List.length_singleton, List.range_succ, List.filter_append,
        List.filter_append, List.map_append, hr, hm _ (fun i hi =>
          List.mem_range.1 (List.mem_filter.1 hi).1), ih]
      congr 1
      by_cases h : f.isTri <;> simp [h]
  refine ⟨?_, rfl, ?_, ?_, ?_⟩
  · intro f hf
    rcases List.mem_append.1 hf with hf | hf
    · obtain ⟨g, _, rfl⟩ := List.mem_map.1 hf
      unfold Mesh.secondTri Face.isTri
      split_ifs with h
      · simpa using h
      · rfl
    · obtain ⟨g, _, rfl⟩ := List.mem_map.1 hf
      rfl
  · simp [Mesh.triangulateQuadrangles, Mesh.nf, hquads]
  · intro k f hf
    have hk := (List.getElem?_eq_some_iff.1 hf).1
    simp only [Mesh.triangulateQuadrangles]
    rw [List.getElem?_append_left (by simpa using hk), List.getElem?_map, hf]
    simp [Mesh.secondTri, Face.isTri]
  · intro j k f hj hk
    simp only [Mesh.triangulateQuadrangles]
    rw [List.getElem?_append_right (by simp [Mesh.nf])]
    simp [Mesh.nf, hquads, List.getElem?_map, hj, hk, Mesh.firstTri]

/-! ## flip_normals (combinatorial part) -/

/-- **C12 (combinatorial part).** `flip_normals` reverses the corner list of each face, keeps the
triangle/quadrangle classification, and is an involution. -/
theorem C12_flip_normals_structure [CommRing K] (m : Mesh K) :
    m.flipNormals.vertices = m.vertices ∧
    m.flipNormals.faces.map Face.toList = m.faces.map (fun f => f.toList.reverse) ∧
    m.flipNormals.trianglesIds = m.trianglesIds ∧
    m.flipNormals.quadranglesIds = m.quadranglesIds ∧
    m.flipNormals.flipNormals = m := by
  have htri : ∀ f : Face, f.flip.isTri = f.isTri := by
    intro f; simp only [Face.flip, Face.isTri, Bool.beq_eq_decide_eq]; exact decide_eq_decide.2 eq_comm
  refine ⟨rfl, ?_, ?_, ?_, ?_⟩
  · simp only [Mesh.flipNormals, List.map_map]; rfl
  · simp only [Mesh.trianglesIds, Mesh.flipNormals, Mesh.nf, List.length_map, List.getElem?_map,
      Option.map_map]
    congr 1; funext i; congr 1; congr 1; funext f; exact htri f
  · simp only [Mesh.quadranglesIds, Mesh.flipNormals, Mesh.nf, List.length_map, List.getElem?_map,
      Option.map_map]
    congr 1; funext i; congr 1; congr 1; funext f; simp [htri f]
  · ext1
    · rfl
    · simp only [Mesh.flipNormals, List.map_map]
      have : Face.flip ∘ Face.flip = id := by funext f; rfl
      rw [this, List.map_id]

/-! ## merge_duplicates, __add__, symmetrize -/

section
variable [Field K] [LinearOrder K] [IsStrictOrderedRing K]

/-- **C05.** `merge_duplicates(atol)` on a non empty mesh with valid indices succeeds; it keeps the number
and order of the faces, the result has valid indices, and each corner of each face is within `atol` (per
coordinate) of where it was; no two remaining vertices are equal; the returned index array sends each
vertex to one within `atol`; each remaining vertex is one of the original ones. -/
theorem C05_merge_duplicates_moves_corners_within_tol (srt : (ℕ → K) → List ℕ → List ℕ)
    (hsrt : IsArgsort srt) (atol : K) (h0 : 0 ≤ atol) (m : Mesh K) (hwf : m.WF)
    (hne : m.vertices ≠ []) :
    ∃ m' newId, m.mergeDuplicates srt atol = .ok (m', newId) ∧ m'.WF ∧
      m'.nv ≤ m.nv ∧ GeomClose atol m.geometry m'.geometry ∧ m'.vertices.Nodup ∧
      (∀ i < m.nv, ∃ id, newId[i]? = some id ∧ OptClose atol m.vertices[i]? m'.vertices[id]?) ∧
      (∀ v ∈ m'.vertices, v ∈ m.vertices) := by
  have hne' : m.vertices.map V3.coord ≠ [] := by simpa using hne
  obtain ⟨r, hr, hlen, hrange, honto, hle⟩ :=
    (C03_renumbering_total_in_range_onto srt hsrt atol h0 (m.vertices.map V3.coord)).2 hne'
  have hclose := (C01_merged_rows_within_tolerance srt hsrt atol h0 _ r hr).2
  have hall : m.faces.all (fun f => f.toList.all (fun i => decide (i < m.nv))) = true := by
    rw [List.all_eq_true]; intro f hf
    rw [List.all_eq_true]; intro i hi
    simpa using hwf f hf i hi
  refine ⟨⟨r.rows.map V3.ofCoord, m.faces.map (Face.map (fun i => r.newID.getD i 0))⟩, r.newID,
    by simp only [Mesh.mergeDuplicates, hr, hall, if_true], ?_, ?_, ?_, ?_, ?_, ?_⟩
  · intro f hf i hi
    obtain ⟨f0, hf0, rfl⟩ := List.mem_map.1 hf
    rw [Face.toList_map] at hi
    obtain ⟨j, hj, rfl⟩ := List.mem_map.1 hi
    obtain ⟨id, h1, h2⟩ := hrange j (by simpa [Mesh.nv] using hwf f0 hf0 j hj)
    simpa [Mesh.nv, h1] using h2
  · simpa [Mesh.nv] using hle
  · simp only [GeomClose, Mesh.geometry, List.map_map, List.forall₂_map_left_iff,
      List.forall₂_map_right_iff]
    rw [List.forall₂_same]
    intro f hf
    simp only [Function.comp, Mesh.cornerPoints, Face.toList_map, List.map_map,
      List.forall₂_map_left_iff, List.forall₂_map_right_iff]
    rw [List.forall₂_same]
    intro i hi
    have hi' := hwf f hf i hi
    have hi'' : i < m.vertices.length := hi'
    obtain ⟨id, h1, h2⟩ := hrange i (by simpa using hi'')
    have hu : (m.vertices.map V3.coord)[i]? = some m.vertices[i].coord := by simp [hi'']
    have := hclose i _ id _ hu h1 (List.getElem?_eq_getElem h2)
    have hcl : V3.Close atol m.vertices[i] (V3.ofCoord r.rows[id]) :=
      ⟨by simpa [V3.ofCoord] using this 0, by simpa [V3.ofCoord] using this 1,
        by simpa [V3.ofCoord] using this 2⟩
    simpa [h1, hi'', h2, OptClose] using hcl
  · refine List.Nodup.map ?_ (C02_exact_duplicates_merged srt hsrt atol h0 _ r hr).2.1
    intro u v huv
    have := congrArg V3.coord huv
    simpa using this
  · intro i hi
    have hi'' : i < m.vertices.length := hi
    obtain ⟨id, h1, h2⟩ := hrange i (by simpa using hi'')
    have hu : (m.vertices.map V3.coord)[i]? = some m.vertices[i].coord := by simp [hi'']
    have := hclose i _ id _ hu h1 (List.getElem?_eq_getElem h2)
    have hcl : V3.Close atol m.vertices[i] (V3.ofCoord r.rows[id]) :=
      ⟨by simpa [V3.ofCoord] using this 0, by simpa [V3.ofCoord] using this 1,
        by simpa [V3.ofCoord] using this 2⟩
    exact ⟨id, h1, by simpa [hi'', h2, OptClose] using hcl⟩
  · intro v hv
    obtain ⟨w, hw, rfl⟩ := List.mem_map.1 hv
    obtain ⟨id, hid, rfl⟩ := List.getElem_of_mem hw
    obtain ⟨i, hi, _, h2⟩ := honto id hid
    rw [List.getElem?_eq_getElem hid, List.getElem?_eq_getElem hi] at h2
    rw [Option.some.inj h2, List.getElem_map, V3.ofCoord_coord]
    exact List.getElem_mem _

theorem concat_geometry (m n : Mesh K) (hm : m.WF) (hn : n.WF) :
    (Mesh.concat m n).WF ∧ (Mesh.concat m n).geometry = m.geometry ++ n.geometry := by
  constructor
  · intro f hf i hi
    simp only [Mesh.concat, Mesh.nv, List.length_append]
    rcases List.mem_append.1 hf with hf | hf
    · have := hm f hf i hi
      simp only [Mesh.nv] at this; omega
    · obtain ⟨g, hg, rfl⟩ := List.mem_map.1 hf
      rw [Face.toList_map] at hi
      obtain ⟨j, hj, rfl⟩ := List.mem_map.1 hi
      have := hn g hg j hj
      simp only [Mesh.nv] at this ⊢; omega
  · simp only [Mesh.geometry, Mesh.concat, List.map_append, List.map_map]
    congr 1
    · apply List.map_congr_left
      intro f hf
      apply List.map_congr_left
      intro i hi
      have := hm f hf i hi
      exact List.getElem?_append_left this
    · apply List.map_congr_left
      intro f hf
      simp only [Function.comp]
      apply cornerPoints_map
      intro i hi
      show (m.vertices ++ n.vertices)[i + m.vertices.length]? = _
      rw [List.getElem?_append_right (by omega)]; simp

/-- **C11.** `mesh1 + mesh2` succeeds on meshes with valid indices (not both without vertices); its faces
are those of the first mesh followed by those of the second, each corner being within `1e-8` (per
coordinate) of the original one, and its indices are valid. -/
theorem C11_concatenation (srt : (ℕ → K) → List ℕ → List ℕ) (hsrt : IsArgsort srt) (m n : Mesh K)
    (hm : m.WF) (hn : n.WF) (hne : m.vertices ++ n.vertices ≠ []) :
    ∃ s, Mesh.add srt m n = .ok s ∧ s.WF ∧ s.nf = m.nf + n.nf ∧
      GeomClose (1 / 100000000) (m.geometry ++ n.geometry) s.geometry := by
  obtain ⟨hwf, hgeo⟩ := concat_geometry m n hm hn
  have h0 : (0 : K) ≤ Mesh.defaultAtol := by unfold Mesh.defaultAtol; positivity
  obtain ⟨s, ids, hs, hswf, _, hclose, _⟩ :=
    C05_merge_duplicates_moves_corners_within_tol srt hsrt _ h0 (Mesh.concat m n) hwf hne
  refine ⟨s, by simp [Mesh.add, hs, Except.map], hswf, ?_, ?_⟩
  · have := hclose.length_eq
    simp only [Mesh.geometry, List.length_map, Mesh.concat, List.length_append] at this
    simp [Mesh.nf, ← this]
  · rw [← hgeo]; exact hclose

end

/-! ## Non-vacuity -/

/-- A unit square cut into a triangle and a quadrangle, with an unused vertex (number 2). -/
def exMesh : Mesh ℚ :=
  ⟨[⟨0, 0, 0⟩, ⟨1, 0, 0⟩, ⟨7, 7, 7⟩, ⟨1, 1, 0⟩, ⟨0, 1, 0⟩, ⟨0, 0, 1⟩],
   [⟨0, 1, 3, 4⟩, ⟨0, 3, 5, 0⟩, ⟨5, 5, 0, 4⟩]⟩

example : exMesh.WF := by decide
example : (exMesh.extractFaces [2, 0]).map (fun r => (r.1.faces, r.2)) =
    .ok ([⟨4, 4, 0, 3⟩, ⟨0, 1, 2, 3⟩], [0, 1, 3, 4, 5]) := by decide +kernel
example : exMesh.removeUnusedVertices.map (fun m => (m.nv, m.faces)) =
    .ok (5, [⟨0, 1, 2, 3⟩, ⟨0, 2, 4, 0⟩, ⟨4, 4, 0, 3⟩]) := by decide +kernel
example : exMesh.healTriangles.faces = [⟨1, 3, 4, 0⟩, ⟨0, 3, 5, 0⟩, ⟨5, 0, 4, 5⟩] := by decide +kernel
example : exMesh.triangulateQuadrangles.nf = 5 := by decide +kernel
example : exMesh.vertices ≠ [] := by decide
example : exMesh.vertices ++ exMesh.vertices ≠ [] := by decide

end MM
