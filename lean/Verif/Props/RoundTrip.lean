import Verif.Spec.RoundTrip
import Verif.Props.IoLib
import Verif.Proofs.Watertight

/-!
# C132: writing a mesh to an exchange format and reading it again
-/

namespace MM.Io

open MM

lemma around_injective : Function.Injective around := by
  intro f g h
  unfold around at h
  obtain ⟨a, b, c, d⟩ := f
  obtain ⟨a', b', c', d'⟩ := g
  split_ifs at h with h1 h2 h2 <;> simp at h h1 h2 <;> simp <;> omega

lemma near_fixed {read : ℚ → ℚ} {ε : ℚ} (hread : ∀ x, |read x - x| ≤ ε * |x|) (hε : 0 ≤ ε) {x y : ℚ} (h : Rounded6 x y) :
    |read y - x| ≤ (1 + ε) / 2000000 + ε * |x| := by
  have h1 := h.2
  have h2 := hread y
  have h3 : |y| ≤ |x| + 1 / 2 / 10 ^ 6 := by
    have := abs_add_le x (y - x)
    rw [add_sub_cancel] at this
    linarith
  have h4 := mul_le_mul_of_nonneg_left h3 hε
  calc |read y - x| = |(read y - y) + (y - x)| := by ring_nf
    _ ≤ |read y - y| + |y - x| := abs_add_le _ _
    _ ≤ ε * (|x| + 1 / 2 / 10 ^ 6) + 1 / 2 / 10 ^ 6 := by linarith
    _ = _ := by ring

lemma near_sci {read : ℚ → ℚ} {ε : ℚ} (hread : ∀ x, |read x - x| ≤ ε * |x|) (hε : 0 ≤ ε) {x y : ℚ}
    (h : Rounded7Digits x y) : |read y - x| ≤ (1 / 2000000 + ε * (1 + 1 / 2000000)) * |x| := by
  unfold Rounded7Digits at h
  have h2 := hread y
  have h3 : |y| ≤ |x| + 1 / 2 / 10 ^ 6 * |x| := by
    have := abs_add_le x (y - x)
    rw [add_sub_cancel] at this
    linarith
  have h4 := mul_le_mul_of_nonneg_left h3 hε
  calc |read y - x| = |(read y - y) + (y - x)| := by ring_nf
    _ ≤ |read y - y| + |y - x| := abs_add_le _ _
    _ ≤ ε * (|x| + 1 / 2 / 10 ^ 6 * |x|) + 1 / 2 / 10 ^ 6 * |x| := by linarith
    _ = _ := by ring

/-- The mesh read from a file which has the vertices to six decimals and the faces. -/
lemma read_back {format : Str → Option (List (List ℚ) × List (List ℤ))} {file : Str} {m : Mesh ℚ}
    (hfile : ∃ ps fs, format file = some (ps, fs) ∧ List.Forall₂ (RowOf Rounded6) m.vertices ps ∧
      fs = m.faces.map (fun f => if f.a = f.d then [(f.a : ℤ), f.b, f.c] else [(f.a : ℤ), f.b, f.c, f.d]))
    (hnd : ∀ f ∈ m.faces, (around f).Nodup) {read : ℚ → ℚ} {ε : ℚ} (hε : 0 ≤ ε) (hread : ∀ x, |read x - x| ≤ ε * |x|)
    {d : VtkData} (hd : ReadsFile format read file d) :
    ∃ m', dumpVtk d = .ok m' ∧ List.Forall₂ (NearTo ((1 + ε) / 2000000) ε) m.vertices m'.vertices ∧ m'.faces = m.faces := by
  obtain ⟨ps, fs, h1, h2, rfl⟩ := hfile
  obtain ⟨ps', fs', h1', hp, hc⟩ := hd
  rw [h1] at h1'
  simp only [Option.some.injEq, Prod.mk.injEq] at h1'
  obtain ⟨rfl, rfl⟩ := h1'
  have hcells : d.cells = m.faces.map around := by
    rw [hc, List.map_map]
    apply List.map_congr_left
    intro f _
    unfold around
    by_cases h : f.a = f.d <;> simp [h]
  obtain ⟨m', e, hv, hf⟩ := C103_vtk_partial d (by
    rw [hcells]
    intro c hc
    obtain ⟨f, hf, rfl⟩ := List.mem_map.1 hc
    refine ⟨?_, hnd f hf⟩
    unfold around
    split_ifs <;> simp)
  refine ⟨m', e, ?_, (List.map_injective_iff.2 around_injective) (hf.trans hcells)⟩
  rw [hv, hp, List.forall₂_map_right_iff]
  refine h2.imp ?_
  rintro v row ⟨x, y, z, rfl, hx, hy, hz⟩
  exact ⟨near_fixed hread hε hx, near_fixed hread hε hy, near_fixed hread hε hz⟩

/-- **C132 (VTK).** The mesh read again from the VTK file of a mesh whose faces have distinct corners has the same faces, and
the same vertices in the same order: six decimals are written, and the library reads them with the relative precision `ε`. -/
theorem C132_vtk (date : Str) (m : Mesh ℚ) (hd : '\n' ∉ date) (hl : date.length ≤ 200)
    (hnd : ∀ f ∈ m.faces, (around f).Nodup) (read : ℚ → ℚ) (ε : ℚ) (hε : 0 ≤ ε) (hread : ∀ x, |read x - x| ≤ ε * |x|)
    (d : VtkData) (h : ReadsFile readVtk read (writeVTK date m) d) :
    ∃ m', dumpVtk d = .ok m' ∧ List.Forall₂ (NearTo ((1 + ε) / 2000000) ε) m.vertices m'.vertices ∧ m'.faces = m.faces :=
  read_back (C97_vtk date m hd hl) hnd hε hread h

/-- **C132 (OBJ).** Likewise with an OBJ file. -/
theorem C132_obj (date : Str) (m : Mesh ℚ) (hd : '\n' ∉ date)
    (hnd : ∀ f ∈ m.faces, (around f).Nodup) (read : ℚ → ℚ) (ε : ℚ) (hε : 0 ≤ ε) (hread : ∀ x, |read x - x| ≤ ε * |x|)
    (d : VtkData) (h : ReadsFile readObj read (writeOBJ date m) d) :
    ∃ m', dumpVtk d = .ok m' ∧ List.Forall₂ (NearTo ((1 + ε) / 2000000) ε) m.vertices m'.vertices ∧ m'.faces = m.faces :=
  read_back (C98_obj date m hd) hnd hε hread h

/-! ### STL -/

/-- The corners of triangles. -/
def corners3 (l : List Face) : List ℕ := l.flatMap fun f => [f.a, f.b, f.c]

lemma corners3_renumber {tris faces : List Face} (φ : ℕ → ℕ) (ht : ∀ f ∈ tris, f.isTri = true) (hf : ∀ f ∈ faces, f.a = f.d)
    (hlen : faces.length = tris.length) (h : corners3 faces = (corners3 tris).map φ) : faces = tris.map (Face.map φ) := by
  induction faces generalizing tris with
  | nil => cases tris with
    | nil => rfl
    | cons => simp at hlen
  | cons f fs ih =>
    cases tris with
    | nil => simp at hlen
    | cons t ts =>
      simp only [corners3, List.flatMap_cons, List.map_append, List.map_cons, List.map_nil, List.cons_append, List.nil_append,
        List.cons.injEq] at h
      obtain ⟨ha, hb, hc, hr⟩ := h
      have h1 := ih (fun x hx => ht x (by simp [hx])) (fun x hx => hf x (by simp [hx])) (by simpa using hlen) hr
      have h2 := ht t (by simp)
      have h3 := hf f (by simp)
      simp only [Face.isTri, beq_iff_eq] at h2
      rw [List.map_cons, ← h1]
      congr 1
      obtain ⟨a, b, c, d⟩ := f
      simp only [Face.map, Face.mk.injEq] at *
      refine ⟨ha, hb, hc, ?_⟩
      rw [← h3, ha, h2]

lemma edgeSums_triangles {g : ℕ → ℕ → ℤ} (hg : AntiSymm g) (f : Face) : edgeSums g (triangles f) = f.edgeSum g := by
  unfold triangles
  split
  · simp [edgeSums]
  · simp only [edgeSums, List.map_cons, List.map_nil, List.sum_cons, List.sum_nil, Face.edgeSum_eq hg]
    rw [hg.self, hg f.a f.c]; ring

/-- **C132 (STL).** The mesh read again from the STL file of a mesh (with at least one face) has the triangles of the mesh
(quadrangles being cut along their first diagonal), up to their order, with the same orientation; each vertex of the mesh is one
vertex `φ` of the mesh read, so that the connections are kept, at `1e-8` plus the precision of seven digits and the relative precision
`ε` with which the library reads them; a watertight mesh is read as a watertight mesh. -/
theorem C132_stl (srt : (ℕ → ℚ) → List ℕ → List ℕ) (hsrt : IsArgsort srt) (norm : V3 ℚ → ℚ) (m : Mesh ℚ) (hwf : m.WF)
    (hne : m.faces ≠ []) (hv : ∀ v ∈ m.vertices, FloatPoint v)
    (hn : ∀ f ∈ m.faces.flatMap triangles, FloatNormal norm (m.vert f.a) (m.vert f.b) (m.vert f.c))
    (read : ℚ → ℚ) (ε : ℚ) (hε : 0 ≤ ε) (hread : ∀ x, |read x - x| ≤ ε * |x|) (file : Str)
    (hfile : writeSTL norm m = .ok file) (d : StlData) (hd : ReadsStlFile read file d) :
    ∃ (m' : Mesh ℚ) (tris : List Face) (φ : ℕ → ℕ), loadSTL srt d = .ok m' ∧ m'.WF ∧ tris.Perm (m.faces.flatMap triangles) ∧
      m'.faces = tris.map (Face.map φ) ∧
      (∀ t ∈ tris, ∀ i ∈ t.toList, ∃ w, m'.vertices[φ i]? = some w ∧
        NearTo (1 / 100000000) (1 / 2000000 + ε * (1 + 1 / 2000000)) (m.vert i) w) ∧
      (m.ClosedOriented → m'.ClosedOriented) := by
  obtain ⟨s, hs, hr⟩ := readStl_write norm m hwf hv hn
  rw [hfile] at hs
  cases hs
  obtain ⟨ts, hts, hreads⟩ := hd
  rw [hr] at hts
  simp only [Option.some.injEq] at hts
  subst hts
  obtain ⟨hperm, htri⟩ := C74_stl m.faces
  generalize (stlFaces m.faces).2 = tris at hperm htri hreads hr
  obtain ⟨P, hP⟩ : ∃ P : ℕ → V3 ℚ, P = fun i => pointRead read (sciRow (m.vert i)) := ⟨_, rfl⟩
  have hfac : (tris.map (fun f => facetRead norm (m.vert f.a) (m.vert f.b) (m.vert f.c))).map (facetCornersRead read) =
      tris.map fun f => (P f.a, P f.b, P f.c) := by
    rw [List.map_map]
    apply List.map_congr_left
    intro f _
    rw [hP]; rfl
  rw [hfac] at hreads
  have htne : tris ≠ [] := by
    rintro rfl
    cases hm : m.faces with
    | nil => exact hne hm
    | cons f fs =>
      rw [hm] at hperm
      have h0 : triangles f = [] := by
        have := hperm.symm.eq_nil
        rw [List.flatMap_cons, List.append_eq_nil_iff] at this
        exact this.1
      unfold triangles at h0
      split at h0 <;> simp at h0
  obtain ⟨m', hload, hwf', -, hfaces, hsame, -⟩ := C104_stl_partial srt hsrt d _ (by simpa using htne) hreads
  have hcorn : facetCorners (tris.map fun f => (P f.a, P f.b, P f.c)) = (corners3 tris).map P := by
    simp [facetCorners, corners3, List.flatMap_map, List.map_flatMap]
  rw [hcorn] at hsame
  have hlen : m'.faces.length = tris.length := by simpa using hfaces.length_eq
  have hlenU : (corners3 m'.faces).length = (corners3 tris).length := by
    simp [corners3, List.length_flatMap, hlen]
  obtain ⟨φ, hφ⟩ : ∃ φ : ℕ → ℕ, φ = fun i => (corners3 m'.faces).getD ((corners3 tris).idxOf i) 0 := ⟨_, rfl⟩
  have hU : corners3 m'.faces = (corners3 tris).map φ := by
    apply List.ext_getElem (by simp [hlenU])
    intro p hp hp'
    simp only [List.length_map] at hp'
    have hmem : (corners3 tris)[p] ∈ corners3 tris := List.getElem_mem _
    have hq := List.idxOf_lt_length_iff.2 hmem
    have h1 : ((corners3 tris).map P)[p]? = some (P (corners3 tris)[p]) := by simp [List.getElem?_eq_getElem hp']
    have h2 : ((corners3 tris).map P)[(corners3 tris).idxOf (corners3 tris)[p]]? = some (P (corners3 tris)[p]) := by
      rw [List.getElem?_map, List.getElem?_eq_getElem hq, List.getElem_idxOf]; rfl
    have h3 := hsame _ _ _ h1 h2
    have h3' : (corners3 m'.faces)[p]? = (corners3 m'.faces)[(corners3 tris).idxOf (corners3 tris)[p]]? := h3
    have h4 : φ (corners3 tris)[p] = (corners3 m'.faces)[p] := by
      simp only [hφ, List.getD_eq_getElem?_getD]
      rw [← h3', List.getElem?_eq_getElem hp]; rfl
    rw [List.getElem_map, h4]
  have hf4 : ∀ f ∈ m'.faces, f.a = f.d := by
    intro f hf
    obtain ⟨k, hk, rfl⟩ := List.getElem_of_mem hf
    exact ((List.forall₂_iff_get.1 hfaces).2 k hk (by simpa [hlen] using hk)).1
  have hren := corners3_renumber φ htri hf4 hlen hU
  refine ⟨m', tris, φ, hload, hwf', hperm, hren, ?_, ?_⟩
  · have hnear : ∀ i, ∀ w, OptClose (1 / 100000000) (some (P i)) (some w) →
        NearTo (1 / 100000000) (1 / 2000000 + ε * (1 + 1 / 2000000)) (m.vert i) w := by
      intro i w hw
      rw [hP] at hw
      obtain ⟨hx, hy, hz⟩ := hw
      have aux : ∀ {x w : ℚ}, |read (sciVal 6 x) - w| ≤ 1 / 100000000 →
          |w - x| ≤ 1 / 100000000 + (1 / 2000000 + ε * (1 + 1 / 2000000)) * |x| := by
        intro x w h
        have h1 := near_sci hread hε (rounded7_sciVal x)
        calc |w - x| = |(read (sciVal 6 x) - x) - (read (sciVal 6 x) - w)| := by ring_nf
          _ ≤ |read (sciVal 6 x) - x| + |read (sciVal 6 x) - w| := abs_sub _ _
          _ ≤ _ := by linarith
      exact ⟨aux hx, aux hy, aux hz⟩
    have hopt : ∀ i k : ℕ, OptClose (1 / 100000000) (some (P i)) m'.vertices[k]? → ∃ w, m'.vertices[k]? = some w ∧
        NearTo (1 / 100000000) (1 / 2000000 + ε * (1 + 1 / 2000000)) (m.vert i) w := by
      intro i k h
      cases e : m'.vertices[k]? with
      | none => rw [e] at h; exact h.elim
      | some w => rw [e] at h; exact ⟨w, rfl, hnear i w h⟩
    intro t ht i hi
    obtain ⟨k, hk, rfl⟩ := List.getElem_of_mem ht
    have hb := (List.forall₂_iff_get.1 hfaces).2 k (by omega) (by simpa using hk)
    have hg : m'.faces.get ⟨k, by omega⟩ = (tris[k]).map φ := by simp [hren]
    rw [hg] at hb
    simp only [List.get_eq_getElem, List.getElem_map] at hb
    have h4 := htri _ ht
    simp only [Face.isTri, beq_iff_eq] at h4
    simp only [Face.toList, List.mem_cons, List.not_mem_nil, or_false] at hi
    obtain ⟨-, b1, b2, b3⟩ := hb
    rcases hi with rfl | rfl | rfl | rfl
    · exact hopt _ _ b1
    · exact hopt _ _ b2
    · exact hopt _ _ b3
    · rw [← h4]; exact hopt _ _ b1
  · intro hc
    rw [closedOriented_iff] at hc ⊢
    intro g hg
    rw [hren, edgeSums_map (fun f => Face.edgeSum_map hg φ f), edgeSums_perm _ hperm,
      edgeSums_flatMap (edgeSums_triangles (hg.comp φ))]
    exact hc _ (hg.comp φ)

/-! ### A mesh which meets the hypotheses -/

/-- A closed box, with quadrangles and two triangles. -/
def boxSample : Mesh ℚ where
  vertices := [⟨0, 0, 0⟩, ⟨3, 0, 0⟩, ⟨3, 2, 0⟩, ⟨0, 2, 0⟩, ⟨0, 0, 1 / 3⟩, ⟨3, 0, 1 / 3⟩, ⟨3, 2, 1 / 3⟩, ⟨0, 2, 1 / 3⟩]
  faces := [⟨0, 3, 2, 1⟩, ⟨4, 5, 6, 7⟩, ⟨0, 1, 5, 4⟩, ⟨1, 2, 6, 5⟩, ⟨2, 3, 7, 6⟩, ⟨3, 0, 4, 3⟩, ⟨3, 4, 7, 3⟩]

lemma exists_stlReads (facets : List (V3 ℚ × V3 ℚ × V3 ℚ)) : ∃ d, StlReads d facets := by
  induction facets with
  | nil => exact ⟨⟨[], []⟩, .nil⟩
  | cons t l ih =>
    obtain ⟨d, hd⟩ := ih
    refine ⟨⟨d.points ++ [t.1, t.2.1, t.2.2], some (d.points.length, d.points.length + 1, d.points.length + 2) :: d.cells⟩,
      .cons ⟨_, _, _, rfl, by simp, by simp, by simp⟩ (hd.imp ?_)⟩
    rintro c u ⟨i, j, k, rfl, hi, hj, hk⟩
    exact ⟨i, j, k, rfl, by rw [List.getElem?_append_left (List.getElem?_eq_some_iff.1 hi).1, hi],
      by rw [List.getElem?_append_left (List.getElem?_eq_some_iff.1 hj).1, hj],
      by rw [List.getElem?_append_left (List.getElem?_eq_some_iff.1 hk).1, hk]⟩

/-- The hypotheses of `C132_stl`, `C132_vtk` and `C132_obj` are met by a watertight box, with a reader which reads one number in
`2 ^ 24` too large. -/
theorem boxSample_meets_C132 : boxSample.WF ∧ boxSample.faces ≠ [] ∧ (∀ v ∈ boxSample.vertices, FloatPoint v) ∧
    (∀ f ∈ boxSample.faces.flatMap triangles,
      FloatNormal axisNorm (boxSample.vert f.a) (boxSample.vert f.b) (boxSample.vert f.c)) ∧
    (∀ f ∈ boxSample.faces, (around f).Nodup) ∧ boxSample.ClosedOriented ∧
    (∀ x : ℚ, |(x + x / 2 ^ 24) - x| ≤ 1 / 2 ^ 24 * |x|) ∧
    (∃ file d, writeSTL axisNorm boxSample = .ok file ∧ ReadsStlFile (fun x => x + x / 2 ^ 24) file d) ∧
    (∃ d, ReadsFile readVtk (fun x => x + x / 2 ^ 24) (writeVTK "today".toList boxSample) d) ∧
    (∃ d, ReadsFile readObj (fun x => x + x / 2 ^ 24) (writeOBJ "today".toList boxSample) d) := by
  have h1 : boxSample.WF := by decide +kernel
  have h2 : ∀ v ∈ boxSample.vertices, FloatPoint v := by unfold FloatPoint FloatRange; decide +kernel
  have h3 : ∀ f ∈ boxSample.faces.flatMap triangles,
      FloatNormal axisNorm (boxSample.vert f.a) (boxSample.vert f.b) (boxSample.vert f.c) := by
    unfold FloatNormal FloatRange; decide +kernel
  refine ⟨h1, by decide, h2, h3, by decide +kernel, ?_, ?_, ?_, ?_, ?_⟩
  · rw [closedOriented_iff]
    intro g hg
    have a : ∀ i j, g j i = -g i j := fun i j => hg i j
    simp only [boxSample, edgeSums, List.map_cons, List.map_nil, List.sum_cons, List.sum_nil, Face.edgeSum_eq hg, hg.self]
    have := a 0 1; have := a 1 2; have := a 2 3; have := a 0 3; have := a 4 5; have := a 5 6; have := a 6 7; have := a 4 7
    have := a 0 4; have := a 1 5; have := a 2 6; have := a 3 7; have := a 3 4
    omega
  · intro x
    rw [add_sub_cancel_left, div_eq_mul_one_div, abs_mul, mul_comm]
    norm_num
  · obtain ⟨s, hs, hr⟩ := readStl_write axisNorm boxSample h1 h2 h3
    obtain ⟨d, hd⟩ := exists_stlReads (((stlFaces boxSample.faces).2.map fun f =>
      facetRead axisNorm (boxSample.vert f.a) (boxSample.vert f.b) (boxSample.vert f.c)).map
        (facetCornersRead fun x => x + x / 2 ^ 24))
    exact ⟨s, d, hs, _, hr, hd⟩
  · obtain ⟨ps, fs, h, -⟩ := C97_vtk "today".toList boxSample (by decide) (by decide)
    exact ⟨⟨ps.map (pointRead _), fs.map (List.map Int.toNat)⟩, ps, fs, h, rfl, rfl⟩
  · obtain ⟨ps, fs, h, -⟩ := C98_obj "today".toList boxSample (by decide)
    exact ⟨⟨ps.map (pointRead _), fs.map (List.map Int.toNat)⟩, ps, fs, h, rfl, rfl⟩

end MM.Io
