import Verif.Props.Watertight
import Verif.Props.Inertia
import Verif.Proofs.ClipPlanned

/-!
# C151: volume of a symmetrized half hull
-/

namespace MM

namespace SymVol

/-- Signed volume of the tetrahedron `o p q r`. -/
noncomputable def cone (o p q r : V3 ℝ) : ℝ := (p - o).dot ((q - o).cross (r - o)) / 6

lemma cone_reflect (pl : Plane ℝ) (hn : pl.normal.dot pl.normal = 1) {o : V3 ℝ} (ho : pl.dist o = 0) (p q r : V3 ℝ) :
    cone o (pl.reflect p) (pl.reflect r) (pl.reflect q) = cone o p q r := by
  have ho' : pl.reflect o = o := by
    simp only [Plane.dist] at ho
    rw [Plane.reflect, ho]; simp
  have e : ∀ v, pl.reflect v - o = reflLin pl.normal (v - o) := fun v => by
    conv_lhs => rw [← ho']
    exact reflect_sub pl v o
  unfold cone
  rw [e, e, e, reflLin_cross _ _ _ hn]
  generalize p - o = a
  have : (reflLin pl.normal a).dot (reflLin pl.normal ((q - o).cross (r - o))) = a.dot ((q - o).cross (r - o)) := by
    generalize (q - o).cross (r - o) = b
    simp only [reflLin, V3.sub_dot, V3.dot_sub, V3.smul_dot, V3.dot_smul, hn, V3.dot_comm pl.normal b]
    ring
  rw [← this]
  rw [V3.cross_anticomm (r - o) (q - o)]
  simp only [reflLin, V3.neg_dot, V3.dot_neg, V3.sub_dot, V3.dot_sub, V3.smul_dot, V3.dot_smul]
  ring

lemma cone_degenerate (o p q : V3 ℝ) : cone o p q p = 0 := by
  simp [cone, V3.dot, V3.cross]; ring

lemma cone_diagonal (o : V3 ℝ) {a b c d : V3 ℝ} (h : (d - a).dot (areaVec a b c) = 0) :
    cone o d b c + cone o d a b = cone o a b c + cone o a c d := by
  simp only [cone, areaVec, V3.dot, V3.cross, V3.sub_x, V3.sub_y, V3.sub_z] at h ⊢
  linear_combination (1 / 6) * h

lemma vert_left (p : Plane ℝ) (m : Mesh ℝ) {i : ℕ} (hi : i < m.nv) : (m.symmetrizeRaw p).vert i = m.vert i := by
  unfold Mesh.vert Mesh.symmetrizeRaw
  simp only [List.getD_eq_getElem?_getD]
  rw [List.getElem?_append_left hi]

lemma vert_right (p : Plane ℝ) (m : Mesh ℝ) {i : ℕ} (hi : i < m.nv) : (m.symmetrizeRaw p).vert (i + m.nv) = p.reflect (m.vert i) := by
  unfold Mesh.vert Mesh.symmetrizeRaw
  simp only [List.getD_eq_getElem?_getD]
  rw [List.getElem?_append_right (by simp [Mesh.nv])]
  have hi' : i < m.vertices.length := hi
  simp [Mesh.nv, hi']

/-- The volume from `o` of the mesh and its mirror image, before the merge. -/
lemma raw_sum (p : Plane ℝ) (hn : p.normal.dot p.normal = 1) (m : Mesh ℝ) (hwf : m.WF) (hcv : m.ConvexFaces) {o : V3 ℝ} (ho : p.dist o = 0) :
    (m.symmetrizeRaw p).surfaceSum (cone o) = 2 * m.surfaceSum (cone o) := by
  unfold Mesh.surfaceSum
  show ((m.faces ++ m.faces.map _).map _).sum = _
  rw [List.map_append, List.sum_append, List.map_map, two_mul]
  congr 2
  · apply List.map_congr_left
    intro f hf
    obtain ⟨ha, hb, hc, hd⟩ := hwf.corner hf
    simp only [Mesh.faceSum, vert_left p m ha, vert_left p m hb, vert_left p m hc, vert_left p m hd]
  · apply List.map_congr_left
    intro f hf
    obtain ⟨ha, hb, hc, hd⟩ := hwf.corner hf
    have hcf := hcv f hf
    simp only [Function.comp, Mesh.faceSum, Face.flip, Face.map, vert_right p m ha, vert_right p m hb, vert_right p m hc, vert_right p m hd,
      cone_reflect p hn ho]
    by_cases ht : f.a = f.d
    · rw [if_pos (by rw [ht]), if_pos ht, ← ht]
    · rw [if_neg ht] at hcf
      rw [if_neg (by omega), if_neg ht]
      exact cone_diagonal o hcf.coplanar

lemma raw_convex (p : Plane ℝ) (hn : p.normal.dot p.normal = 1) (m : Mesh ℝ) (hwf : m.WF) (hcv : m.ConvexFaces) :
    (m.symmetrizeRaw p).ConvexFaces := by
  intro f hf
  rcases List.mem_append.1 hf with hf | hf
  · obtain ⟨ha, hb, hc, hd⟩ := hwf.corner hf
    rw [vert_left p m ha, vert_left p m hb, vert_left p m hc, vert_left p m hd]
    exact hcv f hf
  · obtain ⟨g, hg, rfl⟩ := List.mem_map.1 hf
    obtain ⟨ha, hb, hc, hd⟩ := hwf.corner hg
    have := mirror_convex p hn m hwf hcv g.flip (List.mem_map.2 ⟨g, hg, rfl⟩)
    simp only [Face.flip, mirror_vert p m ha, mirror_vert p m hb, mirror_vert p m hc, mirror_vert p m hd] at this
    simp only [Face.flip, Face.map, vert_right p m ha, vert_right p m hb, vert_right p m hc, vert_right p m hd]
    by_cases ht : g.d = g.a
    · rw [if_pos (by rw [ht])]
      rwa [if_pos ht] at this
    · rw [if_neg (by omega)]
      rwa [if_neg ht] at this

lemma raw_wf (p : Plane ℝ) (m : Mesh ℝ) (hwf : m.WF) : (m.symmetrizeRaw p).WF := by
  intro f hf i hi
  simp only [Mesh.symmetrizeRaw, Mesh.nv, List.length_append, List.length_map]
  rcases List.mem_append.1 hf with hf | hf
  · have := hwf f hf i hi
    simp only [Mesh.nv] at this; omega
  · obtain ⟨g, hg, rfl⟩ := List.mem_map.1 hf
    obtain ⟨h1, h2, h3, h4⟩ := hwf.corner hg
    simp only [Mesh.nv] at h1 h2 h3 h4
    simp only [Face.flip, Face.map, Face.toList, Mesh.nv, List.mem_cons, List.not_mem_nil, or_false] at hi
    rcases hi with rfl | rfl | rfl | rfl <;> omega

lemma convexQuad_tri {p q r s : V3 ℝ} (h : ConvexQuad p q r s) (e : p = s) : areaVec p q r ≠ 0 := by
  obtain ⟨n, α, β, γ, δ, hα, hβ, hγ, hδ, hs, hn, e1, e2, e3, e4⟩ := h
  subst e
  have z : areaVec p r p = 0 := by
    unfold areaVec
    ext <;> simp [V3.cross]
  rw [z] at e2
  intro h0
  rw [h0] at e1
  have key : ∀ {t : ℝ}, (0 : V3 ℝ) = t • n → t = 0 := by
    intro t ht
    by_contra hne
    apply hn
    have x := congrArg V3.x ht
    have y := congrArg V3.y ht
    have z := congrArg V3.z ht
    simp only [V3.smul_x, V3.smul_y, V3.smul_z, V3.zero_x, V3.zero_y, V3.zero_z] at x y z
    ext
    · simpa [hne] using x.symm
    · simpa [hne] using y.symm
    · simpa [hne] using z.symm
  have := key e1
  have := key e2
  linarith

/-- A renumbering of the corners which keeps the points. -/
lemma renumbered {r s : Mesh ℝ} (σ : ℕ → ℕ) (hwf : r.WF) (hcv : r.ConvexFaces) (hf : s.faces = r.faces.map (Face.map σ))
    (hv : ∀ i < r.nv, s.vert (σ i) = r.vert i) (o : V3 ℝ) :
    s.ConvexFaces ∧ s.surfaceSum (cone o) = r.surfaceSum (cone o) := by
  constructor
  · intro f' hf'
    rw [hf] at hf'
    obtain ⟨f, hm, rfl⟩ := List.mem_map.1 hf'
    obtain ⟨ha, hb, hc, hd⟩ := hwf.corner hm
    have := hcv f hm
    simp only [Face.map, hv _ ha, hv _ hb, hv _ hc, hv _ hd]
    by_cases ht : f.a = f.d
    · rw [if_pos (by rw [ht])]
      rwa [if_pos ht] at this
    · rw [if_neg ht] at this
      split_ifs with hσ
      · exact convexQuad_tri this (by rw [← hv _ ha, ← hv _ hd, hσ])
      · exact this
  · unfold Mesh.surfaceSum
    rw [hf, List.map_map]
    congr 1
    apply List.map_congr_left
    intro f hm
    obtain ⟨ha, hb, hc, hd⟩ := hwf.corner hm
    simp only [Function.comp, Mesh.faceSum, Face.map, hv _ ha, hv _ hb, hv _ hc, hv _ hd]
    by_cases ht : f.a = f.d
    · rw [if_pos (by rw [ht]), if_pos ht]
    · rw [if_neg ht]
      split_ifs with hσ
      · have : r.vert f.a = r.vert f.d := by rw [← hv _ ha, ← hv _ hd, hσ]
        rw [← this, cone_degenerate, add_zero]
      · rfl

lemma merge_faces {K : Type*} [Field K] [LinearOrder K] {srt : (ℕ → K) → List ℕ → List ℕ} {atol : K} {m m' : Mesh K} {ids : List ℕ}
    (h : m.mergeDuplicates srt atol = .ok (m', ids)) : m'.faces = m.faces.map (Face.map fun i => ids.getD i 0) := by
  unfold Mesh.mergeDuplicates at h
  split at h
  · cases h
  split_ifs at h
  cases h
  rfl

end SymVol

open SymVol

/-- **C151.** Half a hull, open along the plane of symmetry only, with plane convex faces: the volume of its symmetrization is twice the volume of
the solid between the half hull and the plane, that is the integral of `1` over the signed tetrahedra which join any point of the plane to the
faces. The vertices, and their images, are equal or differ by more than `1e-8` in a coordinate. -/
theorem C151_symmetrized_volume (srt : (ℕ → ℝ) → List ℕ → List ℕ) (hsrt : IsArgsort srt) (p : Plane ℝ) (hn : p.normal.dot p.normal = 1)
    (m s : Mesh ℝ) (hwf : m.WF) (hcv : m.ConvexFaces) (hopen : m.OpenAlong p)
    (hsep : ∀ v ∈ m.vertices ++ m.vertices.map p.reflect, ∀ w ∈ m.vertices ++ m.vertices.map p.reflect,
      (∀ k, |v.coord k - w.coord k| ≤ 1 / 10 ^ 8) → v = w)
    (h : m.symmetrize srt p = .ok s) (o : V3 ℝ) (ho : p.dist o = 0) :
    s.volume = 2 * m.solidIntegral o (fun _ => 1) := by
  have hcl := C131_half_hull srt hsrt p m s hwf hopen h
  have hne : m.vertices ≠ [] := by
    intro he
    unfold Mesh.symmetrize at h
    have : (m.symmetrizeRaw p).vertices = [] := by simp [Mesh.symmetrizeRaw, he]
    unfold Mesh.mergeDuplicates at h
    rw [this] at h
    have := (C03_renumbering_total_in_range_onto srt hsrt (Mesh.defaultAtol : ℝ) (by unfold Mesh.defaultAtol; positivity)
      ([].map V3.coord)).1
    simp_all [Except.map]
  unfold Mesh.symmetrize at h
  cases e : (m.symmetrizeRaw p).mergeDuplicates srt Mesh.defaultAtol with
  | error => rw [e] at h; cases h
  | ok r =>
  obtain ⟨s', ids⟩ := r
  rw [e] at h
  cases h
  obtain ⟨hwf', -, -, hv⟩ := Clipper.merge_exact hsrt (by unfold Mesh.defaultAtol; positivity) (raw_wf p m hwf) (by simp [Mesh.symmetrizeRaw, hne]) e (by
    rintro v hv w hw ⟨x, y, z⟩
    refine hsep v hv w hw fun k => ?_
    have e8 : (Mesh.defaultAtol : ℝ) = 1 / 10 ^ 8 := by norm_num [Mesh.defaultAtol]
    rw [e8] at x y z
    fin_cases k
    exacts [x, y, z])
  obtain ⟨c1, c2⟩ := renumbered (fun i => ids.getD i 0) (raw_wf p m hwf) (raw_convex p hn m hwf hcv) (merge_faces e) (fun i hi => (hv i hi).2) o
  have key := (C26_volume _ hwf' hcl c1).1 o
  rw [key]
  have : m.solidIntegral o (fun _ => 1) = m.surfaceSum (cone o) := by
    unfold Mesh.solidIntegral
    congr 1
    funext a b c
    exact tet_one o a b c
  rw [this, ← raw_sum p hn m hwf hcv ho, ← c2]
  rfl

/-! ### A case -/

/-- The cube without its face in the plane `y = 0`. -/
noncomputable def openCube : Mesh ℝ := ⟨(cubeMesh ℝ).vertices, cubeFaces.filter (fun f => f ≠ ⟨0, 1, 5, 4⟩)⟩

lemma openCube_hyps : openCube.WF ∧ openCube.ConvexFaces ∧ openCube.OpenAlong ⟨⟨0, 1, 0⟩, 0⟩ ∧
    ∀ v ∈ openCube.vertices ++ openCube.vertices.map (⟨⟨0, 1, 0⟩, 0⟩ : Plane ℝ).reflect,
      ∀ w ∈ openCube.vertices ++ openCube.vertices.map (⟨⟨0, 1, 0⟩, 0⟩ : Plane ℝ).reflect,
      (∀ k, |v.coord k - w.coord k| ≤ 1 / 10 ^ 8) → v = w := by
  have sub : ∀ f ∈ openCube.faces, f ∈ (cubeMesh ℝ).faces := fun f hf => (List.mem_filter.1 hf).1
  have hwf : openCube.WF := fun f hf i hi => cubeMesh_wf ℝ f (sub f hf) i hi
  have hcv : openCube.ConvexFaces := fun f hf => cubeMesh_convex f (sub f hf)
  have hopen : openCube.OpenAlong ⟨⟨0, 1, 0⟩, 0⟩ := by
    apply MM.OpenAlong.of_edges
    intro e he hne
    have key : ∀ e ∈ (cubeFaces.filter (fun f => f ≠ ⟨0, 1, 5, 4⟩)).flatMap Face.directedEdges,
        ((cubeFaces.filter (fun f => f ≠ ⟨0, 1, 5, 4⟩)).flatMap Face.directedEdges).count e ≠
          ((cubeFaces.filter (fun f => f ≠ ⟨0, 1, 5, 4⟩)).flatMap Face.directedEdges).count e.swap →
        e.1 ∈ [0, 1, 4, 5] ∧ e.2 ∈ [0, 1, 4, 5] := by decide
    have vert : ∀ i ∈ [0, 1, 4, 5], (openCube.vert i).dot (⟨0, 1, 0⟩ : V3 ℝ) = 0 := by
      intro i hi
      simp only [List.mem_cons, List.not_mem_nil, or_false] at hi
      rcases hi with rfl | rfl | rfl | rfl <;> simp [openCube, cubeMesh, Mesh.vert, V3.dot]
    obtain ⟨a, b⟩ := key e he hne
    exact ⟨vert _ a, vert _ b⟩
  refine ⟨hwf, hcv, hopen, ?_⟩
  have ints : ∀ v ∈ openCube.vertices ++ openCube.vertices.map (⟨⟨0, 1, 0⟩, 0⟩ : Plane ℝ).reflect, ∀ k, ∃ z : ℤ, v.coord k = z := by
    intro v hv k
    simp only [openCube, cubeMesh, List.map_cons, List.map_nil, List.cons_append, List.nil_append, List.mem_cons, List.not_mem_nil, or_false] at hv
    have i0 : ∃ z : ℤ, (0 : ℝ) = z := ⟨0, by simp⟩
    have i1 : ∃ z : ℤ, (1 : ℝ) = z := ⟨1, by simp⟩
    have i2 : ∃ z : ℤ, (1 - 2 : ℝ) = z := ⟨-1, by norm_num⟩
    rcases hv with rfl | rfl | rfl | rfl | rfl | rfl | rfl | rfl | rfl | rfl | rfl | rfl | rfl | rfl | rfl | rfl <;> fin_cases k <;>
      simp [V3.coord, Plane.reflect, V3.dot] <;> first | exact i0 | exact i1 | exact i2
  intro v hv w hw hc
  have key : ∀ k, v.coord k = w.coord k := by
    intro k
    obtain ⟨a, ha⟩ := ints v hv k
    obtain ⟨b, hb⟩ := ints w hw k
    have := hc k
    rw [ha, hb] at this ⊢
    have h' : |((a - b : ℤ) : ℝ)| < 1 := by
      push_cast
      exact lt_of_le_of_lt this (by norm_num)
    rw [← Int.cast_abs] at h'
    have h'' : |a - b| < 1 := by exact_mod_cast h'
    rw [Int.abs_lt_one_iff] at h''
    have : a = b := by omega
    rw [this]
  ext
  exacts [key 0, key 1, key 2]

lemma openCube_solid : openCube.solidIntegral 0 (fun _ => 1) = 1 := by
  have hF : cubeFaces.filter (fun f => f ≠ ⟨0, 1, 5, 4⟩) =
      [⟨0, 2, 3, 1⟩, ⟨2, 6, 7, 3⟩, ⟨0, 4, 6, 2⟩, ⟨1, 3, 7, 5⟩, ⟨4, 5, 7, 4⟩, ⟨4, 7, 6, 4⟩] := by decide
  unfold Mesh.solidIntegral Mesh.surfaceSum openCube
  simp only [hF]
  simp [Mesh.faceSum, tet_one, cubeMesh, Mesh.vert, V3.dot, V3.cross]
  norm_num

/-- The hypotheses of C151 are met by the cube without its face in the plane `y = 0`: the symmetrized mesh has the volume `2`. -/
theorem openCube_meets_C151 : ∃ s, openCube.symmetrize insArgsort ⟨⟨0, 1, 0⟩, 0⟩ = .ok s ∧ s.volume = 2 := by
  obtain ⟨hwf, hcv, hopen, hsep⟩ := openCube_hyps
  have hn : (⟨⟨0, 1, 0⟩, 0⟩ : Plane ℝ).normal.dot (⟨⟨0, 1, 0⟩, 0⟩ : Plane ℝ).normal = 1 := by simp [V3.dot]
  obtain ⟨s, hs, -⟩ := C14_symmetrize insArgsort insArgsort_isArgsort (⟨⟨0, 1, 0⟩, 0⟩ : Plane ℝ) hn openCube hwf (by simp [openCube, cubeMesh])
  refine ⟨s, hs, ?_⟩
  rw [C151_symmetrized_volume insArgsort insArgsort_isArgsort _ hn openCube s hwf hcv hopen hsep hs 0 (by simp [Plane.dist, V3.dot]), openCube_solid]
  norm_num

end MM
