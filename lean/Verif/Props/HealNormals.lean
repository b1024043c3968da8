import Verif.Proofs.HealNormals
import Verif.Props.Inertia

/-!
# C24: heal_normals
-/

set_option linter.unusedSectionVars false

namespace MM

/-- Two different faces sharing an edge traverse it in opposite directions. -/
def OppositeOnSharedEdges (faces : List Face) : Prop :=
  ∀ (f g : ℕ) (F G : Face), f ≠ g → faces[f]? = some F → faces[g]? = some G →
    ∀ i j, (i, j) ∈ F.directedEdges → (i, j) ∉ G.directedEdges

/-- `F1` is `F0` with some faces reversed. -/
def Reoriented (F0 F1 : List Face) : Prop :=
  F1.length = F0.length ∧ ∀ (k : ℕ) (F : Face), F0[k]? = some F → F1[k]? = some F ∨ F1[k]? = some F.flip

/-- Some faces can be reversed so that faces sharing an edge traverse it in opposite directions. -/
def Orientable (F0 : List Face) : Prop := ∃ F1, Reoriented F0 F1 ∧ OppositeOnSharedEdges F1

lemma Orientable.signs {F0 : List Face} (h : Orientable F0) : ∃ s, Signs F0 s := by
  obtain ⟨F1, ⟨hl, hr⟩, ho⟩ := h
  refine ⟨fun k => decide (F1[k]? ≠ F0[k]?), ?_⟩
  have key : ∀ (k : ℕ) (F : Face), F0[k]? = some F → F1[k]? = some (F.orient (decide (F1[k]? ≠ F0[k]?))) := by
    intro k F hF
    by_cases h : F1[k]? = F0[k]?
    · simp [h, hF]
    · rcases hr k F hF with h' | h'
      · exact absurd (h'.trans hF.symm) h
      · simp only [ne_eq, h, not_false_eq_true, decide_true, Face.orient_true]; exact h'
  intro f g F G hne hF hG i j h1 h2
  exact ho f g _ _ hne (key f F hF) (key g G hG) i j h1 h2

section
variable {ord : List ℕ → List ℕ} (ho : IsSetOrder ord) {nv : ℕ} {faces : List Face}
include ho

/-- **C24 (orientation).** For a mesh with a connectivity, whose faces have distinct corners, in which no edge is
a diagonal of a face and two faces sharing an edge share no other corner: if it is orientable, then after
`heal_normals` faces sharing an edge traverse it in opposite directions, and each face is the same as before or
reversed. -/
theorem C24_flood {c : Conn} (hne : faces ≠ []) (hp : ProperFaces faces) (hc : NoChord faces) (h2 : TwoCommon faces)
    (h : connectivity ord nv faces = .ok c) (hor : Orientable faces) :
    ∃ faces' ff', healFlood ord c.ff faces = .ok (faces', ff') ∧ Reoriented faces faces' ∧
      OppositeOnSharedEdges faces' := by
  obtain ⟨s0, hs0⟩ := hor.signs
  have hlen : 0 < faces.length := List.length_pos_iff.2 hne
  -- an orientation that keeps face 0
  have hs : Signs faces (fun f => s0 f ^^ s0 0) := by
    intro f g F G hfg hF hG
    exact (hs0 f g F G hfg hF hG).xor (s0 0)
  have hadj : ∀ f g, g ∈ c.ff f ↔ AdjF faces f g := fun f g => (C20_face_adjacency_partial ho hp hc h f g).1
  have hnd : ∀ f, (c.ff f).Nodup := by
    obtain ⟨acts, hm, rfl⟩ := connectivity_ok h
    have : ∀ (acts : List ConnAct) (ff : ℕ → List ℕ), (∀ f, (ff f).Nodup) → ∀ f, (acts.foldl addAdj ff f).Nodup := by
      intro acts
      induction acts with
      | nil => exact fun ff h => h
      | cons a acts ih =>
        intro ff h
        rw [List.foldl_cons]
        apply ih
        cases a with
        | adj x y => exact nodup_dadd (nodup_dadd h)
        | bnd o t => exact h
    exact this acts _ (by simp)
  have hinv : FloodInv faces (fun f => s0 f ^^ s0 0) none ⟨c.ff, faces, fun k => k == 0, [0]⟩ := by
    constructor
    · exact hs
    · rfl
    · intro f F hF
      simp only
      rw [hF]
      by_cases hf : f = 0
      · subst hf; simp
      · rw [beq_false_of_ne hf, Bool.false_and, Face.orient_false]
    · exact fun f g hg => (hadj f g).1 hg
    · exact hnd
    · exact fun g f _ hA => (hadj g f).2 hA
    · exact fun f g hA hg => absurd ((hadj f g).2 hA) hg
    · intro f hf; simp at hf; simp [hf]
    · intro f hf hs; simp at hf hs; exact absurd hf hs
  have hmeas : floodMeasure faces.length ⟨c.ff, faces, fun k => k == 0, [0]⟩ < faces.length + 1 := by
    have := filter_update_length (nf := faces.length) (g := 0) hlen (vis := fun _ => false) rfl
    unfold floodMeasure
    have e : (fun k : ℕ => !(k == 0)) = fun k => !(if k = 0 then true else false) := by
      funext k; by_cases hk : k = 0 <;> simp [hk]
    simp only [List.length_singleton]
    rw [e]
    simp only [Bool.not_false, List.filter_true, List.length_range] at this
    omega
  obtain ⟨st', s', e, i', v', -⟩ := flood_spec ho hp h2 (faces.length + 1) _ _ hinv (by simp [hlen]) hmeas
  have hfaces : ∀ (k : ℕ) (F : Face), faces[k]? = some F → st'.faces[k]? = some (F.orient (s' k)) := by
    intro k F hF
    have := i'.faces k F hF
    rwa [v' k (List.getElem?_eq_some_iff.1 hF).1, Bool.true_and] at this
  refine ⟨st'.faces, st'.ff, ?_, ⟨i'.len, ?_⟩, ?_⟩
  · unfold healFlood
    rw [if_neg (by omega), e]
  · intro k F hF
    rw [hfaces k F hF]
    cases s' k
    · exact Or.inl rfl
    · exact Or.inr rfl
  · intro f g F1 G1 hfg hF1 hG1 i j e1 e2
    have hf : f < faces.length := by rw [← i'.len]; exact (List.getElem?_eq_some_iff.1 hF1).1
    have hg : g < faces.length := by rw [← i'.len]; exact (List.getElem?_eq_some_iff.1 hG1).1
    have hF := List.getElem?_eq_getElem hf
    have hG := List.getElem?_eq_getElem hg
    rw [hfaces f _ hF] at hF1
    rw [hfaces g _ hG] at hG1
    cases hF1; cases hG1
    exact i'.signs f g _ _ hfg hF hG i j e1 e2

end

/-! ## outward orientation -/

lemma Reoriented.mem {F0 F1 : List Face} (h : Reoriented F0 F1) {F : Face} (hF : F ∈ F1) : F ∈ F0 ∨ F.flip ∈ F0 := by
  obtain ⟨k, hk⟩ := List.mem_iff_getElem?.1 hF
  have hk0 : k < F0.length := by rw [← h.1]; exact (List.getElem?_eq_some_iff.1 hk).1
  rcases h.2 k _ (List.getElem?_eq_getElem hk0) with e | e
  · rw [hk] at e; cases e; exact Or.inl (List.getElem_mem hk0)
  · rw [hk] at e; cases e; right; rw [Face.flip_flip]; exact List.getElem_mem hk0

lemma Reoriented.proper {F0 F1 : List Face} (h : Reoriented F0 F1) (hp : ProperFaces F0) : ProperFaces F1 := by
  intro F hF
  rcases h.mem hF with h1 | h1
  · exact hp F h1
  · exact (F.corners_flip).nodup_iff.1 (hp _ h1)

lemma Reoriented.forall2 {F0 F1 : List Face} (h : Reoriented F0 F1) :
    List.Forall₂ (fun F G => G = F ∨ G = F.flip) F0 F1 := by
  rw [List.forall₂_iff_get]
  refine ⟨h.1.symm, ?_⟩
  intro i h1 h2
  have := h.2 i _ (List.getElem?_eq_getElem h1)
  rw [List.getElem?_eq_getElem h2] at this
  simpa using this

lemma Reoriented.facesOnEdge {F0 F1 : List Face} (h : Reoriented F0 F1) (i j : ℕ) :
    facesOnEdge F1 i j = facesOnEdge F0 i j := by
  have := h.forall2
  unfold MM.facesOnEdge
  induction this with
  | nil => rfl
  | cons hab _ ih =>
    have key : ∀ {F G : Face}, (G = F ∨ G = F.flip) → (G.HasEdge i j ↔ F.HasEdge i j) := by
      rintro F G (rfl | rfl)
      · exact Iff.rfl
      · exact Face.hasEdge_flip
    rw [List.countP_cons, List.countP_cons]
    have e := key hab
    simp only [e]
    congr 1
    apply ih
    exact ⟨(List.Forall₂.length_eq ‹_›).symm, fun k F hF => by
      have hg := List.forall₂_iff_get.1 ‹_›
      have hk := (List.getElem?_eq_some_iff.1 hF).1
      have := hg.2 k hk (by rw [← hg.1]; exact hk)
      rw [List.getElem?_eq_getElem (by rw [← hg.1]; exact hk)]
      rw [List.getElem?_eq_getElem hk] at hF
      cases hF
      simpa using this⟩

lemma Reoriented.convex {m : Mesh ℝ} {F1 : List Face} (h : Reoriented m.faces F1) (hc : m.ConvexFaces) :
    (⟨m.vertices, F1⟩ : Mesh ℝ).ConvexFaces := by
  intro F hF
  rcases h.mem hF with h1 | h1
  · exact hc F h1
  · have := hc.flipNormals F (List.mem_map.2 ⟨F.flip, h1, Face.flip_flip F⟩)
    exact this

lemma oriented_nodup {faces : List Face} (hp : ProperFaces faces) (ho : OppositeOnSharedEdges faces) :
    (faces.flatMap Face.directedEdges).Nodup := by
  rw [List.nodup_flatMap]
  constructor
  · intro f hf
    rw [List.nodup_iff_count_le_one]
    rintro ⟨i, j⟩
    have := Face.count_directed (hp f hf) i j
    split_ifs at this <;> omega
  · rw [List.pairwise_iff_getElem]
    intro i j hi hj hij
    rintro ⟨x, y⟩ h1 h2
    exact ho i j _ _ (by omega) (List.getElem?_eq_getElem hi) (List.getElem?_eq_getElem hj) x y h1 h2

/-- A consistently oriented mesh each edge of which belongs to two faces is closed in the sense of C26. -/
lemma closedOriented_of_twoFaces {m : Mesh ℝ} (hp : ProperFaces m.faces) (ho : OppositeOnSharedEdges m.faces)
    (h2 : ∀ i j, Joined m.faces i j → facesOnEdge m.faces i j = 2) : m.ClosedOriented := by
  intro i j
  have hnd := oriented_nodup hp ho
  have h1 := (List.nodup_iff_count_le_one.1 hnd) (i, j)
  have h1' := (List.nodup_iff_count_le_one.1 hnd) (j, i)
  have h3 := facesOnEdge_eq_count hp i j
  unfold Mesh.directedEdges
  by_cases hj : Joined m.faces i j
  · have := h2 i j hj; omega
  · have : facesOnEdge m.faces i j = 0 := by
      by_contra h0
      apply hj
      obtain ⟨f, hf, hfe⟩ := List.countP_pos_iff.1 (Nat.pos_of_ne_zero h0)
      exact ⟨f, hf, by simpa using hfe⟩
    omega

/-- The quantity tested by `heal_normals` is the volume of a closed mesh. -/
lemma outwardTest_eq_volume {m : Mesh ℝ} (hwf : m.WF) (hc : m.ClosedOriented) (hf : m.ConvexFaces) :
    m.outwardTest = m.volume := by
  have hflat := hf.flat
  rw [(C26_volume m hwf hc hf).2.1 0]
  unfold Mesh.solidIntegral
  set Z := m.zmax with hZ
  have hT : m.outwardTest = m.surfaceSum (fun p q r => (areaVec p q r).z * ((p.z + q.z + r.z) / 3 - Z) / 2) := by
    unfold Mesh.outwardTest Mesh.surfaceSum
    rw [facesProperties_eq, List.map_map]
    congr 1
    apply List.map_congr_left
    intro f hfm
    have hff := hflat f hfm
    simp only [Function.comp]
    unfold Mesh.faceProps Mesh.faceSum
    by_cases ht : f.a = f.d
    · rw [if_pos ht] at hff
      rw [if_pos (Face.isTri_iff.2 ht), if_pos ht]
      unfold Mesh.triPropsOf
      have h1 := tri_normal hff
      have h2 := congrArg V3.z h1
      simp only [V3.smul_z] at h2
      beta_reduce
      rw [← h2]
      simp only [triProps, triDelta, areaVec, ← hZ]
      simp
      ring
    · rw [if_neg ht] at hff
      rw [if_neg (by rwa [Face.isTri_iff]), if_neg ht]
      unfold Mesh.quadPropsOf
      have h1 := hff.normal
      have e1 := congrArg V3.z h1.1
      have e2 := congrArg V3.z h1.2
      simp only [V3.smul_z] at e1 e2
      beta_reduce
      rw [← e1, ← e2]
      have hA : quadA1 (m.vert f.a) (m.vert f.b) (m.vert f.c) = triDelta (m.vert f.a) (m.vert f.b) (m.vert f.c) / 2 := by
        unfold quadA1 triDelta; ring
      have hB : quadA2 (m.vert f.a) (m.vert f.c) (m.vert f.d) = triDelta (m.vert f.a) (m.vert f.c) (m.vert f.d) / 2 := by
        unfold quadA2 triDelta; rw [V3.norm_cross_comm]; ring
      have hpos : triDelta (m.vert f.a) (m.vert f.b) (m.vert f.c) / 2 +
          triDelta (m.vert f.a) (m.vert f.c) (m.vert f.d) / 2 ≠ 0 := by
        obtain ⟨n, α, β, hα, hβ, hs, hn, k1, k2⟩ := hff
        have hn' := V3.norm_pos hn
        have t1 : triDelta (m.vert f.a) (m.vert f.b) (m.vert f.c) = α * n.norm := by
          show (areaVec _ _ _).norm = _
          rw [k1, V3.norm_smul_of_nonneg hα]
        have t2 : triDelta (m.vert f.a) (m.vert f.c) (m.vert f.d) = β * n.norm := by
          show (areaVec _ _ _).norm = _
          rw [k2, V3.norm_smul_of_nonneg hβ]
        rw [t1, t2]
        have := mul_pos hs hn'
        intro h0; nlinarith
      have hc : (quadProps (m.vert f.a) (m.vert f.b) (m.vert f.c) (m.vert f.d)).center.z *
          (quadProps (m.vert f.a) (m.vert f.b) (m.vert f.c) (m.vert f.d)).area =
          triDelta (m.vert f.a) (m.vert f.b) (m.vert f.c) / 2 * (((m.vert f.a).z + (m.vert f.b).z + (m.vert f.c).z) / 3) +
          triDelta (m.vert f.a) (m.vert f.c) (m.vert f.d) / 2 * (((m.vert f.a).z + (m.vert f.c).z + (m.vert f.d).z) / 3) := by
        simp only [quadProps, hA, hB]
        simp only [V3.smul_z, V3.add_z]
        rw [one_div, mul_comm, mul_inv_cancel_left₀ hpos]
        ring
      have hare : (quadProps (m.vert f.a) (m.vert f.b) (m.vert f.c) (m.vert f.d)).area =
          triDelta (m.vert f.a) (m.vert f.b) (m.vert f.c) / 2 + triDelta (m.vert f.a) (m.vert f.c) (m.vert f.d) / 2 := by
        simp only [quadProps, hA, hB]
      rw [sub_mul, hc, hare]
      ring
  rw [hT]
  refine closed_flux m hc _ _ (fun p q => (areaVec 0 p q).z * ((p.z + q.z) / 3 - Z) / 2) ?_ ?_
  · intro p q
    simp [areaVec, V3.cross]; ring
  · intro p q r
    rw [tet_one]
    simp [areaVec, V3.cross, V3.dot]; ring

/-- **C24, partial.** `heal_normals` on a mesh whose connectivity is not cached, with faces that have distinct
corners, in which no edge is a diagonal of a face and two faces sharing an edge share no other corner, and which
is orientable: the vertices are unchanged, each face is the same as before or reversed, faces sharing an edge
traverse it in opposite directions, and the volume of a mesh with plane convex faces whose edges all belong to two
faces is non-negative. Missing: a second call (`C24_second_call_fails`), faces sharing more than two corners
(`C24_three_common_fails`). -/
theorem C24_heal_normals_partial {ord : List ℕ → List ℕ} (ho : IsSetOrder ord) {m : Mesh ℝ} {c : Conn}
    (hne : m.faces ≠ []) (hp : ProperFaces m.faces) (hc : NoChord m.faces) (h2 : TwoCommon m.faces)
    (h : connectivity ord m.nv m.faces = .ok c) (hor : Orientable m.faces) :
    ∃ m' ff', healNormalsFresh ord m = .ok (m', ff') ∧ m'.vertices = m.vertices ∧
      Reoriented m.faces m'.faces ∧ OppositeOnSharedEdges m'.faces ∧
      (m.WF → m.ConvexFaces → (∀ i j, Joined m.faces i j → facesOnEdge m.faces i j = 2) → 0 ≤ m'.volume) := by
  obtain ⟨F1, ff', e, hr, hopp⟩ := C24_flood ho hne hp hc h2 h hor
  have hflip : Reoriented m.faces (F1.map Face.flip) := by
    refine ⟨by simp [hr.1], ?_⟩
    intro k F hF
    rw [List.getElem?_map]
    rcases hr.2 k F hF with h' | h'
    · right; rw [h']; rfl
    · left; rw [h']; rfl
  have hoppflip : OppositeOnSharedEdges (F1.map Face.flip) := by
    intro f g F G hfg hF hG i j e1 e2
    rw [List.getElem?_map, Option.map_eq_some_iff] at hF hG
    obtain ⟨F', hF', rfl⟩ := hF
    obtain ⟨G', hG', rfl⟩ := hG
    exact hopp f g F' G' hfg hF' hG' j i (Face.mem_directed_flip.1 e1) (Face.mem_directed_flip.1 e2)
  have hvol : m.WF → m.ConvexFaces → (∀ i j, Joined m.faces i j → facesOnEdge m.faces i j = 2) →
      (⟨m.vertices, F1⟩ : Mesh ℝ).outwardTest = (⟨m.vertices, F1⟩ : Mesh ℝ).volume ∧
      (⟨m.vertices, F1⟩ : Mesh ℝ).flipNormals.volume = - (⟨m.vertices, F1⟩ : Mesh ℝ).volume := by
    intro hwf hconv htwo
    have hwf1 : (⟨m.vertices, F1⟩ : Mesh ℝ).WF := by
      intro F hF i hi
      rcases hr.mem hF with h' | h'
      · exact hwf F h' i hi
      · refine hwf _ h' i ?_
        have : F.flip.toList = F.toList.reverse := rfl
        rw [this, List.mem_reverse]; exact hi
    have hcl : (⟨m.vertices, F1⟩ : Mesh ℝ).ClosedOriented := by
      apply closedOriented_of_twoFaces (hr.proper hp) hopp
      intro i j hj
      show facesOnEdge F1 i j = 2
      rw [hr.facesOnEdge]
      apply htwo
      obtain ⟨F, hF, he⟩ := hj
      rcases hr.mem hF with h' | h'
      · exact ⟨F, h', he⟩
      · exact ⟨_, h', Face.hasEdge_flip.2 he⟩
    have hconv1 := hr.convex hconv
    exact ⟨outwardTest_eq_volume hwf1 hcl hconv1, (C26_volume _ hwf1 hcl hconv1).2.2.2.2⟩
  unfold healNormalsFresh healNormals
  rw [h]
  simp only [e]
  by_cases hclosed : c.isClosed = true
  · rw [if_pos hclosed]
    by_cases hneg : (⟨m.vertices, F1⟩ : Mesh ℝ).outwardTest < 0
    · rw [if_pos hneg]
      refine ⟨_, ff', rfl, rfl, hflip, hoppflip, ?_⟩
      intro hwf hconv htwo
      obtain ⟨v1, v2⟩ := hvol hwf hconv htwo
      rw [v2]; rw [v1] at hneg; linarith
    · rw [if_neg hneg]
      refine ⟨_, ff', rfl, rfl, hr, hopp, ?_⟩
      intro hwf hconv htwo
      obtain ⟨v1, v2⟩ := hvol hwf hconv htwo
      rw [v1] at hneg; exact not_lt.1 hneg
  · rw [if_neg hclosed]
    refine ⟨_, ff', rfl, rfl, hr, hopp, ?_⟩
    intro hwf hconv htwo
    exact absurd (C22_closed_of_two_faces ho hp h htwo) hclosed

/-- **C24.** If moreover each edge belongs to two faces, the mesh is watertight after `heal_normals`: each directed edge of its
faces appears as often as the same edge the other way round. Partial: as `C24_heal_normals_partial`. -/
theorem C24_watertight_partial {ord : List ℕ → List ℕ} (ho : IsSetOrder ord) {m : Mesh ℝ} {c : Conn}
    (hne : m.faces ≠ []) (hp : ProperFaces m.faces) (hc : NoChord m.faces) (h2 : TwoCommon m.faces)
    (h : connectivity ord m.nv m.faces = .ok c) (hor : Orientable m.faces)
    (htwo : ∀ i j, Joined m.faces i j → facesOnEdge m.faces i j = 2) :
    ∃ m' ff', healNormalsFresh ord m = .ok (m', ff') ∧ m'.ClosedOriented := by
  obtain ⟨m', ff', e, -, hr, hopp, -⟩ := C24_heal_normals_partial ho hne hp hc h2 h hor
  refine ⟨m', ff', e, closedOriented_of_twoFaces (hr.proper hp) hopp ?_⟩
  rintro i j ⟨F, hF, he⟩
  rw [hr.facesOnEdge]
  apply htwo
  rcases hr.mem hF with h' | h'
  · exact ⟨F, h', he⟩
  · exact ⟨_, h', Face.hasEdge_flip.2 he⟩

/-- Non-vacuity: the cube with two faces reversed satisfies the hypotheses of C24. -/
example :
    let faces : List Face := cubeFaces.mapIdx (fun k f => if k = 1 ∨ k = 4 then f.flip else f)
    ProperFaces faces ∧ NoChord faces ∧ TwoCommon faces ∧
    ((connectivity id 8 faces).toOption.map (fun c => c.isClosed)) = some true ∧
    ¬ (faces.flatMap Face.directedEdges).Nodup ∧
    (((connectivity id 8 faces).toOption.bind (fun c => (healFlood id c.ff faces).toOption)).map
      (fun r => decide ((r.1.flatMap Face.directedEdges).Nodup))) = some true := by
  decide +kernel

example : Orientable (cubeFaces.mapIdx (fun k f => if k = 1 ∨ k = 4 then f.flip else f)) := by
  refine ⟨cubeFaces, ⟨by decide +kernel, ?_⟩, ?_⟩
  · intro k F hF
    have hk := (List.getElem?_eq_some_iff.1 hF).1
    have hk6 : k < 7 := by simpa [cubeFaces] using hk
    have : ∀ k < 7, cubeFaces[k]? = (cubeFaces.mapIdx (fun k f => if k = 1 ∨ k = 4 then f.flip else f))[k]? ∨
        cubeFaces[k]? = ((cubeFaces.mapIdx (fun k f => if k = 1 ∨ k = 4 then f.flip else f))[k]?).map Face.flip := by
      decide +kernel
    rcases this k hk6 with h | h
    · exact Or.inl (h.trans hF)
    · right; rw [h, hF]; rfl
  · intro f g F G hfg hF hG i j h1 h2
    have hf : f < 7 := by simpa [cubeFaces] using (List.getElem?_eq_some_iff.1 hF).1
    have hg : g < 7 := by simpa [cubeFaces] using (List.getElem?_eq_some_iff.1 hG).1
    have key : ∀ p ∈ (List.range 7 ×ˢ List.range 7), p.1 ≠ p.2 →
        ∀ e ∈ (cubeFaces.getD p.1 ⟨0, 0, 0, 0⟩).directedEdges,
          ¬ e ∈ (cubeFaces.getD p.2 ⟨0, 0, 0, 0⟩).directedEdges := by decide +kernel
    refine key (f, g) (by simp [hf, hg]) hfg (i, j) ?_ ?_
    · simpa [List.getD_eq_getElem?_getD, hF] using h1
    · simpa [List.getD_eq_getElem?_getD, hG] using h2

/-! ## a second call -/

lemma floodAdj_facts {ord : List ℕ → List ℕ} {iface g : ℕ} {face : Face} {st st' : FloodState}
    (h : floodAdj ord iface face st g = .ok st') :
    (∀ k, st.vis k = true → st'.vis k = true ∧ st'.ff k = st.ff k) ∧
    (∀ k x, x ∈ st'.ff k → x ∈ st.ff k) ∧ (st.vis g = false → (st.ff g).Nodup → iface ∉ st'.ff g) := by
  unfold floodAdj at h
  by_cases hv : st.vis g = true
  · rw [if_pos hv] at h
    cases h
    exact ⟨fun k hk => ⟨hk, rfl⟩, fun k x hx => hx, fun h => by simp [hv] at h⟩
  · rw [if_neg hv] at h
    split_ifs at h with hi
    have common : ∀ st'' : FloodState, st''.vis = (fun k => if k = g then true else st.vis k) →
        st''.ff = (fun k => if k = g then (st.ff k).erase iface else st.ff k) →
        (∀ k, st.vis k = true → st''.vis k = true ∧ st''.ff k = st.ff k) ∧
        (∀ k x, x ∈ st''.ff k → x ∈ st.ff k) ∧ (st.vis g = false → (st.ff g).Nodup → iface ∉ st''.ff g) := by
      intro st'' h1 h2
      refine ⟨?_, ?_, ?_⟩
      · intro k hk
        have : k ≠ g := by rintro rfl; exact hv hk
        rw [h1, h2]; simp [this, hk]
      · intro k x hx
        rw [h2] at hx
        simp only at hx
        split_ifs at hx
        · exact List.mem_of_mem_erase hx
        · exact hx
      · intro _ hnd
        rw [h2]; simp only [if_true]
        exact hnd.not_mem_erase
    simp only at h
    split at h
    · cases h; exact common _ rfl rfl
    · cases h; exact common _ rfl rfl

lemma floodLoop_facts {ord : List ℕ → List ℕ} {iface : ℕ} {face : Face} : ∀ (gs : List ℕ) {st st' : FloodState},
    floodLoop ord iface face gs st = .ok st' →
    (∀ k, st.vis k = true → st'.vis k = true ∧ st'.ff k = st.ff k) ∧ (∀ k x, x ∈ st'.ff k → x ∈ st.ff k) := by
  intro gs
  induction gs with
  | nil => intro st st' h; simp [floodLoop] at h; subst h; exact ⟨fun k hk => ⟨hk, rfl⟩, fun k x hx => hx⟩
  | cons g gs ih =>
    intro st st' h
    unfold floodLoop at h
    cases h1 : floodAdj ord iface face st g with
    | error e => rw [h1] at h; simp at h
    | ok st1 =>
      rw [h1] at h
      obtain ⟨a1, a2, -⟩ := floodAdj_facts h1
      obtain ⟨b1, b2⟩ := ih h
      exact ⟨fun k hk => ⟨(b1 k (a1 k hk).1).1, (b1 k (a1 k hk).1).2.trans (a1 k hk).2⟩,
        fun k x hx => a2 k x (b2 k x hx)⟩

lemma flood_facts {ord : List ℕ → List ℕ} {nf : ℕ} : ∀ (fuel : ℕ) {st st' : FloodState},
    flood ord nf fuel st = .ok st' →
    (∀ k, st.vis k = true → st'.vis k = true ∧ st'.ff k = st.ff k) ∧ (∀ k x, x ∈ st'.ff k → x ∈ st.ff k) := by
  intro fuel
  induction fuel with
  | zero => intro st st' h; simp [flood] at h; subst h; exact ⟨fun k hk => ⟨hk, rfl⟩, fun k x hx => hx⟩
  | succ n ih =>
    intro st st' h
    unfold flood at h
    split at h
    · rename_i iface rest hst
      cases h1 : floodPop ord st iface rest with
      | error e => rw [h1] at h; simp at h
      | ok st1 =>
        rw [h1] at h
        obtain ⟨a1, a2⟩ := floodLoop_facts _ h1
        obtain ⟨b1, b2⟩ := ih h
        exact ⟨fun k hk => ⟨(b1 k (a1 k hk).1).1, (b1 k (a1 k hk).1).2.trans (a1 k hk).2⟩,
          fun k x hx => a2 k x (b2 k x hx)⟩
    · split at h
      · cases h; exact ⟨fun k hk => ⟨hk, rfl⟩, fun k x hx => hx⟩
      · rename_i k0 hk0
        cases h1 : floodPop ord { st with vis := fun i => if i = k0 then true else st.vis i } k0 [] with
        | error e => rw [h1] at h; simp at h
        | ok st1 =>
          rw [h1] at h
          obtain ⟨a1, a2⟩ := floodLoop_facts _ h1
          obtain ⟨b1, b2⟩ := ih h
          refine ⟨fun k hk => ?_, fun k x hx => a2 k x (b2 k x hx)⟩
          have hk' := a1 k (by simp only; split_ifs; rfl; exact hk)
          exact ⟨(b1 k hk'.1).1, (b1 k hk'.1).2.trans hk'.2⟩

/-- **C24 fails for a second call.** The flooding loop removes entries from the adjacency that stays in the cache:
after a successful call on a mesh whose first face has a neighbour, the next call raises `KeyError`. -/
theorem C24_second_call_fails {ord : List ℕ → List ℕ} (ho : IsSetOrder ord) {ff ff' : ℕ → List ℕ}
    {faces faces' : List Face} (hnd : ∀ f, (ff f).Nodup) (h0 : 0 ∉ ff 0) (hne : ff 0 ≠ [])
    (h : healFlood ord ff faces = .ok (faces', ff')) (hlen : faces'.length = faces.length) :
    healFlood ord ff' faces' = .error .keyError := by
  unfold healFlood at h
  split_ifs at h with hl
  cases hfl : flood ord faces.length (faces.length + 1) ⟨ff, faces, fun k => k == 0, [0]⟩ with
  | error e => rw [hfl] at h; simp at h
  | ok st =>
    rw [hfl] at h
    simp only [Except.ok.injEq, Prod.mk.injEq] at h
    obtain ⟨rfl, rfl⟩ := h
    have hff0 : st.ff 0 = ff 0 := ((flood_facts _ hfl).1 0 (by simp)).2
    obtain ⟨g, gs, hgs⟩ : ∃ g gs, ord (ff 0) = g :: gs := by
      cases hc : ord (ff 0) with
      | nil => have := (ho (ff 0)); rw [hc] at this; exact absurd this.symm.eq_nil hne
      | cons g gs => exact ⟨g, gs, rfl⟩
    have hg0 : g ≠ 0 := by
      rintro rfl
      exact h0 ((ho _).mem_iff.1 (by rw [hgs]; simp))
    -- the first call removed face 0 from the neighbours of g
    have hrem : 0 ∉ st.ff g := by
      unfold flood at hfl
      simp only at hfl
      cases h1 : floodPop ord ⟨ff, faces, fun k => k == 0, [0]⟩ 0 [] with
      | error e => rw [h1] at hfl; simp at hfl
      | ok st1 =>
        rw [h1] at hfl
        intro hmem
        have hm1 := (flood_facts _ hfl).2 g 0 hmem
        unfold floodPop at h1
        simp only [hgs] at h1
        unfold floodLoop at h1
        cases h2 : floodAdj ord 0 (faces.getD 0 ⟨0, 0, 0, 0⟩) ⟨ff, faces, fun k => k == 0, []⟩ g with
        | error e => rw [h2] at h1; simp at h1
        | ok st2 =>
          rw [h2] at h1
          have hm2 := (floodLoop_facts _ h1).2 g 0 hm1
          exact (floodAdj_facts h2).2.2 (by simpa using hg0) (hnd g) hm2
    unfold healFlood
    rw [if_neg (by omega)]
    unfold flood
    simp only
    unfold floodPop
    simp only [hff0, hgs]
    unfold floodLoop floodAdj
    simp only
    rw [if_neg (by simpa using hg0), if_neg hrem]

/-- Non-vacuity: on a cube the first call succeeds and the second raises. -/
example : ((connectivity id 8 cubeFaces).toOption.map (fun c =>
    match healFlood id c.ff cubeFaces with
    | .error _ => none
    | .ok (faces, ff) =>
      match healFlood id ff faces with
      | .error e => some (decide (e = .keyError))
      | .ok _ => none)) = some (some true) := by decide +kernel

/-- **C24 fails for faces sharing three corners.** Two quadrangles sharing the edges 0 1 and 1 2, traversed in the
same direction by both: the mesh is orientable, but nothing is reversed. -/
theorem C24_three_common_fails :
    ((connectivity id 5 [⟨0, 1, 2, 3⟩, ⟨0, 1, 2, 4⟩]).toOption.bind (fun c =>
      ((healFlood id c.ff [⟨0, 1, 2, 3⟩, ⟨0, 1, 2, 4⟩]).toOption.map (·.1)))) = some [⟨0, 1, 2, 3⟩, ⟨0, 1, 2, 4⟩] ∧
    ([(⟨0, 1, 2, 3⟩ : Face), (⟨0, 1, 2, 4⟩ : Face).flip].flatMap Face.directedEdges).Nodup ∧
    ¬ ([(⟨0, 1, 2, 3⟩ : Face), ⟨0, 1, 2, 4⟩].flatMap Face.directedEdges).Nodup := by
  decide +kernel

end MM
