import Verif.Props.Geometry
import Verif.Props.Rotations
import Verif.Spec.Witness

/-!
# Property C18: rigid motions and scalings
-/

namespace MM

set_option linter.unusedSectionVars false

/-- Areas and normals of a face whose corners are moved by `g`, when `g` acts on area vectors as `A`
and `A` multiplies norms by `s > 0` and the normals by `B`. -/
theorem faceProps_moved (m : Mesh ℝ) (hwf : m.WF) (g A B : V3 ℝ → V3 ℝ) (s : ℝ)
    (hA : ∀ p q r, areaVec (g p) (g q) (g r) = A (areaVec p q r))
    (hadd : ∀ u v, A (u + v) = A u + A v)
    (hn : ∀ u, (A u).norm = s * u.norm) (hB : ∀ (a : ℝ) u, (1 / s * a) • A u = B (a • u)) :
    (m.mapVertices g).facesProperties.map FP.area = m.facesProperties.map (fun p => s * p.area) ∧
    (m.mapVertices g).facesProperties.map FP.normal = m.facesProperties.map (fun p => B p.normal) := by
  have hmove : ∀ f ∈ m.faces, ((m.mapVertices g).faceProps f).area = s * (m.faceProps f).area ∧
      ((m.mapVertices g).faceProps f).normal = B (m.faceProps f).normal := by
    intro f hf
    obtain ⟨ha, hb, hc, hd⟩ := hwf.corner (f := f) hf
    simp only [Mesh.faceProps, Mesh.triPropsOf, Mesh.quadPropsOf,
      vert_mapVertices m g _ ha, vert_mapVertices m g _ hb, vert_mapVertices m g _ hc,
      vert_mapVertices m g _ hd]
    generalize m.vert f.a = p, m.vert f.b = q, m.vert f.c = r, m.vert f.d = t
    have h3 : ∀ p q r, ((g q - g p).cross (g r - g p)) = A ((q - p).cross (r - p)) := hA
    split_ifs
    · simp only [triProps, h3, hn]
      refine ⟨by ring, ?_⟩
      rw [← hB]; congr 1
      rw [one_div_mul_one_div]
    · simp only [quadProps, quadA1, quadA2]
      rw [h3, h3]
      simp only [hn, diag_cross, hA]
      refine ⟨by ring, ?_⟩
      rw [← hadd, hn, ← hB]; congr 1
      rw [one_div_mul_one_div]
  rw [facesProperties_eq, facesProperties_eq]
  simp only [List.map_map, faces_mapVertices]
  exact ⟨List.map_congr_left fun f hf => (hmove f hf).1, List.map_congr_left fun f hf => (hmove f hf).2⟩

theorem mapVertices_mapVertices {K : Type*} [CommRing K] (g h : V3 K → V3 K) (m : Mesh K) :
    (m.mapVertices g).mapVertices h = m.mapVertices (h ∘ g) := by
  simp [Mesh.mapVertices]

theorem mapVertices_id {K : Type*} [CommRing K] {g : V3 K → V3 K} (hg : ∀ v, g v = v) (m : Mesh K) :
    m.mapVertices g = m := by
  have : g = id := funext hg
  simp [Mesh.mapVertices, this]

theorem tetVol_translate (t p q r : V3 ℝ) :
    tetVol (p + t) (q + t) (r + t) = tetVol p q r + (areaVec p q r).dot t / 6 := by
  simp [tetVol, areaVec, V3.dot, V3.cross]; ring

theorem translate_flat (t : V3 ℝ) (m : Mesh ℝ) (hwf : m.WF) (h : m.FlatFaces) :
    (m.translate t).FlatFaces := by
  intro f hf
  obtain ⟨ha, hb, hc, hd⟩ := hwf.corner (f := f) hf
  have := h f hf
  simp only [Mesh.translate, vert_mapVertices m _ _ ha, vert_mapVertices m _ _ hb,
    vert_mapVertices m _ _ hc, vert_mapVertices m _ _ hd, FlatQuad, areaVec_translate]
  exact this

theorem translate_signedVolume (t : V3 ℝ) (m : Mesh ℝ) (hwf : m.WF) (h : m.ClosedOriented) :
    (m.translate t).signedVolume = m.signedVolume := by
  have hA := closed_areaVec_sum m h t
  have hf : ∀ f ∈ m.faces, (m.translate t).faceSignedVolume f =
      m.faceSignedVolume f + (m.faceAreaVec f).dot t / 6 := by
    intro f hf
    obtain ⟨ha, hb, hc, hd⟩ := hwf.corner (f := f) hf
    simp only [Mesh.faceSignedVolume, Mesh.faceAreaVec, Mesh.translate, vert_mapVertices m _ _ ha,
      vert_mapVertices m _ _ hb, vert_mapVertices m _ _ hc, vert_mapVertices m _ _ hd, tetVol_translate]
    split_ifs
    · rfl
    · rw [V3.add_dot]; ring
  have : (m.translate t).signedVolume =
      m.signedVolume + (m.faces.map (fun f => (m.faceAreaVec f).dot t)).sum / 6 := by
    unfold Mesh.signedVolume
    show (m.faces.map (m.translate t).faceSignedVolume).sum = _
    rw [List.map_congr_left hf]
    generalize m.faces = l
    induction l with
    | nil => simp
    | cons f l ih => simp only [List.map_cons, List.sum_cons, ih]; ring
  rw [this, hA]; ring

/-- **C18, translations.** Distances, areas and normals are unchanged; so is the volume of a closed
oriented mesh with plane non-degenerate faces; the opposite translation restores the mesh; `translate` is
`translate_x`, `translate_y` and `translate_z` in sequence. -/
theorem C18_translate (t : V3 ℝ) (m : Mesh ℝ) (hwf : m.WF) :
    (∀ i < m.nv, ∀ j < m.nv, ((m.translate t).vert i - (m.translate t).vert j).norm =
      (m.vert i - m.vert j).norm) ∧
    (∀ i < m.nv, (m.translate t).vert i = m.vert i + t) ∧
    (m.translate t).faces = m.faces ∧
    (m.translate t).facesProperties.map FP.area = m.facesProperties.map FP.area ∧
    (m.translate t).facesProperties.map FP.normal = m.facesProperties.map FP.normal ∧
    (m.ClosedOriented → m.FlatFaces → (m.translate t).volume = m.volume) ∧
    (m.translate t).translate (-t) = m ∧
    m.translate t = ((m.translateX t.x).translateY t.y).translateZ t.z := by
  have hv := fun i (hi : i < m.nv) => vert_mapVertices m (· + t) i hi
  obtain ⟨h1, h2⟩ := faceProps_moved m hwf (· + t) id id 1 (fun p q r => areaVec_translate t p q r)
    (fun _ _ => rfl) (fun u => (one_mul _).symm) (fun a u => by simp)
  refine ⟨?_, hv, rfl, ?_, ?_, ?_, ?_, ?_⟩
  · intro i hi j hj
    simp only [Mesh.translate, hv i hi, hv j hj, add_sub_add_right_eq_sub]
  · rw [Mesh.translate, h1]; simp
  · rw [Mesh.translate, h2]; simp
  · intro hc hf
    rw [volume_eq_signedVolume _ (translate_flat t m hwf hf), volume_eq_signedVolume _ hf,
      translate_signedVolume t m hwf hc]
  · rw [Mesh.translate, Mesh.translate, mapVertices_mapVertices]
    exact mapVertices_id (fun v => by simp) m
  · simp only [Mesh.translate, Mesh.translateX, Mesh.translateY, Mesh.translateZ, mapVertices_mapVertices]
    congr 1

/-- The integrals of `x`, `y`, `z` over a face, as a vector. -/
noncomputable def firstMoment (I : Fin 15 → ℝ) : V3 ℝ := ⟨I 0, I 1, I 2⟩

theorem firstMoment_tri (p q r : V3 ℝ) :
    firstMoment (triIntegrals p q r) = (triDelta p q r / 6) • (p + q + r) := by
  ext <;> simp [firstMoment, triIntegrals, pf1] <;> ring

theorem firstMoment_add (I J : Fin 15 → ℝ) : firstMoment (I + J) = firstMoment I + firstMoment J := rfl

theorem volume_eq_dot (m : Mesh ℝ) :
    m.volume = (m.faces.map (fun f => (m.faceProps f).normal.dot (firstMoment (m.faceIntegrals f)) / 3)).sum :=
  volume_eq m

/-- Change of the volume when the corners are moved by a linear map multiplying areas. -/
theorem volume_moved (m : Mesh ℝ) (hwf : m.WF) (g B : V3 ℝ → V3 ℝ) (s k : ℝ)
    (hδ : ∀ p q r, triDelta (g p) (g q) (g r) = s * triDelta p q r)
    (hg : ∀ u v, g (u + v) = g u + g v)
    (hnorm : ∀ f ∈ m.faces, ((m.mapVertices g).faceProps f).normal = B (m.faceProps f).normal)
    (hsm : ∀ (a : ℝ) u, g (a • u) = a • g u)
    (hdot : ∀ u v, (B u).dot (g v) = k * u.dot v) :
    (m.mapVertices g).volume = s * k * m.volume := by
  rw [volume_eq_dot, volume_eq_dot, faces_mapVertices]
  have hI : ∀ f ∈ m.faces, firstMoment ((m.mapVertices g).faceIntegrals f) =
      s • g (firstMoment (m.faceIntegrals f)) := by
    intro f hf
    rw [faceIntegrals_map m hwf g hf]
    simp only [Mesh.faceIntegrals, Mesh.triIntegralsOf, Mesh.quadIntegralsOf]
    split_ifs
    · rw [firstMoment_tri, firstMoment_tri, hδ, hsm, hg, hg, smul_smul]; congr 1; ring
    · rw [firstMoment_add, firstMoment_add, hg, smul_add]
      simp only [firstMoment_tri, hδ, hsm, hg, smul_smul]
      congr 2 <;> ring
  have : ∀ f ∈ m.faces, ((m.mapVertices g).faceProps f).normal.dot
      (firstMoment ((m.mapVertices g).faceIntegrals f)) / 3 =
      s * k * ((m.faceProps f).normal.dot (firstMoment (m.faceIntegrals f)) / 3) := by
    intro f hf
    rw [hnorm f hf, hI f hf, V3.dot_smul, hdot]; ring
  rw [List.map_congr_left this, List.sum_map_mul_left]

theorem normals_pointwise {m m' : Mesh ℝ} (hfaces : m'.faces = m.faces) {B : V3 ℝ → V3 ℝ}
    (h : m'.facesProperties.map FP.normal = m.facesProperties.map (fun p => B p.normal)) :
    ∀ f ∈ m.faces, (m'.faceProps f).normal = B (m.faceProps f).normal := by
  rw [facesProperties_eq, facesProperties_eq, hfaces, List.map_map, List.map_map] at h
  intro f hf
  exact List.map_inj_left.1 h f hf

/-- **C18, rotations.** For any rotation matrix: distances, areas and the volume (of any mesh) are
unchanged, the normals are rotated, and the transposed matrix restores the mesh. -/
theorem C18_rotate_matrix (R : M3 ℝ) (hR : R.IsRotation) (m : Mesh ℝ) (hwf : m.WF) :
    (∀ i < m.nv, ∀ j < m.nv, ((m.rotateMatrix R).vert i - (m.rotateMatrix R).vert j).norm =
      (m.vert i - m.vert j).norm) ∧
    (∀ i < m.nv, (m.rotateMatrix R).vert i = R.mulVec (m.vert i)) ∧
    (m.rotateMatrix R).faces = m.faces ∧
    (m.rotateMatrix R).facesProperties.map FP.area = m.facesProperties.map FP.area ∧
    (m.rotateMatrix R).facesProperties.map FP.normal = m.facesProperties.map (fun p => R.mulVec p.normal) ∧
    (m.rotateMatrix R).volume = m.volume ∧
    (m.rotateMatrix R).rotateMatrix R.transpose = m := by
  have hv := fun i (hi : i < m.nv) => vert_mapVertices m R.mulVec i hi
  obtain ⟨h1, h2⟩ := faceProps_moved m hwf R.mulVec R.mulVec R.mulVec 1
    (fun p q r => areaVec_rot hR p q r) (fun u v => M3.mulVec_add R u v)
    (fun u => by rw [hR.norm_mulVec, one_mul]) (fun a u => by rw [M3.mulVec_smul]; simp)
  refine ⟨?_, hv, rfl, ?_, h2, ?_, ?_⟩
  · intro i hi j hj
    simp only [Mesh.rotateMatrix, hv i hi, hv j hj]
    rw [← M3.mulVec_sub, hR.norm_mulVec]
  · rw [Mesh.rotateMatrix, h1]; simp
  · have := volume_moved m hwf R.mulVec R.mulVec 1 1
      (fun p q r => by
        show (areaVec _ _ _).norm = 1 * (areaVec _ _ _).norm
        rw [areaVec_rot hR, hR.norm_mulVec, one_mul])
      (M3.mulVec_add R) (normals_pointwise (faces_mapVertices R.mulVec m) h2) (fun a u => M3.mulVec_smul R a u)
      (fun u v => by rw [hR.dot_mulVec, one_mul])
    rw [Mesh.rotateMatrix, this]; ring
  · rw [Mesh.rotateMatrix, Mesh.rotateMatrix, mapVertices_mapVertices]
    exact mapVertices_id (fun v => hR.transpose_mulVec v) m

/-- **C18, rotations by angles.** `rotate` applies a rotation matrix, so that all of
`C18_rotate_matrix` holds; rotating by the opposite angle about the same axis restores the mesh, and
`rotate` is the rotation about `Ox`, then about `Oy`, then about `Oz` (fixed axes). -/
theorem C18_rotate (m : Mesh ℝ) (t phi theta psi : ℝ) :
    (∃ R : M3 ℝ, R.IsRotation ∧ m.rotate phi theta psi = m.rotateMatrix R) ∧
    (m.rotateX t).rotateX (-t) = m ∧ (m.rotateY t).rotateY (-t) = m ∧ (m.rotateZ t).rotateZ (-t) = m ∧
    m.rotate phi theta psi = ((m.rotateX phi).rotateY theta).rotateZ psi ∧
    (∀ v, (cardanToRotmat t 0 0).mulVec v =
      ⟨v.x, Real.cos t * v.y - Real.sin t * v.z, Real.sin t * v.y + Real.cos t * v.z⟩) ∧
    (∀ v, (cardanToRotmat 0 t 0).mulVec v =
      ⟨Real.cos t * v.x + Real.sin t * v.z, v.y, -Real.sin t * v.x + Real.cos t * v.z⟩) ∧
    (∀ v, (cardanToRotmat 0 0 t).mulVec v =
      ⟨Real.cos t * v.x - Real.sin t * v.y, Real.sin t * v.x + Real.cos t * v.y, v.z⟩) := by
  have hx : ∀ (t : ℝ) (v : V3 ℝ), (cardanToRotmat t 0 0).mulVec v =
      ⟨v.x, Real.cos t * v.y - Real.sin t * v.z, Real.sin t * v.y + Real.cos t * v.z⟩ := by
    intro t v; simp [cardanToRotmat, M3.mulVec, V3.dot]; ring
  have hy : ∀ (t : ℝ) (v : V3 ℝ), (cardanToRotmat 0 t 0).mulVec v =
      ⟨Real.cos t * v.x + Real.sin t * v.z, v.y, -Real.sin t * v.x + Real.cos t * v.z⟩ := by
    intro t v; simp [cardanToRotmat, M3.mulVec, V3.dot]
  have hz : ∀ (t : ℝ) (v : V3 ℝ), (cardanToRotmat 0 0 t).mulVec v =
      ⟨Real.cos t * v.x - Real.sin t * v.y, Real.sin t * v.x + Real.cos t * v.y, v.z⟩ := by
    intro t v; simp [cardanToRotmat, M3.mulVec, V3.dot]; ring
  have hsc := Real.sin_sq_add_cos_sq t
  refine ⟨⟨_, cardan_isRotation phi theta psi, rfl⟩, ?_, ?_, ?_, ?_, hx t, hy t, hz t⟩
  · simp only [Mesh.rotateX, Mesh.rotate, Mesh.rotateMatrix, mapVertices_mapVertices]
    refine mapVertices_id (fun v => ?_) m
    simp only [Function.comp, hx, Real.cos_neg, Real.sin_neg]
    ext
    · rfl
    · simp only; linear_combination v.y * hsc
    · simp only; linear_combination v.z * hsc
  · simp only [Mesh.rotateY, Mesh.rotate, Mesh.rotateMatrix, mapVertices_mapVertices]
    refine mapVertices_id (fun v => ?_) m
    simp only [Function.comp, hy, Real.cos_neg, Real.sin_neg]
    ext
    · simp only; linear_combination v.x * hsc
    · rfl
    · simp only; linear_combination v.z * hsc
  · simp only [Mesh.rotateZ, Mesh.rotate, Mesh.rotateMatrix, mapVertices_mapVertices]
    refine mapVertices_id (fun v => ?_) m
    simp only [Function.comp, hz, Real.cos_neg, Real.sin_neg]
    ext
    · simp only; linear_combination v.x * hsc
    · simp only; linear_combination v.y * hsc
    · rfl
  · simp only [Mesh.rotateX, Mesh.rotateY, Mesh.rotateZ, Mesh.rotate, Mesh.rotateMatrix,
      mapVertices_mapVertices]
    congr 1
    funext v
    simp only [Function.comp, hx, hy, hz]
    simp only [cardanToRotmat, M3.mulVec, V3.dot]
    ext <;> simp only <;> ring

/-- **C18, scalings.** `scale(alpha)` with `alpha > 0` multiplies distances by `alpha`, areas by `alpha²`,
the volume (of any mesh) by `alpha³` and keeps the normals; scaling by `1/alpha` restores the mesh. -/
theorem C18_scale (α : ℝ) (hα : 0 < α) (m : Mesh ℝ) (hwf : m.WF) :
    (∀ i < m.nv, ∀ j < m.nv, ((m.scaleBy α).vert i - (m.scaleBy α).vert j).norm =
      α * (m.vert i - m.vert j).norm) ∧
    (m.scaleBy α).faces = m.faces ∧
    (m.scaleBy α).facesProperties.map FP.area = m.facesProperties.map (fun p => α ^ 2 * p.area) ∧
    (m.scaleBy α).totalArea = α ^ 2 * m.totalArea ∧
    (m.scaleBy α).facesProperties.map FP.normal = m.facesProperties.map FP.normal ∧
    (m.scaleBy α).volume = α ^ 3 * m.volume ∧
    (m.scaleBy α).scaleBy (1 / α) = m ∧
    m.scaleBy α = ((m.scaleXBy α).scaleYBy α).scaleZBy α := by
  have hv := fun i (hi : i < m.nv) => vert_mapVertices m (α • ·) i hi
  have h2 : 0 < α ^ 2 := by positivity
  obtain ⟨e1, e2⟩ := faceProps_moved m hwf (α • ·) (α ^ 2 • ·) id (α ^ 2)
    (fun p q r => areaVec_smul α p q r) (fun u v => smul_add _ _ _)
    (fun u => V3.norm_smul_of_nonneg h2.le u) (fun a u => by
      show (1 / α ^ 2 * a) • (α ^ 2 • u) = a • u
      rw [smul_smul]; congr 1; field_simp)
  refine ⟨?_, rfl, e1, ?_, ?_, ?_, ?_, ?_⟩
  · intro i hi j hj
    simp only [Mesh.scaleBy, hv i hi, hv j hj]
    rw [← smul_sub, V3.norm_smul_of_nonneg hα.le]
  · unfold Mesh.totalArea Mesh.scaleBy
    rw [e1, List.sum_map_mul_left]
  · rw [Mesh.scaleBy, e2]; simp
  · have := volume_moved m hwf (α • ·) id (α ^ 2) α
      (fun p q r => by
        show (areaVec _ _ _).norm = α ^ 2 * (areaVec _ _ _).norm
        rw [areaVec_smul, V3.norm_smul_of_nonneg h2.le])
      (fun u v => smul_add _ _ _) (normals_pointwise (faces_mapVertices (α • ·) m) e2) (fun a u => smul_comm _ _ _)
      (fun u v => by simp only [id, V3.dot_smul])
    rw [Mesh.scaleBy, this]; ring
  · rw [Mesh.scaleBy, Mesh.scaleBy, mapVertices_mapVertices]
    refine mapVertices_id (fun v => ?_) m
    simp only [Function.comp, smul_smul]
    rw [one_div_mul_cancel hα.ne', one_smul]
  · simp only [Mesh.scaleBy, Mesh.scaleXBy, Mesh.scaleYBy, Mesh.scaleZBy, mapVertices_mapVertices]
    congr 1

/-! ### Non-vacuity: the hypotheses of C10, C12–C16 and C18 are met by the unit cube -/

example : (cubeMesh ℝ).WF ∧ (cubeMesh ℝ).ClosedOriented ∧ (cubeMesh ℝ).ConvexFaces ∧
    (cubeMesh ℝ).FlatFaces ∧ (cubeMesh ℝ).vertices ≠ [] ∧ (cubeMesh ℝ).volume = 1 :=
  ⟨cubeMesh_wf ℝ, cubeMesh_closed ℝ, cubeMesh_convex, cubeMesh_convex.flat, by simp [cubeMesh], by
    rw [volume_eq_signedVolume _ cubeMesh_convex.flat, cubeMesh_volume]⟩

/-- A plane that is not a coordinate plane, with unit normal. -/
example : (⟨⟨2 / 3, 1 / 3, -2 / 3⟩, 5⟩ : Plane ℝ).normal.dot (⟨⟨2 / 3, 1 / 3, -2 / 3⟩, 5⟩ : Plane ℝ).normal = 1 := by
  simp only [V3.dot]; norm_num

/-- The statistics of C16 exist as soon as there is one face. -/
example : ∃ mn mx av, (cubeMesh ℝ).edgesStats = .ok (mn, mx, av) := by
  unfold Mesh.edgesStats
  simp only [Mesh.edgeLengths, cubeMesh, cubeFaces, List.flatMap_cons, List.cons_append]
  exact ⟨_, _, _, rfl⟩

/-- The translated cube still has volume one. -/
example : ((cubeMesh ℝ).translate ⟨3, -2, 7⟩).volume = 1 := by
  have := (C18_translate ⟨3, -2, 7⟩ (cubeMesh ℝ) (cubeMesh_wf ℝ)).2.2.2.2.2.1 (cubeMesh_closed ℝ)
    cubeMesh_convex.flat
  rw [this, volume_eq_signedVolume _ cubeMesh_convex.flat, cubeMesh_volume]

end MM
