import Verif.Spec.MovesBody
import Verif.Props.MovesFl
import Verif.Props.AreaFl
import Verif.Props.InertiaQuadFl

/-!
# C143: area and inertia computed in floating point after rigid motions in floating point
-/

namespace MM

open Real QuadFl MovesFl

/-! ### Exact motions -/

lemma place1_eq (a : RigidMove) : a.place1 = pt a := by cases a <;> rfl

lemma tetIntegral_rigid {R : M3 ℝ} (hR : R.IsRotation) (t : V3 ℝ) (g : V3 ℝ → ℝ) (o p q r : V3 ℝ) :
    tetIntegral g (R.mulVec o + t) (R.mulVec p + t) (R.mulVec q + t) (R.mulVec r + t) =
      tetIntegral (fun x => g (R.mulVec x + t)) o p q r := by
  rw [tetIntegral_translate]
  unfold tetIntegral coneIntegral
  have c := areaVec_rot hR o q r
  unfold areaVec at c
  rw [c, ← M3.mulVec_sub, hR.dot_mulVec]
  congr 1
  simp only [← M3.mulVec_sub, ← M3.mulVec_smul, ← M3.mulVec_add]

lemma run_solidIntegral (a : RigidMove) (m : Mesh ℝ) (hwf : m.WF) (o : V3 ℝ) (g : V3 ℝ → ℝ) :
    (a.run m).solidIntegral (a.place1 o) g = m.solidIntegral o (fun p => g (a.place1 p)) := by
  obtain ⟨R, hR, t, hp⟩ := pt_rigid a
  rw [place1_eq, run_eq]
  unfold Mesh.solidIntegral Mesh.surfaceSum
  show (m.faces.map ((m.mapVertices (pt a)).faceSum _)).sum = _
  congr 1
  apply List.map_congr_left
  intro f hf
  obtain ⟨ha, hb, hc, hd⟩ := hwf.corner (f := f) hf
  simp only [Mesh.faceSum, vert_mapVertices m _ _ ha, vert_mapVertices m _ _ hb, vert_mapVertices m _ _ hc,
    vert_mapVertices m _ _ hd, hp, tetIntegral_rigid hR]

lemma run_wf (a : RigidMove) (m : Mesh ℝ) (hwf : m.WF) : (a.run m).WF := by
  rw [run_eq]
  intro f hf i hi
  simpa [Mesh.mapVertices, Mesh.nv] using hwf f hf i hi

/-- The integral of any function over the solid of the moved mesh is that of the function of the moved points over the solid. -/
theorem runAll_solidIntegral (l : List RigidMove) : ∀ (m : Mesh ℝ), m.WF → ∀ (o : V3 ℝ) (g : V3 ℝ → ℝ),
    (RigidMove.runAll l m).solidIntegral (RigidMove.place l o) g = m.solidIntegral o (fun p => g (RigidMove.place l p)) := by
  induction l with
  | nil => intro m _ o g; rfl
  | cons a l ih =>
    intro m hwf o g
    exact (ih (a.run m) (run_wf a m hwf) (a.place1 o) g).trans (run_solidIntegral a m hwf o _)

lemma runAll_area (l : List RigidMove) : ∀ (m : Mesh ℝ), m.WF →
    (RigidMove.runAll l m).faces = m.faces ∧ (RigidMove.runAll l m).areaOfSurface = m.areaOfSurface := by
  induction l with
  | nil => intro m _; exact ⟨rfl, rfl⟩
  | cons a l ih =>
    intro m hwf
    obtain ⟨i1, i2⟩ := ih (a.run m) (run_wf a m hwf)
    have hfaces : (a.run m).faces = m.faces := by rw [run_eq]; rfl
    refine ⟨i1.trans hfaces, i2.trans ?_⟩
    unfold Mesh.areaOfSurface
    rw [hfaces]
    congr 1
    apply List.map_congr_left
    intro f hf
    obtain ⟨ha, hb, hc, hd⟩ := hwf.corner (f := f) hf
    obtain ⟨R, hR, t, hp⟩ := pt_rigid a
    have area : ∀ x y z : V3 ℝ, (areaVec (pt a x) (pt a y) (pt a z)).norm = (areaVec x y z).norm := fun x y z => by
      rw [hp, hp, hp, areaVec_translate, areaVec_rot hR, hR.norm_mulVec]
    simp only [Mesh.areaOfFace, run_eq, vert_mapVertices m _ _ ha, vert_mapVertices m _ _ hb, vert_mapVertices m _ _ hc,
      vert_mapVertices m _ _ hd, area]

lemma solid_affine (m : Mesh ℝ) (o w : V3 ℝ) (k : ℝ) :
    m.solidIntegral o (fun p => w.dot p + k) = w.x * m.solidIntegral o (fun p => p.x) + w.y * m.solidIntegral o (fun p => p.y) +
      w.z * m.solidIntegral o (fun p => p.z) + k * m.solidIntegral o (fun _ => 1) := by
  have tet : ∀ p q r : V3 ℝ, tetIntegral (fun p => w.dot p + k) o p q r = w.x * tetIntegral (fun p => p.x) o p q r +
      w.y * tetIntegral (fun p => p.y) o p q r + w.z * tetIntegral (fun p => p.z) o p q r + k * tetIntegral (fun _ => 1) o p q r := by
    intro p q r
    have h0 := tetIntegral_affine2 (fun p => w.dot p + k) (fun _ => 1) (by intros; simp [V3.dot]; ring) taff_one o p q r
    have h1 := tetIntegral_affine2 (fun p => p.x) (fun _ => 1) (by intros; simp; ring) taff_one o p q r
    have h2 := tetIntegral_affine2 (fun p => p.y) (fun _ => 1) (by intros; simp; ring) taff_one o p q r
    have h3 := tetIntegral_affine2 (fun p => p.z) (fun _ => 1) (by intros; simp; ring) taff_one o p q r
    simp only [mul_one] at h0 h1 h2 h3
    rw [h0, h1, h2, h3, tet_one]
    simp only [V3.dot]
    ring
  unfold Mesh.solidIntegral Mesh.surfaceSum
  simp only [← List.sum_map_mul_left, ← List.sum_map_add]
  congr 1
  apply List.map_congr_left
  intro f _
  simp only [Mesh.faceSum, tet]
  split_ifs
  · rfl
  · ring

/-- The centre of the moved solid is the moved centre. -/
theorem runAll_centre (l : List RigidMove) : ∀ (m : Mesh ℝ), m.WF → ∀ o : V3 ℝ, m.solidIntegral o (fun _ => 1) ≠ 0 →
    (RigidMove.runAll l m).centreOfSolid (RigidMove.place l o) = RigidMove.place l (m.centreOfSolid o) := by
  induction l with
  | nil => intro m _ o _; rfl
  | cons a l ih =>
    intro m hwf o h0
    have h1 : (a.run m).solidIntegral (a.place1 o) (fun _ => 1) = m.solidIntegral o (fun _ => 1) := run_solidIntegral a m hwf o _
    refine (ih (a.run m) (run_wf a m hwf) (a.place1 o) (by rw [h1]; exact h0)).trans ?_
    show RigidMove.place l _ = RigidMove.place l (a.place1 _)
    congr 1
    obtain ⟨R, hR, t, hp⟩ := pt_rigid a
    have hp' : ∀ p, a.place1 p = R.mulVec p + t := fun p => by rw [place1_eq]; exact hp p
    rw [hp' (m.centreOfSolid o)]
    have ex := run_solidIntegral a m hwf o (fun p => p.x)
    have ey := run_solidIntegral a m hwf o (fun p => p.y)
    have ez := run_solidIntegral a m hwf o (fun p => p.z)
    simp only [hp', M3.mulVec, V3.add_x, V3.add_y, V3.add_z, solid_affine] at ex ey ez
    simp only [hp', M3.mulVec] at h1
    unfold Mesh.centreOfSolid
    simp only [hp', M3.mulVec, ex, ey, ez, h1]
    apply V3.ext <;> simp only [V3.add_x, V3.add_y, V3.add_z, V3.dot] <;> field_simp

/-! ### Floating point -/

/-- Common part of the two theorems: the computed vertices are close to the exact ones. -/
lemma moved_near (u g δ ε : ℝ) (hu0 : 0 ≤ u) (hu : u ≤ δ) (hg : g ≤ δ) (h1 : δ ≤ 1 / 100) (rnd cosF sinF : ℝ → ℝ)
    (hr : IsRounding u rnd) (hc : ∀ x, |cosF x - cos x| ≤ δ) (hs : ∀ x, |sinF x - sin x| ≤ δ) (dot : V3 ℝ → V3 ℝ → ℝ)
    (hd : IsDot g dot) (l : List RigidMove) (m : Mesh ℝ) (B : ℝ)
    (hB0 : 0 ≤ B) (hB : ∀ k, ∀ v ∈ (RigidMove.runAll (l.take k) m).vertices, v.norm ≤ B)
    (hε : (1 + 39 * δ) ^ l.length - 1 ≤ ε) :
    (RigidMove.runAllFl rnd cosF sinF dot l m).faces = m.faces ∧
    (∀ v ∈ (RigidMove.runAll l m).vertices, ∀ k, |v.coord k| ≤ B) ∧
    List.Forall₂ (V3.Close (ε * B)) (RigidMove.runAll l m).vertices (RigidMove.runAllFl rnd cosF sinF dot l m).vertices := by
  obtain ⟨hf, hp⟩ := C133_positions u g δ hu hg (hu0.trans hu) h1 rnd cosF sinF hr hc hs dot hd l m B hB
  refine ⟨hf, ?_, ?_⟩
  · intro v hv k
    have h := hB l.length v (by rwa [List.take_length])
    obtain ⟨x, y, z⟩ := coord_le_norm v
    fin_cases k
    · exact x.trans h
    · exact y.trans h
    · exact z.trans h
  · refine hp.imp ?_
    intro v w h
    have h' : (v - w).norm ≤ ε * B := by
      rw [V3.norm_sub_comm]
      exact h.trans (mul_le_mul_of_nonneg_right hε hB0)
    obtain ⟨x, y, z⟩ := coord_le_norm (v - w)
    exact ⟨x.trans h', y.trans h', z.trans h'⟩

/-- **C143 (area).** The area computed in floating point after any sequence of motions in floating point is that of the mesh before the
motions up to `F B² (152 ε + 16 ((1 + u) ^ F - 1))`, `F` being the number of faces, `B` a bound of the distances from the origin along
the way, and `ε` the bound of the error of the positions relative to `B`. -/
theorem C143_area (u g δ ε : ℝ) (hu0 : 0 ≤ u) (hu : u ≤ δ) (hg : g ≤ δ) (h1 : δ ≤ 1 / 100) (rnd cosF sinF : ℝ → ℝ)
    (hr : IsRounding u rnd) (hc : ∀ x, |cosF x - cos x| ≤ δ) (hs : ∀ x, |sinF x - sin x| ≤ δ) (dot : V3 ℝ → V3 ℝ → ℝ)
    (hd : IsDot g dot) (nrm : V3 ℝ → ℝ) (hnrm : ∀ v, |nrm v - v.norm| ≤ δ * v.norm) (l : List RigidMove) (m : Mesh ℝ) (B : ℝ)
    (hB0 : 0 ≤ B) (hB : ∀ k, ∀ v ∈ (RigidMove.runAll (l.take k) m).vertices, v.norm ≤ B)
    (hδ : δ ≤ ε) (hε : (1 + 39 * δ) ^ l.length - 1 ≤ ε) (hε1 : ε ≤ 1 / 100) (hwf : m.WF) (A : ℝ)
    (hA : (RigidMove.runAllFl rnd cosF sinF dot l m).AreaFl rnd nrm A) :
    |A - m.areaOfSurface| ≤ m.faces.length * B ^ 2 * (152 * ε + 16 * ((1 + u) ^ m.faces.length - 1)) := by
  obtain ⟨hf, hb, hv⟩ := moved_near u g δ ε hu0 hu hg h1 rnd cosF sinF hr hc hs dot hd l m B hB0 hB hε
  obtain ⟨i1, i2⟩ := runAll_area l m hwf
  have := (C135_area u ε δ B hu0 (hu.trans hδ) hε1 hB0 rnd hr hδ nrm hnrm (RigidMove.runAll l m)
    (RigidMove.runAllFl rnd cosF sinF dot l m) (hf.trans i1.symm) hv hb).2 A hA
  rwa [i1, i2] at this

/-- **C143 (inertia).** Mass, moments, products and centre computed in floating point after any sequence of motions in floating point of a
watertight mesh with flat faces: they are the integrals over the solid before the motions of the functions of the moved points, and the
centre is the moved centre, with the errors of C136. -/
theorem C143_inertia (u g δ ε : ℝ) (hu0 : 0 ≤ u) (hu : u ≤ δ) (hg : g ≤ δ) (h1 : δ ≤ 1 / 100) (rnd cosF sinF : ℝ → ℝ)
    (hr : IsRounding u rnd) (hc : ∀ x, |cosF x - cos x| ≤ δ) (hs : ∀ x, |sinF x - sin x| ≤ δ) (dot : V3 ℝ → V3 ℝ → ℝ)
    (hd : IsDot g dot) (nrm : V3 ℝ → ℝ) (hnrm : ∀ v, |nrm v - v.norm| ≤ δ * v.norm) (l : List RigidMove) (m : Mesh ℝ) (B : ℝ)
    (hB0 : 0 ≤ B) (hB : ∀ k, ∀ v ∈ (RigidMove.runAll (l.take k) m).vertices, v.norm ≤ B)
    (hδ : δ ≤ ε) (hε : (1 + 39 * δ) ^ l.length - 1 ≤ ε) (hε1 : ε ≤ 1 / 100)
    (hwf : m.WF) (hcl : m.ClosedOriented) (hflat : m.FlatFaces)
    (hA : ∀ f ∈ m.faces, 104 * (ε * B ^ 2) < (m.twiceArea f).norm) (o : V3 ℝ) (d : ℝ)
    (hd' : d = 2 * (m.faces.length * B ^ 3 * (357 * ε + 11 * ((1 + u) ^ (3 * m.faces.length + 2) - 1))))
    (hV : d < |2 * m.solidIntegral o (fun _ => 1)|) (rho : ℝ) (r : Mesh.Plain ℝ)
    (h : (RigidMove.runAllFl rnd cosF sinF dot l m).PlainAllFl rnd nrm rho r) :
    let n := m.faces.length
    let body := m.solidIntegral o
    let T := RigidMove.place l
    let δ₁ := |rho| * n * B ^ 5 * (334 * ε + 8 * ((1 + u) ^ (n + 3) - 1))
    let δ₂ := |rho| * n * B ^ 5 * (250 * ε + 6 * ((1 + u) ^ (n + 2) - 1))
    let e := n * B ^ 4 * (500 * ε + 12 * ((1 + u) ^ n - 1))
    let bound := fun x : ℝ => (1 + u) * ((e + |x| * d) / (|2 * body (fun _ => 1)| - d)) + u * |x|
    let G := T (m.centreOfSolid o)
    |r.mass - rho * body (fun _ => 1)| ≤ |rho| * n * B ^ 3 * (357 * ε + 11 * ((1 + u) ^ (3 * n + 2) - 1)) ∧
    (|r.xx - rho * body (fun p => (T p).y ^ 2 + (T p).z ^ 2)| ≤ δ₁ ∧ |r.yy - rho * body (fun p => (T p).x ^ 2 + (T p).z ^ 2)| ≤ δ₁ ∧
      |r.zz - rho * body (fun p => (T p).x ^ 2 + (T p).y ^ 2)| ≤ δ₁) ∧
    (|r.yz - rho * body (fun p => (T p).y * (T p).z)| ≤ δ₂ ∧ |r.xz - rho * body (fun p => (T p).x * (T p).z)| ≤ δ₂ ∧
      |r.xy - rho * body (fun p => (T p).x * (T p).y)| ≤ δ₂) ∧
    (|r.cog.x - G.x| ≤ bound G.x ∧ |r.cog.y - G.y| ≤ bound G.y ∧ |r.cog.z - G.z| ≤ bound G.z) := by
  intro n body T δ₁ δ₂ e bound G
  obtain ⟨hf, hb, hv⟩ := moved_near u g δ ε hu0 hu hg h1 rnd cosF sinF hr hc hs dot hd l m B hB0 hB hε
  obtain ⟨i1, i2, i3, i4⟩ := exact_keeps l m hwf hcl hflat
  have hcl' : (RigidMove.runAll l m).ClosedOriented := by
    unfold Mesh.ClosedOriented at hcl ⊢
    simpa only [Mesh.directedEdges, i1] using hcl
  have s1 := runAll_solidIntegral l m hwf o
  have d0 : 0 ≤ d := by
    have P := pow_sub_nonneg hu0 (3 * m.faces.length + 2)
    have : 0 ≤ ε := (hu0.trans hu).trans hδ
    rw [hd']; positivity
  have b0 : m.solidIntegral o (fun _ => 1) ≠ 0 := by
    intro h'
    rw [h', mul_zero, abs_zero] at hV
    linarith
  have H := C136_body u ε δ B hu0 (hu.trans hδ) hε1 hB0 rnd hr hδ nrm hnrm (RigidMove.runAll l m)
    (RigidMove.runAllFl rnd cosF sinF dot l m) hcl' i2 (hf.trans i1.symm) hv hb (by
      intro f hf'
      rw [hf] at hf'
      exact cross_ne_zero hr (hu.trans hδ) ((hu0.trans hu).trans hδ) hε1 hB0 hδ hnrm hv hb (by rw [i4 f hf']; exact hA f hf'))
    rho r h (RigidMove.place l o) d (by rw [i1]; exact hd') (by rw [s1]; exact hV)
  have c := runAll_centre l m hwf o b0
  have cx := congrArg V3.x c
  have cy := congrArg V3.y c
  have cz := congrArg V3.z c
  simp only [Mesh.centreOfSolid, s1] at cx cy cz
  simp only [s1, i1] at H
  rw [cx, cy, cz] at H
  exact H

/-! ### A case -/

lemma cube_area : (cubeMesh ℝ).areaOfSurface = 6 := by
  have e1 : Real.sqrt 1 = 1 := Real.sqrt_one
  simp [Mesh.areaOfSurface, cubeMesh, cubeFaces, Mesh.areaOfFace, Mesh.vert, areaVec, V3.norm, V3.normSq, V3.dot, V3.cross]
  norm_num

lemma cube_solid : (cubeMesh ℝ).solidIntegral 0 (fun _ => 1) = 1 ∧ (cubeMesh ℝ).centreOfSolid 0 = ⟨1 / 2, 1 / 2, 1 / 2⟩ := by
  have h1 := fun p q r : V3 ℝ => tetIntegral_affine2 (fun p => p.x) (fun _ => 1) (by intros; simp; ring) taff_one 0 p q r
  have h2 := fun p q r : V3 ℝ => tetIntegral_affine2 (fun p => p.y) (fun _ => 1) (by intros; simp; ring) taff_one 0 p q r
  have h3 := fun p q r : V3 ℝ => tetIntegral_affine2 (fun p => p.z) (fun _ => 1) (by intros; simp; ring) taff_one 0 p q r
  simp only [mul_one] at h1 h2 h3
  have i0 : (cubeMesh ℝ).solidIntegral 0 (fun _ => 1) = 1 := by
    simp [Mesh.solidIntegral, Mesh.surfaceSum, Mesh.faceSum, cubeMesh, cubeFaces, Mesh.vert, tet_one, V3.dot, V3.cross]
    norm_num
  have ix : (cubeMesh ℝ).solidIntegral 0 (fun p => p.x) = 1 / 2 := by
    simp [Mesh.solidIntegral, Mesh.surfaceSum, Mesh.faceSum, cubeMesh, cubeFaces, Mesh.vert, h1, V3.dot, V3.cross]
    norm_num
  have iy : (cubeMesh ℝ).solidIntegral 0 (fun p => p.y) = 1 / 2 := by
    simp [Mesh.solidIntegral, Mesh.surfaceSum, Mesh.faceSum, cubeMesh, cubeFaces, Mesh.vert, h2, V3.dot, V3.cross]
    norm_num
  have iz : (cubeMesh ℝ).solidIntegral 0 (fun p => p.z) = 1 / 2 := by
    simp [Mesh.solidIntegral, Mesh.surfaceSum, Mesh.faceSum, cubeMesh, cubeFaces, Mesh.vert, h3, V3.dot, V3.cross]
    norm_num
  exact ⟨i0, by rw [Mesh.centreOfSolid, i0, ix, iy, iz]; norm_num⟩

/-- The cube after three motions in floating point. -/
noncomputable def movedCube : Mesh ℝ :=
  RigidMove.runAllFl (topRound (1 / 2 ^ 53)) (fun x => cos x * (1 - 1 / 2 ^ 53)) (fun x => sin x * (1 + 1 / 2 ^ 53))
    (dotFl (topRound (1 / 2 ^ 53))) cubeMoves (cubeMesh ℝ)

/-- The hypotheses of C143 are met by the cube with three motions: the computed area is 6 up to `10⁻⁵`, the computed centre is the moved
centre up to `10⁻⁴`, and there are such results. -/
theorem cube_meets_C143 : (∃ A, movedCube.AreaFl (topRound (1 / 2 ^ 53)) V3.norm A) ∧
    (∃ r, movedCube.PlainAllFl (topRound (1 / 2 ^ 53)) V3.norm 1025 r) ∧
    (∀ A, movedCube.AreaFl (topRound (1 / 2 ^ 53)) V3.norm A → |A - 6| ≤ 1 / 10 ^ 5) ∧
    ∀ r, movedCube.PlainAllFl (topRound (1 / 2 ^ 53)) V3.norm 1025 r →
      let G := RigidMove.place cubeMoves ⟨1 / 2, 1 / 2, 1 / 2⟩
      |r.mass - 1025| ≤ 1 / 100 ∧ |r.cog.x - G.x| ≤ 1 / 10 ^ 4 ∧ |r.cog.y - G.y| ≤ 1 / 10 ^ 4 ∧ |r.cog.z - G.z| ≤ 1 / 10 ^ 4 := by
  have hu : (0 : ℝ) ≤ 1 / 2 ^ 53 := by norm_num
  have hr := topRound_isRounding hu
  have hc : ∀ x, |cos x * (1 - 1 / 2 ^ 53) - cos x| ≤ 1 / 2 ^ 50 := fun x => by
    rw [show cos x * (1 - 1 / 2 ^ 53) - cos x = -(cos x * (1 / 2 ^ 53)) by ring, abs_neg, abs_mul]
    have := abs_cos_le_one x
    rw [abs_of_nonneg hu]
    nlinarith
  have hs : ∀ x, |sin x * (1 + 1 / 2 ^ 53) - sin x| ≤ 1 / 2 ^ 50 := fun x => by
    rw [show sin x * (1 + 1 / 2 ^ 53) - sin x = sin x * (1 / 2 ^ 53) by ring, abs_mul]
    have := abs_sin_le_one x
    rw [abs_of_nonneg hu]
    nlinarith
  have hn : ∀ v : V3 ℝ, |v.norm - v.norm| ≤ 1 / 2 ^ 50 * v.norm := fun v => by
    rw [sub_self, abs_zero]
    have := QuadFl.norm_nonneg v
    positivity
  have big : ∀ f ∈ (cubeMesh ℝ).faces, 104 * (1 / 10 ^ 12 * 10 ^ 2) < ((cubeMesh ℝ).twiceArea f).norm := by
    intro f hf
    have key : ∀ w : V3 ℝ, (1 ≤ |w.x| ∨ 1 ≤ |w.y| ∨ 1 ≤ |w.z|) → 104 * (1 / 10 ^ 12 * 10 ^ 2) < w.norm := by
      intro w hw
      obtain ⟨x, y, z⟩ := coord_le_norm w
      have : (1 : ℝ) ≤ w.norm := by
        rcases hw with h | h | h
        · exact h.trans x
        · exact h.trans y
        · exact h.trans z
      refine lt_of_lt_of_le (by norm_num) this
    apply key
    simp only [cubeMesh, cubeFaces, List.mem_cons, List.not_mem_nil, or_false] at hf
    rcases hf with rfl | rfl | rfl | rfl | rfl | rfl | rfl <;>
      norm_num [Mesh.twiceArea, cubeMesh, Mesh.vert, V3.cross]
  refine ⟨SumFl.exists _ _, ?_, ?_, ?_⟩
  · have h : ∀ l : List (V3 ℝ), ∃ s, Mesh.SumsFl (topRound (1 / 2 ^ 53)) l s := by
      intro l
      obtain ⟨x, hx⟩ := SumFl.exists (topRound (1 / 2 ^ 53)) (l.map V3.x)
      obtain ⟨y, hy⟩ := SumFl.exists (topRound (1 / 2 ^ 53)) (l.map V3.y)
      obtain ⟨z, hz⟩ := SumFl.exists (topRound (1 / 2 ^ 53)) (l.map V3.z)
      exact ⟨⟨x, y, z⟩, hx, hy, hz⟩
    obtain ⟨s, hs⟩ := SumFl.exists (topRound (1 / 2 ^ 53))
      ((movedCube.faces.map (movedCube.face0Fl (topRound (1 / 2 ^ 53)) V3.norm)).flatMap (fun t => [t.x, t.y, t.z]))
    obtain ⟨s6, h6⟩ := h (movedCube.faces.map (movedCube.face6Fl (topRound (1 / 2 ^ 53)) V3.norm))
    obtain ⟨s9, h9⟩ := h (movedCube.faces.map (movedCube.face9Fl (topRound (1 / 2 ^ 53)) V3.norm))
    obtain ⟨s12, h12⟩ := h (movedCube.faces.map (movedCube.face12Fl (topRound (1 / 2 ^ 53)) V3.norm))
    exact ⟨_, _, s6, s9, s12, ⟨s, hs, rfl⟩, h6, h9, h12, rfl⟩
  · intro A hA
    have := C143_area (1 / 2 ^ 53) ((1 + 1 / 2 ^ 53) ^ 3 - 1) (1 / 2 ^ 50) (1 / 10 ^ 12) hu (by norm_num) (by norm_num) (by norm_num) _
      _ _ hr hc hs _ (dotFl_isDot hr hu) V3.norm hn cubeMoves (cubeMesh ℝ) 10 (by norm_num) cubeMoves_bounded (by norm_num)
      (by norm_num [cubeMoves]) (by norm_num) (cubeMesh_wf ℝ) A hA
    rw [cube_area] at this
    refine this.trans ?_
    norm_num [cubeMesh, cubeFaces]
  · intro r h G
    obtain ⟨v1, c1⟩ := cube_solid
    have := C143_inertia (1 / 2 ^ 53) ((1 + 1 / 2 ^ 53) ^ 3 - 1) (1 / 2 ^ 50) (1 / 10 ^ 12) hu (by norm_num) (by norm_num) (by norm_num) _
      _ _ hr hc hs _ (dotFl_isDot hr hu) V3.norm hn cubeMoves (cubeMesh ℝ) 10 (by norm_num) cubeMoves_bounded (by norm_num)
      (by norm_num [cubeMoves]) (by norm_num) (cubeMesh_wf ℝ) (cubeMesh_closed ℝ) cubeMesh_convex.flat big 0 _ rfl (by
        rw [v1]
        norm_num [cubeMesh, cubeFaces]) 1025 r h
    simp only [v1, c1] at this
    obtain ⟨m1, -, -, gx, gy, gz⟩ := this
    have hG : G.norm ≤ 10 := by
      have e : G = (cardanToRotmat 1 0 2).mulVec ⟨1 / 2 + 1, 1 / 2 + 2, 1 / 2 + 3⟩ + ⟨1 / 2, 0, 0⟩ := by
        have e0 : (⟨1 / 2, 1 / 2, 1 / 2⟩ + ⟨1, 2, 3⟩ : V3 ℝ) = ⟨1 / 2 + 1, 1 / 2 + 2, 1 / 2 + 3⟩ := rfl
        simp only [G, RigidMove.place, cubeMoves, List.foldl, RigidMove.place1, e0]
        ext <;> simp only [V3.add_x, V3.add_y, V3.add_z, add_zero]
      rw [e]
      have t := norm_tri ((cardanToRotmat 1 0 2).mulVec ⟨1 / 2 + 1, 1 / 2 + 2, 1 / 2 + 3⟩) ⟨1 / 2, 0, 0⟩
      rw [(cardan_isRotation 1 0 2).norm_mulVec] at t
      have n1 : (⟨1 / 2 + 1, 1 / 2 + 2, 1 / 2 + 3⟩ : V3 ℝ).norm ≤ 7 / 4 * (7 / 2) :=
        norm_le_of_coord (by norm_num [abs_le]) (by norm_num [abs_le]) (by norm_num [abs_le])
      have n2 : (⟨1 / 2, 0, 0⟩ : V3 ℝ).norm ≤ 7 / 4 * (1 / 2) := norm_le_of_coord (by norm_num [abs_le]) (by norm_num) (by norm_num)
      linarith
    obtain ⟨x, y, z⟩ := coord_le_norm G
    have fin : ∀ a b : ℝ, |b| ≤ 10 → |a - b| ≤ (1 + 1 / 2 ^ 53) * (((cubeMesh ℝ).faces.length * 10 ^ 4 * (500 * (1 / 10 ^ 12) +
        12 * ((1 + 1 / 2 ^ 53) ^ (cubeMesh ℝ).faces.length - 1)) + |b| * (2 * ((cubeMesh ℝ).faces.length * 10 ^ 3 * (357 * (1 / 10 ^ 12) +
        11 * ((1 + 1 / 2 ^ 53) ^ (3 * (cubeMesh ℝ).faces.length + 2) - 1))))) / (|2 * 1| - 2 * ((cubeMesh ℝ).faces.length * 10 ^ 3 *
        (357 * (1 / 10 ^ 12) + 11 * ((1 + 1 / 2 ^ 53) ^ (3 * (cubeMesh ℝ).faces.length + 2) - 1))))) + 1 / 2 ^ 53 * |b| →
        |a - b| ≤ 1 / 10 ^ 4 := by
      intro a b hb h
      have l : (cubeMesh ℝ).faces.length = 7 := rfl
      rw [l, show |(2 * 1 : ℝ)| = 2 by norm_num] at h
      refine h.trans ?_
      norm_num
      linarith
    refine ⟨?_, fin _ _ (x.trans hG) gx, fin _ _ (y.trans hG) gy, fin _ _ (z.trans hG) gz⟩
    rw [mul_one] at m1
    refine m1.trans ?_
    norm_num [cubeMesh, cubeFaces]

end MM
