import Verif.Proofs.MovesFl
import Verif.Props.VolumeQuadFl

/-!
# C133: rigid motions in floating point
-/

namespace MM

open Real QuadFl MovesFl

/-- **C133 (positions).** After any sequence of translations and rotations in floating point, each vertex is at a distance at most
`((1 + 39 δ) ^ n - 1) B` from its exact position, `n` being the number of motions and `B` a bound of the distances from the
origin to the exact positions along the way: the errors add up, rotations do not amplify them. `δ` bounds the relative errors of
the arithmetic and of the scalar products and the errors of the cosines and sines. -/
theorem C133_positions (u g δ : ℝ) (hu : u ≤ δ) (hg : g ≤ δ) (h0 : 0 ≤ δ) (h1 : δ ≤ 1 / 100) (rnd cosF sinF : ℝ → ℝ)
    (hr : IsRounding u rnd) (hc : ∀ x, |cosF x - cos x| ≤ δ) (hs : ∀ x, |sinF x - sin x| ≤ δ) (dot : V3 ℝ → V3 ℝ → ℝ)
    (hd : IsDot g dot) (l : List RigidMove) (m : Mesh ℝ) (B : ℝ)
    (hB : ∀ k, ∀ v ∈ (RigidMove.runAll (l.take k) m).vertices, v.norm ≤ B) :
    (RigidMove.runAllFl rnd cosF sinF dot l m).faces = m.faces ∧
    List.Forall₂ (fun v w => (w - v).norm ≤ ((1 + 39 * δ) ^ l.length - 1) * B) (RigidMove.runAll l m).vertices
      (RigidMove.runAllFl rnd cosF sinF dot l m).vertices := by
  have key : ∀ (l : List RigidMove) (n : ℕ) (m m' : Mesh ℝ), m'.faces = m.faces →
      (∀ k, ∀ v ∈ (RigidMove.runAll (l.take k) m).vertices, v.norm ≤ B) →
      List.Forall₂ (fun v w => (w - v).norm ≤ ((1 + 39 * δ) ^ n - 1) * B) m.vertices m'.vertices →
      (RigidMove.runAllFl rnd cosF sinF dot l m').faces = m.faces ∧
      List.Forall₂ (fun v w => (w - v).norm ≤ ((1 + 39 * δ) ^ (n + l.length) - 1) * B) (RigidMove.runAll l m).vertices
        (RigidMove.runAllFl rnd cosF sinF dot l m').vertices := by
    intro l
    induction l with
    | nil => intro n m m' hf _ h; exact ⟨hf, h⟩
    | cons a l ih =>
      intro n m m' hf hB h
      have hB1 := hB 1
      have e1 : (RigidMove.runAll ((a :: l).take 1) m) = m.mapVertices (pt a) := run_eq a m
      rw [e1] at hB1
      have := ih (n + 1) (a.run m) (a.runFl rnd cosF sinF dot m') (by rw [run_eq, runFl_eq]; exact hf)
        (fun k v hv => hB (k + 1) v hv) (by
          rw [run_eq, runFl_eq]
          show List.Forall₂ _ (m.vertices.map (pt a)) (m'.vertices.map (ptFl rnd cosF sinF dot a))
          rw [List.forall₂_map_left_iff, List.forall₂_map_right_iff]
          have hB2 : ∀ v ∈ m.vertices, (pt a v).norm ≤ B := fun v hv => hB1 _ (List.mem_map_of_mem hv)
          revert hB2 h
          generalize m.vertices = vs
          generalize m'.vertices = ws
          intro h
          induction h with
          | nil => intro _; exact .nil
          | cons h _ ih' =>
            rename_i v w _ _ _
            intro hB2
            refine .cons ?_ (ih' (fun v hv => hB2 v (by simp [hv])))
            have b := hB2 v (by simp)
            have k1 := ptFl_near hr hu h1 h0 hc hs hd hg a w
            have k2 := pt_dist a w v
            have k3 := norm_tri (ptFl rnd cosF sinF dot a w - pt a w) (pt a w - pt a v)
            rw [show ptFl rnd cosF sinF dot a w - pt a w + (pt a w - pt a v) = ptFl rnd cosF sinF dot a w - pt a v by
              ext <;> simp, k2] at k3
            have k4 := norm_tri (pt a w - pt a v) (pt a v)
            rw [show pt a w - pt a v + pt a v = pt a w by ext <;> simp, k2] at k4
            have k5 : 39 * δ * (pt a w).norm ≤ 39 * δ * (((1 + 39 * δ) ^ n - 1) * B + B) :=
              mul_le_mul_of_nonneg_left (by linarith) (by positivity)
            have : ((1 + 39 * δ) ^ (n + 1) - 1) * B =
              39 * δ * (((1 + 39 * δ) ^ n - 1) * B + B) + ((1 + 39 * δ) ^ n - 1) * B := by ring
            rw [this]
            linarith)
      rw [show n + (a :: l).length = n + 1 + l.length by simp; omega]
      refine ⟨this.1.trans ?_, this.2⟩
      rw [run_eq]; rfl
  have := key l 0 m m rfl hB (by
    rw [List.forall₂_same]
    intro v _
    have : (v - v).norm = 0 := by
      rw [show v - v = 0 by ext <;> simp]
      simp [V3.norm, V3.normSq, V3.dot]
    simp [this])
  rwa [zero_add] at this

/-- **C133 (distances).** Hence the distance between two vertices changes by at most twice this bound. -/
theorem C133_distances (u g δ : ℝ) (hu : u ≤ δ) (hg : g ≤ δ) (h0 : 0 ≤ δ) (h1 : δ ≤ 1 / 100) (rnd cosF sinF : ℝ → ℝ)
    (hr : IsRounding u rnd) (hc : ∀ x, |cosF x - cos x| ≤ δ) (hs : ∀ x, |sinF x - sin x| ≤ δ) (dot : V3 ℝ → V3 ℝ → ℝ)
    (hd : IsDot g dot) (l : List RigidMove) (m : Mesh ℝ) (B : ℝ)
    (hB : ∀ k, ∀ v ∈ (RigidMove.runAll (l.take k) m).vertices, v.norm ≤ B) (i j : ℕ) (hi : i < m.nv) (hj : j < m.nv) :
    |((RigidMove.runAllFl rnd cosF sinF dot l m).vert i - (RigidMove.runAllFl rnd cosF sinF dot l m).vert j).norm -
      (m.vert i - m.vert j).norm| ≤ 2 * (((1 + 39 * δ) ^ l.length - 1) * B) := by
  have hex : ∀ (l : List RigidMove) (m : Mesh ℝ), i < m.nv → j < m.nv → (RigidMove.runAll l m).nv = m.nv ∧
      ((RigidMove.runAll l m).vert i - (RigidMove.runAll l m).vert j).norm = (m.vert i - m.vert j).norm := by
    intro l
    induction l with
    | nil => intro m _ _; exact ⟨rfl, rfl⟩
    | cons a l ih =>
      intro m hi hj
      have hn : (a.run m).nv = m.nv := by rw [run_eq]; simp [Mesh.nv, Mesh.mapVertices]
      obtain ⟨e1, e2⟩ := ih (a.run m) (hn ▸ hi) (hn ▸ hj)
      refine ⟨e1.trans hn, e2.trans ?_⟩
      rw [run_eq, vert_mapVertices m _ _ hi, vert_mapVertices m _ _ hj, pt_dist]
  obtain ⟨en, ed⟩ := hex l m hi hj
  obtain ⟨-, hp⟩ := C133_positions u g δ hu hg h0 h1 rnd cosF sinF hr hc hs dot hd l m B hB
  have near : ∀ k, k < m.nv → ((RigidMove.runAllFl rnd cosF sinF dot l m).vert k - (RigidMove.runAll l m).vert k).norm ≤
      ((1 + 39 * δ) ^ l.length - 1) * B := by
    intro k hk
    have k1 : k < (RigidMove.runAll l m).vertices.length := by rw [← en] at hk; exact hk
    have k2 : k < (RigidMove.runAllFl rnd cosF sinF dot l m).vertices.length := hp.length_eq ▸ k1
    have := (List.forall₂_iff_get.1 hp).2 k k1 k2
    unfold Mesh.vert
    simp only [List.getD_eq_getElem?_getD, List.getElem?_eq_getElem k1, List.getElem?_eq_getElem k2, Option.getD_some]
    exact this
  rw [← ed]
  set A := RigidMove.runAll l m
  set A' := RigidMove.runAllFl rnd cosF sinF dot l m
  have t := norm_diff (A'.vert i - A'.vert j) (A.vert i - A.vert j)
  have s := norm_tri (A'.vert i - A.vert i) (A.vert j - A'.vert j)
  rw [show A'.vert i - A.vert i + (A.vert j - A'.vert j) = A'.vert i - A'.vert j - (A.vert i - A.vert j) by
    ext <;> simp <;> ring, V3.norm_sub_comm (A.vert j)] at s
  linarith [near i hi, near j hj]

/-! ### Volume -/

lemma twiceArea_eq (m : Mesh ℝ) (f : Face) : m.twiceArea f = if f.a = f.d then areaVec (m.vert f.a) (m.vert f.b) (m.vert f.c)
    else areaVec (m.vert f.a) (m.vert f.b) (m.vert f.c) + areaVec (m.vert f.a) (m.vert f.c) (m.vert f.d) := by
  unfold Mesh.twiceArea
  split_ifs
  · rfl
  · unfold areaVec; ext <;> simp [V3.cross] <;> ring

lemma exact_keeps (l : List RigidMove) : ∀ (m : Mesh ℝ), m.WF → m.ClosedOriented → m.FlatFaces →
    (RigidMove.runAll l m).faces = m.faces ∧ (RigidMove.runAll l m).FlatFaces ∧
    (RigidMove.runAll l m).signedVolume = m.signedVolume ∧
    ∀ f ∈ m.faces, ((RigidMove.runAll l m).twiceArea f).norm = (m.twiceArea f).norm := by
  induction l with
  | nil => intro m _ _ hf; exact ⟨rfl, hf, rfl, fun _ _ => rfl⟩
  | cons a l ih =>
    intro m hwf hcl hflat
    obtain ⟨R, hR, t, hp⟩ := pt_rigid a
    have e : a.run m = (m.rotateMatrix R).translate t := by
      rw [run_eq, Mesh.translate, Mesh.rotateMatrix, mapVertices_mapVertices]
      exact congrArg m.mapVertices (funext hp)
    have hwf1 : (m.rotateMatrix R).WF := by
      intro f hf i hi
      simpa [Mesh.rotateMatrix, Mesh.mapVertices, Mesh.nv] using hwf f hf i hi
    have hwf2 : (a.run m).WF := by
      rw [e]
      intro f hf i hi
      simpa [Mesh.rotateMatrix, Mesh.translate, Mesh.mapVertices, Mesh.nv] using hwf f hf i hi
    have hfl1 : (m.rotateMatrix R).FlatFaces := by
      intro f hf
      obtain ⟨ha, hb, hc, hd⟩ := hwf.corner (f := f) hf
      have := hflat f hf
      simp only [Mesh.rotateMatrix, vert_mapVertices m _ _ ha, vert_mapVertices m _ _ hb,
        vert_mapVertices m _ _ hc, vert_mapVertices m _ _ hd, FlatQuad, areaVec_rot hR]
      have inj : ∀ w : V3 ℝ, w ≠ 0 → R.mulVec w ≠ 0 := fun w hw h => by
        have h2 := hR.norm_mulVec w
        rw [h] at h2
        have h3 := QuadFl.norm_pos hw
        rw [← h2] at h3
        simp [V3.norm, V3.normSq, V3.dot] at h3
      split_ifs at this ⊢ with ht
      · exact inj _ this
      · obtain ⟨n, α, β, h1, h2, h3, hn, e1, e2⟩ := this
        exact ⟨R.mulVec n, α, β, h1, h2, h3, inj n hn, by rw [e1, M3.mulVec_smul], by rw [e2, M3.mulVec_smul]⟩
    have hvol1 : (m.rotateMatrix R).signedVolume = m.signedVolume := by
      rw [← volume_eq_signedVolume _ hfl1, ← volume_eq_signedVolume _ hflat]
      exact (C18_rotate_matrix R hR m hwf).2.2.2.2.2.1
    have hfl2 : (a.run m).FlatFaces := by rw [e]; exact translate_flat t _ hwf1 hfl1
    have hcl2 : (a.run m).ClosedOriented := by rw [e]; exact hcl
    obtain ⟨i1, i2, i3, i4⟩ := ih (a.run m) hwf2 hcl2 hfl2
    have hfaces : (a.run m).faces = m.faces := by rw [e]; rfl
    refine ⟨i1.trans hfaces, i2, i3.trans ?_, ?_⟩
    · rw [e]
      exact (translate_signedVolume t _ hwf1 hcl).trans hvol1
    · intro f hf
      refine (i4 f (hfaces ▸ hf)).trans ?_
      obtain ⟨ha, hb, hc, hd⟩ := hwf.corner (f := f) hf
      have area : ∀ x y z : V3 ℝ, areaVec (pt a x) (pt a y) (pt a z) = R.mulVec (areaVec x y z) := fun x y z => by
        rw [hp, hp, hp, areaVec_translate, areaVec_rot hR]
      rw [twiceArea_eq, twiceArea_eq, run_eq, vert_mapVertices m _ _ ha, vert_mapVertices m _ _ hb, vert_mapVertices m _ _ hc,
        vert_mapVertices m _ _ hd, area, area]
      split_ifs
      · exact hR.norm_mulVec _
      · rw [← M3.mulVec_add, hR.norm_mulVec]

/-- **C133 (volume).** The volume computed in floating point after any sequence of motions of a watertight mesh differs from the
volume of the mesh before the motions by at most `F B³ (357 ε + 11 ((1 + u) ^ (3 F + 1) - 1))`, `F` being the number of faces and
`ε` the bound of the positions relative to `B`, when no face is so small that its normal is lost. -/
theorem C133_volume (u g δ ε : ℝ) (hu0 : 0 ≤ u) (hu : u ≤ δ) (hg : g ≤ δ) (h1 : δ ≤ 1 / 100) (rnd cosF sinF : ℝ → ℝ)
    (hr : IsRounding u rnd) (hc : ∀ x, |cosF x - cos x| ≤ δ) (hs : ∀ x, |sinF x - sin x| ≤ δ) (dot : V3 ℝ → V3 ℝ → ℝ)
    (hd : IsDot g dot) (nrm : V3 ℝ → ℝ) (hnrm : ∀ v, |nrm v - v.norm| ≤ δ * v.norm) (l : List RigidMove) (m : Mesh ℝ) (B : ℝ)
    (hB0 : 0 ≤ B) (hB : ∀ k, ∀ v ∈ (RigidMove.runAll (l.take k) m).vertices, v.norm ≤ B)
    (hδ : δ ≤ ε) (hε : (1 + 39 * δ) ^ l.length - 1 ≤ ε) (hε1 : ε ≤ 1 / 100)
    (hwf : m.WF) (hcl : m.ClosedOriented) (hflat : m.FlatFaces)
    (hA : ∀ f ∈ m.faces, 104 * (ε * B ^ 2) < (m.twiceArea f).norm) (V : ℝ)
    (hV : (RigidMove.runAllFl rnd cosF sinF dot l m).VolumeAllFl rnd nrm V) :
    |V - m.volume| ≤ m.faces.length * B ^ 3 * (357 * ε + 11 * ((1 + u) ^ (3 * m.faces.length + 1) - 1)) := by
  have h0 : 0 ≤ δ := hu0.trans hu
  obtain ⟨hf, hp⟩ := C133_positions u g δ hu hg h0 h1 rnd cosF sinF hr hc hs dot hd l m B hB
  obtain ⟨i1, i2, i3, i4⟩ := exact_keeps l m hwf hcl hflat
  have hb : ∀ v ∈ (RigidMove.runAll l m).vertices, ∀ k, |v.coord k| ≤ B := by
    intro v hv k
    have h := hB l.length v (by rwa [List.take_length])
    obtain ⟨x, y, z⟩ := coord_le_norm v
    fin_cases k
    · exact x.trans h
    · exact y.trans h
    · exact z.trans h
  have hv : List.Forall₂ (V3.Close (ε * B)) (RigidMove.runAll l m).vertices (RigidMove.runAllFl rnd cosF sinF dot l m).vertices := by
    refine hp.imp ?_
    intro v w h
    have h' : (v - w).norm ≤ ε * B := by
      rw [V3.norm_sub_comm]
      exact h.trans (mul_le_mul_of_nonneg_right hε hB0)
    obtain ⟨x, y, z⟩ := coord_le_norm (v - w)
    exact ⟨x.trans h', y.trans h', z.trans h'⟩
  have := C129_volume u ε δ B hu0 (hu.trans hδ) hε1 hB0 rnd hr hδ nrm hnrm (RigidMove.runAll l m)
    (RigidMove.runAllFl rnd cosF sinF dot l m) i2 (hf.trans i1.symm) hv hb (by
      intro f hf'
      rw [hf] at hf'
      exact cross_ne_zero hr (hu.trans hδ) (h0.trans hδ) hε1 hB0 hδ hnrm hv hb (by rw [i4 f hf']; exact hA f hf')) V hV
  rw [i3, i1, ← volume_eq_signedVolume _ hflat] at this
  exact this

/-! ### A case -/

/-- Three motions of the cube. -/
noncomputable def cubeMoves : List RigidMove := [.translate ⟨1, 2, 3⟩, .rotate 1 0 2, .translateX (1 / 2)]

lemma cubeMoves_bounded : ∀ k, ∀ v ∈ (RigidMove.runAll (cubeMoves.take k) (cubeMesh ℝ)).vertices, v.norm ≤ 10 := by
  have b0 : ∀ v ∈ (cubeMesh ℝ).vertices, v.norm ≤ 2 := by
    intro v hv
    have h : |v.x| ≤ 1 ∧ |v.y| ≤ 1 ∧ |v.z| ≤ 1 := by
      simp only [cubeMesh, List.mem_cons, List.not_mem_nil, or_false] at hv
      rcases hv with rfl | rfl | rfl | rfl | rfl | rfl | rfl | rfl <;> simp
    have := norm_le_of_coord h.1 h.2.1 h.2.2
    linarith
  have step : ∀ (a : RigidMove) (m : Mesh ℝ) (b c : ℝ), (∀ v ∈ m.vertices, v.norm ≤ b) → (∀ v : V3 ℝ, (pt a v).norm ≤ v.norm + c) →
      ∀ v ∈ (a.run m).vertices, v.norm ≤ b + c := by
    intro a m b c hm ha v hv
    rw [run_eq] at hv
    obtain ⟨w, hw, rfl⟩ := List.mem_map.1 hv
    linarith [hm w hw, ha w]
  have b1 := step (.translate ⟨1, 2, 3⟩) _ 2 6 b0 (fun v => by
    have := norm_tri v ⟨1, 2, 3⟩
    have h3 : (⟨1, 2, 3⟩ : V3 ℝ).norm ≤ 7 / 4 * 3 := norm_le_of_coord (by norm_num) (by norm_num) (by norm_num)
    show (v + ⟨1, 2, 3⟩).norm ≤ _
    linarith)
  have b2 := step (.rotate 1 0 2) _ (2 + 6) 0 b1 (fun v => by
    rw [add_zero]; exact ((cardan_isRotation 1 0 2).norm_mulVec v).le)
  have b3 := step (.translateX (1 / 2)) _ (2 + 6 + 0) 1 b2 (fun v => by
    have := norm_tri v ⟨1 / 2, 0, 0⟩
    have h3 : (⟨1 / 2, 0, 0⟩ : V3 ℝ).norm ≤ 7 / 4 * (1 / 2) := norm_le_of_coord (by norm_num) (by norm_num) (by norm_num)
    have e : v + ⟨1 / 2, 0, 0⟩ = pt (.translateX (1 / 2)) v := by ext <;> simp [pt]
    rw [e] at this
    linarith)
  intro k v hv
  match k, hv with
  | 0, hv => linarith [b0 v hv]
  | 1, hv => linarith [b1 v hv]
  | 2, hv => linarith [b2 v hv]
  | k + 3, hv => linarith [b3 v (by simpa [cubeMoves, RigidMove.runAll] using hv)]

/-- The hypotheses of C133 are met by the cube with these motions, in a floating point arithmetic which rounds every number larger
than 1 and inexact cosines and sines; the computed volume is 1 up to `1e-5`. -/
theorem cube_meets_C133 (V : ℝ)
    (hV : (RigidMove.runAllFl (topRound (1 / 2 ^ 53)) (fun x => cos x * (1 - 1 / 2 ^ 53)) (fun x => sin x * (1 + 1 / 2 ^ 53))
      (dotFl (topRound (1 / 2 ^ 53))) cubeMoves (cubeMesh ℝ)).VolumeAllFl (topRound (1 / 2 ^ 53)) V3.norm V) :
    |V - 1| ≤ 1 / 10 ^ 5 := by
  have hu : (0 : ℝ) ≤ 1 / 2 ^ 53 := by norm_num
  have hr := topRound_isRounding hu
  have hvol : (cubeMesh ℝ).volume = 1 := by
    rw [volume_eq_signedVolume _ cubeMesh_convex.flat, cubeMesh_volume]
  have := C133_volume (1 / 2 ^ 53) ((1 + 1 / 2 ^ 53) ^ 3 - 1) (1 / 2 ^ 50) (1 / 10 ^ 12) hu (by norm_num) (by norm_num) (by norm_num) _
    (fun x => cos x * (1 - 1 / 2 ^ 53)) (fun x => sin x * (1 + 1 / 2 ^ 53)) hr
    (fun x => by
      rw [show cos x * (1 - 1 / 2 ^ 53) - cos x = -(cos x * (1 / 2 ^ 53)) by ring, abs_neg, abs_mul]
      have := abs_cos_le_one x
      rw [abs_of_nonneg hu]
      nlinarith)
    (fun x => by
      rw [show sin x * (1 + 1 / 2 ^ 53) - sin x = sin x * (1 / 2 ^ 53) by ring, abs_mul]
      have := abs_sin_le_one x
      rw [abs_of_nonneg hu]
      nlinarith)
    _ (dotFl_isDot hr hu) V3.norm (fun v => by
      rw [sub_self, abs_zero]
      have := QuadFl.norm_nonneg v
      positivity)
    cubeMoves (cubeMesh ℝ) 10 (by norm_num) cubeMoves_bounded (by norm_num) (by norm_num [cubeMoves]) (by norm_num) (cubeMesh_wf ℝ)
    (cubeMesh_closed ℝ) cubeMesh_convex.flat (by
      intro f hf
      have key : ∀ w : V3 ℝ, (1 ≤ |w.x| ∨ 1 ≤ |w.y| ∨ 1 ≤ |w.z|) → 104 * (1 / 10 ^ 12 * 10 ^ 2) < w.norm := by
        intro w hw
        obtain ⟨x, y, z⟩ := coord_le_norm w
        have : (1 : ℝ) ≤ w.norm := by
          rcases hw with h | h | h
          · exact h.trans x
          · exact h.trans y
          · exact h.trans z
        refine lt_of_lt_of_le (by norm_num) this
      apply key
      simp only [cubeMesh, cubeFaces, List.mem_cons, List.not_mem_nil, or_false] at hf
      rcases hf with rfl | rfl | rfl | rfl | rfl | rfl | rfl <;>
        norm_num [Mesh.twiceArea, cubeMesh, Mesh.vert, V3.cross]) V hV
  rw [hvol] at this
  refine this.trans ?_
  norm_num [cubeMesh, cubeFaces]

end MM
