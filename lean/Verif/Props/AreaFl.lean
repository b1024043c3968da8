import Verif.Spec.AreaFl
import Verif.Model.AreaFl
import Verif.Props.VolumeQuadFl

/-!
# Area of the surface of a mesh in floating point, and of a mesh clipped in floating point (C135)
-/

namespace MM

open QuadFl Clipper

variable {rnd : ℝ → ℝ} {u ε R : ℝ}

/-- Half the norm of a vector product. -/
lemma half_norm_near (hr : IsRounding u rnd) (hu : u ≤ ε) (h0 : 0 ≤ ε) (h1 : ε ≤ 1 / 100) {g : ℝ} (hg : g ≤ ε)
    {nrm : V3 ℝ → ℝ} (hnrm : ∀ v, |nrm v - v.norm| ≤ g * v.norm) {c c' : V3 ℝ}
    (hc : (c' - c).norm ≤ 104 * (ε * R ^ 2) ∧ c.norm ≤ 14 * R ^ 2) :
    |rnd (nrm c' / 2) - c.norm / 2| ≤ 68 * (ε * R ^ 2) ∧ 0 ≤ c.norm / 2 ∧ c.norm / 2 ≤ 7 * R ^ 2 := by
  have s0 : 0 ≤ ε * R ^ 2 := by positivity
  have s1 : ε * (ε * R ^ 2) ≤ 1 / 100 * (ε * R ^ 2) := mul_le_mul_of_nonneg_right h1 s0
  have d := norm_diff c' c
  have c0 := QuadFl.norm_nonneg c
  have c0' := QuadFl.norm_nonneg c'
  have cb : c'.norm ≤ 14 * R ^ 2 + 104 * (ε * R ^ 2) := by have := (abs_le.1 d).2; linarith [hc.1, hc.2]
  have dn : |nrm c' - c.norm| ≤ 120 * (ε * R ^ 2) := by
    have k := hnrm c'
    have k2 : g * c'.norm ≤ ε * (14 * R ^ 2 + 104 * (ε * R ^ 2)) := mul_le_mul hg cb c0' h0
    rw [show ε * (14 * R ^ 2 + 104 * (ε * R ^ 2)) = 14 * (ε * R ^ 2) + 104 * (ε * (ε * R ^ 2)) by ring] at k2
    have := abs_add_le (nrm c' - c'.norm) (c'.norm - c.norm)
    rw [sub_add_sub_cancel] at this
    linarith [hc.1]
  have m2 : |nrm c' / 2 - c.norm / 2| ≤ 60 * (ε * R ^ 2) := by
    rw [← sub_div, abs_div, abs_of_pos (by norm_num : (0 : ℝ) < 2)]; linarith
  have k2 : |c.norm / 2| ≤ 7 * R ^ 2 := by rw [abs_of_nonneg (by linarith)]; linarith [hc.2]
  have r := rnd_near hr hu h0 m2 k2
  rw [show ε * (7 * R ^ 2 + 60 * (ε * R ^ 2)) = 7 * (ε * R ^ 2) + 60 * (ε * (ε * R ^ 2)) by ring] at r
  exact ⟨by linarith, by linarith, by linarith [hc.2]⟩

lemma cross_swap_norm (a b : V3 ℝ) : (a.cross b).norm = (b.cross a).norm := by
  unfold V3.norm V3.normSq V3.dot V3.cross
  congr 1
  ring

lemma faceArea_near (hr : IsRounding u rnd) (hu : u ≤ ε) (h0 : 0 ≤ ε) (h1 : ε ≤ 1 / 100) (hR : 0 ≤ R) {g : ℝ} (hg : g ≤ ε)
    {nrm : V3 ℝ → ℝ} (hnrm : ∀ v, |nrm v - v.norm| ≤ g * v.norm) {m m' : Mesh ℝ}
    (hv : List.Forall₂ (V3.Close (ε * R)) m.vertices m'.vertices) (hb : ∀ v ∈ m.vertices, ∀ k, |v.coord k| ≤ R) (f : Face) :
    |m'.faceAreaFl rnd nrm f - m.areaOfFace f| ≤ 152 * (ε * R ^ 2) ∧ 0 ≤ m.areaOfFace f ∧ m.areaOfFace f ≤ 14 * R ^ 2 := by
  have n := Clipper.vert_near hR (by positivity) hv hb
  have s0 : 0 ≤ ε * R ^ 2 := by positivity
  have s1 : ε * (ε * R ^ 2) ≤ 1 / 100 * (ε * R ^ 2) := mul_le_mul_of_nonneg_right h1 s0
  have R2 : 0 ≤ R ^ 2 := by positivity
  have sub := fun i j => subV_near hr hu h0 h1 hR (n i).1 (n j).1 (n i).2 (n j).2
  have half := fun i j k => half_norm_near hr hu h0 h1 hg hnrm (crossV_near hr hu h0 h1 hR (sub i j) (sub k j))
  unfold Mesh.faceAreaFl Mesh.areaOfFace
  split_ifs
  · obtain ⟨a, b, c⟩ := half f.b f.a f.c
    refine ⟨a.trans (by linarith), b, c.trans (by linarith)⟩
  · obtain ⟨a, b, c⟩ := half f.b f.a f.c
    obtain ⟨a', b', c'⟩ := half f.d f.a f.c
    have sw : ((m.vert f.d - m.vert f.a).cross (m.vert f.c - m.vert f.a)).norm =
      (areaVec (m.vert f.a) (m.vert f.c) (m.vert f.d)).norm := cross_swap_norm _ _
    rw [sw] at a' b' c'
    change |_ - (areaVec (m.vert f.a) (m.vert f.b) (m.vert f.c)).norm / 2| ≤ _ at a
    change 0 ≤ (areaVec (m.vert f.a) (m.vert f.b) (m.vert f.c)).norm / 2 at b
    change (areaVec (m.vert f.a) (m.vert f.b) (m.vert f.c)).norm / 2 ≤ _ at c
    refine ⟨?_, by linarith, by linarith⟩
    unfold quadAreaFl
    simp only [mul_one_div]
    set x := (areaVec (m.vert f.a) (m.vert f.b) (m.vert f.c)).norm / 2
    set y := (areaVec (m.vert f.a) (m.vert f.c) (m.vert f.d)).norm / 2
    set x' := rnd (nrm (crossFl rnd (subFl rnd (m'.vert f.b) (m'.vert f.a)) (subFl rnd (m'.vert f.c) (m'.vert f.a))) / 2)
    set y' := rnd (nrm (crossFl rnd (subFl rnd (m'.vert f.d) (m'.vert f.a)) (subFl rnd (m'.vert f.c) (m'.vert f.a))) / 2)
    have d : |x' + y' - (x + y)| ≤ 136 * (ε * R ^ 2) := by
      rw [show x' + y' - (x + y) = (x' - x) + (y' - y) by ring]
      have := abs_add_le (x' - x) (y' - y)
      linarith
    have k : |x + y| ≤ 14 * R ^ 2 := by rw [abs_of_nonneg (by linarith)]; linarith
    have r := rnd_near hr hu h0 d k
    rw [show ε * (14 * R ^ 2 + 136 * (ε * R ^ 2)) = 14 * (ε * R ^ 2) + 136 * (ε * (ε * R ^ 2)) by ring] at r
    linarith

/-- **C135.** The area of each face and the area of the surface of a mesh, computed in floating point with the areas added in any order, from
norms of relative error at most `ε`. The vertices may themselves be off by at most `ε R`, as those of the mesh of `clip`. There is
no condition on the faces: they may be degenerate, or not plane (the area is then that of two triangles). -/
theorem C135_area (u ε g R : ℝ) (hu0 : 0 ≤ u) (hu : u ≤ ε) (h1 : ε ≤ 1 / 100) (hR : 0 ≤ R) (rnd : ℝ → ℝ) (hr : IsRounding u rnd)
    (hg : g ≤ ε) (nrm : V3 ℝ → ℝ) (hnrm : ∀ v, |nrm v - v.norm| ≤ g * v.norm) (m m' : Mesh ℝ)
    (hfaces : m'.faces = m.faces) (hv : List.Forall₂ (V3.Close (ε * R)) m.vertices m'.vertices)
    (hb : ∀ v ∈ m.vertices, ∀ k, |v.coord k| ≤ R) :
    (∀ f ∈ m.faces, |m'.faceAreaFl rnd nrm f - m.areaOfFace f| ≤ 152 * ε * R ^ 2) ∧
    ∀ A, m'.AreaFl rnd nrm A →
      |A - m.areaOfSurface| ≤ m.faces.length * R ^ 2 * (152 * ε + 16 * ((1 + u) ^ m.faces.length - 1)) := by
  have h0 : 0 ≤ ε := hu0.trans hu
  have near := fun f => faceArea_near hr hu h0 h1 hR hg hnrm hv hb f
  refine ⟨fun f _ => by rw [mul_assoc]; exact (near f).1, ?_⟩
  intro A hA
  unfold Mesh.AreaFl at hA
  rw [hfaces] at hA
  unfold Mesh.areaOfSurface
  have s0 : 0 ≤ ε * R ^ 2 := by positivity
  have R2 : 0 ≤ R ^ 2 := by positivity
  have s1 : ε * R ^ 2 ≤ 1 / 100 * R ^ 2 := mul_le_mul_of_nonneg_right h1 R2
  have sums : ∀ l : List Face, |(l.map (m'.faceAreaFl rnd nrm)).sum - (l.map m.areaOfFace).sum| ≤ l.length * (152 * (ε * R ^ 2)) ∧
      ((l.map (m'.faceAreaFl rnd nrm)).map (fun x => |x|)).sum ≤ l.length * (16 * R ^ 2) := by
    intro l
    induction l with
    | nil => simp
    | cons f l ih =>
      obtain ⟨i1, i2⟩ := ih
      obtain ⟨a, b, c⟩ := near f
      have k : |m'.faceAreaFl rnd nrm f| ≤ 16 * R ^ 2 := by
        have := abs_add_le (m'.faceAreaFl rnd nrm f - m.areaOfFace f) (m.areaOfFace f)
        rw [sub_add_cancel, abs_of_nonneg b] at this
        linarith
      simp only [List.map_cons, List.sum_cons, List.length_cons, Nat.cast_add, Nat.cast_one]
      refine ⟨?_, by linarith⟩
      rw [abs_le] at a i1 ⊢
      constructor <;> linarith [a.1, a.2, i1.1, i1.2]
  obtain ⟨e1, e2⟩ := sums m.faces
  set l := m.faces.map (m'.faceAreaFl rnd nrm) with hl
  have E := Err.sum (u := u) (n := 0) hu0 hr hA (l.map (fun x => (|x|, x))) (by
    rw [List.forall₂_map_left_iff]
    exact List.forall₂_same.2 (fun x _ => Err.exact x))
  have E' := E.mono hu0 (k := m.faces.length) (by simp [hl])
  have hE := E'.2
  simp only [List.map_map, Function.comp_def, List.map_id'] at hE
  have P := pow_sub_nonneg hu0 m.faces.length
  have k := mul_le_mul_of_nonneg_left e2 P
  have tri := abs_sub_le A l.sum (m.faces.map m.areaOfFace).sum
  refine tri.trans ((add_le_add (hE.trans k) e1).trans (le_of_eq ?_))
  ring

/-- **C135.** Wetted area: the mesh is clipped in floating point, then its area is computed in floating point. Under the conditions
of C121 (with vertices computed within `e`), the result is that of the exact calculation, up to an error that tends to 0 with `ε`. -/
theorem C135_wetted_area (u g : ℝ) (hu : 0 ≤ u) (hu1 : u < 1) (rnd : ℝ → ℝ) (hr : IsRounding u rnd) (hone : rnd 1 = 1)
    (hidem : ∀ a ∈ [1 / 100000, 1 / 100000000], rnd (rnd a) = rnd a) (dot dot' : V3 ℝ → V3 ℝ → ℝ) (hd : IsDot g dot) (hd' : IsDot g dot') (hg : 0 ≤ g)
    (srt srt' : (ℕ → ℝ) → List ℕ → List ℕ) (hsrt : IsArgsort srt) (hsrt' : IsArgsort srt') (p : Plane ℝ) (tol B R e : ℝ)
    (htol0 : 0 < tol) (htol : 2 * g * (1 + u) * B ≤ tol) (b : Bool) (m : Mesh ℝ) (hwf : m.WF)
    (hclear : ∀ v ∈ m.vertices,
      g * absDot v p.normal + u * (|p.dist v| + g * absDot v p.normal) < |p.dist v - tol| ∧
      g * absDot v p.normal + u * (|p.dist v| + g * absDot v p.normal) < |p.dist v + tol|)
    (hB : ∀ v ∈ m.vertices, absDot v p.normal + |p.c| ≤ B) (hR : ∀ v ∈ m.vertices, ∀ k, |v.coord k| ≤ R)
    (he0 : 0 ≤ e) (he : (g + ((1 + u) ^ 2 / (1 - u) - 1) * (1 + 3 * g)) * B / tol * R + ((1 + u) ^ 3 - 1) * R ≤ e)
    (hsep : m.TolSeparated p tol)
    (hgap : ∀ X Y, m.TolClipPoint p tol X → m.TolClipPoint p tol Y → ∀ a ∈ [1 / 100000, 1 / 100000000], ∀ k,
      |X.coord k - Y.coord k| + 2 * e ≤ (1 - u) * a ∨ (1 + u) / (1 - u) * a + 2 * e < |X.coord k - Y.coord k|)
    (hR0 : 0 ≤ R) (c : Clipped ℝ) (hc : clip srt p tol b m = .ok c)
    (ε g' : ℝ) (huε : u ≤ ε) (hgε : g' ≤ ε) (h1 : ε ≤ 1 / 100) (heε : e ≤ ε * R) (nrm : V3 ℝ → ℝ)
    (hnrm : ∀ v, |nrm v - v.norm| ≤ g' * v.norm) :
    ∃ c', clipFl rnd dot dot' srt' p tol b m = .ok c' ∧
      ∀ A, c'.clipped.AreaFl rnd nrm A → |A - c.clipped.areaOfSurface| ≤
        c.clipped.faces.length * R ^ 2 * (152 * ε + 16 * ((1 + u) ^ c.clipped.faces.length - 1)) := by
  obtain ⟨c', h2, h3, h4, hb⟩ := clipFl_near u g hu hu1 rnd hr hone hidem dot dot' hd hd' hg srt srt' hsrt hsrt' p tol B R e
    htol0 htol b m hwf hclear hB hR he0 he hsep hgap c hc
  have hv : List.Forall₂ (V3.Close (ε * R)) c.clipped.vertices c'.clipped.vertices :=
    h4.imp fun _ _ h => ⟨h.1.trans heε, h.2.1.trans heε, h.2.2.trans heε⟩
  exact ⟨c', h2, (C135_area u ε g' R hu huε h1 hR0 rnd hr hgε nrm hnrm _ _ h3 hv hb).2⟩

lemma halfCubeClipped_area : halfCubeClipped.areaOfSurface = 3 := by
  have q1 : √(1 / 4 : ℝ) = 1 / 2 := by
    rw [show (1 / 4 : ℝ) = (1 / 2) ^ 2 by norm_num, Real.sqrt_sq (by norm_num)]
  simp [halfCubeClipped, Mesh.areaOfSurface, Mesh.areaOfFace, Mesh.vert, areaVec, V3.cross, V3.norm, V3.normSq, V3.dot]
  norm_num [q1]

/-- The hypotheses of C135 are met by the half immersed cube, whose wetted area is computed within `10⁻⁸`. -/
theorem halfCube_meets_C135 :
    ∃ c', clipFl (topRound (1 / 2 ^ 53)) (dotFl (topRound (1 / 2 ^ 53))) (dotFma (topRound (1 / 2 ^ 53))) insArgsort
        ⟨⟨0, 0, 1⟩, 0⟩ (1 / 1000) true halfCube.real = .ok c' ∧
      ∀ A, c'.clipped.AreaFl (topRound (1 / 2 ^ 53)) V3.norm A → |A - 3| ≤ 1 / 10 ^ 8 := by
  obtain ⟨c, hc, hp, hm⟩ := halfCube_clip
  have hmesh : (c.aff ratReal 0).clipped = halfCubeClipped := by
    show c.clipped.aff ratReal 0 = _
    rw [hm]
    simp [Mesh.aff, affMap, ratReal_apply, halfCubeClipped]
  have hR := clip_real (by decide +kernel) hc
  have hu : (0 : ℝ) ≤ 1 / 2 ^ 53 := by norm_num
  have hr := topRound_isRounding hu
  have verts : ∀ v ∈ halfCube.real.vertices, (|v.x| ≤ 1 ∧ |v.y| ≤ 1) ∧ |v.z| = 1 / 2 := by
    have : ∀ v ∈ halfCube.vertices, (|v.x| ≤ 1 ∧ |v.y| ≤ 1) ∧ |v.z| = 1 / 2 := by decide +kernel
    intro v hv
    rw [Mesh.real_vertices, List.mem_map] at hv
    obtain ⟨w, hw, rfl⟩ := hv
    obtain ⟨⟨a, b⟩, c⟩ := this w hw
    refine ⟨⟨?_, ?_⟩, ?_⟩
    · show |(w.x : ℝ)| ≤ 1
      exact_mod_cast a
    · show |(w.y : ℝ)| ≤ 1
      exact_mod_cast b
    · have : ((|w.z| : ℚ) : ℝ) = ((1 / 2 : ℚ) : ℝ) := by rw [c]
      push_cast at this
      exact this
  have gap : ∀ X Y, halfCube.real.TolClipPoint ⟨⟨0, 0, 1⟩, 0⟩ (1 / 1000) X → halfCube.real.TolClipPoint ⟨⟨0, 0, 1⟩, 0⟩ (1 / 1000) Y →
      ∀ k, X.coord k = Y.coord k ∨ 1 / 2 ≤ |X.coord k - Y.coord k| := by
    intro X Y hX hY k
    obtain ⟨a, ha⟩ := halfCube_points hX k
    obtain ⟨b, hb⟩ := halfCube_points hY k
    rw [ha, hb]
    by_cases h : a = b
    · left; rw [h]
    · right
      rw [← sub_div, abs_div, abs_of_pos (by norm_num : (0 : ℝ) < 2)]
      have : (1 : ℤ) ≤ |a - b| := Int.one_le_abs (sub_ne_zero.2 h)
      have : (1 : ℝ) ≤ |(a : ℝ) - b| := by exact_mod_cast this
      linarith
  obtain ⟨c', h1, h2⟩ := C135_wetted_area (1 / 2 ^ 53) ((1 + 1 / 2 ^ 53) ^ 3 - 1) hu (by norm_num) (topRound (1 / 2 ^ 53)) hr
    (by simp [topRound]) (by
      intro a ha
      have : |a| ≤ 1 := by
        rcases List.mem_cons.1 ha with rfl | ha
        · norm_num [abs_of_pos]
        · rw [List.mem_singleton.1 ha]; norm_num [abs_of_pos]
      simp [topRound, this]) (dotFl (topRound (1 / 2 ^ 53))) (dotFma (topRound (1 / 2 ^ 53))) (dotFl_isDot hr hu) (dotFma_isDot hr hu)
    (by norm_num) insArgsort insArgsort insArgsort_isArgsort insArgsort_isArgsort ⟨⟨0, 0, 1⟩, 0⟩ (1 / 1000) (1 / 2) 1 (1 / 10 ^ 12)
    (by norm_num) (by norm_num) true halfCube.real (Mesh.WF.real (by decide +kernel)) (by
      intro v hv
      have z := (verts v hv).2
      have d : (⟨⟨0, 0, 1⟩, 0⟩ : Plane ℝ).dist v = v.z := by simp [Plane.dist, V3.dot]
      have a : absDot v (⟨0, 0, 1⟩ : V3 ℝ) = 1 / 2 := by simp [absDot, z]
      rw [d, a, z]
      rcases abs_eq (by norm_num : (0 : ℝ) ≤ 1 / 2) |>.1 z with h | h <;> rw [h] <;> norm_num [abs_of_pos, abs_of_neg]) (by
      intro v hv
      have z := (verts v hv).2
      simp [absDot, z]) (by
      intro v hv k
      obtain ⟨⟨a, b⟩, c⟩ := verts v hv
      fin_cases k
      · exact a
      · exact b
      · show |v.z| ≤ 1
        rw [c]; norm_num) (by norm_num) (by norm_num) (by
      intro X Y hX hY hXY
      have k : ∀ k, |X.coord k - Y.coord k| ≤ 1 / 100000 → X.coord k = Y.coord k := by
        intro k h
        rcases gap X Y hX hY k with h' | h'
        · exact h'
        · exfalso; linarith [(by norm_num : (1 / 100000 : ℝ) < 1 / 2)]
      exact V3.ext (k 0 hXY.1) (k 1 hXY.2.1) (k 2 hXY.2.2)) (by
      intro X Y hX hY a ha k
      have a1 : 1 / 100000000 ≤ a ∧ a ≤ 1 / 100000 := by
        rcases List.mem_cons.1 ha with rfl | ha
        · norm_num
        · rw [List.mem_singleton.1 ha]; norm_num
      rcases gap X Y hX hY k with h | h
      · left
        rw [h, sub_self, abs_zero]
        have := mul_le_mul_of_nonneg_left a1.1 (by norm_num : (0 : ℝ) ≤ 1 - 1 / 2 ^ 53)
        refine le_trans ?_ this
        norm_num
      · right
        have := mul_le_mul_of_nonneg_left a1.2 (by norm_num : (0 : ℝ) ≤ (1 + 1 / 2 ^ 53) / (1 - 1 / 2 ^ 53))
        refine lt_of_lt_of_le (lt_of_le_of_lt (add_le_add_left this _) ?_) h
        norm_num) (by norm_num) _ hR (1 / 10 ^ 12) 0 (by norm_num) (by norm_num) (by norm_num) (by norm_num)
    V3.norm (by simp)
  rw [hmesh] at h2
  refine ⟨c', h1, fun A hA => ?_⟩
  have h3 := h2 A hA
  rw [halfCubeClipped_area] at h3
  refine h3.trans ?_
  simp only [halfCubeClipped, List.length_cons, List.length_nil]
  norm_num

end MM
