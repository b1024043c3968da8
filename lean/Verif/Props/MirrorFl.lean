import Verif.Model.MirrorFl
import Verif.Props.MovesFl
import Verif.Props.AreaFl
import Verif.Props.TransportFl
import Verif.Props.Geometry

/-!
# C148: `mirror` in floating point
-/

namespace MM

open QuadFl MovesFl

namespace MirrorFl

variable {u g ε R : ℝ} {rnd : ℝ → ℝ} {dot : V3 ℝ → V3 ℝ → ℝ}

lemma ap_dist (hr : IsRounding u rnd) (hu : u ≤ ε) (h0 : 0 ≤ ε) (h1 : ε ≤ 1 / 100) (hR : 0 ≤ R) (hd : IsDot g dot) (hg : g ≤ ε)
    (p q : Plane ℝ) (hp : ∀ k, |p.normal.coord k| ≤ 1) (hq : ∀ k, |q.normal.coord k - p.normal.coord k| ≤ ε) (hc : q.c = p.c)
    (hcR : |p.c| ≤ R) (v : V3 ℝ) (hv : ∀ k, |v.coord k| ≤ R) :
    Ap ε 10.4 4 R (q.distFl rnd dot v) (v.dot p.normal - p.c) := by
  have vx := hv 0
  have vy := hv 1
  have vz := hv 2
  have px := hp 0
  have py := hp 1
  have pz := hp 2
  have qx := hq 0
  have qy := hq 1
  have qz := hq 2
  simp only [V3.coord] at vx vy vz px py pz qx qy qz
  have bnd : ∀ {a b : ℝ}, |b - a| ≤ ε → |a| ≤ 1 → |b| ≤ 1.01 := by
    intro a b h h'
    have := abs_add_le (b - a) a
    rw [sub_add_cancel] at this
    linarith
  have D := hd v q.normal
  have A : absDot v q.normal ≤ 3 * (R * 1.01) := by
    have e : ∀ {a b : ℝ}, |a| ≤ R → |b| ≤ 1.01 → |a * b| ≤ R * 1.01 := fun h h' => abs_mul_le h h'
    have := e vx (bnd qx px)
    have := e vy (bnd qy py)
    have := e vz (bnd qz pz)
    unfold absDot
    linarith
  have A0 : 0 ≤ absDot v q.normal := by unfold absDot; positivity
  have D' : |dot v q.normal - (v.x * q.normal.x + v.y * q.normal.y + v.z * q.normal.z)| ≤ 3.03 * (ε * R) :=
    D.trans ((mul_le_mul_of_nonneg_right hg A0).trans ((mul_le_mul_of_nonneg_left A h0).trans (le_of_eq (by ring))))
  have E : |v.x * q.normal.x + v.y * q.normal.y + v.z * q.normal.z - v.dot p.normal| ≤ 3 * (ε * R) := by
    have e : v.x * q.normal.x + v.y * q.normal.y + v.z * q.normal.z - v.dot p.normal =
        v.x * (q.normal.x - p.normal.x) + v.y * (q.normal.y - p.normal.y) + v.z * (q.normal.z - p.normal.z) := by
      simp only [V3.dot]; ring
    rw [e]
    have a := abs_mul_le vx qx
    have b := abs_mul_le vy qy
    have c := abs_mul_le vz qz
    refine (abs_add_le _ _).trans ?_
    have := abs_add_le (v.x * (q.normal.x - p.normal.x)) (v.y * (q.normal.y - p.normal.y))
    linarith
  have k1 : Ap ε 6.03 3 R (dot v q.normal) (v.dot p.normal) := by
    refine ⟨?_, ?_⟩
    · refine (abs_sub_le _ (v.x * q.normal.x + v.y * q.normal.y + v.z * q.normal.z) _).trans ?_
      linarith
    · have a := abs_mul_le vx px
      have b := abs_mul_le vy py
      have c := abs_mul_le vz pz
      simp only [V3.dot]
      refine (abs_add_le _ _).trans ?_
      have := abs_add_le (v.x * p.normal.x) (v.y * p.normal.y)
      linarith
  have k2 : Ap ε 0 1 R q.c p.c := ⟨by simp [hc], by linarith⟩
  exact (k1.sub hr hu h0 h1 hR k2 (by norm_num) le_rfl).mono h0 hR (by norm_num) (by norm_num)

lemma ap_coord (hr : IsRounding u rnd) (hu : u ≤ ε) (h0 : 0 ≤ ε) (h1 : ε ≤ 1 / 100) (hR : 0 ≤ R) {d d' n n' x : ℝ}
    (hd : Ap ε 10.4 4 R d' d) (hn : |n| ≤ 1) (hn' : |n' - n| ≤ ε) (hx : |x| ≤ R) :
    |rnd (x - rnd (2 * rnd (d' * n'))) - (x - 2 * d * n)| ≤ 57 * ε * R := by
  have kn : Ap ε 1 1 1 n' n := ⟨by linarith, by linarith⟩
  have k2 : Ap ε 0 2 1 2 2 := ⟨by simp, by norm_num⟩
  have kx : Ap ε 0 1 R x x := ⟨by simp, by linarith⟩
  have a := (hd.mul hr hu h0 h1 hR zero_le_one kn (by norm_num) (by norm_num) (by norm_num) (by norm_num)).mono (e' := 18.7) (k' := 4) h0
    (by linarith) (by norm_num) (by norm_num)
  have b := (k2.mul hr hu h0 h1 zero_le_one (by linarith) a (by norm_num) (by norm_num) (by norm_num) (by norm_num)).mono (e' := 45.8) (k' := 8)
    h0 (by linarith) (by norm_num) (by norm_num)
  rw [one_mul, mul_one] at b
  have c := (kx.sub hr hu h0 h1 hR b (by norm_num) (by norm_num)).mono (e' := 57) (k' := 9) h0 hR (by norm_num) (by norm_num)
  have := c.1
  rw [mul_assoc 2 d n, mul_assoc 57 ε R]
  exact this

lemma unit_coord {n : V3 ℝ} (h : n.dot n = 1) (k) : |n.coord k| ≤ 1 := by
  rw [abs_le_one_iff_mul_self_le_one]
  simp only [V3.dot] at h
  fin_cases k <;> simp only [V3.coord] <;> nlinarith [mul_self_nonneg n.x, mul_self_nonneg n.y, mul_self_nonneg n.z]

end MirrorFl

open MirrorFl

/-- **C148 (positions).** `mirror` in floating point, with a plane whose stored unit normal is rounded, leaves the faces of the mirrored mesh,
and each of its coordinates is that of the mirrored mesh up to `57 ε R`: `R` bounds the coordinates and the offset of the plane. -/
theorem C148_positions (u g ε R : ℝ) (hu0 : 0 ≤ u) (hu : u ≤ ε) (hg : g ≤ ε) (h1 : ε ≤ 1 / 100) (hR : 0 ≤ R) (rnd : ℝ → ℝ)
    (hr : IsRounding u rnd) (dot : V3 ℝ → V3 ℝ → ℝ) (hd : IsDot g dot) (p q : Plane ℝ) (hp : p.normal.dot p.normal = 1)
    (hq : ∀ k, |q.normal.coord k - p.normal.coord k| ≤ ε) (hc : q.c = p.c) (hcR : |p.c| ≤ R) (m : Mesh ℝ)
    (hv : ∀ v ∈ m.vertices, ∀ k, |v.coord k| ≤ R) :
    (m.mirrorFl rnd dot q).faces = (m.mirror p).faces ∧
    List.Forall₂ (V3.Close (57 * ε * R)) (m.mirror p).vertices (m.mirrorFl rnd dot q).vertices := by
  refine ⟨rfl, ?_⟩
  show List.Forall₂ _ (m.vertices.map _) (m.vertices.map _)
  rw [List.forall₂_map_left_iff, List.forall₂_map_right_iff]
  refine List.forall₂_same.2 fun v hm => ?_
  have h0 := hu0.trans hu
  have D := ap_dist hr hu h0 h1 hR hd hg p q (unit_coord hp) hq hc hcR v (hv v hm)
  refine ⟨?_, ?_, ?_⟩ <;> rw [abs_sub_comm]
  · exact ap_coord hr hu h0 h1 hR D (unit_coord hp 0) (hq 0) (hv v hm 0)
  · exact ap_coord hr hu h0 h1 hR D (unit_coord hp 1) (hq 1) (hv v hm 1)
  · exact ap_coord hr hu h0 h1 hR D (unit_coord hp 2) (hq 2) (hv v hm 2)

/-- **C148 (volume).** The volume computed in floating point after `mirror` in floating point is the volume of the mesh before, up to
`F R³ (20349 ε + 11 ((1 + u) ^ (3 F + 1) - 1))`, when the mesh is closed, oriented and its faces are plane and convex: `F` is the number of faces,
`R` bounds the coordinates before and after and the offset of the plane, and no face is so small that its normal is lost. -/
theorem C148_volume (u g ε R : ℝ) (hu0 : 0 ≤ u) (hu : u ≤ ε) (hg : g ≤ ε) (h1 : ε ≤ 1 / 5700) (hR : 0 ≤ R) (rnd : ℝ → ℝ)
    (hr : IsRounding u rnd) (dot : V3 ℝ → V3 ℝ → ℝ) (hd : IsDot g dot) (nrm : V3 ℝ → ℝ) (hnrm : ∀ v, |nrm v - v.norm| ≤ g * v.norm)
    (p q : Plane ℝ) (hp : p.normal.dot p.normal = 1) (hq : ∀ k, |q.normal.coord k - p.normal.coord k| ≤ ε) (hc : q.c = p.c)
    (hcR : |p.c| ≤ R) (m : Mesh ℝ) (hv : ∀ v ∈ m.vertices, ∀ k, |v.coord k| ≤ R)
    (hv' : ∀ v ∈ m.vertices, ∀ k, |(p.reflect v).coord k| ≤ R) (hwf : m.WF) (hcl : m.ClosedOriented) (hcv : m.ConvexFaces)
    (hA : ∀ f ∈ (m.mirror p).faces, 5928 * (ε * R ^ 2) < ((m.mirror p).twiceArea f).norm) (V : ℝ)
    (hV : (m.mirrorFl rnd dot q).VolumeAllFl rnd nrm V) :
    |V - m.volume| ≤ m.faces.length * R ^ 3 * (20349 * ε + 11 * ((1 + u) ^ (3 * m.faces.length + 1) - 1)) := by
  have h0 := hu0.trans hu
  obtain ⟨hf, hpos⟩ := C148_positions u g ε R hu0 hu hg (by linarith) hR rnd hr dot hd p q hp hq hc hcR m hv
  have hb : ∀ v ∈ (m.mirror p).vertices, ∀ k, |v.coord k| ≤ R := by
    intro v hm
    obtain ⟨w, hw, rfl⟩ := List.mem_map.1 hm
    exact hv' w hw
  have cv := mirror_convex p hp m hwf hcv
  have := C129_volume u (57 * ε) g R hu0 (by linarith) (by linarith) hR rnd hr (by linarith) nrm hnrm (m.mirror p) _ cv.flat hf hpos hb (by
      intro f hf'
      exact cross_ne_zero hr (by linarith) (by linarith) (by linarith) hR (by linarith) hnrm hpos hb
        (lt_of_eq_of_lt (by ring) (hA f (by rwa [← hf])))) V hV
  rw [← volume_eq_signedVolume _ cv.flat, (C13_mirror p hp m hwf).2.2.2.2.2 hcl hcv] at this
  have len : (m.mirror p).faces.length = m.faces.length := List.length_map _
  rw [len] at this
  refine this.trans (le_of_eq (by ring))

lemma MirrorFl.reflect_close (p : Plane ℝ) (hp : p.normal.dot p.normal = 1) {δ : ℝ} (hδ : 0 ≤ δ) {v w : V3 ℝ} (h : V3.Close δ v w) :
    V3.Close (2 * δ) (p.reflect v) (p.reflect w) := by
  obtain ⟨hx, hy, hz⟩ := h
  have key : (p.reflect v - p.reflect w).normSq ≤ (2 * δ) ^ 2 := by
    rw [reflect_sub, reflLin_normSq _ _ hp]
    have a := sq_le_sq' (by linarith [neg_abs_le (v.x - w.x)]) (le_of_abs_le hx)
    have b := sq_le_sq' (by linarith [neg_abs_le (v.y - w.y)]) (le_of_abs_le hy)
    have c := sq_le_sq' (by linarith [neg_abs_le (v.z - w.z)]) (le_of_abs_le hz)
    simp only [V3.normSq, V3.dot, V3.sub_x, V3.sub_y, V3.sub_z]
    nlinarith [sq_nonneg δ]
  generalize p.reflect v = a at key ⊢
  generalize p.reflect w = b at key ⊢
  simp only [V3.normSq, V3.dot, V3.sub_x, V3.sub_y, V3.sub_z] at key
  have hx := mul_self_nonneg (a.x - b.x)
  have hy := mul_self_nonneg (a.y - b.y)
  have hz := mul_self_nonneg (a.z - b.z)
  refine ⟨?_, ?_, ?_⟩ <;> refine abs_le_of_sq_le_sq (by nlinarith) (by positivity)

/-- **C148 (twice).** `mirror` called twice in floating point with the same plane gives back the faces of the mesh, and each coordinate up to
`204 ε R`. -/
theorem C148_twice (u g ε R : ℝ) (hu0 : 0 ≤ u) (hu : u ≤ ε) (hg : g ≤ ε) (h1 : ε ≤ 1 / 100) (hR : 0 ≤ R) (rnd : ℝ → ℝ)
    (hr : IsRounding u rnd) (dot : V3 ℝ → V3 ℝ → ℝ) (hd : IsDot g dot) (p q : Plane ℝ) (hp : p.normal.dot p.normal = 1)
    (hq : ∀ k, |q.normal.coord k - p.normal.coord k| ≤ ε) (hc : q.c = p.c) (hcR : |p.c| ≤ R) (m : Mesh ℝ)
    (hv : ∀ v ∈ m.vertices, ∀ k, |v.coord k| ≤ R) (hv' : ∀ v ∈ m.vertices, ∀ k, |(p.reflect v).coord k| ≤ R) :
    ((m.mirrorFl rnd dot q).mirrorFl rnd dot q).faces = m.faces ∧
    List.Forall₂ (V3.Close (204 * ε * R)) m.vertices ((m.mirrorFl rnd dot q).mirrorFl rnd dot q).vertices := by
  have h0 := hu0.trans hu
  have hεR : ε * R ≤ 1 / 100 * R := mul_le_mul_of_nonneg_right h1 hR
  have hεR0 : 0 ≤ ε * R := mul_nonneg h0 hR
  refine ⟨?_, ?_⟩
  · show (m.faces.map Face.flip).map Face.flip = m.faces
    rw [List.map_map]
    exact List.map_id _
  · have P := (C148_positions u g ε R hu0 hu hg h1 hR rnd hr dot hd p q hp hq hc hcR m hv).2
    have P' : ∀ v ∈ m.vertices, V3.Close (57 * ε * R) (p.reflect v) (q.reflectFl rnd dot v) := by
      have : List.Forall₂ _ (m.vertices.map _) (m.vertices.map _) := P
      rw [List.forall₂_map_left_iff, List.forall₂_map_right_iff] at this
      exact List.forall₂_same.1 this
    have b1 : ∀ v ∈ (m.mirrorFl rnd dot q).vertices, ∀ k, |v.coord k| ≤ 157 / 100 * R := by
      intro w hw k
      obtain ⟨v, hm, rfl⟩ := List.mem_map.1 hw
      have c : |(p.reflect v).coord k - (q.reflectFl rnd dot v).coord k| ≤ 57 * ε * R := by
        obtain ⟨x, y, z⟩ := P' v hm
        fin_cases k
        exacts [x, y, z]
      have := hv' v hm k
      rw [abs_le] at c this ⊢
      constructor <;> linarith [c.1, c.2, this.1, this.2]
    have Q := (C148_positions u g ε (157 / 100 * R) hu0 hu hg h1 (by linarith) rnd hr dot hd p q hp hq hc (by linarith) _ b1).2
    have Q' : ∀ v ∈ m.vertices, V3.Close (57 * ε * (157 / 100 * R)) (p.reflect (q.reflectFl rnd dot v))
        (q.reflectFl rnd dot (q.reflectFl rnd dot v)) := by
      have : List.Forall₂ _ ((m.vertices.map _).map _) ((m.vertices.map _).map _) := Q
      rw [List.map_map, List.map_map, List.forall₂_map_left_iff, List.forall₂_map_right_iff] at this
      exact List.forall₂_same.1 this
    show List.Forall₂ _ m.vertices ((m.vertices.map _).map _)
    rw [List.map_map, List.forall₂_map_right_iff]
    refine List.forall₂_same.2 fun v hm => ?_
    obtain ⟨x, y, z⟩ := reflect_close p hp (by positivity) (P' v hm)
    obtain ⟨x', y', z'⟩ := Q' v hm
    rw [reflect_reflect p hp] at x y z
    have fin : ∀ {a b c : ℝ}, |a - b| ≤ 2 * (57 * ε * R) → |b - c| ≤ 57 * ε * (157 / 100 * R) → |a - c| ≤ 204 * ε * R := by
      intro a b c h h'
      refine (abs_sub_le a b c).trans ?_
      nlinarith
    exact ⟨fin x x', fin y y', fin z z'⟩

/-! ### A case -/

/-- A slanted plane. -/
noncomputable def mirrorPlane : Plane ℝ := ⟨⟨3 / 5, 0, 4 / 5⟩, 1 / 2⟩

/-- The plane as stored, with a rounded normal. -/
noncomputable def mirrorPlaneFl : Plane ℝ := ⟨⟨3 / 5 + 1 / 2 ^ 53, 0, 4 / 5 - 1 / 2 ^ 53⟩, 1 / 2⟩

/-- The hypotheses of C148 are met by the cube and a slanted plane: the computed volume of the mirrored cube is `1` up to `10⁻⁶`. -/
theorem cube_meets_C148 : ∃ dot, IsDot (1 / 10 ^ 15) dot ∧ ∃ V,
    ((cubeMesh ℝ).mirrorFl (topRound (1 / 2 ^ 53)) dot mirrorPlaneFl).VolumeAllFl (topRound (1 / 2 ^ 53)) V3.norm V ∧ |V - 1| ≤ 1 / 10 ^ 6 := by
  have hu : (0 : ℝ) ≤ 1 / 2 ^ 53 := by norm_num
  have hr := topRound_isRounding hu
  have hd : IsDot (1 / 10 ^ 15) (dotFl (topRound (1 / 2 ^ 53))) := by
    intro a b
    refine (dotFl_isDot hr hu a b).trans (mul_le_mul_of_nonneg_right (by norm_num) ?_)
    unfold absDot; positivity
  refine ⟨_, hd, ?_⟩
  set m' := (cubeMesh ℝ).mirrorFl (topRound (1 / 2 ^ 53)) (dotFl (topRound (1 / 2 ^ 53))) mirrorPlaneFl with hm'
  obtain ⟨s, hs⟩ := SumFl.exists (topRound (1 / 2 ^ 53))
    ((m'.faces.map (m'.face0Fl (topRound (1 / 2 ^ 53)) V3.norm)).flatMap (fun t => [t.x, t.y, t.z]))
  refine ⟨_, ⟨s, hs, rfl⟩, ?_⟩
  have := C148_volume (1 / 2 ^ 53) (1 / 10 ^ 15) (1 / 10 ^ 14) 3 hu (by norm_num) (by norm_num) (by norm_num) (by norm_num) _ hr _ hd V3.norm
    (fun v => by rw [sub_self, abs_zero]; exact mul_nonneg (by norm_num) (V3.norm_nonneg v))
    mirrorPlane mirrorPlaneFl (by norm_num [mirrorPlane, V3.dot]) (by
      intro k
      fin_cases k <;> norm_num [V3.coord, mirrorPlane, mirrorPlaneFl, abs_of_pos]) rfl (by norm_num [mirrorPlane, abs_of_pos]) (cubeMesh ℝ) (by
      intro v hv k
      simp only [cubeMesh, List.mem_cons, List.not_mem_nil, or_false] at hv
      rcases hv with rfl | rfl | rfl | rfl | rfl | rfl | rfl | rfl <;> fin_cases k <;> norm_num [V3.coord]) (by
      intro v hv k
      rw [abs_le]
      simp only [cubeMesh, List.mem_cons, List.not_mem_nil, or_false] at hv
      rcases hv with rfl | rfl | rfl | rfl | rfl | rfl | rfl | rfl <;> fin_cases k <;>
        norm_num [V3.coord, Plane.reflect, mirrorPlane, V3.dot])
    (cubeMesh_wf ℝ) (cubeMesh_closed ℝ) cubeMesh_convex (by
      intro f hf
      have key : ∀ w : V3 ℝ, 1 ≤ w.normSq → 5928 * (1 / 10 ^ 14 * 3 ^ 2) < w.norm := by
        intro w hw
        refine lt_of_lt_of_le (by norm_num) (Real.one_le_sqrt.2 hw)
      apply key
      simp only [Mesh.mirror, Mesh.flipNormals, Mesh.mapVertices, cubeMesh, cubeFaces, List.map_cons, List.map_nil, Face.flip, List.mem_cons,
        List.not_mem_nil, or_false] at hf
      rcases hf with rfl | rfl | rfl | rfl | rfl | rfl | rfl <;>
        norm_num [Mesh.twiceArea, cubeMesh, Mesh.vert, V3.cross, Mesh.mirror, Mesh.flipNormals, Mesh.mapVertices, Plane.reflect, mirrorPlane, V3.dot,
          V3.normSq])
    _ ⟨s, hs, rfl⟩
  rw [volume_eq_signedVolume _ cubeMesh_convex.flat, cubeMesh_volume] at this
  refine this.trans ?_
  norm_num [cubeMesh, cubeFaces]

end MM
