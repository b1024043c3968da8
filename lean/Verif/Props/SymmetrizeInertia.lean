import Verif.Props.SymmetrizeVolume
import Verif.Proofs.ConeCut

/-!
# C152: centre of gravity and inertia of a symmetrized half hull
-/

namespace MM

open Clipper

namespace SymVol

/-- The affine function of the reflected point. -/
noncomputable def reflAff (p : Plane ℝ) (w : ℝ × V3 ℝ) : ℝ × V3 ℝ := (w.1 + 2 * p.c * w.2.dot p.normal, reflLin p.normal w.2)

lemma aff_reflect (p : Plane ℝ) (w : ℝ × V3 ℝ) (X : V3 ℝ) : aff (reflAff p w) X = aff w (p.reflect X) := by
  simp only [aff, reflAff, reflLin, Plane.reflect, V3.dot, V3.sub_x, V3.sub_y, V3.sub_z, V3.smul_x, V3.smul_y, V3.smul_z]
  ring

lemma reflect_self {pl : Plane ℝ} {o : V3 ℝ} (ho : pl.dist o = 0) : pl.reflect o = o := by
  simp only [Plane.dist] at ho
  rw [Plane.reflect, ho]; simp

lemma coneDet_cone (o p q r : V3 ℝ) : coneDet o p q r = 6 * cone o p q r := by
  unfold coneDet cone; ring

lemma tet_reflect (pl : Plane ℝ) (hn : pl.normal.dot pl.normal = 1) {o : V3 ℝ} (ho : pl.dist o = 0) (w l : ℝ × V3 ℝ) (p q r : V3 ℝ) :
    tetIntegral (fun X => aff w X * aff l X) o (pl.reflect p) (pl.reflect r) (pl.reflect q) =
      tetIntegral (fun X => aff (reflAff pl w) X * aff (reflAff pl l) X) o p q r := by
  rw [tet_formula, tet_formula, coneDet_cone, coneDet_cone, cone_reflect pl hn ho]
  simp only [aff_reflect, reflect_self ho]
  ring

lemma diagonal {T : V3 ℝ → V3 ℝ → V3 ℝ → ℝ} (hT : PlaneAdditive T) {a b c d : V3 ℝ} (h : (d - a).dot (areaVec a b c) = 0) :
    T d b c + T d a b = T a b c + T a c d := by
  have e1 := hT.fan a d b c h
  have z1 : areaVec a a b = 0 := by unfold areaVec; ext <;> simp [V3.cross]
  have z2 : areaVec a d a = 0 := by unfold areaVec; ext <;> simp [V3.cross]
  have e2 := hT.fan a d a b (by rw [z1]; simp [V3.dot])
  rw [hT.degenerate _ _ _ z1, hT.degenerate _ _ _ z2, hT.anti a b d] at e2
  linarith

lemma raw_integral (p : Plane ℝ) (m : Mesh ℝ) (hwf : m.WF) (hcv : m.ConvexFaces) {T T' : V3 ℝ → V3 ℝ → V3 ℝ → ℝ} (hT' : PlaneAdditive T')
    (h : ∀ a b c, T (p.reflect a) (p.reflect c) (p.reflect b) = T' a b c) :
    (m.symmetrizeRaw p).surfaceSum T = m.surfaceSum T + m.surfaceSum T' := by
  unfold Mesh.surfaceSum
  show ((m.faces ++ m.faces.map _).map _).sum = _
  rw [List.map_append, List.sum_append, List.map_map]
  congr 2
  · apply List.map_congr_left
    intro f hf
    obtain ⟨ha, hb, hc, hd⟩ := hwf.corner hf
    simp only [Mesh.faceSum, vert_left p m ha, vert_left p m hb, vert_left p m hc, vert_left p m hd]
  · apply List.map_congr_left
    intro f hf
    obtain ⟨ha, hb, hc, hd⟩ := hwf.corner hf
    have hcf := hcv f hf
    simp only [Function.comp, Mesh.faceSum, Face.flip, Face.map, vert_right p m ha, vert_right p m hb, vert_right p m hc, vert_right p m hd, h]
    by_cases ht : f.a = f.d
    · rw [if_pos (by rw [ht]), if_pos ht, ← ht]
    · rw [if_neg ht] at hcf
      rw [if_neg (by omega), if_neg ht]
      exact diagonal hT' hcf.coplanar

lemma renumbered_integral {r s : Mesh ℝ} (σ : ℕ → ℕ) (hwf : r.WF) (hf : s.faces = r.faces.map (Face.map σ))
    (hv : ∀ i < r.nv, s.vert (σ i) = r.vert i) {T : V3 ℝ → V3 ℝ → V3 ℝ → ℝ} (hT : PlaneAdditive T) :
    s.surfaceSum T = r.surfaceSum T := by
  unfold Mesh.surfaceSum
  rw [hf, List.map_map]
  congr 1
  apply List.map_congr_left
  intro f hm
  obtain ⟨ha, hb, hc, hd⟩ := hwf.corner hm
  simp only [Function.comp, Mesh.faceSum, Face.map, hv _ ha, hv _ hb, hv _ hc, hv _ hd]
  by_cases ht : f.a = f.d
  · rw [if_pos (by rw [ht]), if_pos ht]
  · rw [if_neg ht]
    split_ifs with hσ
    · have : r.vert f.a = r.vert f.d := by rw [← hv _ ha, ← hv _ hd, hσ]
      rw [← this, hT.degenerate (r.vert f.a) (r.vert f.c) (r.vert f.a) (by unfold areaVec; ext <;> simp [V3.cross]), add_zero]
    · rfl

/-- The points of the plane are kept apart from the others. -/
lemma merged (srt : (ℕ → ℝ) → List ℕ → List ℕ) (hsrt : IsArgsort srt) (p : Plane ℝ) (m s : Mesh ℝ) (hwf : m.WF)
    (hsep : ∀ v ∈ m.vertices ++ m.vertices.map p.reflect, ∀ w ∈ m.vertices ++ m.vertices.map p.reflect,
      (∀ k, |v.coord k - w.coord k| ≤ 1 / 10 ^ 8) → v = w)
    (h : m.symmetrize srt p = .ok s) :
    ∃ σ : ℕ → ℕ, s.faces = (m.symmetrizeRaw p).faces.map (Face.map σ) ∧
      ∀ i < (m.symmetrizeRaw p).nv, s.vert (σ i) = (m.symmetrizeRaw p).vert i := by
  have hne : m.vertices ≠ [] := by
    intro he
    unfold Mesh.symmetrize at h
    have : (m.symmetrizeRaw p).vertices = [] := by simp [Mesh.symmetrizeRaw, he]
    unfold Mesh.mergeDuplicates at h
    rw [this] at h
    have := (C03_renumbering_total_in_range_onto srt hsrt (Mesh.defaultAtol : ℝ) (by unfold Mesh.defaultAtol; positivity)
      ([].map V3.coord)).1
    simp_all [Except.map]
  unfold Mesh.symmetrize at h
  cases e : (m.symmetrizeRaw p).mergeDuplicates srt Mesh.defaultAtol with
  | error => rw [e] at h; cases h
  | ok r =>
  obtain ⟨s', ids⟩ := r
  rw [e] at h
  cases h
  obtain ⟨-, -, -, hv⟩ := merge_exact hsrt (by unfold Mesh.defaultAtol; positivity) (raw_wf p m hwf) (by simp [Mesh.symmetrizeRaw, hne]) e (by
    rintro v hv w hw ⟨x, y, z⟩
    refine hsep v hv w hw fun k => ?_
    have e8 : (Mesh.defaultAtol : ℝ) = 1 / 10 ^ 8 := by norm_num [Mesh.defaultAtol]
    rw [e8] at x y z
    fin_cases k
    exacts [x, y, z])
  exact ⟨_, merge_faces e, fun i hi => (hv i hi).2⟩

lemma surfaceSum_smul (m : Mesh ℝ) (k : ℝ) (T : V3 ℝ → V3 ℝ → V3 ℝ → ℝ) : m.surfaceSum (fun a b c => k * T a b c) = k * m.surfaceSum T := by
  unfold Mesh.surfaceSum
  rw [← List.sum_map_mul_left]
  congr 1
  apply List.map_congr_left
  intro f _
  simp only [Mesh.faceSum]
  split_ifs <;> ring

lemma surfaceSum_add (m : Mesh ℝ) (T S : V3 ℝ → V3 ℝ → V3 ℝ → ℝ) :
    m.surfaceSum (fun a b c => T a b c + S a b c) = m.surfaceSum T + m.surfaceSum S := by
  unfold Mesh.surfaceSum
  rw [← List.sum_map_add]
  congr 1
  apply List.map_congr_left
  intro f _
  simp only [Mesh.faceSum]
  split_ifs <;> ring

end SymVol

open SymVol

/-- **C152 (integrals).** For the symmetrization of half a hull: the integral over the solid of the product of two affine functions is the sum of its
integral and of the integral of the reflected function between the half hull and the plane. -/
theorem C152_integrals (srt : (ℕ → ℝ) → List ℕ → List ℕ) (hsrt : IsArgsort srt) (p : Plane ℝ) (hn : p.normal.dot p.normal = 1)
    (m s : Mesh ℝ) (hwf : m.WF) (hcv : m.ConvexFaces)
    (hsep : ∀ v ∈ m.vertices ++ m.vertices.map p.reflect, ∀ w ∈ m.vertices ++ m.vertices.map p.reflect,
      (∀ k, |v.coord k - w.coord k| ≤ 1 / 10 ^ 8) → v = w)
    (h : m.symmetrize srt p = .ok s) (o : V3 ℝ) (ho : p.dist o = 0) (α β : ℝ) (a b : V3 ℝ) (g : V3 ℝ → ℝ)
    (hg : ∀ X, g X = (α + a.dot X) * (β + b.dot X)) :
    s.solidIntegral o g = m.solidIntegral o g + m.solidIntegral o (fun X => g (p.reflect X)) := by
  have e1 : g = fun X => aff (α, a) X * aff (β, b) X := funext hg
  have e2 : (fun X => g (p.reflect X)) = fun X => aff (reflAff p (α, a)) X * aff (reflAff p (β, b)) X := by
    funext X
    rw [aff_reflect, aff_reflect]
    exact hg _
  obtain ⟨σ, hf, hv⟩ := merged srt hsrt p m s hwf hsep h
  rw [e2, e1]
  unfold Mesh.solidIntegral
  rw [renumbered_integral σ (raw_wf p m hwf) hf hv (tet_additive _ _ o)]
  exact raw_integral p m hwf hcv (tet_additive _ _ o) fun a b c => tet_reflect p hn ho _ _ a b c

/-- The distance to the plane, integrated over the solid. -/
lemma SymVol.dist_integral (p : Plane ℝ) (s : Mesh ℝ) (o : V3 ℝ) : s.solidIntegral o p.dist =
    p.normal.x * s.solidIntegral o (fun X => X.x) + p.normal.y * s.solidIntegral o (fun X => X.y) +
      p.normal.z * s.solidIntegral o (fun X => X.z) + -p.c * s.solidIntegral o (fun _ => 1) := by
  unfold Mesh.solidIntegral
  rw [← surfaceSum_smul, ← surfaceSum_smul, ← surfaceSum_smul, ← surfaceSum_smul, ← surfaceSum_add, ← surfaceSum_add, ← surfaceSum_add]
  congr 1
  funext a b c
  have e0 : p.dist = fun X => aff (-p.c, p.normal) X * aff (1, 0) X := by
    funext X; simp [Plane.dist, aff, V3.dot]; ring
  have e1 : (fun X : V3 ℝ => X.x) = fun X => aff (0, ⟨1, 0, 0⟩) X * aff (1, 0) X := by
    funext X; simp [aff, V3.dot]
  have e2 : (fun X : V3 ℝ => X.y) = fun X => aff (0, ⟨0, 1, 0⟩) X * aff (1, 0) X := by
    funext X; simp [aff, V3.dot]
  have e3 : (fun X : V3 ℝ => X.z) = fun X => aff (0, ⟨0, 0, 1⟩) X * aff (1, 0) X := by
    funext X; simp [aff, V3.dot]
  have e4 : (fun _ : V3 ℝ => (1 : ℝ)) = fun X => aff (1, 0) X * aff (1, 0) X := by
    funext X; simp [aff, V3.dot]
  rw [e0, e1, e2, e3, e4]
  simp only [tet_formula]
  simp only [aff, V3.dot, V3.zero_x, V3.zero_y, V3.zero_z]
  ring

/-- **C152 (centre).** The centre of gravity computed for the symmetrization of half a hull lies in the plane of symmetry. -/
theorem C152_centre (srt : (ℕ → ℝ) → List ℕ → List ℕ) (hsrt : IsArgsort srt) (p : Plane ℝ) (hn : p.normal.dot p.normal = 1)
    (m s : Mesh ℝ) (hwf : m.WF) (hcv : m.ConvexFaces) (hopen : m.OpenAlong p)
    (hsep : ∀ v ∈ m.vertices ++ m.vertices.map p.reflect, ∀ w ∈ m.vertices ++ m.vertices.map p.reflect,
      (∀ k, |v.coord k - w.coord k| ≤ 1 / 10 ^ 8) → v = w)
    (h : m.symmetrize srt p = .ok s) (hV : s.volume ≠ 0) (ρ : ℝ) :
    p.dist (s.evalPlain ρ).cog = 0 := by
  have hcl := C131_half_hull srt hsrt p m s hwf hopen h
  obtain ⟨σ, hf, hv⟩ := merged srt hsrt p m s hwf hsep h
  have ho : p.dist p.origin = 0 := by
    simp only [Plane.dist, Plane.origin, V3.smul_dot, hn]; ring
  have flat := (renumbered σ (raw_wf p m hwf) (raw_convex p hn m hwf hcv) hf hv p.origin).1.flat
  obtain ⟨c1, c2, -, -⟩ := C27_plain_inertia s hcl flat hV ρ p.origin
  have V : s.solidIntegral p.origin (fun _ => 1) ≠ 0 := by
    have := C151_symmetrized_volume srt hsrt p hn m s hwf hcv hopen hsep h p.origin ho
    have e := C152_integrals srt hsrt p hn m s hwf hcv hsep h p.origin ho 1 1 0 0 (fun _ => 1) (by intro X; simp [V3.dot])
    rw [e]
    intro h0
    apply hV
    rw [this]
    linarith
  have D := C152_integrals srt hsrt p hn m s hwf hcv hsep h p.origin ho (-p.c) 1 p.normal 0 p.dist (by
    intro X; simp only [Plane.dist, V3.dot, V3.zero_x, V3.zero_y, V3.zero_z]; ring)
  have neg : (fun X => p.dist (p.reflect X)) = fun X => -p.dist X := by
    funext X
    simp only [Plane.dist, Plane.reflect, V3.sub_dot, V3.smul_dot, hn]; ring
  have neg' : m.solidIntegral p.origin (fun X => -p.dist X) = -m.solidIntegral p.origin p.dist := by
    have e0 : p.dist = fun X => aff (-p.c, p.normal) X * aff (1, 0) X := by
      funext X; simp [Plane.dist, aff, V3.dot]; ring
    have e1 : (fun X => -p.dist X) = fun X => aff (p.c, -p.normal) X * aff (1, 0) X := by
      funext X; simp [Plane.dist, aff, V3.dot]; ring
    rw [e1, e0, ← neg_one_mul]
    unfold Mesh.solidIntegral
    rw [← surfaceSum_smul]
    congr 1
    funext a b c
    simp only [tet_formula]
    simp only [aff, V3.dot, V3.zero_x, V3.zero_y, V3.zero_z, V3.neg_x, V3.neg_y, V3.neg_z]
    ring
  rw [neg, neg', dist_integral] at D
  have x := congrArg V3.x c2
  have y := congrArg V3.y c2
  have z := congrArg V3.z c2
  simp only [V3.smul_x, V3.smul_y, V3.smul_z] at x y z
  rw [← x, ← y, ← z] at D
  have : s.solidIntegral p.origin (fun _ => 1) * p.dist (s.evalPlain ρ).cog = 0 := by
    simp only [Plane.dist, V3.dot]
    linarith
  exact (mul_eq_zero.1 this).resolve_left V

/-- **C152 (inertia).** About the plane `Oxz`: mass, moments and the product of inertia `xz` computed for the symmetrization of half a hull are twice the
integrals between the half hull and the plane, and the products `xy` and `yz` are zero. -/
theorem C152_inertia (srt : (ℕ → ℝ) → List ℕ → List ℕ) (hsrt : IsArgsort srt)
    (m s : Mesh ℝ) (hwf : m.WF) (hcv : m.ConvexFaces) (hopen : m.OpenAlong ⟨⟨0, 1, 0⟩, 0⟩)
    (hsep : ∀ v ∈ m.vertices ++ m.vertices.map (fun v => ⟨v.x, -v.y, v.z⟩), ∀ w ∈ m.vertices ++ m.vertices.map (fun v => ⟨v.x, -v.y, v.z⟩),
      (∀ k, |v.coord k - w.coord k| ≤ 1 / 10 ^ 8) → v = w)
    (h : m.symmetrize srt ⟨⟨0, 1, 0⟩, 0⟩ = .ok s) (hV : s.volume ≠ 0) (ρ : ℝ) (o : V3 ℝ) (ho : o.y = 0) :
    let I := s.evalPlain ρ
    let half := m.solidIntegral o
    I.mass = 2 * ρ * half (fun _ => 1) ∧
    I.xx = 2 * ρ * half (fun X => X.y ^ 2 + X.z ^ 2) ∧ I.yy = 2 * ρ * half (fun X => X.x ^ 2 + X.z ^ 2) ∧
    I.zz = 2 * ρ * half (fun X => X.x ^ 2 + X.y ^ 2) ∧ I.xz = 2 * ρ * half (fun X => X.x * X.z) ∧ I.xy = 0 ∧ I.yz = 0 := by
  have hn : (⟨⟨0, 1, 0⟩, 0⟩ : Plane ℝ).normal.dot (⟨⟨0, 1, 0⟩, 0⟩ : Plane ℝ).normal = 1 := by simp [V3.dot]
  have hR : (⟨⟨0, 1, 0⟩, 0⟩ : Plane ℝ).reflect = fun v => ⟨v.x, -v.y, v.z⟩ := by
    funext v
    ext <;> simp [Plane.reflect, V3.dot]; ring
  rw [← hR] at hsep
  have ho' : (⟨⟨0, 1, 0⟩, 0⟩ : Plane ℝ).dist o = 0 := by simp [Plane.dist, V3.dot, ho]
  have hcl := C131_half_hull srt hsrt _ m s hwf hopen h
  obtain ⟨σ, hf, hv⟩ := merged srt hsrt _ m s hwf hsep h
  have flat := (renumbered σ (raw_wf _ m hwf) (raw_convex _ hn m hwf hcv) hf hv o).1.flat
  obtain ⟨c1, -, -, -⟩ := C27_plain_inertia s hcl flat hV ρ o
  obtain ⟨d1, d2, d3, d4, d5, d6⟩ := C27_moments s hcl flat hV ρ o
  have I := fun a b g => C152_integrals srt hsrt _ hn m s hwf hcv hsep h o ho' 0 0 a b g
  simp only [hR] at I
  have one := C152_integrals srt hsrt _ hn m s hwf hcv hsep h o ho' 1 1 0 0 (fun _ => 1) (by intro X; simp [V3.dot])
  have xx := I ⟨1, 0, 0⟩ ⟨1, 0, 0⟩ (fun X => X.x * X.x) (by intro X; simp [V3.dot])
  have yy := I ⟨0, 1, 0⟩ ⟨0, 1, 0⟩ (fun X => X.y * X.y) (by intro X; simp [V3.dot])
  have zz := I ⟨0, 0, 1⟩ ⟨0, 0, 1⟩ (fun X => X.z * X.z) (by intro X; simp [V3.dot])
  have xy := I ⟨1, 0, 0⟩ ⟨0, 1, 0⟩ (fun X => X.x * X.y) (by intro X; simp [V3.dot])
  have yz := I ⟨0, 1, 0⟩ ⟨0, 0, 1⟩ (fun X => X.y * X.z) (by intro X; simp [V3.dot])
  have xz := I ⟨1, 0, 0⟩ ⟨0, 0, 1⟩ (fun X => X.x * X.z) (by intro X; simp [V3.dot])
  simp only [neg_mul_neg] at yy
  have sq : ∀ (n : Mesh ℝ) (a b : V3 ℝ), n.solidIntegral o (fun X => a.dot X ^ 2 + b.dot X ^ 2) =
      n.solidIntegral o (fun X => a.dot X * a.dot X) + n.solidIntegral o (fun X => b.dot X * b.dot X) := by
    intro n a b
    unfold Mesh.solidIntegral
    rw [← surfaceSum_add]
    congr 1
    funext p q r
    have := tetIntegral_sq_add (aff (0, a)) (aff (0, b)) (taff_aff _) (taff_aff _) o p q r
    simpa only [aff, zero_add, pow_two] using this
  have ng : ∀ a b : V3 ℝ, m.solidIntegral o (fun X => -(a.dot X * b.dot X)) = -m.solidIntegral o (fun X => a.dot X * b.dot X) := by
    intro a b
    rw [← neg_one_mul]
    unfold Mesh.solidIntegral
    rw [← surfaceSum_smul]
    congr 1
    funext p q r
    have e0 : (fun X => a.dot X * b.dot X) = fun X => aff (0, a) X * aff (0, b) X := by funext X; simp [aff]
    have e1 : (fun X => -(a.dot X * b.dot X)) = fun X => aff (0, -a) X * aff (0, b) X := by
      funext X; simp [aff, V3.dot]; ring
    rw [e0, e1]
    simp only [tet_formula]
    simp only [aff, V3.dot, V3.neg_x, V3.neg_y, V3.neg_z]
    ring
  have q1 : ∀ n : Mesh ℝ, n.solidIntegral o (fun X => X.y ^ 2 + X.z ^ 2) =
      n.solidIntegral o (fun X => X.y * X.y) + n.solidIntegral o (fun X => X.z * X.z) := fun n => by
    simpa only [V3.dot, zero_mul, one_mul, zero_add, add_zero] using sq n ⟨0, 1, 0⟩ ⟨0, 0, 1⟩
  have q2 : ∀ n : Mesh ℝ, n.solidIntegral o (fun X => X.x ^ 2 + X.z ^ 2) =
      n.solidIntegral o (fun X => X.x * X.x) + n.solidIntegral o (fun X => X.z * X.z) := fun n => by
    simpa only [V3.dot, zero_mul, one_mul, zero_add, add_zero] using sq n ⟨1, 0, 0⟩ ⟨0, 0, 1⟩
  have q3 : ∀ n : Mesh ℝ, n.solidIntegral o (fun X => X.x ^ 2 + X.y ^ 2) =
      n.solidIntegral o (fun X => X.x * X.x) + n.solidIntegral o (fun X => X.y * X.y) := fun n => by
    simpa only [V3.dot, zero_mul, one_mul, zero_add, add_zero] using sq n ⟨1, 0, 0⟩ ⟨0, 1, 0⟩
  have n1 : m.solidIntegral o (fun X => X.x * -X.y) = -m.solidIntegral o (fun X => X.x * X.y) := by
    simpa only [V3.dot, zero_mul, one_mul, zero_add, add_zero, mul_neg] using ng ⟨1, 0, 0⟩ ⟨0, 1, 0⟩
  have n2 : m.solidIntegral o (fun X => -X.y * X.z) = -m.solidIntegral o (fun X => X.y * X.z) := by
    simpa only [V3.dot, zero_mul, one_mul, zero_add, add_zero, neg_mul] using ng ⟨0, 1, 0⟩ ⟨0, 0, 1⟩
  rw [n1] at xy
  rw [n2] at yz
  refine ⟨?_, ?_, ?_, ?_, ?_, ?_, ?_⟩
  · rw [c1, one]; ring
  · rw [d1, q1, q1, yy, zz]; ring
  · rw [d2, q2, q2, xx, zz]; ring
  · rw [d3, q3, q3, xx, yy]; ring
  · rw [d5, xz]; ring
  · rw [d6, xy]; ring
  · rw [d4, yz]; ring

/-! ### A case -/

/-- The hypotheses of C152 are met by the cube without its face in the plane `y = 0`: the symmetrized solid has the mass `2 ρ`, its centre has `y = 0`
and two of its products of inertia are zero. -/
theorem openCube_meets_C152 : ∃ s, openCube.symmetrize insArgsort ⟨⟨0, 1, 0⟩, 0⟩ = .ok s ∧
    ∀ ρ, (s.evalPlain ρ).cog.y = 0 ∧ (s.evalPlain ρ).mass = 2 * ρ ∧ (s.evalPlain ρ).xy = 0 ∧ (s.evalPlain ρ).yz = 0 := by
  obtain ⟨s, hs, hV⟩ := openCube_meets_C151
  obtain ⟨hwf, hcv, hopen, hsep⟩ := openCube_hyps
  have hV' : s.volume ≠ 0 := by rw [hV]; norm_num
  have hn : (⟨⟨0, 1, 0⟩, 0⟩ : Plane ℝ).normal.dot (⟨⟨0, 1, 0⟩, 0⟩ : Plane ℝ).normal = 1 := by simp [V3.dot]
  have hR : (⟨⟨0, 1, 0⟩, 0⟩ : Plane ℝ).reflect = fun v => ⟨v.x, -v.y, v.z⟩ := by
    funext v
    ext <;> simp [Plane.reflect, V3.dot]; ring
  refine ⟨s, hs, fun ρ => ?_⟩
  have a := C152_centre insArgsort insArgsort_isArgsort _ hn openCube s hwf hcv hopen hsep hs hV' ρ
  obtain ⟨b, -, -, -, -, c, d⟩ := C152_inertia insArgsort insArgsort_isArgsort openCube s hwf hcv hopen (by rwa [hR] at hsep) hs hV' ρ 0 rfl
  refine ⟨by simpa [Plane.dist, V3.dot] using a, ?_, c, d⟩
  rw [b, openCube_solid, mul_one]

end MM
