import Verif.Props.SymmetrizeInertia

/-!
# C153: area, centre and moments of a symmetrized shell
-/

namespace MM

open Clipper

namespace SymVol

lemma aff_tri (w : ℝ × V3 ℝ) (p q r : V3 ℝ) (u v : ℝ) :
    aff w (p + u • (q - p) + v • (r - p)) = aff w p + u * (aff w q - aff w p) + v * (aff w r - aff w p) := by
  simp only [aff, V3.dot, V3.add_x, V3.add_y, V3.add_z, V3.smul_x, V3.smul_y, V3.smul_z, V3.sub_x, V3.sub_y, V3.sub_z]
  ring

lemma tri_formula (w l : ℝ × V3 ℝ) (p q r : V3 ℝ) : triangleIntegral (fun X => aff w X * aff l X) p q r =
    Real.sqrt (areaVec p q r).normSq * (((aff w p + aff w q + aff w r) * (aff l p + aff l q + aff l r) +
      (aff w p * aff l p + aff w q * aff l q + aff w r * aff l r)) / 24) := by
  have h := triangleIntegral_affine3 (aff w) (aff l) (fun _ => 1) (aff_tri w) (aff_tri l) affine_one p q r
  simp only [mul_one] at h
  rw [h]
  show Real.sqrt (areaVec p q r).normSq * _ = _
  ring

lemma tri_reflect (pl : Plane ℝ) (hn : pl.normal.dot pl.normal = 1) (w l : ℝ × V3 ℝ) (p q r : V3 ℝ) :
    triangleIntegral (fun X => aff w X * aff l X) (pl.reflect p) (pl.reflect r) (pl.reflect q) =
      triangleIntegral (fun X => aff (reflAff pl w) X * aff (reflAff pl l) X) p q r := by
  rw [tri_formula, tri_formula, areaVec_reflect pl hn, reflLin_normSq _ _ hn]
  simp only [aff_reflect]
  ring

/-- The corners of a convex quadrangle, weighted by the areas of the opposite triangles. -/
lemma corners {a b c d n : V3 ℝ} {α β γ δ : ℝ} (hn : n ≠ 0) (h1 : areaVec a b c = α • n) (h2 : areaVec a c d = β • n)
    (h3 : areaVec a b d = γ • n) (h4 : areaVec b c d = δ • n) (h : (d - a).dot (areaVec a b c) = 0) :
    α + β = γ + δ ∧ ∀ w : ℝ × V3 ℝ, δ * aff w a - β * aff w b + γ * aff w c - α * aff w d = 0 := by
  have hN : n.dot n ≠ 0 := by
    intro h0
    apply hn
    simp only [V3.dot] at h0
    ext
    · show n.x = 0; nlinarith [sq_nonneg n.x, sq_nonneg n.y, sq_nonneg n.z]
    · show n.y = 0; nlinarith [sq_nonneg n.x, sq_nonneg n.y, sq_nonneg n.z]
    · show n.z = 0; nlinarith [sq_nonneg n.x, sq_nonneg n.y, sq_nonneg n.z]
  have k1 : α * n.dot n = (areaVec a b c).dot n := by rw [h1, V3.smul_dot]
  have k2 : β * n.dot n = (areaVec a c d).dot n := by rw [h2, V3.smul_dot]
  have k3 : γ * n.dot n = (areaVec a b d).dot n := by rw [h3, V3.smul_dot]
  have k4 : δ * n.dot n = (areaVec b c d).dot n := by rw [h4, V3.smul_dot]
  have s : α + β = γ + δ := by
    apply mul_right_cancel₀ hN
    rw [add_mul, add_mul, k1, k2, k3, k4]
    simp only [areaVec, V3.dot, V3.cross, V3.sub_x, V3.sub_y, V3.sub_z]
    ring
  refine ⟨s, fun w => ?_⟩
  apply mul_right_cancel₀ hN
  have e : (δ * aff w a - β * aff w b + γ * aff w c - α * aff w d) * n.dot n =
      (areaVec b c d).dot n * aff w a - (areaVec a c d).dot n * aff w b + (areaVec a b d).dot n * aff w c - (areaVec a b c).dot n * aff w d := by
    rw [← k1, ← k2, ← k3, ← k4]; ring
  rw [e, zero_mul]
  have e2 : (areaVec b c d).dot n * aff w a - (areaVec a c d).dot n * aff w b + (areaVec a b d).dot n * aff w c - (areaVec a b c).dot n * aff w d =
      -((d - a).dot (areaVec a b c)) * w.2.dot n := by
    simp only [areaVec, aff, V3.dot, V3.cross, V3.sub_x, V3.sub_y, V3.sub_z]
    ring
  rw [e2, h]; ring

/-- Both diagonals of a convex quadrangle give the same integral. -/
lemma shell_diagonal (w l : ℝ × V3 ℝ) {a b c d : V3 ℝ} (h : ConvexQuad a b c d) :
    triangleIntegral (fun X => aff w X * aff l X) d b c + triangleIntegral (fun X => aff w X * aff l X) d a b =
      triangleIntegral (fun X => aff w X * aff l X) a b c + triangleIntegral (fun X => aff w X * aff l X) a c d := by
  have hc := h.coplanar
  obtain ⟨n, α, β, γ, δ, hα, hβ, hγ, hδ, -, hn, h1, h2, h3, h4⟩ := h
  obtain ⟨s, e⟩ := corners hn h1 h2 h3 h4 hc
  have len : ∀ k : ℝ, 0 ≤ k → Real.sqrt (k • n).normSq = k * Real.sqrt n.normSq := by
    intro k hk
    have : (k • n).normSq = k ^ 2 * n.normSq := by
      simp only [V3.normSq, V3.smul_dot, V3.dot_smul]; ring
    rw [this, Real.sqrt_mul (sq_nonneg k), Real.sqrt_sq hk]
  have c1 : areaVec d b c = areaVec b c d := by
    unfold areaVec; ext <;> simp [V3.cross] <;> ring
  have c2 : areaVec d a b = areaVec a b d := by
    unfold areaVec; ext <;> simp [V3.cross] <;> ring
  simp only [tri_formula]
  rw [c1, c2, h1, h2, h3, h4, len _ hα, len _ hβ, len _ hγ, len _ hδ]
  have ew := e w
  have el := e l
  linear_combination (-(Real.sqrt n.normSq) / 24 *
      ((aff w a + aff w b + aff w c + aff w d) * (aff l a + aff l b + aff l c + aff l d) +
        (aff w a * aff l a + aff w b * aff l b + aff w c * aff l c + aff w d * aff l d))) * s -
    (Real.sqrt n.normSq / 24 * (aff l a + aff l b + aff l c + aff l d)) * ew -
    (Real.sqrt n.normSq / 24 * (aff w a + aff w b + aff w c + aff w d)) * el

lemma raw_shell (p : Plane ℝ) (m : Mesh ℝ) (hwf : m.WF) (hcv : m.ConvexFaces) {T T' : V3 ℝ → V3 ℝ → V3 ℝ → ℝ}
    (hT' : ∀ a b c d, ConvexQuad a b c d → T' d b c + T' d a b = T' a b c + T' a c d)
    (h : ∀ a b c, T (p.reflect a) (p.reflect c) (p.reflect b) = T' a b c) :
    (m.symmetrizeRaw p).surfaceSum T = m.surfaceSum T + m.surfaceSum T' := by
  unfold Mesh.surfaceSum
  show ((m.faces ++ m.faces.map _).map _).sum = _
  rw [List.map_append, List.sum_append, List.map_map]
  congr 2
  · apply List.map_congr_left
    intro f hf
    obtain ⟨ha, hb, hc, hd⟩ := hwf.corner hf
    simp only [Mesh.faceSum, vert_left p m ha, vert_left p m hb, vert_left p m hc, vert_left p m hd]
  · apply List.map_congr_left
    intro f hf
    obtain ⟨ha, hb, hc, hd⟩ := hwf.corner hf
    have hcf := hcv f hf
    simp only [Function.comp, Mesh.faceSum, Face.flip, Face.map, vert_right p m ha, vert_right p m hb, vert_right p m hc, vert_right p m hd, h]
    by_cases ht : f.a = f.d
    · rw [if_pos (by rw [ht]), if_pos ht, ← ht]
    · rw [if_neg ht] at hcf
      rw [if_neg (by omega), if_neg ht]
      exact hT' _ _ _ _ hcf

lemma renumbered_shell {r s : Mesh ℝ} (σ : ℕ → ℕ) (hwf : r.WF) (hf : s.faces = r.faces.map (Face.map σ))
    (hv : ∀ i < r.nv, s.vert (σ i) = r.vert i) {T : V3 ℝ → V3 ℝ → V3 ℝ → ℝ} (hT : ∀ a c, T a c a = 0) :
    s.surfaceSum T = r.surfaceSum T := by
  unfold Mesh.surfaceSum
  rw [hf, List.map_map]
  congr 1
  apply List.map_congr_left
  intro f hm
  obtain ⟨ha, hb, hc, hd⟩ := hwf.corner hm
  simp only [Function.comp, Mesh.faceSum, Face.map, hv _ ha, hv _ hb, hv _ hc, hv _ hd]
  by_cases ht : f.a = f.d
  · rw [if_pos (by rw [ht]), if_pos ht]
  · rw [if_neg ht]
    split_ifs with hσ
    · have : r.vert f.a = r.vert f.d := by rw [← hv _ ha, ← hv _ hd, hσ]
      rw [← this, hT, add_zero]
    · rfl

end SymVol

open SymVol

/-- **C153 (integrals).** For the symmetrization of a mesh with plane convex faces, closed or not: the integral over the surface of the product of two
affine functions is the sum of its integral and of the integral of the reflected function over the given surface. -/
theorem C153_integrals (srt : (ℕ → ℝ) → List ℕ → List ℕ) (hsrt : IsArgsort srt) (p : Plane ℝ) (hn : p.normal.dot p.normal = 1)
    (m s : Mesh ℝ) (hwf : m.WF) (hcv : m.ConvexFaces)
    (hsep : ∀ v ∈ m.vertices ++ m.vertices.map p.reflect, ∀ w ∈ m.vertices ++ m.vertices.map p.reflect,
      (∀ k, |v.coord k - w.coord k| ≤ 1 / 10 ^ 8) → v = w)
    (h : m.symmetrize srt p = .ok s) (α β : ℝ) (a b : V3 ℝ) (g : V3 ℝ → ℝ)
    (hg : ∀ X, g X = (α + a.dot X) * (β + b.dot X)) :
    s.shellIntegral g = m.shellIntegral g + m.shellIntegral (fun X => g (p.reflect X)) := by
  have e1 : g = fun X => aff (α, a) X * aff (β, b) X := funext hg
  have e2 : (fun X => g (p.reflect X)) = fun X => aff (reflAff p (α, a)) X * aff (reflAff p (β, b)) X := by
    funext X
    rw [aff_reflect, aff_reflect]
    exact hg _
  obtain ⟨σ, hf, hv⟩ := merged srt hsrt p m s hwf hsep h
  rw [e2, e1]
  unfold Mesh.shellIntegral
  rw [renumbered_shell σ (raw_wf p m hwf) hf hv (fun a c => by
    rw [tri_formula]
    have : areaVec a c a = 0 := by unfold areaVec; ext <;> simp [V3.cross]
    rw [this]
    simp [V3.normSq, V3.dot])]
  exact raw_shell p m hwf hcv (fun _ _ _ _ hq => shell_diagonal _ _ hq) fun a b c => tri_reflect p hn _ _ a b c

/-- **C153 (area).** The sum of the face areas of the symmetrized mesh is twice that of the given mesh. -/
theorem C153_area (srt : (ℕ → ℝ) → List ℕ → List ℕ) (hsrt : IsArgsort srt) (p : Plane ℝ) (hn : p.normal.dot p.normal = 1)
    (m s : Mesh ℝ) (hwf : m.WF) (hcv : m.ConvexFaces)
    (hsep : ∀ v ∈ m.vertices ++ m.vertices.map p.reflect, ∀ w ∈ m.vertices ++ m.vertices.map p.reflect,
      (∀ k, |v.coord k - w.coord k| ≤ 1 / 10 ^ 8) → v = w)
    (h : m.symmetrize srt p = .ok s) : s.totalArea = 2 * m.totalArea := by
  have := C153_integrals srt hsrt p hn m s hwf hcv hsep h 1 1 0 0 (fun _ => 1) (by intro X; simp [V3.dot])
  rw [shell_area, shell_area, this]; ring

/-- The distance to the plane, integrated over the surface. -/
lemma SymVol.dist_shell (p : Plane ℝ) (s : Mesh ℝ) : s.shellIntegral p.dist =
    p.normal.x * s.shellIntegral (fun X => X.x) + p.normal.y * s.shellIntegral (fun X => X.y) +
      p.normal.z * s.shellIntegral (fun X => X.z) + -p.c * s.shellIntegral (fun _ => 1) := by
  unfold Mesh.shellIntegral
  rw [← SymVol.surfaceSum_smul, ← SymVol.surfaceSum_smul, ← SymVol.surfaceSum_smul, ← SymVol.surfaceSum_smul, ← SymVol.surfaceSum_add,
    ← SymVol.surfaceSum_add, ← SymVol.surfaceSum_add]
  congr 1
  funext a b c
  have e0 : p.dist = fun X => aff (-p.c, p.normal) X * aff (1, 0) X := by
    funext X; simp [Plane.dist, aff, V3.dot]; ring
  have e1 : (fun X : V3 ℝ => X.x) = fun X => aff (0, ⟨1, 0, 0⟩) X * aff (1, 0) X := by
    funext X; simp [aff, V3.dot]
  have e2 : (fun X : V3 ℝ => X.y) = fun X => aff (0, ⟨0, 1, 0⟩) X * aff (1, 0) X := by
    funext X; simp [aff, V3.dot]
  have e3 : (fun X : V3 ℝ => X.z) = fun X => aff (0, ⟨0, 0, 1⟩) X * aff (1, 0) X := by
    funext X; simp [aff, V3.dot]
  have e4 : (fun _ : V3 ℝ => (1 : ℝ)) = fun X => aff (1, 0) X * aff (1, 0) X := by
    funext X; simp [aff, V3.dot]
  rw [e0, e1, e2, e3, e4]
  simp only [tri_formula]
  simp only [aff, V3.dot, V3.zero_x, V3.zero_y, V3.zero_z]
  ring

/-- **C153 (centre).** For every plane, the centre of gravity computed for the symmetrized shell lies in the plane. -/
theorem C153_centre (srt : (ℕ → ℝ) → List ℕ → List ℕ) (hsrt : IsArgsort srt) (p : Plane ℝ) (hn : p.normal.dot p.normal = 1)
    (m s : Mesh ℝ) (hwf : m.WF) (hcv : m.ConvexFaces)
    (hsep : ∀ v ∈ m.vertices ++ m.vertices.map p.reflect, ∀ w ∈ m.vertices ++ m.vertices.map p.reflect,
      (∀ k, |v.coord k - w.coord k| ≤ 1 / 10 ^ 8) → v = w)
    (h : m.symmetrize srt p = .ok s) (hA : m.totalArea ≠ 0) (ρ th : ℝ) : p.dist (s.evalShell ρ th).cog = 0 := by
  have area := C153_area srt hsrt p hn m s hwf hcv hsep h
  have hA' : s.totalArea ≠ 0 := by rw [area]; simpa using hA
  obtain ⟨-, c2, -⟩ := C28_shell_inertia_partial s hA' ρ th
  have V : s.shellIntegral (fun _ => 1) ≠ 0 := by rw [← shell_area]; exact hA'
  have D := C153_integrals srt hsrt p hn m s hwf hcv hsep h (-p.c) 1 p.normal 0 p.dist (by
    intro X; simp only [Plane.dist, V3.dot, V3.zero_x, V3.zero_y, V3.zero_z]; ring)
  have neg : (fun X => p.dist (p.reflect X)) = fun X => -p.dist X := by
    funext X
    simp only [Plane.dist, Plane.reflect, V3.sub_dot, V3.smul_dot, hn]; ring
  have neg' : m.shellIntegral (fun X => -p.dist X) = -m.shellIntegral p.dist := by
    have e0 : p.dist = fun X => aff (-p.c, p.normal) X * aff (1, 0) X := by
      funext X; simp [Plane.dist, aff, V3.dot]; ring
    have e1 : (fun X => -p.dist X) = fun X => aff (p.c, -p.normal) X * aff (1, 0) X := by
      funext X; simp [Plane.dist, aff, V3.dot]; ring
    rw [e1, e0, ← neg_one_mul]
    unfold Mesh.shellIntegral
    rw [← SymVol.surfaceSum_smul]
    congr 1
    funext a b c
    simp only [tri_formula]
    simp only [aff, V3.dot, V3.zero_x, V3.zero_y, V3.zero_z, V3.neg_x, V3.neg_y, V3.neg_z]
    ring
  rw [neg, neg', dist_shell] at D
  have x := congrArg V3.x c2
  have y := congrArg V3.y c2
  have z := congrArg V3.z c2
  simp only [V3.smul_x, V3.smul_y, V3.smul_z] at x y z
  rw [← x, ← y, ← z] at D
  have : s.shellIntegral (fun _ => 1) * p.dist (s.evalShell ρ th).cog = 0 := by
    simp only [Plane.dist, V3.dot]
    linarith
  exact (mul_eq_zero.1 this).resolve_left V

/-- **C153 (moments).** Symmetrization of a shell about the plane `Oxz`: the mass and the three moments of inertia are twice those of the given shell,
and the centre of gravity has the same `x` and `z` and lies in the plane. -/
theorem C153_moments (srt : (ℕ → ℝ) → List ℕ → List ℕ) (hsrt : IsArgsort srt)
    (m s : Mesh ℝ) (hwf : m.WF) (hcv : m.ConvexFaces)
    (hsep : ∀ v ∈ m.vertices ++ m.vertices.map (fun v => ⟨v.x, -v.y, v.z⟩), ∀ w ∈ m.vertices ++ m.vertices.map (fun v => ⟨v.x, -v.y, v.z⟩),
      (∀ k, |v.coord k - w.coord k| ≤ 1 / 10 ^ 8) → v = w)
    (h : m.symmetrize srt ⟨⟨0, 1, 0⟩, 0⟩ = .ok s) (hA : m.totalArea ≠ 0) (ρ th : ℝ) :
    let S := s.evalShell ρ th
    let M := m.evalShell ρ th
    S.mass = 2 * M.mass ∧ S.cog = ⟨M.cog.x, 0, M.cog.z⟩ ∧ S.xx = 2 * M.xx ∧ S.yy = 2 * M.yy ∧ S.zz = 2 * M.zz := by
  have hn : (⟨⟨0, 1, 0⟩, 0⟩ : Plane ℝ).normal.dot (⟨⟨0, 1, 0⟩, 0⟩ : Plane ℝ).normal = 1 := by simp [V3.dot]
  have hR : (⟨⟨0, 1, 0⟩, 0⟩ : Plane ℝ).reflect = fun v => ⟨v.x, -v.y, v.z⟩ := by
    funext v
    ext <;> simp [Plane.reflect, V3.dot]; ring
  rw [← hR] at hsep
  have area := C153_area srt hsrt _ hn m s hwf hcv hsep h
  have hA' : s.totalArea ≠ 0 := by rw [area]; simpa using hA
  obtain ⟨s1, s2, s3, s4, s5, -⟩ := C28_shell_inertia_partial s hA' ρ th
  obtain ⟨m1, m2, m3, m4, m5, -⟩ := C28_shell_inertia_partial m hA ρ th
  have I := fun β a b g => C153_integrals srt hsrt _ hn m s hwf hcv hsep h 0 β a b g
  simp only [hR] at I
  have one : s.shellIntegral (fun _ => 1) = 2 * m.shellIntegral (fun _ => 1) := by
    rw [← shell_area, ← shell_area]; exact area
  have x := I 1 ⟨1, 0, 0⟩ 0 (fun X => X.x) (by intro X; simp [V3.dot])
  have y := I 1 ⟨0, 1, 0⟩ 0 (fun X => X.y) (by intro X; simp [V3.dot])
  have z := I 1 ⟨0, 0, 1⟩ 0 (fun X => X.z) (by intro X; simp [V3.dot])
  have xx := I 0 ⟨1, 0, 0⟩ ⟨1, 0, 0⟩ (fun X => X.x ^ 2) (by intro X; simp [V3.dot]; ring)
  have yy := I 0 ⟨0, 1, 0⟩ ⟨0, 1, 0⟩ (fun X => X.y ^ 2) (by intro X; simp [V3.dot]; ring)
  have zz := I 0 ⟨0, 0, 1⟩ ⟨0, 0, 1⟩ (fun X => X.z ^ 2) (by intro X; simp [V3.dot]; ring)
  simp only [neg_sq] at yy
  have ny : m.shellIntegral (fun X => -X.y) = -m.shellIntegral (fun X => X.y) := by
    rw [← neg_one_mul]
    unfold Mesh.shellIntegral
    rw [← SymVol.surfaceSum_smul]
    congr 1
    funext p q r
    have e0 : (fun X : V3 ℝ => X.y) = fun X => aff (0, ⟨0, 1, 0⟩) X * aff (1, 0) X := by funext X; simp [aff, V3.dot]
    have e1 : (fun X : V3 ℝ => -X.y) = fun X => aff (0, ⟨0, -1, 0⟩) X * aff (1, 0) X := by funext X; simp [aff, V3.dot]
    rw [e0, e1]
    simp only [tri_formula]
    simp only [aff, V3.dot]
    ring
  rw [ny] at y
  have hA1 : m.shellIntegral (fun _ => 1) ≠ 0 := by rw [← shell_area]; exact hA
  have q1 := fun n => shell_sq_add n (·.y) (·.z) affine_y affine_z
  have q2 := fun n => shell_sq_add n (·.x) (·.z) affine_x affine_z
  have q3 := fun n => shell_sq_add n (·.x) (·.y) affine_x affine_y
  refine ⟨?_, ?_, ?_, ?_, ?_⟩
  · rw [s1, m1, one]; ring
  · rw [one] at s2
    have sx := congrArg V3.x s2
    have sy := congrArg V3.y s2
    have sz := congrArg V3.z s2
    have mx := congrArg V3.x m2
    have mz := congrArg V3.z m2
    simp only [V3.smul_x, V3.smul_y, V3.smul_z] at sx sy sz mx mz
    ext
    · apply mul_left_cancel₀ hA1
      show _ = _ * (m.evalShell ρ th).cog.x
      linarith
    · apply mul_left_cancel₀ hA1
      show _ = _ * (0 : ℝ)
      linarith
    · apply mul_left_cancel₀ hA1
      show _ = _ * (m.evalShell ρ th).cog.z
      linarith
  · rw [s3, m3]; simp only [inertiaMatrix, q1]; rw [yy, zz]; ring
  · rw [s4, m4]; simp only [inertiaMatrix, q2]; rw [xx, zz]; ring
  · rw [s5, m5]; simp only [inertiaMatrix, q3]; rw [xx, yy]; ring

/-! ### A case -/

lemma openCube_area : openCube.totalArea = 5 := by
  have hF : cubeFaces.filter (fun f => f ≠ ⟨0, 1, 5, 4⟩) =
      [⟨0, 2, 3, 1⟩, ⟨2, 6, 7, 3⟩, ⟨0, 4, 6, 2⟩, ⟨1, 3, 7, 5⟩, ⟨4, 5, 7, 4⟩, ⟨4, 7, 6, 4⟩] := by decide
  rw [shell_area]
  unfold Mesh.shellIntegral Mesh.surfaceSum openCube
  simp only [hF]
  simp [Mesh.faceSum, triangleIntegral_one, triDelta, cubeMesh, Mesh.vert, V3.norm, V3.normSq, V3.dot, V3.cross]
  norm_num

/-- The hypotheses of C153 are met by the cube without its face in the plane `y = 0`: the symmetrized mesh has the area `10` and the mass `10 ρ th`. -/
theorem openCube_meets_C153 : ∃ s, openCube.symmetrize insArgsort ⟨⟨0, 1, 0⟩, 0⟩ = .ok s ∧ s.totalArea = 10 ∧
    ∀ ρ th, (s.evalShell ρ th).mass = 10 * ρ * th ∧ (s.evalShell ρ th).cog.y = 0 := by
  obtain ⟨s, hs, -⟩ := openCube_meets_C151
  obtain ⟨hwf, hcv, -, hsep⟩ := openCube_hyps
  have hn : (⟨⟨0, 1, 0⟩, 0⟩ : Plane ℝ).normal.dot (⟨⟨0, 1, 0⟩, 0⟩ : Plane ℝ).normal = 1 := by simp [V3.dot]
  have hR : (⟨⟨0, 1, 0⟩, 0⟩ : Plane ℝ).reflect = fun v => ⟨v.x, -v.y, v.z⟩ := by
    funext v
    ext <;> simp [Plane.reflect, V3.dot]; ring
  have hA : openCube.totalArea ≠ 0 := by rw [openCube_area]; norm_num
  refine ⟨s, hs, ?_, fun ρ th => ?_⟩
  · rw [C153_area insArgsort insArgsort_isArgsort _ hn openCube s hwf hcv hsep hs, openCube_area]; norm_num
  · obtain ⟨a, b, -⟩ := C153_moments insArgsort insArgsort_isArgsort openCube s hwf hcv (by rwa [hR] at hsep) hs hA ρ th
    refine ⟨?_, by rw [b]⟩
    rw [a, (C28_shell_inertia_partial openCube hA ρ th).1, ← shell_area, openCube_area]; ring

end MM
