import Verif.Model.PlaneNewFl
import Verif.Spec.PlaneNewFl
import Verif.Props.SymmetrizeFl

/-!
# C150: planes given by any vector, in floating point
-/

namespace MM

open QuadFl MirrorFl SymmetrizeFl

namespace PlaneNewFl

lemma quotient_near {u δ L l x : ℝ} (hu : u ≤ δ) (h1 : δ ≤ 1 / 100) {rnd : ℝ → ℝ} (hr : IsRounding u rnd) (hL : 0 < L)
    (hl : |l - L| ≤ δ * L) (hx : |x| ≤ L) : |rnd (x / l) - L⁻¹ * x| ≤ 21 / 10 * δ := by
  have h0 : 0 ≤ δ := by
    have := (abs_nonneg _).trans hl
    nlinarith
  have l1 : (1 - δ) * L ≤ l := by linarith [(abs_le.1 hl).1]
  have l2 : 99 / 100 * L ≤ l := by nlinarith
  have l0 : 0 < l := by linarith
  have a : |x / l| ≤ 100 / 99 := by
    rw [abs_div, abs_of_pos l0, div_le_iff₀ l0]
    linarith
  have b : |x / l - L⁻¹ * x| ≤ 100 / 99 * δ := by
    have e : x / l - L⁻¹ * x = x * (L - l) / (l * L) := by
      field_simp
    rw [e, abs_div, abs_mul, abs_of_pos (mul_pos l0 hL), div_le_iff₀ (mul_pos l0 hL), abs_sub_comm L l]
    have s1 : |x| * |l - L| ≤ L * (δ * L) := mul_le_mul hx hl (abs_nonneg _) hL.le
    have s2 : L * (δ * L) ≤ 100 / 99 * δ * (l * L) := by
      have := mul_le_mul_of_nonneg_left l2 (mul_nonneg h0 hL.le)
      nlinarith
    exact s1.trans s2
  have c := hr.near (x / l)
  have d : |rnd (x / l) - x / l| ≤ 100 / 99 * δ :=
    c.trans ((mul_le_mul hu a (abs_nonneg _) h0).trans (le_of_eq (by ring)))
  refine (abs_sub_le _ (x / l) _).trans ?_
  linarith

end PlaneNewFl

open PlaneNewFl

/-- **C150 (normal).** For every vector which is not zero, the plane meant has a unit normal and is the set of the points `v` with
`v · n = c ‖n‖`; and the normal stored by `Plane(n, c)` in floating point is its normal up to `2.1 δ` per coordinate, with the scalar `c`. -/
theorem C150_normal (u g δ : ℝ) (hu : u ≤ δ) (hg : g ≤ δ) (h1 : δ ≤ 1 / 100) (rnd : ℝ → ℝ) (hr : IsRounding u rnd) (nrm : V3 ℝ → ℝ)
    (hnrm : ∀ v, |nrm v - v.norm| ≤ g * v.norm) (n : V3 ℝ) (hn : n ≠ 0) (c : ℝ) :
    (Plane.given n c).normal.dot (Plane.given n c).normal = 1 ∧
    (∀ v, (Plane.given n c).dist v = 0 ↔ v.dot n = c * n.norm) ∧
    (∀ k, |(Plane.newFl rnd nrm n c).normal.coord k - (Plane.given n c).normal.coord k| ≤ 21 / 10 * δ) ∧
    (Plane.newFl rnd nrm n c).c = c := by
  have hL := V3.norm_pos hn
  have hL' : n.norm ≠ 0 := hL.ne'
  have hl : |nrm n - n.norm| ≤ δ * n.norm := (hnrm n).trans (mul_le_mul_of_nonneg_right hg hL.le)
  refine ⟨?_, ?_, ?_, rfl⟩
  · have e := V3.norm_mul_self n
    rw [V3.normSq] at e
    simp only [Plane.given, V3.smul_dot, V3.dot_smul, ← e]
    field_simp
  · intro v
    simp only [Plane.dist, Plane.given, V3.dot_smul]
    rw [sub_eq_zero, inv_mul_eq_iff_eq_mul₀ hL', mul_comm c]
  · intro k
    obtain ⟨x, y, z⟩ := coord_le_norm n
    fin_cases k
    · exact quotient_near hu h1 hr hL hl x
    · exact quotient_near hu h1 hr hL hl y
    · exact quotient_near hu h1 hr hL hl z

/-- **C150 (length).** The length of the vector given does not matter: the normals stored for `n` and `t n`, `t > 0`, differ by at most
`4.2 δ` per coordinate. -/
theorem C150_length (u g δ : ℝ) (hu : u ≤ δ) (hg : g ≤ δ) (h1 : δ ≤ 1 / 100) (rnd : ℝ → ℝ) (hr : IsRounding u rnd) (nrm : V3 ℝ → ℝ)
    (hnrm : ∀ v, |nrm v - v.norm| ≤ g * v.norm) (n : V3 ℝ) (hn : n ≠ 0) (c t : ℝ) (ht : 0 < t) (k : Fin 3) :
    |(Plane.newFl rnd nrm (t • n) c).normal.coord k - (Plane.newFl rnd nrm n c).normal.coord k| ≤ 42 / 10 * δ := by
  have hL := V3.norm_pos hn
  have hnorm : (t • n).norm = t * n.norm := by
    have : (t • n).normSq = t ^ 2 * n.normSq := by
      simp only [V3.normSq, V3.smul_dot, V3.dot_smul]; ring
    rw [V3.norm, this, Real.sqrt_mul (sq_nonneg t), Real.sqrt_sq ht.le, V3.norm]
  have htn : t • n ≠ 0 := by
    intro h
    have : (t • n).norm = 0 := by rw [h]; simp [V3.norm, V3.normSq, V3.dot]
    rw [hnorm] at this
    exact (mul_pos ht hL).ne' this
  have a := (C150_normal u g δ hu hg h1 rnd hr nrm hnrm (t • n) htn c).2.2.1 k
  have b := (C150_normal u g δ hu hg h1 rnd hr nrm hnrm n hn c).2.2.1 k
  have e : (Plane.given (t • n) c).normal = (Plane.given n c).normal := by
    have : ∀ x : ℝ, (t * n.norm)⁻¹ * (t * x) = n.norm⁻¹ * x := by
      intro x
      have := hL.ne'
      have := ht.ne'
      field_simp
    ext <;> simp [Plane.given, hnorm] <;> simpa [mul_inv] using this _
  rw [e] at a
  rw [abs_sub_comm] at b
  refine (abs_sub_le _ ((Plane.given n c).normal.coord k) _).trans ?_
  linarith

/-- **C150 (mirror).** `mesh.mirror(Plane(n, c))` in floating point, for every vector `n` which is not zero: the faces are those of the mirrored mesh
and each coordinate is that of the mirror image of the mesh through the plane meant, up to `120 δ R`. -/
theorem C150_mirror (u g δ R : ℝ) (hu0 : 0 ≤ u) (hu : u ≤ δ) (hg : g ≤ δ) (h1 : δ ≤ 1 / 210) (hR : 0 ≤ R) (rnd : ℝ → ℝ)
    (hr : IsRounding u rnd) (dot : V3 ℝ → V3 ℝ → ℝ) (hd : IsDot g dot) (nrm : V3 ℝ → ℝ) (hnrm : ∀ v, |nrm v - v.norm| ≤ g * v.norm)
    (n : V3 ℝ) (hn : n ≠ 0) (c : ℝ) (hc : |c| ≤ R) (m : Mesh ℝ) (hv : ∀ v ∈ m.vertices, ∀ k, |v.coord k| ≤ R) :
    (m.mirrorFl rnd dot (Plane.newFl rnd nrm n c)).faces = (m.mirror (Plane.given n c)).faces ∧
    List.Forall₂ (V3.Close (120 * δ * R)) (m.mirror (Plane.given n c)).vertices (m.mirrorFl rnd dot (Plane.newFl rnd nrm n c)).vertices := by
  have h0 := hu0.trans hu
  have hδR : 0 ≤ δ * R := mul_nonneg h0 hR
  obtain ⟨k1, -, k3, -⟩ := C150_normal u g δ hu hg (by linarith) rnd hr nrm hnrm n hn c
  obtain ⟨a, b⟩ := C148_positions u g (21 / 10 * δ) R hu0 (by linarith) (by linarith) (by linarith) hR rnd hr dot hd (Plane.given n c)
    (Plane.newFl rnd nrm n c) k1 k3 rfl hc m hv
  exact ⟨a, b.imp fun _ _ h => close_mono h (by nlinarith)⟩

/-- **C150 (symmetrize).** `mesh.symmetrize(Plane(n, c))` in floating point, for every vector `n` which is not zero: C149 for the plane meant, with
`120 δ R` and `240 δ R`. -/
theorem C150_symmetrize (u g δ R : ℝ) (hu0 : 0 ≤ u) (hu : u ≤ δ) (hg : g ≤ δ) (h1 : δ ≤ 1 / 210) (hR : 0 ≤ R) (rnd : ℝ → ℝ)
    (hr : IsRounding u rnd) (hidem : rnd (rnd Mesh.defaultAtol) = rnd Mesh.defaultAtol) (dot : V3 ℝ → V3 ℝ → ℝ) (hd : IsDot g dot)
    (nrm : V3 ℝ → ℝ) (hnrm : ∀ v, |nrm v - v.norm| ≤ g * v.norm) (srt : (ℕ → ℝ) → List ℕ → List ℕ) (hsrt : IsArgsort srt)
    (n : V3 ℝ) (hn : n ≠ 0) (c : ℝ) (hc : |c| ≤ R) (m : Mesh ℝ) (hv : ∀ v ∈ m.vertices, ∀ k, |v.coord k| ≤ R) (hwf : m.WF)
    (hne : m.vertices ≠ []) :
    ∃ s, m.symmetrizeFl rnd dot srt (Plane.newFl rnd nrm n c) = .ok s ∧ s.WF ∧ s.nf = 2 * m.nf ∧
      GeomClose (120 * δ * R + (1 + 3 * u) / 10 ^ 8)
        (m.geometry ++ m.geometry.map (fun f => (f.map (Option.map (Plane.given n c).reflect)).reverse)) s.geometry ∧
      s.vertices.Nodup ∧
      (∀ v ∈ s.vertices, ∃ w ∈ s.vertices, V3.Close (240 * δ * R + (1 + 3 * u) / 10 ^ 8) ((Plane.given n c).reflect v) w) := by
  have h0 := hu0.trans hu
  have hδR : 0 ≤ δ * R := mul_nonneg h0 hR
  obtain ⟨k1, -, k3, -⟩ := C150_normal u g δ hu hg (by linarith) rnd hr nrm hnrm n hn c
  obtain ⟨s, a, b, c', d, e, f⟩ := C149_symmetrize u g (21 / 10 * δ) R hu0 (by linarith) (by linarith) (by linarith) hR rnd hr hidem dot hd srt hsrt
    (Plane.given n c) (Plane.newFl rnd nrm n c) k1 k3 rfl hc m hv hwf hne
  refine ⟨s, a, b, c', geomClose_mono (by nlinarith) d, e, fun v hv => ?_⟩
  obtain ⟨w, hw, h⟩ := f v hv
  exact ⟨w, hw, close_mono h (by nlinarith)⟩

/-! ### A case -/

/-- The hypotheses of C150 are met by the cube and a plane given by a vector which is not unit: the mirror image is computed up to `10⁻⁹`, and
the mesh is symmetrized. -/
theorem cube_meets_C150 :
    List.Forall₂ (V3.Close (1 / 10 ^ 9)) ((cubeMesh ℝ).mirror (Plane.given ⟨1, 2, -3⟩ (1 / 2))).vertices
      ((cubeMesh ℝ).mirrorFl (topRound (1 / 2 ^ 53)) (dotFl (topRound (1 / 2 ^ 53)))
        (Plane.newFl (topRound (1 / 2 ^ 53)) V3.norm ⟨1, 2, -3⟩ (1 / 2))).vertices ∧
    ∃ s, (cubeMesh ℝ).symmetrizeFl (topRound (1 / 2 ^ 53)) (dotFl (topRound (1 / 2 ^ 53))) insArgsort
      (Plane.newFl (topRound (1 / 2 ^ 53)) V3.norm ⟨1, 2, -3⟩ (1 / 2)) = .ok s ∧ s.nf = 2 * (cubeMesh ℝ).nf := by
  have hu : (0 : ℝ) ≤ 1 / 2 ^ 53 := by norm_num
  have hr := topRound_isRounding hu
  have hd : IsDot (1 / 10 ^ 15) (dotFl (topRound (1 / 2 ^ 53))) := by
    intro a b
    refine (dotFl_isDot hr hu a b).trans (mul_le_mul_of_nonneg_right (by norm_num) ?_)
    unfold absDot; positivity
  have hb : ∀ v ∈ (cubeMesh ℝ).vertices, ∀ k, |v.coord k| ≤ 1 := by
    intro v hv k
    simp only [cubeMesh, List.mem_cons, List.not_mem_nil, or_false] at hv
    rcases hv with rfl | rfl | rfl | rfl | rfl | rfl | rfl | rfl <;> fin_cases k <;> norm_num [V3.coord]
  have hidem : topRound (1 / 2 ^ 53) (topRound (1 / 2 ^ 53) Mesh.defaultAtol) = topRound (1 / 2 ^ 53) Mesh.defaultAtol := by
    have : topRound (1 / 2 ^ 53) Mesh.defaultAtol = Mesh.defaultAtol := if_pos (by norm_num [Mesh.defaultAtol, abs_of_pos])
    rw [this, this]
  have hnrm : ∀ v : V3 ℝ, |v.norm - v.norm| ≤ 1 / 10 ^ 15 * v.norm :=
    fun v => by rw [sub_self, abs_zero]; exact mul_nonneg (by norm_num) (V3.norm_nonneg v)
  have hn : (⟨1, 2, -3⟩ : V3 ℝ) ≠ 0 := by
    intro h
    have := congrArg V3.x h
    norm_num at this
  have hc : |(1 / 2 : ℝ)| ≤ 1 := by norm_num [abs_of_pos]
  constructor
  · have := (C150_mirror (1 / 2 ^ 53) (1 / 10 ^ 15) (1 / 10 ^ 14) 1 hu (by norm_num) (by norm_num) (by norm_num) (by norm_num) _ hr _ hd V3.norm hnrm
      ⟨1, 2, -3⟩ hn (1 / 2) hc (cubeMesh ℝ) hb).2
    exact this.imp fun _ _ h => close_mono h (by norm_num)
  · obtain ⟨s, h, -, h', -⟩ := C150_symmetrize (1 / 2 ^ 53) (1 / 10 ^ 15) (1 / 10 ^ 14) 1 hu (by norm_num) (by norm_num) (by norm_num) (by norm_num) _ hr
      hidem _ hd V3.norm hnrm insArgsort insArgsort_isArgsort ⟨1, 2, -3⟩ hn (1 / 2) hc (cubeMesh ℝ) hb (cubeMesh_wf ℝ) (by simp [cubeMesh])
    exact ⟨s, h, h'⟩

end MM
