import Verif.Proofs.VolumeFl
import Verif.Spec.ConeVolume
import Verif.Proofs.FaceProps
import Verif.Proofs.Rounding
import Verif.Model.Inertia

/-!
# Volume and inertia of a mesh of triangles in floating point (C128)
-/

namespace MM

variable {K : Type*} [Field K] [LinearOrder K] [IsStrictOrderedRing K]

/-- The sizes of the terms of the volume. -/
def Mesh.volumeSize (m : Mesh K) : K := m.triSum (fun p q r => (size1 p q r).x + (size1 p q r).y + (size1 p q r).z) / 3

lemma flux1_cone (p q r : V3 K) : ((flux1 p q r).x + (flux1 p q r).y + (flux1 p q r).z) / 3 = coneVol p q r := by
  simp only [flux1, areaV, h1, coneVol, V3.cross, V3.dot, V3.sub_x, V3.sub_y, V3.sub_z]
  ring

lemma triSum_cone (m : Mesh K) (ht : ∀ f ∈ m.faces, f.a = f.d) :
    m.triSum (fun p q r => (flux1 p q r).x + (flux1 p q r).y + (flux1 p q r).z) / 3 = m.coneVolume := by
  unfold Mesh.triSum Mesh.coneVolume
  generalize m.faces = l at ht
  induction l with
  | nil => simp
  | cons f l ih =>
    have := ih (fun f hf => ht f (by simp [hf]))
    simp only [List.map_cons, List.sum_cons, add_div, this, Mesh.faceConeVolume, if_pos (ht f (by simp))]
    rw [← flux1_cone]; ring

/-- **C128.** The volume computed in floating point for a mesh of triangles, in whatever order the terms are added and whatever the
accuracy of the norms: it differs from the volume delimited by the mesh by at most `(1 + u) ^ (3 n + 11) - 1` times the size of the
terms. -/
theorem C128_volume (u : K) (hu : 0 ≤ u) (rnd : K → K) (hr : IsRounding u rnd) (nrm : V3 K → K) (m : Mesh K)
    (ht : ∀ f ∈ m.faces, f.a = f.d) (hn : m.NormsNonzero rnd nrm) (V : K) (hV : m.VolumeFl rnd nrm V) :
    |V - m.coneVolume| ≤ ((1 + u) ^ (3 * m.faces.length + 11) - 1) * m.volumeSize := by
  have := (err_volume hu hr m hn hV).2
  rwa [triSum_cone m ht] at this

/-- **C128.** With coordinates at most `R` and sides at most `L` (by coordinate). -/
theorem C128_volume_bound (u : K) (hu : 0 ≤ u) (rnd : K → K) (hr : IsRounding u rnd) (nrm : V3 K → K) (m : Mesh K)
    (ht : ∀ f ∈ m.faces, f.a = f.d) (hn : m.NormsNonzero rnd nrm) (V : K) (hV : m.VolumeFl rnd nrm V) (L R : K)
    (hR : ∀ f ∈ m.faces, ∀ i ∈ f.toList, ∀ k, |(m.vert i).coord k| ≤ R)
    (hL : ∀ f ∈ m.faces, ∀ i ∈ f.toList, ∀ j ∈ f.toList, ∀ k, |(m.vert i).coord k - (m.vert j).coord k| ≤ L) :
    |V - m.coneVolume| ≤ ((1 + u) ^ (3 * m.faces.length + 11) - 1) * (m.faces.length * L ^ 2 * R) := by
  refine (C128_volume u hu rnd hr nrm m ht hn V hV).trans (mul_le_mul_of_nonneg_left ?_ (pow_sub_nonneg hu _))
  unfold Mesh.volumeSize Mesh.triSum
  have key : ∀ f ∈ m.faces, (size1 (m.vert f.a) (m.vert f.b) (m.vert f.c)).x + (size1 (m.vert f.a) (m.vert f.b) (m.vert f.c)).y +
      (size1 (m.vert f.a) (m.vert f.b) (m.vert f.c)).z ≤ 3 * (L ^ 2 * R) := by
    intro f hf
    have r : ∀ i ∈ f.toList, |(m.vert i).x| ≤ R ∧ |(m.vert i).y| ≤ R ∧ |(m.vert i).z| ≤ R :=
      fun i hi => ⟨hR f hf i hi 0, hR f hf i hi 1, hR f hf i hi 2⟩
    have l : ∀ i ∈ f.toList, ∀ j ∈ f.toList, |(m.vert i).x - (m.vert j).x| ≤ L ∧ |(m.vert i).y - (m.vert j).y| ≤ L ∧
        |(m.vert i).z - (m.vert j).z| ≤ L := fun i hi j hj => ⟨hL f hf i hi j hj 0, hL f hf i hi j hj 1, hL f hf i hi j hj 2⟩
    have ha : f.a ∈ f.toList := by simp [Face.toList]
    have hb : f.b ∈ f.toList := by simp [Face.toList]
    have hc : f.c ∈ f.toList := by simp [Face.toList]
    obtain ⟨a1, a2, a3⟩ := r _ ha
    obtain ⟨b1, b2, b3⟩ := r _ hb
    obtain ⟨c1, c2, c3⟩ := r _ hc
    obtain ⟨d1, d2, d3⟩ := l _ hb _ ha
    obtain ⟨e1, e2, e3⟩ := l _ hc _ ha
    have R0 : 0 ≤ R := (abs_nonneg _).trans a1
    have L0 : 0 ≤ L := (abs_nonneg _).trans d1
    have comp : ∀ a b c d x y z : K, |a| ≤ L → |b| ≤ L → |c| ≤ L → |d| ≤ L → |x| ≤ R → |y| ≤ R → |z| ≤ R →
        (|a| * |b| + |c| * |d|) * (|x| + |y| + |z|) / 6 ≤ L ^ 2 * R := by
      intro a b c d x y z h1 h2 h3 h4 h5 h6 h7
      have k1 : |a| * |b| + |c| * |d| ≤ 2 * L ^ 2 := by
        have := mul_le_mul h1 h2 (abs_nonneg _) L0
        have := mul_le_mul h3 h4 (abs_nonneg _) L0
        nlinarith
      have k2 : |x| + |y| + |z| ≤ 3 * R := by linarith
      have := mul_le_mul k1 k2 (by positivity) (by positivity)
      rw [div_le_iff₀ (by norm_num)]
      linarith
    have t1 := comp _ _ _ _ _ _ _ d2 e3 d3 e2 a1 b1 c1
    have t2 := comp _ _ _ _ _ _ _ d3 e1 d1 e3 a2 b2 c2
    have t3 := comp _ _ _ _ _ _ _ d1 e2 d2 e1 a3 b3 c3
    simp only [size1, absAreaV, absCross, h1, V3.sub_x, V3.sub_y, V3.sub_z]
    linarith
  have : (m.faces.map (fun f => (size1 (m.vert f.a) (m.vert f.b) (m.vert f.c)).x +
      (size1 (m.vert f.a) (m.vert f.b) (m.vert f.c)).y + (size1 (m.vert f.a) (m.vert f.b) (m.vert f.c)).z)).sum ≤
      m.faces.length * (3 * (L ^ 2 * R)) := by
    generalize m.faces = l at key
    induction l with
    | nil => simp
    | cons f l ih =>
      have h1 := key f (by simp)
      have h2 := ih (fun f hf => key f (by simp [hf]))
      simp only [List.map_cons, List.sum_cons, List.length_cons, Nat.cast_add, Nat.cast_one, add_mul, one_mul]
      linarith
  rw [div_le_iff₀ (by norm_num)]
  linarith

/-! ### Inertia -/

/-- The exact values: density times the integrals over the body, as fluxes through its faces. -/
def exactPlain (m : Mesh K) (rho : K) : Mesh.Plain K where
  mass := rho * m.coneVolume
  cog := ⟨m.triSum (fun p q r => (flux2 p q r).x) / (2 * m.coneVolume), m.triSum (fun p q r => (flux2 p q r).y) / (2 * m.coneVolume),
    m.triSum (fun p q r => (flux2 p q r).z) / (2 * m.coneVolume)⟩
  xx := rho * (m.triSum (fun p q r => (flux3 p q r).y) + m.triSum (fun p q r => (flux3 p q r).z)) / 3
  yy := rho * (m.triSum (fun p q r => (flux3 p q r).x) + m.triSum (fun p q r => (flux3 p q r).z)) / 3
  zz := rho * (m.triSum (fun p q r => (flux3 p q r).x) + m.triSum (fun p q r => (flux3 p q r).y)) / 3
  yz := rho * m.triSum (fun p q r => (fluxMix p q r).y) / 2
  xz := rho * m.triSum (fun p q r => (fluxMix p q r).z) / 2
  xy := rho * m.triSum (fun p q r => (fluxMix p q r).x) / 2

lemma err_plain3 {u : K} (hu : 0 ≤ u) {rnd : K → K} (hr : IsRounding u rnd) {n : ℕ} {A B x y x' y' : K} (rho : K)
    (h : Err u n A x x') (h' : Err u n B y y') :
    Err u (n + 3) (|rho| * (A + B) / 3) (rnd (rnd (rho * rnd (x + y)) / 3)) (rho * (x' + y') / 3) :=
  (((((((Err.exact (u := u) rho).mul hu ((h.add h').round hu hr)).round hu hr)).div (q := 3) (by norm_num)).round hu hr)).mono hu
    (by omega)

lemma err_plain2 {u : K} (hu : 0 ≤ u) {rnd : K → K} (hr : IsRounding u rnd) {n : ℕ} {A x x' : K} (rho : K) (h : Err u n A x x') :
    Err u (n + 2) (|rho| * A / 2) (rnd (rnd (rho * x) / 2)) (rho * x' / 2) :=
  (((((Err.exact (u := u) rho).mul hu h).round hu hr).div (q := 2) (by norm_num)).round hu hr).mono hu (by omega)

/-- **C128.** The mass and the matrix of inertia computed in floating point: `n + 18` roundings at most on each term of size
`|y|³`, ... -/
theorem C128_inertia (u : K) (hu : 0 ≤ u) (rnd : K → K) (hr : IsRounding u rnd) (nrm : V3 K → K) (m : Mesh K)
    (ht : ∀ f ∈ m.faces, f.a = f.d) (hn : m.NormsNonzero rnd nrm) (rho : K) (r : Mesh.Plain K) (h : m.PlainFl rnd nrm rho r) :
    Err u (3 * m.faces.length + 12) (|rho| * m.volumeSize) r.mass (exactPlain m rho).mass ∧
    Err u (m.faces.length + 17)
      (|rho| * (m.triSum (fun p q r => (size3 p q r).y) + m.triSum (fun p q r => (size3 p q r).z)) / 3) r.xx (exactPlain m rho).xx ∧
    Err u (m.faces.length + 17)
      (|rho| * (m.triSum (fun p q r => (size3 p q r).x) + m.triSum (fun p q r => (size3 p q r).z)) / 3) r.yy (exactPlain m rho).yy ∧
    Err u (m.faces.length + 17)
      (|rho| * (m.triSum (fun p q r => (size3 p q r).x) + m.triSum (fun p q r => (size3 p q r).y)) / 3) r.zz (exactPlain m rho).zz ∧
    Err u (m.faces.length + 18) (|rho| * m.triSum (fun p q r => (sizeMix p q r).y) / 2) r.yz (exactPlain m rho).yz ∧
    Err u (m.faces.length + 18) (|rho| * m.triSum (fun p q r => (sizeMix p q r).z) / 2) r.xz (exactPlain m rho).xz ∧
    Err u (m.faces.length + 18) (|rho| * m.triSum (fun p q r => (sizeMix p q r).x) / 2) r.xy (exactPlain m rho).xy := by
  obtain ⟨V, s6, s9, s12, hV, -, h9, h12, rfl⟩ := h
  have e0 := err_volume hu hr m hn hV
  rw [triSum_cone m ht] at e0
  obtain ⟨a1, a2, a3⟩ := err_sums hu hr m (fun f hf => err_vol9 hu hr (hn f hf)) h9
  obtain ⟨b1, b2, b3⟩ := err_sums hu hr m (fun f hf => err_vol12 hu hr (hn f hf)) h12
  refine ⟨?_, (err_plain3 hu hr rho a2 a3).mono hu (by omega), (err_plain3 hu hr rho a1 a3).mono hu (by omega),
    (err_plain3 hu hr rho a1 a2).mono hu (by omega), (err_plain2 hu hr rho b2).mono hu (by omega),
    (err_plain2 hu hr rho b3).mono hu (by omega), (err_plain2 hu hr rho b1).mono hu (by omega)⟩
  exact (((Err.exact (u := u) rho).mul hu e0).round hu hr).mono hu (by omega)

lemma div_near {rnd : K → K} {u : K} (hr : IsRounding u rnd) (hu : 0 ≤ u) {M M' D D' e d : K} (hM : |M' - M| ≤ e)
    (hD : |D' - D| ≤ d) (hd : d < |D|) :
    |rnd (M' / D') - M / D| ≤ (1 + u) * ((e + |M / D| * d) / (|D| - d)) + u * |M / D| := by
  have hD' : |D| - d ≤ |D'| := by
    have := abs_sub_abs_le_abs_sub D D'
    rw [abs_sub_comm] at this
    linarith
  have p1 : 0 < |D| - d := by linarith
  have p2 : 0 < |D'| := lt_of_lt_of_le p1 hD'
  have d0 : 0 ≤ d := (abs_nonneg _).trans hD
  have e0 : 0 ≤ e := (abs_nonneg _).trans hM
  have n0 : D ≠ 0 := by rintro rfl; rw [abs_zero] at hd; linarith
  have n1 : D' ≠ 0 := abs_pos.1 p2
  have k1 : |M' / D' - M / D| ≤ (e + |M / D| * d) / (|D| - d) := by
    have : M' / D' - M / D = ((M' - M) - M / D * (D' - D)) / D' := by field_simp; ring
    rw [this, abs_div]
    refine (div_le_div_of_nonneg_left (abs_nonneg _) p1 hD').trans (div_le_div_of_nonneg_right ?_ p1.le)
    refine (abs_sub _ _).trans ?_
    rw [abs_mul]
    exact add_le_add hM (mul_le_mul_of_nonneg_left hD (abs_nonneg _))
  have k2 := hr.near (M' / D')
  have k3 : |M' / D'| ≤ (e + |M / D| * d) / (|D| - d) + |M / D| := by
    calc |M' / D'| = |(M' / D' - M / D) + M / D| := by rw [sub_add_cancel]
      _ ≤ _ := (abs_add_le _ _).trans (by linarith)
  calc |rnd (M' / D') - M / D| = |(rnd (M' / D') - M' / D') + (M' / D' - M / D)| := by congr 1; ring
    _ ≤ u * |M' / D'| + (e + |M / D| * d) / (|D| - d) := (abs_add_le _ _).trans (add_le_add k2 k1)
    _ ≤ u * ((e + |M / D| * d) / (|D| - d) + |M / D|) + (e + |M / D| * d) / (|D| - d) := by
      have := mul_le_mul_of_nonneg_left k3 hu
      linarith
    _ = _ := by ring

/-- **C128.** The centre of gravity computed in floating point, when the error on the volume is less than the volume: `e` is the error
of a moment, `d` that of twice the volume. -/
theorem C128_centre (u : K) (hu : 0 ≤ u) (rnd : K → K) (hr : IsRounding u rnd) (nrm : V3 K → K) (m : Mesh K)
    (ht : ∀ f ∈ m.faces, f.a = f.d) (hn : m.NormsNonzero rnd nrm) (rho : K) (r : Mesh.Plain K) (h : m.PlainFl rnd nrm rho r)
    (d : K) (hd : d = ((1 + u) ^ (3 * m.faces.length + 12) - 1) * (2 * m.volumeSize)) (hV : d < |2 * m.coneVolume|) :
    let e := fun S : K => ((1 + u) ^ (m.faces.length + 12) - 1) * S
    let bound := fun S x : K => (1 + u) * ((e S + |x| * d) / (|2 * m.coneVolume| - d)) + u * |x|
    |r.cog.x - (exactPlain m rho).cog.x| ≤ bound (m.triSum (fun p q r => (size2 p q r).x)) (exactPlain m rho).cog.x ∧
    |r.cog.y - (exactPlain m rho).cog.y| ≤ bound (m.triSum (fun p q r => (size2 p q r).y)) (exactPlain m rho).cog.y ∧
    |r.cog.z - (exactPlain m rho).cog.z| ≤ bound (m.triSum (fun p q r => (size2 p q r).z)) (exactPlain m rho).cog.z := by
  obtain ⟨V, s6, s9, s12, hV', h6, -, -, rfl⟩ := h
  have e0 := err_volume hu hr m hn hV'
  rw [triSum_cone m ht] at e0
  obtain ⟨a1, a2, a3⟩ := err_sums hu hr m (fun f hf => err_vol6 hu hr (hn f hf)) h6
  have e1 := ((((Err.exact (u := u) 2).mul hu e0).round hu hr).mono hu (k := 3 * m.faces.length + 12) (by omega)).2
  rw [abs_of_pos (by norm_num : (0 : K) < 2), show m.triSum (fun p q r => (size1 p q r).x + (size1 p q r).y + (size1 p q r).z) / 3 =
    m.volumeSize from rfl, ← hd] at e1
  have b1 := (a1.mono hu (k := m.faces.length + 12) (by omega)).2
  have b2 := (a2.mono hu (k := m.faces.length + 12) (by omega)).2
  have b3 := (a3.mono hu (k := m.faces.length + 12) (by omega)).2
  exact ⟨div_near hr hu b1 e1 hV, div_near hr hu b2 e1 hV, div_near hr hu b3 e1 hV⟩

/-! ### The exact values are those of the model without rounding -/

lemma triSum_x (m : Mesh ℝ) (g : V3 ℝ → V3 ℝ → V3 ℝ → V3 ℝ) :
    m.triSum (fun p q r => (g p q r).x) = (m.faces.map (fun f => g (m.vert f.a) (m.vert f.b) (m.vert f.c))).sum.x := by
  rw [V3.list_sum_x, List.map_map]; rfl
lemma triSum_y (m : Mesh ℝ) (g : V3 ℝ → V3 ℝ → V3 ℝ → V3 ℝ) :
    m.triSum (fun p q r => (g p q r).y) = (m.faces.map (fun f => g (m.vert f.a) (m.vert f.b) (m.vert f.c))).sum.y := by
  rw [V3.list_sum_y, List.map_map]; rfl
lemma triSum_z (m : Mesh ℝ) (g : V3 ℝ → V3 ℝ → V3 ℝ → V3 ℝ) :
    m.triSum (fun p q r => (g p q r).z) = (m.faces.map (fun f => g (m.vert f.a) (m.vert f.b) (m.vert f.c))).sum.z := by
  rw [V3.list_sum_z, List.map_map]; rfl

/-- The exact values of C128 are those of `eval_plain_mesh_inertias` without roundings (which are the integrals over the body, see
C27), for a mesh of triangles which are not flat. -/
theorem C128_exact (m : Mesh ℝ) (ht : ∀ f ∈ m.faces, f.a = f.d)
    (hd : ∀ f ∈ m.faces, areaVec (m.vert f.a) (m.vert f.b) (m.vert f.c) ≠ 0) (rho : ℝ) :
    let e := exactPlain m rho
    m.volume = m.coneVolume ∧ m.evalPlain rho = Inertia.init e.mass e.cog e.xx e.yy e.zz e.yz e.xz e.xy (some 0) := by
  have hflat : m.FlatFaces := by
    intro f hf
    rw [if_pos (ht f hf)]; exact hd f hf
  have hv : m.volume = m.coneVolume := volume_eq_signedVolume m hflat
  have hw : ∀ (i0 i1 i2 : Fin 15) (g : V3 ℝ → V3 ℝ → V3 ℝ → V3 ℝ),
      (∀ p q r : V3 ℝ, areaVec p q r ≠ 0 → (⟨(triProps p q r).normal.x * triIntegrals p q r i0,
        (triProps p q r).normal.y * triIntegrals p q r i1, (triProps p q r).normal.z * triIntegrals p q r i2⟩ : V3 ℝ) = g p q r) →
      Mesh.normalWeighted m.facesProperties m.surfaceIntegrals i0 i1 i2 =
        (m.faces.map (fun f => g (m.vert f.a) (m.vert f.b) (m.vert f.c))).sum := by
    intro i0 i1 i2 g hg
    rw [normalWeighted_eq]
    congr 1
    apply List.map_congr_left
    intro f hf
    have htri : f.isTri = true := by simpa [Face.isTri] using ht f hf
    simp only [Mesh.faceProps, Mesh.faceIntegrals, htri, if_true, Mesh.triPropsOf, Mesh.triIntegralsOf]
    exact hg _ _ _ (hd f hf)
  have key : ∀ p q r : V3 ℝ, areaVec p q r ≠ 0 → ∀ f k : ℝ,
      (triProps p q r).normal.x * (triDelta p q r * f / k) = (areaV p q r).x * f / k ∧
      (triProps p q r).normal.y * (triDelta p q r * f / k) = (areaV p q r).y * f / k ∧
      (triProps p q r).normal.z * (triDelta p q r * f / k) = (areaV p q r).z * f / k := by
    intro p q r h f k
    have h1 := tri_normal h
    have hx : triDelta p q r * (triProps p q r).normal.x = (areaV p q r).x := congrArg V3.x h1
    have hy : triDelta p q r * (triProps p q r).normal.y = (areaV p q r).y := congrArg V3.y h1
    have hz : triDelta p q r * (triProps p q r).normal.z = (areaV p q r).z := congrArg V3.z h1
    rw [← hx, ← hy, ← hz]
    refine ⟨?_, ?_, ?_⟩ <;> ring
  have w6 := hw 6 7 8 flux2 (by
    intro p q r h
    have k := key p q r h
    have f : ∀ a b c : ℝ, pf2 a b c = h2 a b c := by intro a b c; unfold pf2 pt2 pf1 h2; ring
    have e := f p.x q.x r.x
    ext
    · exact ((k (pf2 p.x q.x r.x) 12).1).trans (by simp only [flux2, f])
    · exact ((k (pf2 p.y q.y r.y) 12).2.1).trans (by simp only [flux2, f])
    · exact ((k (pf2 p.z q.z r.z) 12).2.2).trans (by simp only [flux2, f]))
  have w9 := hw 9 10 11 flux3 (by
    intro p q r h
    have k := key p q r h
    have f : ∀ a b c : ℝ, pf3 a b c = h3 a b c := by intro a b c; unfold pf3 pf2 pt2 pf1 h3; ring
    ext
    · exact ((k (pf3 p.x q.x r.x) 20).1).trans (by simp only [flux3, f])
    · exact ((k (pf3 p.y q.y r.y) 20).2.1).trans (by simp only [flux3, f])
    · exact ((k (pf3 p.z q.z r.z) 20).2.2).trans (by simp only [flux3, f]))
  have w12 := hw 12 13 14 fluxMix (by
    intro p q r h
    have k := key p q r h
    have f : ∀ y0 y1 y2 a b c : ℝ, y0 * pg0 a b c + y1 * pg1 a b c + y2 * pg2 a b c = hmix y0 y1 y2 a b c := by
      intro y0 y1 y2 a b c; unfold pg0 pg1 pg2 pf2 pt2 pf1 hmix h2 h1; ring
    ext
    · exact ((k (p.y * pg0 p.x q.x r.x + q.y * pg1 p.x q.x r.x + r.y * pg2 p.x q.x r.x) 60).1).trans (by simp only [fluxMix, f])
    · exact ((k (p.z * pg0 p.y q.y r.y + q.z * pg1 p.y q.y r.y + r.z * pg2 p.y q.y r.y) 60).2.1).trans (by simp only [fluxMix, f])
    · exact ((k (p.x * pg0 p.z q.z r.z + q.x * pg1 p.z q.z r.z + r.x * pg2 p.z q.z r.z) 60).2.2).trans (by simp only [fluxMix, f]))
  refine ⟨hv, ?_⟩
  simp only [Mesh.evalPlain, w6, w9, w12, hv, exactPlain, triSum_x, triSum_y, triSum_z]
  congr 1
  ext <;> simp <;> ring

/-! ### Witness -/

lemma SumFl.seq (rnd : K → K) (x : K) (l : List K) : SumFl rnd (x :: l) (l.foldl (fun s y => rnd (s + y)) x) := by
  induction l using List.reverseRecOn with
  | nil => exact .one x
  | append_singleton l y ih =>
    rw [List.foldl_append]
    exact .add (l₁ := x :: l) (l₂ := [y]) (by simp) (by simp) (by simp) ih (.one y)

/-- A tetrahedron whose coordinates have no short binary expansion, rounded to doubles. -/
def flTetra : Mesh ℚ :=
  ⟨([⟨1 / 10, 1 / 3, -1 / 7⟩, ⟨11 / 10, 1 / 5, 0⟩, ⟨0, 7 / 5, 1 / 9⟩, ⟨1 / 3, 2 / 7, 8 / 5⟩] : List (V3 ℚ)).map
    (fun v => ⟨roundBits 53 v.x, roundBits 53 v.y, roundBits 53 v.z⟩), [⟨0, 2, 1, 0⟩, ⟨0, 1, 3, 0⟩, ⟨1, 2, 3, 1⟩, ⟨2, 0, 3, 2⟩]⟩

/-- An approximation of the norm: three steps of Newton's method for the square root. -/
def newtonNorm (v : V3 ℚ) : ℚ :=
  let q := v.x * v.x + v.y * v.y + v.z * v.z
  let step := fun s : ℚ => roundBits 53 ((s + q / s) / 2)
  step (step (step (|v.x| + |v.y| + |v.z|)))

/-- The hypotheses of C128 are met in doubles by the tetrahedron and a volume which is computed, and the latter is not the exact one:
there are roundings. -/
theorem flTetra_meets_C128 : IsRounding (1 / 2 ^ 53) (roundBits 53) ∧ (∀ f ∈ flTetra.faces, f.a = f.d) ∧
    flTetra.NormsNonzero (roundBits 53) newtonNorm ∧
    ∃ V, flTetra.VolumeFl (roundBits 53) newtonNorm V ∧ V ≠ flTetra.coneVolume := by
  refine ⟨roundBits_isRounding (by norm_num), by decide, ?_, ?_⟩
  · unfold Mesh.NormsNonzero; decide +kernel
  · refine ⟨_, ⟨_, SumFl.seq (roundBits 53) _ _, rfl⟩, ?_⟩
    decide +kernel

lemma SumFl.exists (rnd : K → K) : ∀ l : List K, ∃ s, SumFl rnd l s
  | [] => ⟨0, .nil⟩
  | x :: l => ⟨_, SumFl.seq rnd x l⟩

/-- The hypotheses of `C128_centre` and `C128_inertia` are met by the tetrahedron in doubles. -/
theorem flTetra_meets_C128_centre : (∃ r, flTetra.PlainFl (roundBits 53) newtonNorm 1025 r) ∧
    ((1 + 1 / 2 ^ 53) ^ (3 * flTetra.faces.length + 12) - 1) * (2 * flTetra.volumeSize) < |2 * flTetra.coneVolume| / 10 ^ 12 := by
  constructor
  · obtain ⟨s, hs⟩ := SumFl.exists (roundBits 53) ((flTetra.onTriangles (vol0Fl (roundBits 53) newtonNorm)).flatMap
      (fun t => [t.x, t.y, t.z]))
    have h : ∀ l : List (V3 ℚ), ∃ s, Mesh.SumsFl (roundBits 53) l s := by
      intro l
      obtain ⟨x, hx⟩ := SumFl.exists (roundBits 53) (l.map V3.x)
      obtain ⟨y, hy⟩ := SumFl.exists (roundBits 53) (l.map V3.y)
      obtain ⟨z, hz⟩ := SumFl.exists (roundBits 53) (l.map V3.z)
      exact ⟨⟨x, y, z⟩, hx, hy, hz⟩
    obtain ⟨s6, h6⟩ := h (flTetra.onTriangles (vol6Fl (roundBits 53) newtonNorm))
    obtain ⟨s9, h9⟩ := h (flTetra.onTriangles (vol9Fl (roundBits 53) newtonNorm))
    obtain ⟨s12, h12⟩ := h (flTetra.onTriangles (vol12Fl (roundBits 53) newtonNorm))
    exact ⟨_, _, s6, s9, s12, ⟨s, hs, rfl⟩, h6, h9, h12, rfl⟩
  · decide +kernel

end MM
