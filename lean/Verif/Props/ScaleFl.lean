import Verif.Spec.ScaleFl
import Verif.Props.MovesFl
import Verif.Props.AreaFl

/-!
# C147: scalings, exact and in floating point
-/

namespace MM

open Real QuadFl MovesFl

namespace Scaling

/-- The calls of the model of the mesh (`Model/Mesh.lean`) in exact arithmetic. -/
lemma run_id (a : ℝ) (h : 0 < a) (m : Mesh ℝ) : (Scaling.all a).run id m = some (m.scaleBy a) ∧
    (Scaling.alongX a).run id m = some (m.scaleXBy a) ∧ (Scaling.alongY a).run id m = some (m.scaleYBy a) ∧
    (Scaling.alongZ a).run id m = some (m.scaleZBy a) := by
  simp only [run, alpha, h, if_true, Mesh.scaleBy, Mesh.scaleXBy, Mesh.scaleYBy, Mesh.scaleZBy]
  refine ⟨?_, ?_, ?_, ?_⟩ <;> congr 2 <;> funext v <;> ext <;> simp [row, mul_comm]

lemma runAll_eq (rnd : ℝ → ℝ) (l : List (Scaling ℝ)) : ∀ m : Mesh ℝ, runAll rnd l m =
    if ∀ s ∈ l, 0 < s.alpha then some (m.mapVertices fun v => l.foldl (fun v s => s.row rnd v) v) else none := by
  classical
  induction l with
  | nil =>
    intro m
    simp only [runAll, List.foldlM_nil, List.not_mem_nil, false_imp_iff, implies_true, if_true, List.foldl_nil]
    show some m = _
    rw [Mesh.mapVertices, List.map_id']
  | cons s l ih =>
    intro m
    show ((s.run rnd m).bind fun m => runAll rnd l m) = _
    unfold run
    by_cases h : 0 < s.alpha
    · rw [if_pos h, Option.bind_some, ih, mapVertices_mapVertices]
      simp [h]
      rfl
    · rw [if_neg h, Option.bind_none, if_neg (fun h' => h (h' s List.mem_cons_self))]

lemma foldl_id (l : List (Scaling ℝ)) : ∀ v : V3 ℝ, l.foldl (fun v s => s.row id v) v = (factors l).stretch v := by
  induction l with
  | nil => intro v; simp [factors, V3.stretch]
  | cons s l ih =>
    intro v
    rw [List.foldl_cons, ih]
    cases s <;> ext <;> simp [factors, V3.stretch, row, factors1] <;> ring

lemma factors_pos {l : List (Scaling ℝ)} (h : ∀ s ∈ l, 0 < s.alpha) : 0 < (factors l).x ∧ 0 < (factors l).y ∧ 0 < (factors l).z := by
  have key : ∀ s ∈ l, 0 < s.factors1.x ∧ 0 < s.factors1.y ∧ 0 < s.factors1.z := by
    intro s hs
    have := h s hs
    cases s <;> simpa [factors1, alpha] using this
  refine ⟨?_, ?_, ?_⟩ <;> refine List.prod_pos ?_ <;> intro x hx <;> obtain ⟨s, hs, rfl⟩ := List.mem_map.1 hx
  · exact (key s hs).1
  · exact (key s hs).2.1
  · exact (key s hs).2.2

lemma step1 {u : ℝ} (hu : 0 ≤ u) {rnd : ℝ → ℝ} (hr : IsRounding u rnd) {n : ℕ} {x x' : ℝ} (h : |x' - x| ≤ ((1 + u) ^ n - 1) * |x|) (a : ℝ) :
    |rnd (x' * a) - x * a| ≤ ((1 + u) ^ (n + 1) - 1) * |x * a| := by
  have r := hr.near (x' * a)
  have p : 1 ≤ (1 + u) ^ n := one_le_pow₀ (by linarith)
  have b : |x'| ≤ (1 + u) ^ n * |x| := by
    have := abs_add_le (x' - x) x
    rw [sub_add_cancel] at this
    linarith
  have t := abs_add_le (rnd (x' * a) - x' * a) ((x' - x) * a)
  rw [show rnd (x' * a) - x' * a + (x' - x) * a = rnd (x' * a) - x * a by ring] at t
  rw [abs_mul] at t r ⊢
  have c1 : |x'| * |a| ≤ (1 + u) ^ n * |x| * |a| := mul_le_mul_of_nonneg_right b (abs_nonneg a)
  have c2 : |x' - x| * |a| ≤ ((1 + u) ^ n - 1) * |x| * |a| := mul_le_mul_of_nonneg_right h (abs_nonneg a)
  have c3 := mul_le_mul_of_nonneg_left c1 hu
  rw [pow_succ]
  nlinarith

lemma step0 {u : ℝ} (hu : 0 ≤ u) {n : ℕ} {x x' : ℝ} (h : |x' - x| ≤ ((1 + u) ^ n - 1) * |x|) : |x' - x| ≤ ((1 + u) ^ (n + 1) - 1) * |x| := by
  refine h.trans (mul_le_mul_of_nonneg_right ?_ (abs_nonneg x))
  have : (1 + u) ^ n ≤ (1 + u) ^ (n + 1) := pow_le_pow_right₀ (by linarith) (Nat.le_succ n)
  linarith

lemma foldl_near {u : ℝ} (hu : 0 ≤ u) {rnd : ℝ → ℝ} (hr : IsRounding u rnd) (l : List (Scaling ℝ)) : ∀ (n : ℕ) (v w : V3 ℝ),
    (∀ k, |w.coord k - v.coord k| ≤ ((1 + u) ^ n - 1) * |v.coord k|) →
    ∀ k, |(l.foldl (fun v s => s.row rnd v) w).coord k - (l.foldl (fun v s => s.row id v) v).coord k| ≤
      ((1 + u) ^ (n + l.length) - 1) * |(l.foldl (fun v s => s.row id v) v).coord k| := by
  induction l with
  | nil => intro n v w h; exact h
  | cons s l ih =>
    intro n v w h
    rw [List.length_cons, Nat.add_comm l.length 1, ← Nat.add_assoc]
    refine ih (n + 1) _ _ ?_
    have hx := h 0
    have hy := h 1
    have hz := h 2
    intro k
    cases s <;> fin_cases k <;> first
      | exact step1 hu hr hx _
      | exact step1 hu hr hy _
      | exact step1 hu hr hz _
      | exact step0 hu hx
      | exact step0 hu hy
      | exact step0 hu hz

end Scaling

open Scaling

/-- **C147 (errors).** A sequence of scalings succeeds exactly when all the factors are positive. -/
theorem C147_defined (rnd : ℝ → ℝ) (l : List (Scaling ℝ)) (m : Mesh ℝ) : (∃ m', runAll rnd l m = some m') ↔ ∀ s ∈ l, 0 < s.alpha := by
  rw [runAll_eq]
  split_ifs with h
  · exact ⟨fun _ => h, fun _ => ⟨_, rfl⟩⟩
  · simp [h]

/-- **C147 (positions).** After any sequence of scalings in floating point, each coordinate is that of the vertex times the factors along this
axis, with a relative error at most `(1 + u) ^ n - 1`, `n` being the number of scalings; the faces are unchanged. -/
theorem C147_positions (u : ℝ) (hu : 0 ≤ u) (rnd : ℝ → ℝ) (hr : IsRounding u rnd) (l : List (Scaling ℝ)) (m m' : Mesh ℝ)
    (h : runAll rnd l m = some m') :
    m'.faces = m.faces ∧ List.Forall₂ (fun v w : V3 ℝ => ∀ k, |w.coord k - ((factors l).stretch v).coord k| ≤
      ((1 + u) ^ l.length - 1) * |((factors l).stretch v).coord k|) m.vertices m'.vertices := by
  rw [runAll_eq] at h
  split_ifs at h with hp
  cases h
  refine ⟨rfl, ?_⟩
  show List.Forall₂ _ m.vertices (m.vertices.map _)
  rw [List.forall₂_map_right_iff, List.forall₂_same]
  intro v _ k
  have := foldl_near hu hr l 0 v v (fun k => by simp) k
  rw [foldl_id, Nat.zero_add] at this
  exact this

/-! ### Exact scalings -/

lemma areaVec_stretch (f p q r : V3 ℝ) : areaVec (f.stretch p) (f.stretch q) (f.stretch r) =
    (⟨f.y * f.z, f.x * f.z, f.x * f.y⟩ : V3 ℝ).stretch (areaVec p q r) := by
  unfold areaVec V3.stretch
  ext <;> simp [V3.cross] <;> ring

lemma stretch_smul (f v : V3 ℝ) (a : ℝ) : f.stretch (a • v) = a • f.stretch v := by
  unfold V3.stretch
  ext <;> simp <;> ring

lemma stretch_ne {f v : V3 ℝ} (hf : 0 < f.x ∧ 0 < f.y ∧ 0 < f.z) (h : v ≠ 0) : f.stretch v ≠ 0 := by
  intro h'
  apply h
  have hx := congrArg V3.x h'
  have hy := congrArg V3.y h'
  have hz := congrArg V3.z h'
  simp only [V3.stretch, V3.zero_x, V3.zero_y, V3.zero_z, mul_eq_zero, hf.1.ne', hf.2.1.ne', hf.2.2.ne', false_or] at hx hy hz
  exact V3.ext hx hy hz

lemma stretched (f : V3 ℝ) (hf : 0 < f.x ∧ 0 < f.y ∧ 0 < f.z) (m : Mesh ℝ) (hwf : m.WF) (hflat : m.FlatFaces) :
    (m.mapVertices f.stretch).FlatFaces ∧ (m.mapVertices f.stretch).signedVolume = f.x * f.y * f.z * m.signedVolume := by
  have hf' : 0 < f.y * f.z ∧ 0 < f.x * f.z ∧ 0 < f.x * f.y := ⟨mul_pos hf.2.1 hf.2.2, mul_pos hf.1 hf.2.2, mul_pos hf.1 hf.2.1⟩
  constructor
  · intro g hg
    obtain ⟨ha, hb, hc, hd⟩ := hwf.corner (f := g) hg
    have := hflat g hg
    simp only [vert_mapVertices m _ _ ha, vert_mapVertices m _ _ hb, vert_mapVertices m _ _ hc, vert_mapVertices m _ _ hd, FlatQuad,
      areaVec_stretch]
    split_ifs at this ⊢ with ht
    · exact stretch_ne hf' this
    · obtain ⟨n, α, β, h1, h2, h3, hn, e1, e2⟩ := this
      exact ⟨_, α, β, h1, h2, h3, stretch_ne hf' hn, by rw [e1, stretch_smul], by rw [e2, stretch_smul]⟩
  · unfold Mesh.signedVolume
    rw [← List.sum_map_mul_left]
    show (m.faces.map _).sum = _
    congr 1
    apply List.map_congr_left
    intro g hg
    obtain ⟨ha, hb, hc, hd⟩ := hwf.corner (f := g) hg
    simp only [Mesh.faceSignedVolume, tetVol, vert_mapVertices m _ _ ha, vert_mapVertices m _ _ hb, vert_mapVertices m _ _ hc,
      vert_mapVertices m _ _ hd, V3.stretch, V3.dot, V3.cross]
    split_ifs <;> ring

/-- **C147 (exact volume).** In exact arithmetic, scalings multiply the volume by the product of the factors along the three axes. -/
theorem C147_exact_volume (l : List (Scaling ℝ)) (m m' : Mesh ℝ) (h : runAll id l m = some m') (hwf : m.WF) (hflat : m.FlatFaces) :
    m'.volume = (factors l).x * (factors l).y * (factors l).z * m.volume := by
  rw [runAll_eq] at h
  split_ifs at h with hp
  cases h
  rw [show (fun v : V3 ℝ => l.foldl (fun v s => s.row id v) v) = (factors l).stretch from funext (foldl_id l)]
  obtain ⟨h1, h2⟩ := stretched _ (factors_pos hp) m hwf hflat
  rw [volume_eq_signedVolume _ h1, h2, volume_eq_signedVolume _ hflat]

/-! ### Volume in floating point -/

/-- **C147 (volume).** The volume computed in floating point after any sequence of scalings in floating point is the volume times the product of
the factors along the three axes, up to `F R³ (357 ε + 11 ((1 + u) ^ (3 F + 1) - 1))`: `F` is the number of faces, `R` bounds the scaled
coordinates, and no scaled face is so small that its normal is lost. -/
theorem C147_volume (u g ε R : ℝ) (hu0 : 0 ≤ u) (hu : u ≤ ε) (hg : g ≤ ε) (h1 : ε ≤ 1 / 100) (hR : 0 ≤ R) (rnd : ℝ → ℝ)
    (hr : IsRounding u rnd) (nrm : V3 ℝ → ℝ) (hnrm : ∀ v, |nrm v - v.norm| ≤ g * v.norm) (l : List (Scaling ℝ)) (m m' : Mesh ℝ)
    (h : runAll rnd l m = some m') (hε : (1 + u) ^ l.length - 1 ≤ ε)
    (hb : ∀ v ∈ m.vertices, ∀ k, |((factors l).stretch v).coord k| ≤ R) (hwf : m.WF) (hflat : m.FlatFaces)
    (hA : ∀ f ∈ m.faces, 104 * (ε * R ^ 2) < ((m.mapVertices (factors l).stretch).twiceArea f).norm) (V : ℝ)
    (hV : m'.VolumeAllFl rnd nrm V) :
    |V - (factors l).x * (factors l).y * (factors l).z * m.volume| ≤
      m.faces.length * R ^ 3 * (357 * ε + 11 * ((1 + u) ^ (3 * m.faces.length + 1) - 1)) := by
  obtain ⟨hf, hp⟩ := C147_positions u hu0 rnd hr l m m' h
  have pos := (C147_defined rnd l m).1 ⟨m', h⟩
  obtain ⟨k1, k2⟩ := stretched _ (factors_pos pos) m hwf hflat
  have hb' : ∀ v ∈ (m.mapVertices (factors l).stretch).vertices, ∀ k, |v.coord k| ≤ R := by
    intro v hv
    obtain ⟨w, hw, rfl⟩ := List.mem_map.1 hv
    exact hb w hw
  have hv : List.Forall₂ (V3.Close (ε * R)) (m.mapVertices (factors l).stretch).vertices m'.vertices := by
    show List.Forall₂ _ (m.vertices.map _) _
    rw [List.forall₂_map_left_iff]
    have hp' := (List.forall₂_and_left _ _).2 ⟨fun v hv => hb v hv, hp⟩
    refine hp'.imp ?_
    rintro v w ⟨b, c⟩
    have key : ∀ k, |((factors l).stretch v).coord k - w.coord k| ≤ ε * R := fun k => by
      rw [abs_sub_comm]
      exact (c k).trans (mul_le_mul hε (b k) (abs_nonneg _) (hu0.trans hu))
    exact ⟨key 0, key 1, key 2⟩
  have := C129_volume u ε g R hu0 hu h1 hR rnd hr hg nrm hnrm (m.mapVertices (factors l).stretch) m' k1 hf hv hb' (by
      intro f hf'
      rw [hf] at hf'
      exact cross_ne_zero hr hu (hu0.trans hu) h1 hR hg hnrm hv hb' (hA f hf')) V hV
  rw [k2, ← volume_eq_signedVolume _ hflat] at this
  exact this

/-! ### A case -/

/-- Three scalings. -/
noncomputable def cubeScalings : List (Scaling ℝ) := [.all 2, .alongZ (1 / 3), .alongX 5]

/-- The hypotheses of C147 are met by the cube with three scalings: the computed volume is `10 * 2 * (2 / 3)` up to `10⁻⁵`. -/
theorem cube_meets_C147 : ∃ m', runAll (topRound (1 / 2 ^ 53)) cubeScalings (cubeMesh ℝ) = some m' ∧
    (∃ V, m'.VolumeAllFl (topRound (1 / 2 ^ 53)) V3.norm V) ∧
    ∀ V, m'.VolumeAllFl (topRound (1 / 2 ^ 53)) V3.norm V → |V - 40 / 3| ≤ 1 / 10 ^ 5 := by
  have hu : (0 : ℝ) ≤ 1 / 2 ^ 53 := by norm_num
  have hr := topRound_isRounding hu
  obtain ⟨m', hm⟩ := (C147_defined (topRound (1 / 2 ^ 53)) cubeScalings (cubeMesh ℝ)).2 (by
    intro s hs
    simp only [cubeScalings, List.mem_cons, List.not_mem_nil, or_false] at hs
    rcases hs with rfl | rfl | rfl <;> norm_num [alpha])
  have hF : factors cubeScalings = ⟨10, 2, 2 / 3⟩ := by
    ext <;> norm_num [factors, cubeScalings, factors1]
  refine ⟨m', hm, ?_, ?_⟩
  · obtain ⟨s, hs⟩ := SumFl.exists (topRound (1 / 2 ^ 53))
      ((m'.faces.map (m'.face0Fl (topRound (1 / 2 ^ 53)) V3.norm)).flatMap (fun t => [t.x, t.y, t.z]))
    exact ⟨_, s, hs, rfl⟩
  · intro V hV
    have := C147_volume (1 / 2 ^ 53) 0 (1 / 10 ^ 12) 10 hu (by norm_num) (by norm_num) (by norm_num) (by norm_num) _ hr V3.norm (by simp)
      cubeScalings (cubeMesh ℝ) m' hm (by norm_num [cubeScalings]) (by
        intro v hv k
        rw [hF]
        simp only [cubeMesh, List.mem_cons, List.not_mem_nil, or_false] at hv
        rcases hv with rfl | rfl | rfl | rfl | rfl | rfl | rfl | rfl <;> fin_cases k <;> norm_num [V3.coord, V3.stretch, abs_of_pos])
      (cubeMesh_wf ℝ) cubeMesh_convex.flat (by
        intro f hf
        rw [hF]
        have key : ∀ w : V3 ℝ, (1 ≤ |w.x| ∨ 1 ≤ |w.y| ∨ 1 ≤ |w.z|) → 104 * (1 / 10 ^ 12 * 10 ^ 2) < w.norm := by
          intro w hw
          obtain ⟨x, y, z⟩ := coord_le_norm w
          have : (1 : ℝ) ≤ w.norm := by
            rcases hw with h | h | h
            · exact h.trans x
            · exact h.trans y
            · exact h.trans z
          refine lt_of_lt_of_le (by norm_num) this
        apply key
        simp only [cubeMesh, cubeFaces, List.mem_cons, List.not_mem_nil, or_false] at hf
        rcases hf with rfl | rfl | rfl | rfl | rfl | rfl | rfl <;>
          norm_num [Mesh.twiceArea, cubeMesh, Mesh.vert, V3.cross, Mesh.mapVertices, V3.stretch, abs_of_pos]) V hV
    rw [hF, volume_eq_signedVolume _ cubeMesh_convex.flat, cubeMesh_volume] at this
    norm_num [cubeMesh, cubeFaces] at this ⊢
    linarith

end MM
