import Verif.Proofs.WaterplaneFl
import Verif.Props.VolumeQuadFl
import Verif.Props.InertiaQuadFl

/-!
# Area and moments of the waterplane in floating point (C137)
-/

namespace MM
namespace Hydro
open QuadFl Clipper

variable {u ε R : ℝ} {rnd : ℝ → ℝ}

lemma div_total (hu0 : 0 ≤ u) (hr : IsRounding u rnd) {n : ℕ} {A B x y z D q : ℝ} (hq : 0 < q) (h : Err u n A x y) (hA : A ≤ B)
    (hy : |y - z| ≤ D) : |rnd (x / q) - z / q| ≤ D / q + ((1 + u) ^ (n + 1) - 1) * (B / q) := by
  refine err_total hu0 ((h.div hq).round hu0 hr) (div_le_div_of_nonneg_right hA hq.le) ?_
  rw [← sub_div, abs_div, abs_of_pos hq]
  exact div_le_div_of_nonneg_right hy hq.le

/-- **C137.** The six line sums of the waterplane computed in floating point, for polygons given by their vertices within `ε R`, with
coordinates at most `R`. `n` is the number of sides. -/
theorem C137_line_sums (u ε R : ℝ) (hu0 : 0 ≤ u) (hu : u ≤ ε) (h1 : ε ≤ 1 / 100) (hR : 0 ≤ R) (rnd : ℝ → ℝ) (hr : IsRounding u rnd)
    (polys polys' : List (List (ℝ × ℝ)))
    (hv : List.Forall₂ (List.Forall₂ (fun a a' => (|a'.1 - a.1| ≤ ε * R ∧ |a'.2 - a.2| ≤ ε * R) ∧ |a.1| ≤ R ∧ |a.2| ≤ R)) polys polys') :
    let n := (polys.flatMap chainPairs).length
    let s := sigmas polys
    let s' := sigmasFl rnd polys'
    let ρ := (1 + u) ^ (n + 1) - 1
    |s'.s0 - s.s0| ≤ n * R ^ 2 * (11 * ε + 3 * ρ) ∧
    |s'.s1 - s.s1| ≤ n * R ^ 3 * (16 * ε + 2 * ρ) ∧ |s'.s2 - s.s2| ≤ n * R ^ 3 * (16 * ε + 2 * ρ) ∧
    |s'.s3 - s.s3| ≤ n * R ^ 4 * (12 * ε + ρ) ∧
    |s'.s4 - s.s4| ≤ n * R ^ 4 * (8 * ε + ρ) ∧ |s'.s5 - s.s5| ≤ n * R ^ 4 * (8 * ε + ρ) := by
  intro n s s' ρ
  have h0 : 0 ≤ ε := hu0.trans hu
  have hv' : List.Forall₂ (List.Forall₂ (PtNear ε R)) polys polys' := by
    refine hv.imp (fun _ _ h => h.imp (fun a b h => ?_))
    exact ⟨⟨by rw [one_mul]; exact h.1.1, by rw [one_mul]; exact h.2.1⟩, ⟨by rw [one_mul]; exact h.1.2, by rw [one_mul]; exact h.2.2⟩⟩
  have hl := flat_near hv'
  have sn := fun (e e' : (ℝ × ℝ) × (ℝ × ℝ)) (h : PtNear ε R e.1 e'.1 ∧ PtNear ε R e.2 e'.2) => side_near hr hu h0 h1 hR h
  have ρ0 : 0 ≤ ρ := pow_sub_nonneg hu0 _
  have n0 : (0 : ℝ) ≤ n := Nat.cast_nonneg _
  have e2 : 0 ≤ n * (ε * R ^ 2) := by positivity
  have e3 : 0 ≤ n * (ε * R ^ 3) := by positivity
  have e4 : 0 ≤ n * (ε * R ^ 4) := by positivity
  have f2 : 0 ≤ ρ * (n * R ^ 2) := by positivity
  have f3 : 0 ≤ ρ * (n * R ^ 3) := by positivity
  have f4 : 0 ≤ ρ * (n * R ^ 4) := by positivity
  have key : ∀ (c : Sigmas ℝ → ℝ) (a k X q : ℝ), 0 ≤ a → 0 ≤ X → 0 < q → c ⟨0, 0, 0, 0, 0, 0⟩ = 0 →
      (∀ s t : Sigmas ℝ, c (s.plus t) = c s + c t) →
      (∀ (s : Sigmas ℝ) a b, c (s.stepFl rnd a b) = rnd (c s + c (sideFl rnd (a, b)))) →
      (∀ e e' : (ℝ × ℝ) × (ℝ × ℝ), PtNear ε R e.1 e'.1 ∧ PtNear ε R e.2 e'.2 → Ap ε a k X (c (sideFl rnd e')) (c (side e.1 e.2))) →
      |rnd (c (polys'.foldl (Sigmas.polyFl rnd) ⟨0, 0, 0, 0, 0, 0⟩) / q) - c (polys.foldl Sigmas.poly ⟨0, 0, 0, 0, 0, 0⟩) / q| ≤
        n * (a * (ε * X)) / q + ρ * (n * ((k + a / 100) * X) / q) := by
    intro c a k X q ha hX hq c0 c1 c2 h
    rw [polysFl_eq _ _ c c2, polys_flat _ c c0 c1, c0]
    obtain ⟨A, y, E, hA, hy⟩ := loop_near hu0 hr hl h1 ha hX h
    exact div_total hu0 hr hq E hA hy
  have neg : ∀ x q : ℝ, rnd (x / -q) = -rnd (x / q) := by intro x q; rw [div_neg, hr.odd]
  refine ⟨?_, ?_, ?_, ?_, ?_, ?_⟩
  · refine (key Sigmas.s0 21 4 (R * R) 2 (by norm_num) (by positivity) (by norm_num) rfl (fun _ _ => rfl) (fun _ _ _ => rfl)
      (fun e e' h => (sn e e' h).1)).trans ?_
    linarith
  · refine (key Sigmas.s1 93 10 (R * (R * R)) 6 (by norm_num) (by positivity) (by norm_num) rfl (fun _ _ => rfl) (fun _ _ _ => rfl)
      (fun e e' h => (sn e e' h).2.1)).trans ?_
    linarith
  · have k := key Sigmas.s2 93 10 (R * (R * R)) 6 (by norm_num) (by positivity) (by norm_num) rfl (fun _ _ => rfl) (fun _ _ _ => rfl)
      (fun e e' h => (sn e e' h).2.2.1)
    have e : ∀ x y : ℝ, |rnd (x / -6) - y / -6| = |rnd (x / 6) - y / 6| := by
      intro x y; rw [neg, div_neg, neg_sub_neg, abs_sub_comm]
    refine (le_of_eq (e _ _)).trans (k.trans ?_)
    linarith
  · refine (key Sigmas.s3 268 20 (R * (R * (R * R))) 24 (by norm_num) (by positivity) (by norm_num) rfl (fun _ _ => rfl)
      (fun _ _ _ => rfl) (fun e e' h => (sn e e' h).2.2.2.1)).trans ?_
    linarith
  · refine (key Sigmas.s4 86 8 (R * (R * (R * R))) 12 (by norm_num) (by positivity) (by norm_num) rfl (fun _ _ => rfl)
      (fun _ _ _ => rfl) (fun e e' h => (sn e e' h).2.2.2.2.1)).trans ?_
    linarith
  · have k := key Sigmas.s5 86 8 (R * (R * (R * R))) 12 (by norm_num) (by positivity) (by norm_num) rfl (fun _ _ => rfl)
      (fun _ _ _ => rfl) (fun e e' h => (sn e e' h).2.2.2.2.2)
    have e : ∀ x y : ℝ, |rnd (x / -12) - y / -12| = |rnd (x / 12) - y / 12| := by
      intro x y; rw [neg, div_neg, neg_sub_neg, abs_sub_comm]
    refine (le_of_eq (e _ _)).trans (k.trans ?_)
    linarith

/-- **C137.** For closed polygons, against the integrals of `1`, `x`, `y`, `x²` and `y²` over them. -/
theorem C137_moments (u ε R : ℝ) (hu0 : 0 ≤ u) (hu : u ≤ ε) (h1 : ε ≤ 1 / 100) (hR : 0 ≤ R) (rnd : ℝ → ℝ) (hr : IsRounding u rnd)
    (polys polys' : List (List (ℝ × ℝ)))
    (hv : List.Forall₂ (List.Forall₂ (fun a a' => (|a'.1 - a.1| ≤ ε * R ∧ |a'.2 - a.2| ≤ ε * R) ∧ |a.1| ≤ R ∧ |a.2| ≤ R)) polys polys')
    (hc : ∀ l ∈ polys, ClosedPolygon l) (o : ℝ × ℝ) :
    let n := (polys.flatMap chainPairs).length
    let plane := fun g => polygonsIntegral g o polys
    let s' := sigmasFl rnd polys'
    let ρ := (1 + u) ^ (n + 1) - 1
    |s'.s0 - plane (fun _ _ => 1)| ≤ n * R ^ 2 * (11 * ε + 3 * ρ) ∧
    |s'.s1 - plane (fun x _ => x)| ≤ n * R ^ 3 * (16 * ε + 2 * ρ) ∧
    |s'.s2 - plane (fun _ y => y)| ≤ n * R ^ 3 * (16 * ε + 2 * ρ) ∧
    |s'.s4 - plane (fun x _ => x * x)| ≤ n * R ^ 4 * (8 * ε + ρ) ∧
    |s'.s5 - plane (fun _ y => y * y)| ≤ n * R ^ 4 * (8 * ε + ρ) := by
  obtain ⟨a0, a1, a2, -, a4, a5⟩ := C137_line_sums u ε R hu0 hu h1 hR rnd hr polys polys' hv
  obtain ⟨b0, b1, b2, b4, b5⟩ := C46_waterplane_moments_partial polys hc o
  simp only [b0, b1, b2, b4, b5] at a0 a1 a2 a4 a5
  exact ⟨a0, a1, a2, a4, a5⟩

lemma polyVerts_near {a b : Mesh ℝ} (hR : 0 ≤ R) (h0 : 0 ≤ ε) (hv : List.Forall₂ (V3.Close (ε * R)) a.vertices b.vertices)
    (hb : ∀ v ∈ a.vertices, ∀ k, |v.coord k| ≤ R) (ls : List (List ℕ)) :
    List.Forall₂ (List.Forall₂ (fun p p' : ℝ × ℝ => (|p'.1 - p.1| ≤ ε * R ∧ |p'.2 - p.2| ≤ ε * R) ∧ |p.1| ≤ R ∧ |p.2| ≤ R))
      (polyVerts a ls false 0) (polyVerts b ls false 0) := by
  have n := Clipper.vert_near hR (by positivity) hv hb
  unfold polyVerts
  rw [List.forall₂_map_left_iff, List.forall₂_map_right_iff]
  refine List.forall₂_same.2 (fun l _ => ?_)
  rw [List.forall₂_map_left_iff, List.forall₂_map_right_iff]
  refine List.forall₂_same.2 (fun i _ => ?_)
  obtain ⟨h1, h2⟩ := n i
  exact ⟨⟨by rw [abs_sub_comm]; exact h2.1, by rw [abs_sub_comm]; exact h2.2.1⟩, h1 0, h1 1⟩

/-- **C137.** Waterplane of a mesh clipped in floating point (`compute_hydrostatics` without `at_cog`): the polygons are the same as in an exact
run, and the area and the moments computed in floating point are those of the exact run up to an error that tends to 0 with `ε`. -/
theorem C137_waterplane (u g : ℝ) (hu : 0 ≤ u) (hu1 : u < 1) (rnd : ℝ → ℝ) (hr : IsRounding u rnd) (hone : rnd 1 = 1)
    (hidem : ∀ a ∈ [1 / 100000, 1 / 100000000], rnd (rnd a) = rnd a) (dot dot' : V3 ℝ → V3 ℝ → ℝ) (hd : IsDot g dot) (hd' : IsDot g dot') (hg : 0 ≤ g)
    (srt srt' : (ℕ → ℝ) → List ℕ → List ℕ) (hsrt : IsArgsort srt) (hsrt' : IsArgsort srt') (p : Plane ℝ) (tol B R e : ℝ)
    (htol0 : 0 < tol) (htol : 2 * g * (1 + u) * B ≤ tol) (b : Bool) (m : Mesh ℝ) (hwf : m.WF)
    (hclear : ∀ v ∈ m.vertices,
      g * absDot v p.normal + u * (|p.dist v| + g * absDot v p.normal) < |p.dist v - tol| ∧
      g * absDot v p.normal + u * (|p.dist v| + g * absDot v p.normal) < |p.dist v + tol|)
    (hB : ∀ v ∈ m.vertices, absDot v p.normal + |p.c| ≤ B) (hR : ∀ v ∈ m.vertices, ∀ k, |v.coord k| ≤ R)
    (he0 : 0 ≤ e) (he : (g + ((1 + u) ^ 2 / (1 - u) - 1) * (1 + 3 * g)) * B / tol * R + ((1 + u) ^ 3 - 1) * R ≤ e)
    (hsep : m.TolSeparated p tol)
    (hgap : ∀ X Y, m.TolClipPoint p tol X → m.TolClipPoint p tol Y → ∀ a ∈ [1 / 100000, 1 / 100000000], ∀ k,
      |X.coord k - Y.coord k| + 2 * e ≤ (1 - u) * a ∨ (1 + u) / (1 - u) * a + 2 * e < |X.coord k - Y.coord k|)
    (hR0 : 0 ≤ R) (c : Clipped ℝ) (hc : clip srt p tol b m = .ok c)
    (ε : ℝ) (huε : u ≤ ε) (h1 : ε ≤ 1 / 100) (heε : e ≤ ε * R) :
    ∃ c', clipFl rnd dot dot' srt' p tol b m = .ok c' ∧ c'.closedPolygons = c.closedPolygons ∧
      let polys := polyVerts c.clippedCrown c.closedPolygons false 0
      let n := (polys.flatMap chainPairs).length
      let s := sigmas polys
      let s' := sigmasFl rnd (polyVerts c'.clippedCrown c'.closedPolygons false 0)
      let ρ := (1 + u) ^ (n + 1) - 1
      |s'.s0 - s.s0| ≤ n * R ^ 2 * (11 * ε + 3 * ρ) ∧
      |s'.s1 - s.s1| ≤ n * R ^ 3 * (16 * ε + 2 * ρ) ∧ |s'.s2 - s.s2| ≤ n * R ^ 3 * (16 * ε + 2 * ρ) ∧
      |s'.s3 - s.s3| ≤ n * R ^ 4 * (12 * ε + ρ) ∧
      |s'.s4 - s.s4| ≤ n * R ^ 4 * (8 * ε + ρ) ∧ |s'.s5 - s.s5| ≤ n * R ^ 4 * (8 * ε + ρ) := by
  have hvm : ∀ f ∈ m.faces, ∀ i ∈ f.toList, m.vert i ∈ m.vertices := by
    intro f hf i hi
    have hi' : i < m.vertices.length := hwf f hf i hi
    simp [Mesh.vert, List.getD_eq_getElem?_getD, hi']
  rcases Clipper.clipFl_sim' u g hu hu1 rnd hr hone hidem dot dot' hd hd' hg srt srt' hsrt hsrt' p tol B R e htol0 htol b m hwf hclear
    hB hR he0 he hsep hgap with ⟨er, h1, h2⟩ | ⟨c1, c', h1', h2, h3, -, h4⟩
  · rw [h1] at hc
    cases hc
  · rw [h1'] at hc
    cases hc
    have hb : ∀ v ∈ c.clippedCrown.vertices, ∀ k, |v.coord k| ≤ R := by
      intro v hv
      rcases h4 v hv with h | ⟨x, hx, hs, rfl⟩
      · exact hR v h
      · obtain ⟨f, hf, hxf⟩ := List.mem_flatMap.1 hx
        have hm := hvm f hf
        exact Clipper.cutPt_coord_le htol0.le hs (hR _ (hm _ (edges_mem_toList hxf).1)) (hR _ (hm _ (edges_mem_toList hxf).2))
    have hv : List.Forall₂ (V3.Close (ε * R)) c.clippedCrown.vertices c'.clippedCrown.vertices :=
      h3.crownVerts.imp fun _ _ h => ⟨h.1.trans heε, h.2.1.trans heε, h.2.2.trans heε⟩
    refine ⟨c', h2, h3.closed, ?_⟩
    rw [h3.closed]
    exact C137_line_sums u ε R hu huε h1 hR0 rnd hr _ _ (polyVerts_near hR0 (hu.trans huε) hv hb _)

/-- The hypotheses of C137 are met by the half immersed cube, whose waterplane is computed within `10⁻⁹`. -/
theorem halfCube_meets_C137 :
    ∃ c', clipFl (topRound (1 / 2 ^ 53)) (dotFl (topRound (1 / 2 ^ 53))) (dotFma (topRound (1 / 2 ^ 53))) insArgsort
        ⟨⟨0, 0, 1⟩, 0⟩ (1 / 1000) true halfCube.real = .ok c' ∧
      let s := sigmasFl (topRound (1 / 2 ^ 53)) (polyVerts c'.clippedCrown c'.closedPolygons false 0)
      |s.s0 - 1| ≤ 1 / 10 ^ 9 ∧ |s.s1 - 1 / 2| ≤ 1 / 10 ^ 9 ∧ |s.s4 - 1 / 3| ≤ 1 / 10 ^ 9 := by
  obtain ⟨c, hc, -, -⟩ := halfCube_clip
  have hR := clip_real (by decide +kernel) hc
  have hu : (0 : ℝ) ≤ 1 / 2 ^ 53 := by norm_num
  have hr := topRound_isRounding hu
  have verts : ∀ v ∈ halfCube.real.vertices, (|v.x| ≤ 1 ∧ |v.y| ≤ 1) ∧ |v.z| = 1 / 2 := by
    have : ∀ v ∈ halfCube.vertices, (|v.x| ≤ 1 ∧ |v.y| ≤ 1) ∧ |v.z| = 1 / 2 := by decide +kernel
    intro v hv
    rw [Mesh.real_vertices, List.mem_map] at hv
    obtain ⟨w, hw, rfl⟩ := hv
    obtain ⟨⟨a, b⟩, c⟩ := this w hw
    refine ⟨⟨?_, ?_⟩, ?_⟩
    · show |(w.x : ℝ)| ≤ 1
      exact_mod_cast a
    · show |(w.y : ℝ)| ≤ 1
      exact_mod_cast b
    · have : ((|w.z| : ℚ) : ℝ) = ((1 / 2 : ℚ) : ℝ) := by rw [c]
      push_cast at this
      exact this
  have gap : ∀ X Y, halfCube.real.TolClipPoint ⟨⟨0, 0, 1⟩, 0⟩ (1 / 1000) X → halfCube.real.TolClipPoint ⟨⟨0, 0, 1⟩, 0⟩ (1 / 1000) Y →
      ∀ k, X.coord k = Y.coord k ∨ 1 / 2 ≤ |X.coord k - Y.coord k| := by
    intro X Y hX hY k
    obtain ⟨a, ha⟩ := halfCube_points hX k
    obtain ⟨b, hb⟩ := halfCube_points hY k
    rw [ha, hb]
    by_cases h : a = b
    · left; rw [h]
    · right
      rw [← sub_div, abs_div, abs_of_pos (by norm_num : (0 : ℝ) < 2)]
      have : (1 : ℤ) ≤ |a - b| := Int.one_le_abs (sub_ne_zero.2 h)
      have : (1 : ℝ) ≤ |(a : ℝ) - b| := by exact_mod_cast this
      linarith
  obtain ⟨c0, hc0, hw⟩ := Hydro.halfCube_waterline
  rw [hR] at hc0
  simp only [Except.ok.injEq] at hc0
  subst hc0
  have hpv : polyVerts (c.aff ratReal 0).clippedCrown (c.aff ratReal 0).closedPolygons false 0 = [[(1, 0), (1, 1), (0, 1), (0, 0), (1, 0)]] := by
    rw [polyVerts_eq, hw]; simp
  obtain ⟨c', h1, -, h2⟩ := C137_waterplane (1 / 2 ^ 53) ((1 + 1 / 2 ^ 53) ^ 3 - 1) hu (by norm_num) (topRound (1 / 2 ^ 53)) hr
    (by simp [topRound]) (by
      intro a ha
      have : |a| ≤ 1 := by
        rcases List.mem_cons.1 ha with rfl | ha
        · norm_num [abs_of_pos]
        · rw [List.mem_singleton.1 ha]; norm_num [abs_of_pos]
      simp [topRound, this]) (dotFl (topRound (1 / 2 ^ 53))) (dotFma (topRound (1 / 2 ^ 53))) (dotFl_isDot hr hu) (dotFma_isDot hr hu)
    (by norm_num) insArgsort insArgsort insArgsort_isArgsort insArgsort_isArgsort ⟨⟨0, 0, 1⟩, 0⟩ (1 / 1000) (1 / 2) 1 (1 / 10 ^ 12)
    (by norm_num) (by norm_num) true halfCube.real (Mesh.WF.real (by decide +kernel)) (by
      intro v hv
      have z := (verts v hv).2
      have d : (⟨⟨0, 0, 1⟩, 0⟩ : Plane ℝ).dist v = v.z := by simp [Plane.dist, V3.dot]
      have a : absDot v (⟨0, 0, 1⟩ : V3 ℝ) = 1 / 2 := by simp [absDot, z]
      rw [d, a, z]
      rcases abs_eq (by norm_num : (0 : ℝ) ≤ 1 / 2) |>.1 z with h | h <;> rw [h] <;> norm_num [abs_of_pos, abs_of_neg]) (by
      intro v hv
      have z := (verts v hv).2
      simp [absDot, z]) (by
      intro v hv k
      obtain ⟨⟨a, b⟩, c⟩ := verts v hv
      fin_cases k
      · exact a
      · exact b
      · show |v.z| ≤ 1
        rw [c]; norm_num) (by norm_num) (by norm_num) (by
      intro X Y hX hY hXY
      have k : ∀ k, |X.coord k - Y.coord k| ≤ 1 / 100000 → X.coord k = Y.coord k := by
        intro k h
        rcases gap X Y hX hY k with h' | h'
        · exact h'
        · exfalso; linarith [(by norm_num : (1 / 100000 : ℝ) < 1 / 2)]
      exact V3.ext (k 0 hXY.1) (k 1 hXY.2.1) (k 2 hXY.2.2)) (by
      intro X Y hX hY a ha k
      have a1 : 1 / 100000000 ≤ a ∧ a ≤ 1 / 100000 := by
        rcases List.mem_cons.1 ha with rfl | ha
        · norm_num
        · rw [List.mem_singleton.1 ha]; norm_num
      rcases gap X Y hX hY k with h | h
      · left
        rw [h, sub_self, abs_zero]
        have := mul_le_mul_of_nonneg_left a1.1 (by norm_num : (0 : ℝ) ≤ 1 - 1 / 2 ^ 53)
        refine le_trans ?_ this
        norm_num
      · right
        have := mul_le_mul_of_nonneg_left a1.2 (by norm_num : (0 : ℝ) ≤ (1 + 1 / 2 ^ 53) / (1 - 1 / 2 ^ 53))
        refine lt_of_lt_of_le (lt_of_le_of_lt (add_le_add_left this _) ?_) h
        norm_num) (by norm_num) _ hR (1 / 10 ^ 12) (by norm_num) (by norm_num) (by norm_num)
  refine ⟨c', h1, ?_⟩
  rw [hpv] at h2
  intro s
  obtain ⟨a0, a1, -, -, a4, -⟩ := h2
  have e0 : (sigmas [[((1 : ℝ), (0 : ℝ)), (1, 1), (0, 1), (0, 0), (1, 0)]]).s0 = 1 := by
    simp only [sigmas, List.foldl_cons, List.foldl_nil, Sigmas.poly, Sigmas.step, Sigmas.scale]; norm_num
  have e1 : (sigmas [[((1 : ℝ), (0 : ℝ)), (1, 1), (0, 1), (0, 0), (1, 0)]]).s1 = 1 / 2 := by
    simp only [sigmas, List.foldl_cons, List.foldl_nil, Sigmas.poly, Sigmas.step, Sigmas.scale]; norm_num
  have e4 : (sigmas [[((1 : ℝ), (0 : ℝ)), (1, 1), (0, 1), (0, 0), (1, 0)]]).s4 = 1 / 3 := by
    simp only [sigmas, List.foldl_cons, List.foldl_nil, Sigmas.poly, Sigmas.step, Sigmas.scale]; norm_num
  have en : (List.flatMap chainPairs [[((1 : ℝ), (0 : ℝ)), (1, 1), (0, 1), (0, 0), (1, 0)]]).length = 4 := rfl
  rw [e0, en] at a0
  rw [e1, en] at a1
  rw [e4, en] at a4
  refine ⟨a0.trans ?_, a1.trans ?_, a4.trans ?_⟩ <;> norm_num

end Hydro
end MM
