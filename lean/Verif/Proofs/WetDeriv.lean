import Verif.Proofs.Pressure
import Verif.Proofs.ClipSection
import Mathlib.Analysis.Calculus.ParametricIntegral
import Mathlib.MeasureTheory.Measure.Prod

/-!
# Derivative of the integrals over the part of a surface under `z = 0`
-/

namespace MM
namespace Clipper

open MeasureTheory Set

set_option linter.unusedSectionVars false
set_option linter.unusedSimpArgs false
set_option linter.unusedVariables false

/-- The height above `z = 0` after a small motion. -/
def zeta (c s : ℝ → ℝ) (w : ℝ × V3 ℝ) (θ : ℝ) (X : V3 ℝ) : ℝ := c θ * X.z + s θ * aff w X

/-- `c` and `s` are as `cos` and `sin`, or `1` and the identity. -/
structure SmallMotion (c s : ℝ → ℝ) : Prop where
  c0 : c 0 = 1
  s0 : s 0 = 0
  lipc : ∀ x y, |c x - c y| ≤ |x - y|
  lips : ∀ x y, |s x - s y| ≤ |x - y|
  dc : HasDerivAt c 0 0
  ds : HasDerivAt s 1 0

lemma planeCont_zeta (c s : ℝ → ℝ) (w l : ℝ × V3 ℝ) (θ : ℝ) : PlaneCont (fun X => min (zeta c s w θ X) 0 * aff l X) := by
  intro p q r
  simp only [zeta, aff, V3.dot, V3.add_x, V3.add_y, V3.add_z, V3.smul_x, V3.smul_y, V3.smul_z]
  fun_prop

lemma planeCont_bound (w l : ℝ × V3 ℝ) : PlaneCont (fun X => (|X.z| + |aff w X|) * |aff l X|) := by
  intro p q r
  simp only [zeta, aff, V3.dot, V3.add_x, V3.add_y, V3.add_z, V3.smul_x, V3.smul_y, V3.smul_z]
  fun_prop

lemma planeCont_mul (w l : ℝ × V3 ℝ) : PlaneCont (fun X => aff w X * aff l X) := by
  intro p q r
  simp only [zeta, aff, V3.dot, V3.add_x, V3.add_y, V3.add_z, V3.smul_x, V3.smul_y, V3.smul_z]
  fun_prop

/-- Integrand of the derivative. -/
noncomputable def wetMul (w l : ℝ × V3 ℝ) (X : V3 ℝ) : ℝ := if X.z < 0 then aff w X * aff l X else 0

lemma planeInt_wetMul (w l : ℝ × V3 ℝ) : PlaneInt (wetMul w l) := by
  intro p q r
  obtain ⟨h1, C, hC⟩ := (planeCont_mul w l).int p q r
  refine ⟨Measurable.ite (measurableSet_lt ?_ measurable_const) h1 measurable_const, C, ?_⟩
  · simp only [V3.add_z, V3.smul_z]; fun_prop
  · intro u v u0 u1 v0 v1
    have := hC u v u0 u1 v0 v1
    unfold wetMul
    split_ifs
    · exact this
    · rw [abs_zero]; exact le_trans (abs_nonneg _) this

lemma null_line {a b c : ℝ} (ha : ¬ (a = 0 ∧ b = 0 ∧ c = 0)) : volume {w : ℝ × ℝ | a + w.1 * b + w.2 * c = 0} = 0 := by
  have hm : MeasurableSet {w : ℝ × ℝ | a + w.1 * b + w.2 * c = 0} :=
    measurableSet_eq_fun (by fun_prop) measurable_const
  rw [Measure.volume_eq_prod, Measure.measure_prod_null hm]
  by_cases hc : c = 0
  · have h1 : volume ({-a / b} : Set ℝ) = 0 := by simp
    have h2 : ∀ᵐ u : ℝ, u ∉ ({-a / b} : Set ℝ) := measure_eq_zero_iff_ae_notMem.1 h1
    filter_upwards [h2] with u hu
    have : Prod.mk u ⁻¹' {w : ℝ × ℝ | a + w.1 * b + w.2 * c = 0} = ∅ := by
      ext v
      simp only [mem_preimage, mem_setOf_eq, mem_empty_iff_false, iff_false]
      intro h
      apply hu
      rw [hc, mul_zero, add_zero] at h
      have hb : b ≠ 0 := by rintro rfl; exact ha ⟨by linarith, rfl, hc⟩
      rw [mem_singleton_iff]; field_simp; linarith
    rw [this]; simp
  · filter_upwards with u
    have : Prod.mk u ⁻¹' {w : ℝ × ℝ | a + w.1 * b + w.2 * c = 0} ⊆ {-(a + u * b) / c} := by
      intro v hv
      simp only [mem_preimage, mem_setOf_eq] at hv
      rw [mem_singleton_iff]; field_simp; linarith
    exact measure_mono_null this (by simp)

/-- `min(ζ, 0)` at a point not at `z = 0`. -/
lemma hasDerivAt_min {c s : ℝ → ℝ} (h : SmallMotion c s) (w : ℝ × V3 ℝ) {X : V3 ℝ} (hX : X.z ≠ 0) :
    HasDerivAt (fun θ => min (zeta c s w θ X) 0) (if X.z < 0 then aff w X else 0) 0 := by
  have hd : HasDerivAt (fun θ => zeta c s w θ X) (aff w X) 0 := by
    have := (h.dc.mul_const X.z).add (h.ds.mul_const (aff w X))
    rw [zero_mul, one_mul, zero_add] at this
    exact this
  have h0 : zeta c s w 0 X = X.z := by simp [zeta, h.c0, h.s0]
  rcases lt_or_gt_of_ne hX with hz | hz
  · rw [if_pos hz]
    have : ∀ᶠ θ in nhds (0 : ℝ), zeta c s w θ X < 0 := hd.continuousAt.eventually_lt continuousAt_const (by rw [h0]; exact hz)
    refine hd.congr_of_eventuallyEq ?_
    filter_upwards [this] with θ hθ
    exact min_eq_left hθ.le
  · rw [if_neg (by linarith)]
    have : ∀ᶠ θ in nhds (0 : ℝ), 0 < zeta c s w θ X :=
      continuousAt_const.eventually_lt hd.continuousAt (by rw [h0]; exact hz)
    refine (hasDerivAt_const (0 : ℝ) (0 : ℝ)).congr_of_eventuallyEq ?_
    filter_upwards [this] with θ hθ
    exact min_eq_right hθ.le

/-- Derivative of the integral over a triangle. -/
lemma hasDerivAt_refInt {c s : ℝ → ℝ} (h : SmallMotion c s) (w l : ℝ × V3 ℝ) (p q r : V3 ℝ) (hp : p.z ≠ 0) :
    HasDerivAt (fun θ => refInt (fun X => min (zeta c s w θ X) 0 * aff l X) p q r) (refInt (wetMul w l) p q r) 0 := by
  have e : ∀ θ, refInt (fun X => min (zeta c s w θ X) 0 * aff l X) p q r = ∫ a in Ioc (0 : ℝ) 1 ×ˢ Ioc (0 : ℝ) 1,
      refFun (fun X => min (zeta c s w θ X) 0 * aff l X) p q r a := fun θ => refInt_set (planeCont_zeta c s w l θ).int p q r
  simp only [e]
  rw [refInt_set (planeInt_wetMul w l)]
  refine (hasDerivAt_integral_of_dominated_loc_of_lip (s := univ)
    (bound := refFun (fun X => (|X.z| + |aff w X|) * |aff l X|) p q r) Filter.univ_mem ?_ ?_ ?_ ?_ ?_ ?_).2
  · exact Filter.Eventually.of_forall fun θ => (refFun_measurable (planeCont_zeta c s w l θ).int p q r).aestronglyMeasurable
  · exact refFun_integrable (planeCont_zeta c s w l 0).int p q r
  · exact (refFun_measurable (planeInt_wetMul w l) p q r).aestronglyMeasurable
  · refine Filter.Eventually.of_forall fun a => ?_
    refine LipschitzOnWith.of_dist_le_mul fun x _ y _ => ?_
    rw [Real.coe_nnabs, Real.dist_eq, Real.dist_eq]
    refine le_trans ?_ (mul_le_mul_of_nonneg_right (le_abs_self _) (abs_nonneg _))
    unfold refFun
    split_ifs
    · generalize p + a.1 • (q - p) + a.2 • (r - p) = X
      rw [← sub_mul, abs_mul, mul_right_comm]
      refine mul_le_mul_of_nonneg_right ?_ (abs_nonneg _)
      refine le_trans (abs_min_sub_min_le_max _ _ _ _) ?_
      rw [sub_self, abs_zero]
      refine max_le ?_ (mul_nonneg (add_nonneg (abs_nonneg _) (abs_nonneg _)) (abs_nonneg _))
      have : zeta c s w x X - zeta c s w y X = (c x - c y) * X.z + (s x - s y) * aff w X := by unfold zeta; ring
      rw [this]
      refine le_trans (abs_add_le _ _) ?_
      rw [abs_mul, abs_mul]
      have h1 := mul_le_mul_of_nonneg_right (h.lipc x y) (abs_nonneg X.z)
      have h2 := mul_le_mul_of_nonneg_right (h.lips x y) (abs_nonneg (aff w X))
      nlinarith
    · simp
  · exact refFun_integrable (planeCont_bound w l).int p q r
  · have hn := null_line (b := q.z - p.z) (c := r.z - p.z) (fun h => hp h.1)
    have hn' := measure_eq_zero_iff_ae_notMem.1 hn
    refine ae_restrict_of_ae ?_
    filter_upwards [hn'] with a ha
    unfold refFun
    split_ifs
    · have hz : (p + a.1 • (q - p) + a.2 • (r - p)).z ≠ 0 := by simpa using ha
      generalize p + a.1 • (q - p) + a.2 • (r - p) = X at hz
      have := (hasDerivAt_min h w hz).mul_const (aff l X)
      have e : wetMul w l X = (if X.z < 0 then aff w X else 0) * aff l X := by
        unfold wetMul; split_ifs <;> ring
      rw [e]
      exact this
    · exact hasDerivAt_const _ _

/-! ## The derivative, from the clipped mesh -/

/-- Integral over the reference triangle of a product of affine functions. -/
noncomputable def affPoly (w l : ℝ × V3 ℝ) (p q r : V3 ℝ) : ℝ :=
  ((aff w p + aff w q + aff w r) * (aff l p + aff l q + aff l r) +
    (aff w p * aff l p + aff w q * aff l q + aff w r * aff l r)) / 24

/-- Flux of `W L k` through a triangle. -/
noncomputable def affFlux (k : V3 ℝ) (w l : ℝ × V3 ℝ) (p q r : V3 ℝ) : ℝ := (areaVec p q r).dot k * affPoly w l p q r

/-- Flux of `W L k` through the part of a triangle under `z = 0`. -/
noncomputable def wetAffFlux (k : V3 ℝ) (w l : ℝ × V3 ℝ) (p q r : V3 ℝ) : ℝ :=
  (areaVec p q r).dot k * refInt (wetMul w l) p q r

lemma refInt_aff (w l : ℝ × V3 ℝ) (p q r : V3 ℝ) : refInt (fun X => aff w X * aff l X) p q r = affPoly w l p q r := by
  have h : ∀ u v : ℝ, aff w (p + u • (q - p) + v • (r - p)) * aff l (p + u • (q - p) + v • (r - p)) =
      ((aff w p + u * (aff w q - aff w p) + v * (aff w r - aff w p)) *
        (aff l p + u * (aff l q - aff l p) + v * (aff l r - aff l p)) * (1 + u * (1 - 1) + v * (1 - 1))) := by
    intro u v
    simp only [aff, V3.dot, V3.add_x, V3.add_y, V3.add_z, V3.smul_x, V3.smul_y, V3.smul_z, V3.sub_x, V3.sub_y, V3.sub_z]
    ring
  unfold refInt
  simp only [h]
  rw [triangle_affine3]
  unfold affPoly
  ring

lemma affFlux_additive (k : V3 ℝ) (w l : ℝ × V3 ℝ) : PlaneAdditive (affFlux k w l) where
  anti o p q := by
    simp only [affFlux, affPoly, aff, areaVec, V3.dot, V3.cross, V3.sub_x, V3.sub_y, V3.sub_z]; ring
  degenerate o p q h := by simp [affFlux, h, V3.dot]
  fan o p q r h := by
    simp only [affFlux, affPoly, aff, areaVec, V3.dot, V3.cross, V3.sub_x, V3.sub_y, V3.sub_z] at *
    linear_combination (((k.x * l.2.x + k.y * l.2.y + k.z * l.2.z) * (4 * w.1 + w.2.x * (o.x + p.x + q.x + r.x) +
        w.2.y * (o.y + p.y + q.y + r.y) + w.2.z * (o.z + p.z + q.z + r.z)) +
      (k.x * w.2.x + k.y * w.2.y + k.z * w.2.z) * (4 * l.1 + l.2.x * (o.x + p.x + q.x + r.x) +
        l.2.y * (o.y + p.y + q.y + r.y) + l.2.z * (o.z + p.z + q.z + r.z))) / 24) * h

/-- Integral of the indicator: the side `z = 0` of a triangle under the plane does not count. -/
lemma refInt_below (w l : ℝ × V3 ℝ) {a b c : V3 ℝ} (ha : a.z ≤ 0) (hb : b.z ≤ 0) (hc : c.z ≤ 0)
    (h : a.z < 0) : refInt (wetMul w l) a b c = refInt (fun X => aff w X * aff l X) a b c := by
  rw [refInt_set (planeInt_wetMul w l), refInt_set (planeCont_mul w l).int]
  have hn' := measure_eq_zero_iff_ae_notMem.1 (null_line (b := b.z - a.z) (c := c.z - a.z) (fun h' => h.ne h'.1))
  apply setIntegral_congr_ae (measurableSet_Ioc.prod measurableSet_Ioc)
  filter_upwards [hn'] with x hx hm
  unfold refFun
  split_ifs with ht
  · have hz : (a + x.1 • (b - a) + x.2 • (c - a)).z ≠ 0 := by simpa using hx
    have hz' : (a + x.1 • (b - a) + x.2 • (c - a)).z ≤ 0 := by
      have e : (a + x.1 • (b - a) + x.2 • (c - a)).z = (1 - x.1 - x.2) * a.z + x.1 * b.z + x.2 * c.z := by simp; ring
      rw [e]
      have := mul_nonneg (by linarith : 0 ≤ 1 - x.1 - x.2) (neg_nonneg.2 ha)
      have := mul_nonneg hm.1.1.le (neg_nonneg.2 hb)
      have := mul_nonneg hm.2.1.le (neg_nonneg.2 hc)
      linarith
    unfold wetMul
    rw [if_pos (lt_of_le_of_ne hz' hz)]
  · rfl

lemma wetAffFlux_cutsOff (k : V3 ℝ) (w l : ℝ × V3 ℝ) : CutsOff waterplane (wetAffFlux k w l) (affFlux k w l) where
  cycle a b c := by
    have : areaVec a b c = areaVec b c a := by ext <;> simp [areaVec, V3.cross] <;> ring
    rw [wetAffFlux, wetAffFlux, this, refInt_cycle (planeInt_wetMul w l)]
  split a b c t t0 t1 := by
    have h1 : areaVec a b (a + t • (c - a)) = t • areaVec a b c := by ext <;> simp [areaVec, V3.cross] <;> ring
    have h2 : areaVec (a + t • (c - a)) b c = (1 - t) • areaVec a b c := by ext <;> simp [areaVec, V3.cross] <;> ring
    rw [wetAffFlux, wetAffFlux, wetAffFlux, h1, h2, refInt_split (planeInt_wetMul w l) a b c t0 t1]
    simp only [V3.dot, V3.smul_x, V3.smul_y, V3.smul_z]; ring
  above a b c ha hb hc := by
    rw [waterplane_dist] at ha hb hc
    rw [wetAffFlux, refInt_congr (g := fun _ => 0 * 0)]
    · rw [refInt_const_mul]; ring
    · intro u v hu hv huv
      have : 0 ≤ (a + u • (b - a) + v • (c - a)).z := by
        have e : (a + u • (b - a) + v • (c - a)).z = (1 - u - v) * a.z + u * b.z + v * c.z := by simp; ring
        rw [e]
        have := mul_nonneg (by linarith : 0 ≤ 1 - u - v) ha
        have := mul_nonneg hu hb
        have := mul_nonneg hv hc
        linarith
      unfold wetMul
      rw [if_neg (not_lt.2 this), zero_mul]
  below a b c ha hb hc h := by
    rw [waterplane_dist] at ha hb hc
    rw [waterplane_dist, waterplane_dist] at h
    rw [wetAffFlux, affFlux, ← refInt_aff]
    congr 1
    rcases h with h | h
    · exact refInt_below w l ha hb hc h
    · rw [refInt_swap13, refInt_swap13 (fun X => aff w X * aff l X)]
      exact refInt_below w l hc hb ha h

/-- The derivative of an integral over a triangle which is not in the plane `z = 0`. -/
lemma hasDerivAt_refInt' {c s : ℝ → ℝ} (h : SmallMotion c s) (w l : ℝ × V3 ℝ) (p q r : V3 ℝ)
    (hp : p.z ≠ 0 ∨ q.z ≠ 0 ∨ r.z ≠ 0) :
    HasDerivAt (fun θ => refInt (fun X => min (zeta c s w θ X) 0 * aff l X) p q r) (refInt (wetMul w l) p q r) 0 := by
  have e : ∀ p q r : V3 ℝ, (fun θ => refInt (fun X => min (zeta c s w θ X) 0 * aff l X) p q r) =
      fun θ => refInt (fun X => min (zeta c s w θ X) 0 * aff l X) q r p := by
    intro p q r; funext θ; exact refInt_cycle (planeCont_zeta c s w l θ).int p q r
  rcases hp with hp | hp | hp
  · exact hasDerivAt_refInt h w l p q r hp
  · rw [e, refInt_cycle (planeInt_wetMul w l)]
    exact hasDerivAt_refInt h w l q r p hp
  · rw [e, e, refInt_cycle (planeInt_wetMul w l), refInt_cycle (planeInt_wetMul w l)]
    exact hasDerivAt_refInt h w l r p q hp

/-- A strictly convex face with a corner off the plane `z = 0`: each of its triangles has one. -/
lemma off_plane {V : ℕ → V3 ℝ} {f : Face} (hf : if f.a = f.d then areaVec (V f.a) (V f.b) (V f.c) ≠ 0
      else StrictlyConvexQuad (V f.a) (V f.b) (V f.c) (V f.d)) (h : ∃ i ∈ f.toList, (V i).z ≠ 0) :
    ((V f.a).z ≠ 0 ∨ (V f.b).z ≠ 0 ∨ (V f.c).z ≠ 0) ∧
    (f.a ≠ f.d → (V f.a).z ≠ 0 ∨ (V f.c).z ≠ 0 ∨ (V f.d).z ≠ 0) := by
  obtain ⟨i, hi, hz⟩ := h
  simp only [Face.toList, List.mem_cons, List.not_mem_nil, or_false] at hi
  by_cases ht : f.a = f.d
  · refine ⟨?_, fun h => absurd ht h⟩
    rcases hi with rfl | rfl | rfl | rfl
    · exact .inl hz
    · exact .inr (.inl hz)
    · exact .inr (.inr hz)
    · rw [← ht] at hz; exact .inl hz
  · rw [if_neg ht] at hf
    obtain ⟨n, α, β, γ, δ, hα, hβ, hγ, hδ, hn, e1, e2, e3, e4⟩ := hf
    have hz' : (V f.a).z ≠ 0 ∨ (V f.b).z ≠ 0 ∨ (V f.c).z ≠ 0 ∨ (V f.d).z ≠ 0 := by
      rcases hi with rfl | rfl | rfl | rfl
      · exact .inl hz
      · exact .inr (.inl hz)
      · exact .inr (.inr (.inl hz))
      · exact .inr (.inr (.inr hz))
    generalize V f.a = A at *
    generalize V f.b = B at *
    generalize V f.c = C at *
    generalize V f.d = D at *
    have key : ∀ {A B C D : V3 ℝ} {α β : ℝ}, α ≠ 0 → β ≠ 0 → areaVec A B C = α • n → areaVec A C D = β • n →
        A.z = 0 → B.z = 0 → C.z = 0 → D.z = 0 := by
      intro A B C D α β hα hβ e1 e2 ha hb hc
      have x1 := congrArg V3.x e1
      have y1 := congrArg V3.y e1
      have z1 := congrArg V3.z e1
      have x2 := congrArg V3.x e2
      have y2 := congrArg V3.y e2
      have z2 := congrArg V3.z e2
      simp [areaVec, V3.cross, ha, hb, hc] at x1 y1 z1 x2 y2 z2
      by_contra hD
      have nx : n.x = 0 := x1.resolve_left hα
      have ny : n.y = 0 := y1.resolve_left hα
      rw [nx, mul_zero] at x2
      rw [ny, mul_zero] at y2
      have k1 : C.y - A.y = 0 := by
        rcases mul_eq_zero.1 x2 with h | h
        · exact h
        · exact absurd h hD
      have k2 : C.x - A.x = 0 := by
        have : D.z * (C.x - A.x) = 0 := by linarith
        rcases mul_eq_zero.1 this with h | h
        · exact absurd h hD
        · exact h
      rw [k1, k2] at z1
      simp at z1
      exact hn (by ext <;> simp [nx, ny, z1.resolve_left hα])
    have r1 : areaVec A C B = (-α) • n := by
      rw [neg_smul, ← e1]; ext <;> simp [areaVec, V3.cross] <;> ring
    have r2 : areaVec A D C = (-β) • n := by
      rw [neg_smul, ← e2]; ext <;> simp [areaVec, V3.cross] <;> ring
    constructor
    · by_contra hno
      push Not at hno
      have := key hα.ne' hβ.ne' e1 e2 hno.1 hno.2.1 hno.2.2
      grind
    · intro _
      by_contra hno
      push Not at hno
      have := key (neg_ne_zero.2 hβ.ne') (neg_ne_zero.2 hα.ne') r2 r1 hno.1 hno.2.2 hno.2.1
      grind

lemma surfaceSum_hasDerivAt {m : Mesh ℝ} {T : ℝ → V3 ℝ → V3 ℝ → V3 ℝ → ℝ} {D : V3 ℝ → V3 ℝ → V3 ℝ → ℝ}
    (h : ∀ f ∈ m.faces, HasDerivAt (fun θ => T θ (m.vert f.a) (m.vert f.b) (m.vert f.c)) (D (m.vert f.a) (m.vert f.b) (m.vert f.c)) 0 ∧
      (f.a ≠ f.d → HasDerivAt (fun θ => T θ (m.vert f.a) (m.vert f.c) (m.vert f.d)) (D (m.vert f.a) (m.vert f.c) (m.vert f.d)) 0)) :
    HasDerivAt (fun θ => m.surfaceSum (T θ)) (m.surfaceSum D) 0 := by
  unfold Mesh.surfaceSum
  generalize m.faces = L at h
  induction L with
  | nil => simpa using hasDerivAt_const (0 : ℝ) (0 : ℝ)
  | cons f L ih =>
    simp only [List.map_cons, List.sum_cons]
    refine HasDerivAt.add ?_ (ih (fun g hg => h g (List.mem_cons_of_mem _ hg)))
    unfold Mesh.faceSum
    have ha := h f List.mem_cons_self
    split_ifs with ht
    · exact ha.1
    · exact ha.1.add (ha.2 ht)

section wet
variable {srt : (ℕ → ℝ) → List ℕ → List ℕ} (hsrt : IsArgsort srt) {tol : ℝ} (htol : 0 ≤ tol) {b : Bool} {m : Mesh ℝ}
  (hwf : m.WF) (hpos : ∀ f ∈ m.faces, ∀ i ∈ f.toList, waterplane.Clear tol (m.vert i))
  (hsep : m.WellSeparated waterplane) (hcv : m.StrictlyConvexFaces) {c : Clipped ℝ} (hc : clip srt waterplane tol b m = .ok c)
include hsrt htol hwf hpos hsep hcv hc

/-- The derivative of the flux through the wetted part of the moving surface, on the clipped mesh. -/
lemma wet_hasDerivAt (hq : QuadsCross m) (hoff : ∀ f ∈ m.faces, ∃ i ∈ f.toList, (m.vert i).z ≠ 0) {co si : ℝ → ℝ} (hm : SmallMotion co si) (k : V3 ℝ) (w l : ℝ × V3 ℝ) :
    HasDerivAt (fun θ => m.surfaceSum (fun p q r => (areaVec p q r).dot k *
      refInt (fun X => min (zeta co si w θ X) 0 * aff l X) p q r)) (c.clipped.surfaceSum (affFlux k w l)) 0 := by
  have e : c.clipped.surfaceSum (affFlux k w l) = m.surfaceSum (wetAffFlux k w l) := by
    rw [surfaceSum_halves c.clipped (T := affFlux k w l) (fun p q => by simp [affFlux, areaVec, V3.cross, V3.dot]),
      clip_additive hsrt htol hwf hpos hq hsep hcv hc (wetAffFlux_cutsOff k w l) (affFlux_additive k w l)]
    rfl
  rw [e]
  apply surfaceSum_hasDerivAt
  intro f hf
  obtain ⟨h1, h2⟩ := off_plane (hcv f hf) (hoff f hf)
  exact ⟨(hasDerivAt_refInt' hm w l _ _ _ h1).const_mul _, fun hd => (hasDerivAt_refInt' hm w l _ _ _ (h2 hd)).const_mul _⟩

/-- Flux through the clipped mesh of a field without divergence: minus the flux through the section. -/
lemma wet_flux_section (hq : QuadsCross m) (hcl : m.ClosedOriented) (Ψ : V3 ℝ → V3 ℝ → V3 ℝ → ℝ)
    (hanti : ∀ p q, Ψ 0 p q = -Ψ 0 q p) (hfan : ∀ p q r, Ψ p q r = Ψ 0 p q + Ψ 0 q r + Ψ 0 r p) :
    c.clipped.surfaceSum Ψ = -((m.lowerSectionEdges waterplane).map (fun e => Ψ 0 e.1 e.2)).sum := by
  have h1 := clip_closed_section hsrt htol hwf hcl hpos hq hsep hcv hc hanti
  rw [← eq_neg_iff_add_eq_zero] at h1
  rw [← h1]
  unfold Mesh.surfaceSum Mesh.pointEdges Mesh.directedEdges
  rw [List.map_map, List.map_flatMap, sum_flatMap']
  congr 1
  apply List.map_congr_left
  intro f _
  unfold Mesh.faceSum Face.directedEdges
  split_ifs
  · rw [hfan]; simp [Function.comp]; ring
  · rw [hfan, hfan (c.clipped.vert f.a) (c.clipped.vert f.c)]
    simp only [Function.comp, List.map_cons, List.map_nil, List.sum_cons, List.sum_nil]
    rw [hanti (c.clipped.vert f.c) (c.clipped.vert f.a)]; ring

end wet

end Clipper
end MM
