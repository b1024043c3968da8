import Verif.Proofs.ConeInt
import Verif.Spec.Halves

/-!
# Integrals over the part of a solid under a plane
-/

namespace MM
namespace Clipper

open MeasureTheory Set

set_option linter.unusedSectionVars false
set_option linter.unusedSimpArgs false
set_option linter.unusedVariables false

lemma below_dist (p : Plane ℝ) (g : V3 ℝ → ℝ) (X : V3 ℝ) : p.below g X = if p.dist X < 0 then g X else 0 := by
  unfold Plane.below Plane.dist
  congr 1
  rw [eq_iff_iff]
  constructor <;> intro h <;> linarith

lemma dist_ref (p : Plane ℝ) (a b c : V3 ℝ) (u v : ℝ) :
    p.dist (a + u • (b - a) + v • (c - a)) = (1 - u - v) * p.dist a + u * p.dist b + v * p.dist c := by
  simp only [Plane.dist, V3.dot, V3.add_x, V3.add_y, V3.add_z, V3.smul_x, V3.smul_y, V3.smul_z, V3.sub_x, V3.sub_y, V3.sub_z]
  ring

lemma planeInt_below (p : Plane ℝ) {g : V3 ℝ → ℝ} (hg : PlaneCont g) : PlaneInt (p.below g) := by
  intro a b c
  obtain ⟨h1, C, hC⟩ := hg.int a b c
  refine ⟨Measurable.ite (measurableSet_lt ?_ measurable_const) h1 measurable_const, C, ?_⟩
  · simp only [V3.dot, V3.add_x, V3.add_y, V3.add_z, V3.smul_x, V3.smul_y, V3.smul_z]; fun_prop
  · intro u v u0 u1 v0 v1
    have := hC u v u0 u1 v0 v1
    unfold Plane.below
    split_ifs
    · exact this
    · rw [abs_zero]; exact le_trans (abs_nonneg _) this

lemma refInt_add {f g : V3 ℝ → ℝ} (hf : PlaneInt f) (hg : PlaneInt g) (p q r : V3 ℝ) :
    refInt (fun X => f X + g X) p q r = refInt f p q r + refInt g p q r := by
  have hfg : PlaneInt (fun X => f X + g X) := by
    intro p q r
    obtain ⟨h1, C, hC⟩ := hf p q r
    obtain ⟨h2, D, hD⟩ := hg p q r
    refine ⟨h1.add h2, C + D, fun u v a b c d => ?_⟩
    exact le_trans (abs_add_le _ _) (add_le_add (hC u v a b c d) (hD u v a b c d))
  rw [refInt_set hf, refInt_set hg, refInt_set hfg, ← integral_add (refFun_integrable hf p q r) (refFun_integrable hg p q r)]
  congr 1
  funext w
  unfold refFun
  split_ifs <;> simp

/-- The side of a triangle that is in the plane does not count. -/
lemma refInt_under (p : Plane ℝ) {g : V3 ℝ → ℝ} (hg : PlaneCont g) {a b c : V3 ℝ} (ha : p.dist a ≤ 0) (hb : p.dist b ≤ 0)
    (hc : p.dist c ≤ 0) (h : p.dist a < 0) : refInt (p.below g) a b c = refInt g a b c := by
  rw [refInt_set (planeInt_below p hg), refInt_set hg.int]
  have hn' := measure_eq_zero_iff_ae_notMem.1
    (null_line (b := p.dist b - p.dist a) (c := p.dist c - p.dist a) (fun h' => h.ne h'.1))
  apply setIntegral_congr_ae (measurableSet_Ioc.prod measurableSet_Ioc)
  filter_upwards [hn'] with x hx hm
  unfold refFun
  split_ifs with ht
  · have hz : p.dist (a + x.1 • (b - a) + x.2 • (c - a)) ≠ 0 := by
      rw [dist_ref]
      intro h0
      apply hx
      linarith
    have hz' : p.dist (a + x.1 • (b - a) + x.2 • (c - a)) ≤ 0 := by
      rw [dist_ref]
      have := mul_nonneg (by linarith : 0 ≤ 1 - x.1 - x.2) (neg_nonneg.2 ha)
      have := mul_nonneg hm.1.1.le (neg_nonneg.2 hb)
      have := mul_nonneg hm.2.1.le (neg_nonneg.2 hc)
      linarith
    rw [below_dist, if_pos (lt_of_le_of_ne hz' hz)]
  · rfl

/-- Both sides of a plane that does not contain the triangle make the whole triangle. -/
lemma refInt_both (p : Plane ℝ) {g : V3 ℝ → ℝ} (hg : PlaneCont g) {a b c : V3 ℝ} 
    (ha : ¬ (p.dist a = 0 ∧ p.dist b = 0 ∧ p.dist c = 0)) :
    refInt (p.below g) a b c + refInt (p.reversed.below g) a b c = refInt g a b c := by
  rw [← refInt_add (planeInt_below p hg) (planeInt_below _ hg)]
  have hs : PlaneInt (fun X => p.below g X + p.reversed.below g X) := by
    intro x y z
    obtain ⟨h1, C, hC⟩ := planeInt_below p hg x y z
    obtain ⟨h2, D, hD⟩ := planeInt_below p.reversed hg x y z
    refine ⟨h1.add h2, C + D, fun u v a b c d => ?_⟩
    exact le_trans (abs_add_le _ _) (add_le_add (hC u v a b c d) (hD u v a b c d))
  rw [refInt_set hs, refInt_set hg.int]
  have hn' := measure_eq_zero_iff_ae_notMem.1
    (null_line (b := p.dist b - p.dist a) (c := p.dist c - p.dist a)
      (fun h => ha ⟨h.1, by linarith [h.1, h.2.1], by linarith [h.1, h.2.2]⟩))
  apply setIntegral_congr_ae (measurableSet_Ioc.prod measurableSet_Ioc)
  filter_upwards [hn'] with x hx hm
  unfold refFun
  split_ifs with ht
  · have hz : p.dist (a + x.1 • (b - a) + x.2 • (c - a)) ≠ 0 := by
      rw [dist_ref]
      intro h0
      apply hx
      linarith
    generalize a + x.1 • (b - a) + x.2 • (c - a) = X at hz
    have e : p.reversed.dist X = -p.dist X := by
      simp only [Plane.dist, Plane.reversed, V3.dot, V3.neg_x, V3.neg_y, V3.neg_z]; ring
    show p.below g X + p.reversed.below g X = g X
    rw [below_dist, below_dist, e]
    rcases lt_or_gt_of_ne hz with h | h
    · rw [if_pos h, if_neg (by linarith), add_zero]
    · rw [if_neg (by linarith), if_pos (by linarith), zero_add]
  · rfl

/-- The two sides of a plane and the points of the plane. -/
lemma refInt_three (p : Plane ℝ) {g : V3 ℝ → ℝ} (hg : PlaneCont g) (a b c : V3 ℝ) :
    refInt (p.below g) a b c + refInt (p.reversed.below g) a b c + refInt (p.within g) a b c = refInt g a b c := by
  have h1 := planeInt_below p hg
  have h2 := planeInt_below p.reversed hg
  have h3 : PlaneInt (p.within g) := by
    intro a b c
    obtain ⟨h1, C, hC⟩ := hg.int a b c
    refine ⟨Measurable.ite (measurableSet_eq_fun ?_ measurable_const) h1 measurable_const, C, ?_⟩
    · simp only [V3.dot, V3.add_x, V3.add_y, V3.add_z, V3.smul_x, V3.smul_y, V3.smul_z]; fun_prop
    · intro u v u0 u1 v0 v1
      have := hC u v u0 u1 v0 v1
      unfold Plane.within
      split_ifs
      · exact this
      · rw [abs_zero]; exact le_trans (abs_nonneg _) this
  have h4 : PlaneInt (fun X => p.below g X + p.reversed.below g X) := by
    intro x y z
    obtain ⟨h1, C, hC⟩ := h1 x y z
    obtain ⟨h2, D, hD⟩ := h2 x y z
    refine ⟨h1.add h2, C + D, fun u v a b c d => ?_⟩
    exact le_trans (abs_add_le _ _) (add_le_add (hC u v a b c d) (hD u v a b c d))
  rw [← refInt_add h1 h2, ← refInt_add h4 h3]
  congr 1
  funext X
  simp only [Plane.below, Plane.within, Plane.reversed]
  have e : X.dot (-p.normal) < -p.c ↔ p.c < X.dot p.normal := by
    have : X.dot (-p.normal) = -X.dot p.normal := by simp [V3.dot]; ring
    rw [this]; exact neg_lt_neg_iff
  simp only [e]
  rcases lt_trichotomy (X.dot p.normal) p.c with h | h | h
  · rw [if_pos h, if_neg (by linarith), if_neg h.ne]; ring
  · rw [if_neg (by linarith), if_neg (by linarith), if_pos h]; ring
  · rw [if_neg (by linarith), if_pos h, if_neg h.ne']; ring

/-- A factor attached to triangles, proportional to the area. -/
structure AreaLike (D : V3 ℝ → V3 ℝ → V3 ℝ → ℝ) : Prop where
  cycle : ∀ a b c, D a b c = D b c a
  left : ∀ a b c, ∀ t : ℝ, D a b (a + t • (c - a)) = t * D a b c
  right : ∀ a b c, ∀ t : ℝ, D (a + t • (c - a)) b c = (1 - t) * D a b c

/-- The integral over the part of a triangle that is under a plane is cut off by this plane. -/
lemma below_cutsOff (p : Plane ℝ) {D : V3 ℝ → V3 ℝ → V3 ℝ → ℝ} (hD : AreaLike D) {g : V3 ℝ → ℝ} (hg : PlaneCont g) :
    CutsOff p (fun a b c => D a b c * refInt (p.below g) a b c) (fun a b c => D a b c * refInt g a b c) where
  cycle a b c := by
    show D a b c * _ = D b c a * _
    rw [hD.cycle a b c, refInt_cycle (planeInt_below p hg)]
  split a b c t t0 t1 := by
    show D a b c * _ = D a b _ * _ + D _ b c * _
    rw [hD.left, hD.right, refInt_split (planeInt_below p hg) a b c t0 t1]
    ring
  above a b c ha hb hc := by
    show D a b c * _ = 0
    rw [refInt_congr (g := fun _ => 0 * 0)]
    · rw [refInt_const_mul]; ring
    · intro u v hu hv huv
      rw [below_dist, if_neg, zero_mul]
      rw [dist_ref, not_lt]
      have := mul_nonneg (by linarith : 0 ≤ 1 - u - v) ha
      have := mul_nonneg hu hb
      have := mul_nonneg hv hc
      linarith
  below a b c ha hb hc h := by
    show D a b c * _ = D a b c * _
    congr 1
    rcases h with h | h
    · exact refInt_under p hg ha hb hc h
    · rw [refInt_swap13, refInt_swap13 g]
      exact refInt_under p hg hc hb ha h

/-! ## Tetrahedra -/

/-- Determinant of the tetrahedron `o a b c`. -/
def coneDet (o a b c : V3 ℝ) : ℝ := (a - o).dot ((b - o).cross (c - o))

lemma coneDet_areaLike (o : V3 ℝ) : AreaLike (coneDet o) where
  cycle a b c := by simp only [coneDet, V3.dot, V3.cross, V3.sub_x, V3.sub_y, V3.sub_z]; ring
  left a b c t := by
    simp only [coneDet, V3.dot, V3.cross, V3.sub_x, V3.sub_y, V3.sub_z, V3.add_x, V3.add_y, V3.add_z, V3.smul_x,
      V3.smul_y, V3.smul_z]
    ring
  right a b c t := by
    simp only [coneDet, V3.dot, V3.cross, V3.sub_x, V3.sub_y, V3.sub_z, V3.add_x, V3.add_y, V3.add_z, V3.smul_x,
      V3.smul_y, V3.smul_z]
    ring

/-- Along the segments from `o`, `g` is a polynomial of degree at most two. -/
structure Radial (o : V3 ℝ) (g : V3 ℝ → ℝ) (g0 : ℝ) (g1 g2 : V3 ℝ → ℝ) : Prop where
  eq : ∀ X s, g (o + s • (X - o)) = g0 + s * g1 X + s ^ 2 * g2 X
  c1 : PlaneCont g1
  c2 : PlaneCont g2
  c3 : ∀ a b c : V3 ℝ, Continuous fun x : ℝ × ℝ × ℝ => g (o + (x.1 • a + x.2.1 • b + x.2.2 • c))

/-- The integral over a segment from `o` to `X`, weighted by the area of the sections. -/
noncomputable def radInt (g0 : ℝ) (g1 g2 : V3 ℝ → ℝ) (X : V3 ℝ) : ℝ := g0 / 3 + g1 X / 4 + g2 X / 5

lemma _root_.MM.PlaneCont.add' {f g : V3 ℝ → ℝ} (hf : PlaneCont f) (hg : PlaneCont g) : PlaneCont (fun X => f X + g X) :=
  fun p q r => (hf p q r).add (hg p q r)

lemma _root_.MM.PlaneCont.const_mul' {f : V3 ℝ → ℝ} (hf : PlaneCont f) (t : ℝ) : PlaneCont (fun X => t * f X) :=
  fun p q r => (hf p q r).const_mul t

lemma planeCont_const (t : ℝ) : PlaneCont (fun _ => t) := fun _ _ _ => continuous_const

lemma planeCont_radInt {g0 : ℝ} {g1 g2 : V3 ℝ → ℝ} (h1 : PlaneCont g1) (h2 : PlaneCont g2) : PlaneCont (radInt g0 g1 g2) :=
  fun p q r => (continuous_const.add ((h1 p q r).div_const 4)).add ((h2 p q r).div_const 5)

lemma below_add (p : Plane ℝ) (f g : V3 ℝ → ℝ) (X : V3 ℝ) :
    p.below (fun X => f X + g X) X = p.below f X + p.below g X := by
  unfold Plane.below; split_ifs <;> simp

lemma below_const_mul (p : Plane ℝ) (t : ℝ) (f : V3 ℝ → ℝ) (X : V3 ℝ) :
    p.below (fun X => t * f X) X = t * p.below f X := by
  unfold Plane.below; split_ifs <;> simp

lemma refInt_below_add (p : Plane ℝ) {f g : V3 ℝ → ℝ} (hf : PlaneCont f) (hg : PlaneCont g) (a b c : V3 ℝ) :
    refInt (p.below (fun X => f X + g X)) a b c = refInt (p.below f) a b c + refInt (p.below g) a b c := by
  rw [← refInt_add (planeInt_below p hf) (planeInt_below p hg)]
  congr 1
  funext X
  exact below_add p f g X

lemma refInt_below_mul (p : Plane ℝ) (t : ℝ) (f : V3 ℝ → ℝ) (a b c : V3 ℝ) :
    refInt (p.below (fun X => t * f X)) a b c = t * refInt (p.below f) a b c := by
  rw [← refInt_const_mul]
  congr 1
  funext X
  exact below_const_mul p t f X

/-- The integral over the part of a tetrahedron under a plane, when this part is a union of segments from the apex. -/
lemma tet_radial (p : Plane ℝ) {o : V3 ℝ} {g : V3 ℝ → ℝ} {g0 : ℝ} {g1 g2 : V3 ℝ → ℝ} (hr : Radial o g g0 g1 g2)
    (hinv : ∀ (X : V3 ℝ) (s : ℝ), 0 < s → (p.dist (o + s • (X - o)) < 0 ↔ p.dist X < 0)) (a b c : V3 ℝ) :
    tetIntegral (p.below g) o a b c = coneDet o a b c * refInt (p.below (radInt g0 g1 g2)) a b c := by
  rw [tetIntegral, coneIntegral]
  show coneDet o a b c * _ = _
  congr 1
  set F : ℝ × ℝ × ℝ → ℝ := fun x => p.below g (o + (x.1 • (a - o) + x.2.1 • (b - o) + x.2.2 • (c - o))) with hF
  have hcont := hr.c3 (a - o) (b - o) (c - o)
  have hm : Measurable F := by
    refine Measurable.ite (measurableSet_lt ?_ measurable_const) hcont.measurable measurable_const
    simp only [V3.dot, V3.add_x, V3.add_y, V3.add_z, V3.smul_x, V3.smul_y, V3.smul_z]; fun_prop
  have hcpt : IsCompact (Icc (0 : ℝ) 1 ×ˢ (Icc (0 : ℝ) 1 ×ˢ Icc (0 : ℝ) 1)) :=
    isCompact_Icc.prod (isCompact_Icc.prod isCompact_Icc)
  obtain ⟨C, hC⟩ := hcpt.exists_bound_of_continuousOn hcont.continuousOn
  have hb : ∀ u v w : ℝ, 0 ≤ u → u ≤ 1 → 0 ≤ v → v ≤ 1 → 0 ≤ w → w ≤ 1 → |F (u, v, w)| ≤ C := by
    intro u v w u0 u1 v0 v1 w0 w1
    have := hC (u, v, w) ⟨⟨u0, u1⟩, ⟨v0, v1⟩, ⟨w0, w1⟩⟩
    simp only [hF, Plane.below]
    split_ifs
    · exact this
    · rw [abs_zero]; exact le_trans (norm_nonneg _) this
  have key := tet_slices hm hb
  rw [show (∫ u in (0 : ℝ)..1, ∫ v in (0 : ℝ)..(1 - u), ∫ w in (0 : ℝ)..(1 - u - v),
      p.below g (o + (u • (a - o) + v • (b - o) + w • (c - o)))) = _ from key]
  -- the sections
  set A := refInt (p.below (fun _ => g0)) a b c with hA
  set B := refInt (p.below g1) a b c with hB
  set E := refInt (p.below g2) a b c with hE
  have lin : ∀ x y z : ℝ, refInt (p.below (fun X => x * g0 + y * g1 X + z * g2 X)) a b c = x * A + y * B + z * E := by
    intro x y z
    rw [refInt_below_add p (((planeCont_const g0).const_mul' x).add' (hr.c1.const_mul' y)) (hr.c2.const_mul' z),
      refInt_below_add p ((planeCont_const g0).const_mul' x) (hr.c1.const_mul' y), refInt_below_mul, refInt_below_mul,
      refInt_below_mul]
  have sec : ∀ s ∈ Set.uIcc (0 : ℝ) 1, s ^ 2 * ∫ x in (0 : ℝ)..1, ∫ y in (0 : ℝ)..(1 - x), F (s * x, s * y, s * (1 - x - y)) =
      A * s ^ 2 + B * s ^ 3 + E * s ^ 4 := by
    intro s hs
    rw [Set.uIcc_of_le zero_le_one] at hs
    rcases eq_or_lt_of_le hs.1 with rfl | s0
    · simp
    have e : ∀ x y : ℝ, F (s * x, s * y, s * (1 - x - y)) = p.below (fun X => 1 * g0 + s * g1 X + s ^ 2 * g2 X)
        (c + x • (a - c) + y • (b - c)) := by
      intro x y
      have e1 : o + ((s * x) • (a - o) + (s * y) • (b - o) + (s * (1 - x - y)) • (c - o)) =
          o + s • ((c + x • (a - c) + y • (b - c)) - o) := by
        ext <;> simp only [V3.add_x, V3.add_y, V3.add_z, V3.smul_x, V3.smul_y, V3.smul_z, V3.sub_x, V3.sub_y, V3.sub_z] <;>
          ring
      simp only [hF]
      rw [e1]
      generalize c + x • (a - c) + y • (b - c) = X
      rw [below_dist, below_dist]
      simp only [hinv X s s0]
      split_ifs
      · rw [hr.eq]; ring
      · rfl
    simp only [e]
    rw [show (∫ x in (0 : ℝ)..1, ∫ y in (0 : ℝ)..(1 - x), p.below (fun X => 1 * g0 + s * g1 X + s ^ 2 * g2 X)
        (c + x • (a - c) + y • (b - c))) = refInt (p.below (fun X => 1 * g0 + s * g1 X + s ^ 2 * g2 X)) c a b from rfl]
    rw [refInt_cycle (planeInt_below p
      ((((planeCont_const g0).const_mul' 1).add' (hr.c1.const_mul' s)).add' (hr.c2.const_mul' (s ^ 2)))) c a b, lin]
    ring
  rw [intervalIntegral.integral_congr sec]
  have e4 : radInt g0 g1 g2 = fun X => 1 / 3 * g0 + 1 / 4 * g1 X + 1 / 5 * g2 X := by
    funext X; unfold radInt; ring
  rw [e4, lin, intervalIntegral.integral_add, intervalIntegral.integral_add, intervalIntegral.integral_const_mul,
    intervalIntegral.integral_const_mul, intervalIntegral.integral_const_mul, integral_pow, integral_pow, integral_pow]
  · norm_num; ring
  all_goals exact Continuous.intervalIntegrable (by fun_prop) _ _

/-- The half space under a plane that contains `o` is a union of half lines from `o`. -/
lemma half_inv (p : Plane ℝ) {o : V3 ℝ} (ho : p.dist o = 0) (X : V3 ℝ) (s : ℝ) (s0 : 0 < s) :
    p.dist (o + s • (X - o)) < 0 ↔ p.dist X < 0 := by
  have e2 : p.dist (o + s • (X - o)) = s * p.dist X := by
    simp only [Plane.dist, V3.dot, V3.add_x, V3.add_y, V3.add_z, V3.smul_x, V3.smul_y, V3.smul_z, V3.sub_x, V3.sub_y,
      V3.sub_z] at ho ⊢
    linear_combination (1 - s) * ho
  rw [e2]
  constructor
  · intro h; by_contra h'; have := mul_nonneg s0.le (not_lt.1 h'); linarith
  · intro h; exact mul_neg_of_pos_of_neg s0 h

/-- The integral over a tetrahedron. -/
lemma tet_radial_whole {o : V3 ℝ} {g : V3 ℝ → ℝ} {g0 : ℝ} {g1 g2 : V3 ℝ → ℝ} (hr : Radial o g g0 g1 g2) (a b c : V3 ℝ) :
    tetIntegral g o a b c = coneDet o a b c * refInt (radInt g0 g1 g2) a b c := by
  have e : ∀ f : V3 ℝ → ℝ, (⟨0, 1⟩ : Plane ℝ).below f = f := by
    intro f; funext X; simp [Plane.below, V3.dot]
  have := tet_radial ⟨0, 1⟩ hr (by intro X s _; simp [Plane.dist, V3.dot]) a b c
  rwa [e, e] at this

lemma Radial.add {o : V3 ℝ} {g h : V3 ℝ → ℝ} {g0 h0 : ℝ} {g1 g2 h1 h2 : V3 ℝ → ℝ} (hg : Radial o g g0 g1 g2)
    (hh : Radial o h h0 h1 h2) :
    Radial o (fun X => g X + h X) (g0 + h0) (fun X => g1 X + h1 X) (fun X => g2 X + h2 X) where
  eq X s := by rw [hg.eq, hh.eq]; ring
  c1 := hg.c1.add' hh.c1
  c2 := hg.c2.add' hh.c2
  c3 a b c := (hg.c3 a b c).add (hh.c3 a b c)

lemma radial_zero (o : V3 ℝ) : Radial o (fun _ => 0) 0 (fun _ => 0) (fun _ => 0) where
  eq X s := by ring
  c1 := planeCont_const 0
  c2 := planeCont_const 0
  c3 a b c := continuous_const

lemma aff_cone (w : ℝ × V3 ℝ) (o X : V3 ℝ) (s : ℝ) : aff w (o + s • (X - o)) = aff w o + s * (aff w X - aff w o) := by
  simp only [aff, V3.dot, V3.add_x, V3.add_y, V3.add_z, V3.smul_x, V3.smul_y, V3.smul_z, V3.sub_x, V3.sub_y, V3.sub_z]
  ring

lemma radial_aff (w l : ℝ × V3 ℝ) (o : V3 ℝ) : Radial o (fun X => aff w X * aff l X) (aff w o * aff l o)
    (fun X => aff w o * (aff l X - aff l o) + aff l o * (aff w X - aff w o))
    (fun X => (aff w X - aff w o) * (aff l X - aff l o)) where
  eq X s := by simp only [aff_cone]; ring
  c1 p q r := by
    simp only [aff, V3.dot, V3.add_x, V3.add_y, V3.add_z, V3.smul_x, V3.smul_y, V3.smul_z]
    fun_prop
  c2 p q r := by
    simp only [aff, V3.dot, V3.add_x, V3.add_y, V3.add_z, V3.smul_x, V3.smul_y, V3.smul_z]
    fun_prop
  c3 a b c := by
    simp only [aff, V3.dot, V3.add_x, V3.add_y, V3.add_z, V3.smul_x, V3.smul_y, V3.smul_z]
    fun_prop

lemma taff_aff (w : ℝ × V3 ℝ) (o p q r : V3 ℝ) (u v t : ℝ) : aff w (o + (u • (p - o) + v • (q - o) + t • (r - o))) =
    aff w o + u * (aff w p - aff w o) + v * (aff w q - aff w o) + t * (aff w r - aff w o) := by
  simp only [aff, V3.dot, V3.add_x, V3.add_y, V3.add_z, V3.smul_x, V3.smul_y, V3.smul_z, V3.sub_x, V3.sub_y, V3.sub_z]
  ring

lemma tet_formula (w l : ℝ × V3 ℝ) (o a b c : V3 ℝ) : tetIntegral (fun X => aff w X * aff l X) o a b c =
    coneDet o a b c * (((aff w o + aff w a + aff w b + aff w c) * (aff l o + aff l a + aff l b + aff l c) +
      (aff w o * aff l o + aff w a * aff l a + aff w b * aff l b + aff w c * aff l c)) / 120) :=
  tetIntegral_affine2 (aff w) (aff l) (taff_aff w) (taff_aff l) o a b c

lemma tet_additive (w l : ℝ × V3 ℝ) (o : V3 ℝ) : PlaneAdditive (tetIntegral (fun X => aff w X * aff l X) o) where
  anti x p q := by
    rw [tet_formula, tet_formula, coneDet, coneDet]
    simp only [V3.dot, V3.cross, V3.sub_x, V3.sub_y, V3.sub_z]; ring
  degenerate x p q h := by
    have : coneDet o x p q = (x - o).dot (areaVec x p q) := by
      simp only [coneDet, areaVec, V3.dot, V3.cross, V3.sub_x, V3.sub_y, V3.sub_z]; ring
    rw [tet_formula, this, h]
    simp [V3.dot]
  fan x p q r h := by
    simp only [tet_formula]
    simp only [coneDet, aff, areaVec, V3.dot, V3.cross, V3.sub_x, V3.sub_y, V3.sub_z] at *
    linear_combination (((4 * w.1 + w.2.x * (x.x + p.x + q.x + r.x) + w.2.y * (x.y + p.y + q.y + r.y) +
        w.2.z * (x.z + p.z + q.z + r.z)) * (4 * l.1 + l.2.x * (x.x + p.x + q.x + r.x) + l.2.y * (x.y + p.y + q.y + r.y) +
        l.2.z * (x.z + p.z + q.z + r.z)) +
      ((w.1 + w.2.x * x.x + w.2.y * x.y + w.2.z * x.z) * (l.1 + l.2.x * x.x + l.2.y * x.y + l.2.z * x.z) +
      (w.1 + w.2.x * p.x + w.2.y * p.y + w.2.z * p.z) * (l.1 + l.2.x * p.x + l.2.y * p.y + l.2.z * p.z) +
      (w.1 + w.2.x * q.x + w.2.y * q.y + w.2.z * q.z) * (l.1 + l.2.x * q.x + l.2.y * q.y + l.2.z * q.z) +
      (w.1 + w.2.x * r.x + w.2.y * r.y + w.2.z * r.z) * (l.1 + l.2.x * r.x + l.2.y * r.y + l.2.z * r.z))) / 120) * h

lemma PlaneAdditive.add {T S : V3 ℝ → V3 ℝ → V3 ℝ → ℝ} (hT : PlaneAdditive T) (hS : PlaneAdditive S) :
    PlaneAdditive (fun a b c => T a b c + S a b c) where
  anti o p q := by show T _ _ _ + S _ _ _ = -(T _ _ _ + S _ _ _); rw [hT.anti, hS.anti]; ring
  degenerate o p q h := by show T _ _ _ + S _ _ _ = 0; rw [hT.degenerate _ _ _ h, hS.degenerate _ _ _ h, add_zero]
  fan o p q r h := by
    show T _ _ _ + S _ _ _ = _ + _ + _
    rw [hT.fan _ _ _ _ h, hS.fan _ _ _ _ h]; ring

lemma radInt_add (g0 h0 : ℝ) (g1 g2 h1 h2 : V3 ℝ → ℝ) :
    radInt (g0 + h0) (fun X => g1 X + h1 X) (fun X => g2 X + h2 X) = fun X => radInt g0 g1 g2 X + radInt h0 h1 h2 X := by
  funext X; unfold radInt; ring

/-- A polynomial of degree at most two is one along segments from any point, and its integral over tetrahedra with apex `o`
is additive. -/
lemma quadratic_radial {g : V3 ℝ → ℝ} (hg : Quadratic g) (o : V3 ℝ) :
    (∃ g0 g1 g2, Radial o g g0 g1 g2) ∧ PlaneAdditive (tetIntegral g o) := by
  obtain ⟨L, hL⟩ := hg
  rw [show g = fun X => (L.map (fun t => aff t.1 X * aff t.2 X)).sum from funext hL]
  clear hL
  induction L with
  | nil =>
    have e : (fun X : V3 ℝ => (([] : List ((ℝ × V3 ℝ) × (ℝ × V3 ℝ))).map (fun t => aff t.1 X * aff t.2 X)).sum) = fun _ => 0 := by
      funext X; simp
    rw [e]
    refine ⟨⟨_, _, _, radial_zero o⟩, ?_⟩
    have z : tetIntegral (fun _ => 0) o = fun _ _ _ => 0 := by
      funext a b c; simp [tetIntegral, coneIntegral]
    rw [z]
    exact ⟨fun _ _ _ => by simp, fun _ _ _ _ => rfl, fun _ _ _ _ _ => by simp⟩
  | cons t L ih =>
    obtain ⟨⟨g0, g1, g2, h⟩, ha⟩ := ih
    have e : (fun X => ((t :: L).map (fun t => aff t.1 X * aff t.2 X)).sum) = fun X => aff t.1 X * aff t.2 X +
        (L.map (fun t => aff t.1 X * aff t.2 X)).sum := by
      funext X; simp
    rw [e]
    have hs := (radial_aff t.1 t.2 o).add h
    refine ⟨⟨_, _, _, hs⟩, ?_⟩
    have z : tetIntegral (fun X => aff t.1 X * aff t.2 X + (L.map (fun t => aff t.1 X * aff t.2 X)).sum) o =
        fun a b c => tetIntegral (fun X => aff t.1 X * aff t.2 X) o a b c +
          tetIntegral (fun X => (L.map (fun t => aff t.1 X * aff t.2 X)).sum) o a b c := by
      funext a b c
      rw [tet_radial_whole hs, tet_radial_whole h, tet_radial_whole (radial_aff t.1 t.2 o), radInt_add,
        refInt_add (planeCont_radInt (radial_aff t.1 t.2 o).c1 (radial_aff t.1 t.2 o).c2).int
          (planeCont_radInt h.c1 h.c2).int, mul_add]
    rw [z]
    exact (tet_additive t.1 t.2 o).add ha

end Clipper
end MM
