import Verif.Spec.Shapes
import Verif.Model.Shapes
import Verif.Proofs.Integrals

/-!
# Moments of the shapes of inertia.py
-/

namespace MM

open MeasureTheory intervalIntegral Real

theorem integral_ab {f : ℝ → ℝ} (k0 k1 k2 k3 k4 a b : ℝ)
    (h : ∀ x, f x = k0 + k1 * x + k2 * x ^ 2 + k3 * x ^ 3 + k4 * x ^ 4) :
    ∫ x in a..b, f x =
      k0 * (b - a) + k1 * (b ^ 2 - a ^ 2) / 2 + k2 * (b ^ 3 - a ^ 3) / 3 + k3 * (b ^ 4 - a ^ 4) / 4 +
        k4 * (b ^ 5 - a ^ 5) / 5 := by
  have hi : ∀ c d : ℝ, IntervalIntegrable f volume c d := by
    intro c d
    have : f = fun x => k0 + k1 * x + k2 * x ^ 2 + k3 * x ^ 3 + k4 * x ^ 4 := funext h
    rw [this]; exact Continuous.intervalIntegrable (by fun_prop) _ _
  rw [← integral_interval_sub_left (hi 0 b) (hi 0 a), integral_of_quartic k0 k1 k2 k3 k4 b h,
    integral_of_quartic k0 k1 k2 k3 k4 a h]
  ring

/-- Integral of a trigonometric polynomial of degree two over a turn. -/
theorem integral_turn {f : ℝ → ℝ} (c0 c1 c2 c11 c22 c12 : ℝ)
    (h : ∀ θ, f θ = c0 + c1 * cos θ + c2 * sin θ + c11 * cos θ ^ 2 + c22 * sin θ ^ 2 +
      c12 * (cos θ * sin θ)) :
    ∫ θ in (0 : ℝ)..(2 * π), f θ = 2 * π * c0 + π * (c11 + c22) := by
  have hd : ∀ x ∈ Set.uIcc (0 : ℝ) (2 * π), HasDerivAt
      (fun θ => c0 * θ + c1 * sin θ + (-c2) * cos θ + (c11 / 2) * (θ + cos θ * sin θ) +
        (c22 / 2) * (θ - cos θ * sin θ) + (c12 / 2) * (sin θ * sin θ)) (f x) x := by
    intro x _
    have hs := hasDerivAt_sin x
    have hc := hasDerivAt_cos x
    have hi := hasDerivAt_id x
    refine ((((((hi.const_mul c0).add (hs.const_mul c1)).add (hc.const_mul (-c2))).add
      ((hi.add (hc.mul hs)).const_mul (c11 / 2))).add
      ((hi.sub (hc.mul hs)).const_mul (c22 / 2))).add ((hs.mul hs).const_mul (c12 / 2))).congr_deriv ?_
    rw [h]
    have := sin_sq_add_cos_sq x
    linear_combination (-c11 / 2 - c22 / 2) * this
  have hcont : Continuous f := by
    have : f = fun θ => c0 + c1 * cos θ + c2 * sin θ + c11 * cos θ ^ 2 + c22 * sin θ ^ 2 +
      c12 * (cos θ * sin θ) := funext h
    rw [this]; fun_prop
  rw [integral_eq_sub_of_hasDerivAt hd (hcont.intervalIntegrable _ _)]
  simp
  ring

/-- Integral over a turn of a cubic polynomial in the cosine. -/
theorem integral_turn3 {f : ℝ → ℝ} (k0 k1 k2 k3 l0 l1 l2 : ℝ)
    (h : ∀ θ, f θ = k0 + k1 * cos θ + k2 * cos θ ^ 2 + k3 * cos θ ^ 3 +
      sin θ * (l0 + l1 * cos θ + l2 * cos θ ^ 2)) :
    ∫ θ in (0 : ℝ)..(2 * π), f θ = 2 * π * k0 + π * k2 := by
  have hd : ∀ x ∈ Set.uIcc (0 : ℝ) (2 * π), HasDerivAt
      (fun θ => k0 * θ + k1 * sin θ + (k2 / 2) * (θ + cos θ * sin θ) +
        k3 * (sin θ - sin θ * sin θ * sin θ / 3) - l0 * cos θ - (l1 / 2) * (cos θ * cos θ) -
        (l2 / 3) * (cos θ * cos θ * cos θ)) (f x) x := by
    intro x _
    have hs := hasDerivAt_sin x
    have hc := hasDerivAt_cos x
    have hi := hasDerivAt_id x
    refine (((((((hi.const_mul k0).add (hs.const_mul k1)).add
      ((hi.add (hc.mul hs)).const_mul (k2 / 2))).add
      ((hs.sub (((hs.mul hs).mul hs).div_const 3)).const_mul k3)).sub (hc.const_mul l0)).sub
      ((hc.mul hc).const_mul (l1 / 2))).sub (((hc.mul hc).mul hc).const_mul (l2 / 3))).congr_deriv ?_
    rw [h]
    have := sin_sq_add_cos_sq x
    simp only [Pi.mul_apply]
    linear_combination (-k2 / 2 - k3 * cos x) * this
  have hcont : Continuous f := by
    have : f = fun θ => k0 + k1 * cos θ + k2 * cos θ ^ 2 + k3 * cos θ ^ 3 +
      sin θ * (l0 + l1 * cos θ + l2 * cos θ ^ 2) := funext h
    rw [this]; fun_prop
  rw [integral_eq_sub_of_hasDerivAt hd (hcont.intervalIntegrable _ _)]
  simp
  ring

/-- Integral of `sin φ` times a polynomial in the cosine. -/
theorem integral_polar {f : ℝ → ℝ} (k0 k1 k2 Φ : ℝ)
    (h : ∀ φ, f φ = sin φ * (k0 + k1 * cos φ + k2 * cos φ ^ 2)) :
    ∫ φ in (0 : ℝ)..Φ, f φ =
      k0 * (1 - cos Φ) + k1 / 2 * (1 - cos Φ ^ 2) + k2 / 3 * (1 - cos Φ ^ 3) := by
  have hd : ∀ x ∈ Set.uIcc (0 : ℝ) Φ, HasDerivAt
      (fun θ => (-k0) * cos θ - (k1 / 2) * (cos θ * cos θ) -
        (k2 / 3) * (cos θ * cos θ * cos θ)) (f x) x := by
    intro x _
    have hc := hasDerivAt_cos x
    refine (((hc.const_mul (-k0)).sub
      ((hc.mul hc).const_mul (k1 / 2))).sub (((hc.mul hc).mul hc).const_mul (k2 / 3))).congr_deriv ?_
    rw [h]
    simp only [Pi.mul_apply]
    ring
  have hcont : Continuous f := by
    have : f = fun φ => sin φ * (k0 + k1 * cos φ + k2 * cos φ ^ 2) := funext h
    rw [this]; fun_prop
  rw [integral_eq_sub_of_hasDerivAt hd (hcont.intervalIntegrable _ _)]
  simp
  ring

/-- The integral operator has the given moments on every polynomial of degree two. -/
def HasMoments (op : (V3 ℝ → ℝ) → ℝ) (M0 Mx My Mz Mxx Myy Mzz Mxy Mxz Myz : ℝ) : Prop :=
  ∀ k lx ly lz qxx qyy qzz qxy qxz qyz : ℝ,
    op (fun p => k + lx * p.x + ly * p.y + lz * p.z + qxx * p.x ^ 2 + qyy * p.y ^ 2 + qzz * p.z ^ 2 +
      qxy * (p.x * p.y) + qxz * (p.x * p.z) + qyz * (p.y * p.z)) =
    k * M0 + lx * Mx + ly * My + lz * Mz + qxx * Mxx + qyy * Myy + qzz * Mzz +
      qxy * Mxy + qxz * Mxz + qyz * Myz

theorem HasMoments.all {op : (V3 ℝ → ℝ) → ℝ} {M0 Mx My Mz Mxx Myy Mzz Mxy Mxz Myz : ℝ}
    (h : HasMoments op M0 Mx My Mz Mxx Myy Mzz Mxy Mxz Myz) :
    op (fun _ => 1) = M0 ∧ op (fun p => p.x) = Mx ∧ op (fun p => p.y) = My ∧ op (fun p => p.z) = Mz ∧
    op (fun p => p.y ^ 2 + p.z ^ 2) = Myy + Mzz ∧ op (fun p => p.x ^ 2 + p.z ^ 2) = Mxx + Mzz ∧
    op (fun p => p.x ^ 2 + p.y ^ 2) = Mxx + Myy ∧
    op (fun p => p.x * p.y) = Mxy ∧ op (fun p => p.x * p.z) = Mxz ∧ op (fun p => p.y * p.z) = Myz := by
  refine ⟨?_, ?_, ?_, ?_, ?_, ?_, ?_, ?_, ?_, ?_⟩
  · simpa using h 1 0 0 0 0 0 0 0 0 0
  · simpa using h 0 1 0 0 0 0 0 0 0 0
  · simpa using h 0 0 1 0 0 0 0 0 0 0
  · simpa using h 0 0 0 1 0 0 0 0 0 0
  · simpa using h 0 0 0 0 0 1 1 0 0 0
  · simpa using h 0 0 0 0 1 0 1 0 0 0
  · simpa using h 0 0 0 0 1 1 0 0 0 0
  · simpa using h 0 0 0 0 0 0 0 1 0 0
  · simpa using h 0 0 0 0 0 0 0 0 1 0
  · simpa using h 0 0 0 0 0 0 0 0 0 1

theorem HasMoments.isInertiaOf {op : (V3 ℝ → ℝ) → ℝ} {M0 Mxx Myy Mzz : ℝ}
    (h : HasMoments op M0 0 0 0 Mxx Myy Mzz 0 0 0) (ρ mass xx yy zz : ℝ) (h0 : mass = ρ * M0)
    (h1 : xx = ρ * (Myy + Mzz)) (h2 : yy = ρ * (Mxx + Mzz)) (h3 : zz = ρ * (Mxx + Myy)) :
    IsInertiaOf (Shapes.mk mass xx yy zz) (fun g => ρ * op g) := by
  obtain ⟨a0, ax, ay, az, a1, a2, a3, a4, a5, a6⟩ := h.all
  refine ⟨?_, ?_, ?_, ?_, rfl, rfl, ?_⟩
  · simp only [a0, ← h0]; rfl
  · simp only [ax, mul_zero]
  · simp only [ay, mul_zero]
  · simp only [az, mul_zero]
  · simp only [inertiaMatrix, a1, a2, a3, a4, a5, a6, ← h1, ← h2, ← h3]
    simp [Shapes.mk, Inertia.init]

theorem box_moments (a b h : ℝ) : HasMoments (boxIntegral a b h) (a * b * h) 0 0 0
    (a ^ 3 * b * h / 12) (a * b ^ 3 * h / 12) (a * b * h ^ 3 / 12) 0 0 0 := by
  intro k lx ly lz qxx qyy qzz qxy qxz qyz
  unfold boxIntegral
  have hz : ∀ x y : ℝ, (∫ z in (-(h / 2))..(h / 2), (k + lx * x + ly * y + lz * z + qxx * x ^ 2 +
      qyy * y ^ 2 + qzz * z ^ 2 + qxy * (x * y) + qxz * (x * z) + qyz * (y * z))) =
      (k + lx * x + ly * y + qxx * x ^ 2 + qyy * y ^ 2 + qxy * (x * y)) * h + qzz * h ^ 3 / 12 := by
    intro x y
    rw [integral_ab (k + lx * x + ly * y + qxx * x ^ 2 + qyy * y ^ 2 + qxy * (x * y))
      (lz + qxz * x + qyz * y) qzz 0 0 _ _ (fun z => by ring)]
    ring
  have hy : ∀ x : ℝ, (∫ y in (-(b / 2))..(b / 2), ((k + lx * x + ly * y + qxx * x ^ 2 + qyy * y ^ 2 +
      qxy * (x * y)) * h + qzz * h ^ 3 / 12)) =
      ((k + lx * x + qxx * x ^ 2) * h + qzz * h ^ 3 / 12) * b + qyy * h * b ^ 3 / 12 := by
    intro x
    rw [integral_ab ((k + lx * x + qxx * x ^ 2) * h + qzz * h ^ 3 / 12) ((ly + qxy * x) * h) (qyy * h)
      0 0 _ _ (fun y => by ring)]
    ring
  simp only [hz, hy]
  rw [integral_ab ((k * h + qzz * h ^ 3 / 12) * b + qyy * h * b ^ 3 / 12) (lx * h * b) (qxx * h * b)
    0 0 _ _ (fun x => by ring)]
  ring

theorem rightWedge_moments (b h l : ℝ) (hb : b ≠ 0) : HasMoments (rightWedgeIntegral b h l)
    (b * h * l / 2) 0 0 0 (b ^ 3 * h * l / 36) (b * h * l ^ 3 / 24) (b * h ^ 3 * l / 36) 0
    (-(b ^ 2 * h ^ 2 * l / 72)) 0 := by
  intro k lx ly lz qxx qyy qzz qxy qxz qyz
  unfold rightWedgeIntegral
  have hz : ∀ x y : ℝ, (∫ z in (-(h / 3))..(-(h / 3) + h * (2 / 3 - x / b)), (k + lx * x + ly * y + lz * z + qxx * x ^ 2 +
      qyy * y ^ 2 + qzz * z ^ 2 + qxy * (x * y) + qxz * (x * z) + qyz * (y * z))) =
      (k + lx * x + ly * y + qxx * x ^ 2 + qyy * y ^ 2 + qxy * (x * y)) * (h * (2 / 3 - x / b)) +
      (lz + qxz * x + qyz * y) * ((-(h / 3) + h * (2 / 3 - x / b)) ^ 2 - (h / 3) ^ 2) / 2 +
      qzz * ((-(h / 3) + h * (2 / 3 - x / b)) ^ 3 + (h / 3) ^ 3) / 3 := by
    intro x y
    rw [integral_ab (k + lx * x + ly * y + qxx * x ^ 2 + qyy * y ^ 2 + qxy * (x * y))
      (lz + qxz * x + qyz * y) qzz 0 0 _ _ (fun z => by ring)]
    ring
  simp only [hz]
  have hx : ∀ y : ℝ, (∫ x in (-(b / 3))..(2 * b / 3),
      ((k + lx * x + ly * y + qxx * x ^ 2 + qyy * y ^ 2 + qxy * (x * y)) * (h * (2 / 3 - x / b)) +
      (lz + qxz * x + qyz * y) * ((-(h / 3) + h * (2 / 3 - x / b)) ^ 2 - (h / 3) ^ 2) / 2 +
      qzz * ((-(h / 3) + h * (2 / 3 - x / b)) ^ 3 + (h / 3) ^ 3) / 3)) =
      (k + ly * y + qyy * y ^ 2) * (b * h / 2) + qxx * (b ^ 3 * h / 36) + qzz * (b * h ^ 3 / 36) -
        qxz * (b ^ 2 * h ^ 2 / 72) := by
    intro y
    rw [integral_ab
      ((k + ly * y + qyy * y ^ 2) * (h * (2 / 3)) + 0 + qzz * (2 * (h / 3) ^ 3) / 3)
      ((lx + qxy * y) * (h * (2 / 3)) - (k + ly * y + qyy * y ^ 2) * (h / b)
        - (lz + qyz * y) * (h ^ 2 / 3 / b) - qzz * (h ^ 3 / 9 / b))
      (qxx * (h * (2 / 3)) - (lx + qxy * y) * (h / b) - qxz * (h ^ 2 / 3 / b) +
        (lz + qyz * y) * (h ^ 2 / b ^ 2 / 2) + qzz * (h ^ 3 / 3 / b ^ 2))
      (- qxx * (h / b) + qxz * (h ^ 2 / b ^ 2 / 2) - qzz * (h ^ 3 / b ^ 3 / 3)) 0 _ _ (fun x => by ring)]
    field_simp
    ring
  simp only [hx]
  rw [integral_ab (k * (b * h / 2) + qxx * (b ^ 3 * h / 36) + qzz * (b * h ^ 3 / 36) -
        qxz * (b ^ 2 * h ^ 2 / 72)) (ly * (b * h / 2)) (qyy * (b * h / 2)) 0 0 _ _ (fun y => by ring)]
  ring

theorem isoWedge_moments (b h l : ℝ) (hh : h ≠ 0) : HasMoments (isoWedgeIntegral b h l)
    (b * h * l / 2) 0 0 0 (b ^ 3 * h * l / 48) (b * h * l ^ 3 / 24) (b * h ^ 3 * l / 36) 0 0 0 := by
  intro k lx ly lz qxx qyy qzz qxy qxz qyz
  unfold isoWedgeIntegral
  have hx : ∀ z y : ℝ, (∫ x in (-(b / 2 * (2 / 3 - z / h)))..(b / 2 * (2 / 3 - z / h)),
      (k + lx * x + ly * y + lz * z + qxx * x ^ 2 +
      qyy * y ^ 2 + qzz * z ^ 2 + qxy * (x * y) + qxz * (x * z) + qyz * (y * z))) =
      (k + ly * y + lz * z + qyy * y ^ 2 + qzz * z ^ 2 + qyz * (y * z)) * (b * (2 / 3 - z / h)) +
      qxx * (2 * (b / 2 * (2 / 3 - z / h)) ^ 3) / 3 := by
    intro z y
    rw [integral_ab (k + ly * y + lz * z + qyy * y ^ 2 + qzz * z ^ 2 + qyz * (y * z))
      (lx + qxz * z + qxy * y) qxx 0 0 _ _ (fun x => by ring)]
    ring
  simp only [hx]
  have hz : ∀ y : ℝ, (∫ z in (-(h / 3))..(2 * h / 3),
      ((k + ly * y + lz * z + qyy * y ^ 2 + qzz * z ^ 2 + qyz * (y * z)) * (b * (2 / 3 - z / h)) +
      qxx * (2 * (b / 2 * (2 / 3 - z / h)) ^ 3) / 3)) =
      (k + ly * y + qyy * y ^ 2) * (b * h / 2) + qxx * (b ^ 3 * h / 48) + qzz * (b * h ^ 3 / 36) := by
    intro y
    rw [integral_ab
      ((k + ly * y + qyy * y ^ 2) * (b * (2 / 3)) + qxx * (b ^ 3 / 12 * (8 / 27)))
      ((lz + qyz * y) * (b * (2 / 3)) - (k + ly * y + qyy * y ^ 2) * (b / h) - qxx * (b ^ 3 / 12 * (4 / 3 / h)))
      (qzz * (b * (2 / 3)) - (lz + qyz * y) * (b / h) + qxx * (b ^ 3 / 12 * (2 / h ^ 2)))
      (- qzz * (b / h) - qxx * (b ^ 3 / 12 * (1 / h ^ 3))) 0 _ _ (fun z => by ring)]
    field_simp
    ring
  simp only [hz]
  rw [integral_ab (k * (b * h / 2) + qxx * (b ^ 3 * h / 48) + qzz * (b * h ^ 3 / 36))
     (ly * (b * h / 2)) (qyy * (b * h / 2)) 0 0 _ _ (fun y => by ring)]
  ring

theorem pyramid_moments (a b h : ℝ) (hh : h ≠ 0) : HasMoments (pyramidIntegral a b h)
    (a * b * h / 3) 0 0 0 (a ^ 3 * b * h / 60) (a * b ^ 3 * h / 60) (a * b * h ^ 3 / 80) 0 0 0 := by
  intro k lx ly lz qxx qyy qzz qxy qxz qyz
  unfold pyramidIntegral
  have hy : ∀ x z : ℝ, (∫ y in (-(b / 2 * (3 / 4 - z / h)))..(b / 2 * (3 / 4 - z / h)),
      (k + lx * x + ly * y + lz * z + qxx * x ^ 2 +
      qyy * y ^ 2 + qzz * z ^ 2 + qxy * (x * y) + qxz * (x * z) + qyz * (y * z))) =
      (k + lx * x + lz * z + qxx * x ^ 2 + qzz * z ^ 2 + qxz * (x * z)) * (b * (3 / 4 - z / h)) +
      qyy * (2 * (b / 2 * (3 / 4 - z / h)) ^ 3) / 3 := by
    intro x z
    rw [integral_ab (k + lx * x + lz * z + qxx * x ^ 2 + qzz * z ^ 2 + qxz * (x * z))
      (ly + qxy * x + qyz * z) qyy 0 0 _ _ (fun x => by ring)]
    ring
  simp only [hy]
  have hx : ∀ z : ℝ, (∫ x in (-(a / 2 * (3 / 4 - z / h)))..(a / 2 * (3 / 4 - z / h)),
      ((k + lx * x + lz * z + qxx * x ^ 2 + qzz * z ^ 2 + qxz * (x * z)) * (b * (3 / 4 - z / h)) +
      qyy * (2 * (b / 2 * (3 / 4 - z / h)) ^ 3) / 3)) =
      (k + lz * z + qzz * z ^ 2) * (a * b * (3 / 4 - z / h) ^ 2) +
        (qxx * a ^ 3 * b + qyy * a * b ^ 3) * (3 / 4 - z / h) ^ 4 / 12 := by
    intro z
    rw [integral_ab ((k + lz * z + qzz * z ^ 2) * (b * (3 / 4 - z / h)) +
      qyy * (2 * (b / 2 * (3 / 4 - z / h)) ^ 3) / 3) ((lx + qxz * z) * (b * (3 / 4 - z / h)))
      (qxx * (b * (3 / 4 - z / h))) 0 0 _ _ (fun x => by ring)]
    ring
  simp only [hx]
  have hint : ∀ z : ℝ, (k + lz * z + qzz * z ^ 2) * (a * b * (3 / 4 - z / h) ^ 2) +
        (qxx * a ^ 3 * b + qyy * a * b ^ 3) * (3 / 4 - z / h) ^ 4 / 12 =
      (k * (a * b * (9 / 16)) + (qxx * a ^ 3 * b + qyy * a * b ^ 3) * (81 / 256) / 12) +
      (lz * (a * b * (9 / 16)) - k * (a * b * (3 / 2 / h)) -
        (qxx * a ^ 3 * b + qyy * a * b ^ 3) * (27 / 16 / h) / 12) * z +
      (qzz * (a * b * (9 / 16)) - lz * (a * b * (3 / 2 / h)) + k * (a * b * (1 / h ^ 2)) +
        (qxx * a ^ 3 * b + qyy * a * b ^ 3) * (27 / 8 / h ^ 2) / 12) * z ^ 2 +
      (- qzz * (a * b * (3 / 2 / h)) + lz * (a * b * (1 / h ^ 2)) -
        (qxx * a ^ 3 * b + qyy * a * b ^ 3) * (3 / h ^ 3) / 12) * z ^ 3 +
      (qzz * (a * b * (1 / h ^ 2)) + (qxx * a ^ 3 * b + qyy * a * b ^ 3) * (1 / h ^ 4) / 12) * z ^ 4 := by
    intro z; ring
  rw [integral_ab _ _ _ _ _ _ _ hint]
  field_simp
  ring

/-- Inner integrals of a solid of revolution. -/
theorem rev_inner (a b z ri ro k lx ly lz qxx qyy qzz qxy qxz qyz : ℝ) :
    (∫ r in ri..ro, ∫ θ in (0 : ℝ)..(2 * π), (k + lx * (a * (r * cos θ)) + ly * (b * (r * sin θ)) + lz * z +
      qxx * (a * (r * cos θ)) ^ 2 + qyy * (b * (r * sin θ)) ^ 2 + qzz * z ^ 2 +
      qxy * ((a * (r * cos θ)) * (b * (r * sin θ))) + qxz * ((a * (r * cos θ)) * z) +
      qyz * ((b * (r * sin θ)) * z)) * (a * b * r)) =
    π * a * b * ((k + lz * z + qzz * z ^ 2) * (ro ^ 2 - ri ^ 2) +
      (qxx * a ^ 2 + qyy * b ^ 2) * (ro ^ 4 - ri ^ 4) / 4) := by
  have hθ : ∀ r : ℝ, (∫ θ in (0 : ℝ)..(2 * π), (k + lx * (a * (r * cos θ)) + ly * (b * (r * sin θ)) + lz * z +
      qxx * (a * (r * cos θ)) ^ 2 + qyy * (b * (r * sin θ)) ^ 2 + qzz * z ^ 2 +
      qxy * ((a * (r * cos θ)) * (b * (r * sin θ))) + qxz * ((a * (r * cos θ)) * z) +
      qyz * ((b * (r * sin θ)) * z)) * (a * b * r)) =
      2 * π * ((k + lz * z + qzz * z ^ 2) * (a * b * r)) +
        π * (qxx * (a * r) ^ 2 * (a * b * r) + qyy * (b * r) ^ 2 * (a * b * r)) := by
    intro r
    exact integral_turn _ ((lx * a * r + qxz * a * r * z) * (a * b * r))
      ((ly * b * r + qyz * b * r * z) * (a * b * r)) _ _ (qxy * (a * r * b * r) * (a * b * r))
      (fun θ => by ring)
  simp only [hθ]
  rw [integral_ab 0 (2 * π * ((k + lz * z + qzz * z ^ 2) * (a * b))) 0
    (π * (qxx * a ^ 2 * (a * b) + qyy * b ^ 2 * (a * b))) 0 _ _ (fun r => by ring)]
  ring

/-- Solids of revolution whose squared radii differ by constants (cylinders). -/
theorem cylinder_moments (a b l ri ro : ℝ) :
    HasMoments (revIntegral a b (-(l / 2)) (l / 2) (fun _ => ri) (fun _ => ro))
      (π * a * b * (ro ^ 2 - ri ^ 2) * l) 0 0 0
      (π * a ^ 3 * b * (ro ^ 4 - ri ^ 4) * l / 4) (π * a * b ^ 3 * (ro ^ 4 - ri ^ 4) * l / 4)
      (π * a * b * (ro ^ 2 - ri ^ 2) * l ^ 3 / 12) 0 0 0 := by
  intro k lx ly lz qxx qyy qzz qxy qxz qyz
  unfold revIntegral
  simp only [rev_inner]
  rw [integral_ab (π * a * b * (k * (ro ^ 2 - ri ^ 2) + (qxx * a ^ 2 + qyy * b ^ 2) * (ro ^ 4 - ri ^ 4) / 4))
    (π * a * b * lz * (ro ^ 2 - ri ^ 2)) (π * a * b * qzz * (ro ^ 2 - ri ^ 2)) 0 0 _ _ (fun z => by ring)]
  ring

theorem cone_moments (R h : ℝ) (hh : h ≠ 0) :
    HasMoments (revIntegral 1 1 (-(h / 4)) (3 * h / 4) (fun _ => 0) (fun z => R * (3 / 4 - z / h)))
      (π * R ^ 2 * h / 3) 0 0 0 (π * R ^ 4 * h / 20) (π * R ^ 4 * h / 20) (π * R ^ 2 * h ^ 3 / 80) 0 0 0 := by
  intro k lx ly lz qxx qyy qzz qxy qxz qyz
  unfold revIntegral
  simp only [rev_inner]
  have hint : ∀ z : ℝ, π * 1 * 1 * ((k + lz * z + qzz * z ^ 2) * ((R * (3 / 4 - z / h)) ^ 2 - 0 ^ 2) +
      (qxx * 1 ^ 2 + qyy * 1 ^ 2) * ((R * (3 / 4 - z / h)) ^ 4 - 0 ^ 4) / 4) =
      (π * (k * R ^ 2 * (9 / 16) + (qxx + qyy) * R ^ 4 * (81 / 256) / 4)) +
      (π * (lz * R ^ 2 * (9 / 16) - k * R ^ 2 * (3 / 2 / h) - (qxx + qyy) * R ^ 4 * (27 / 16 / h) / 4)) * z +
      (π * (qzz * R ^ 2 * (9 / 16) - lz * R ^ 2 * (3 / 2 / h) + k * R ^ 2 * (1 / h ^ 2) +
        (qxx + qyy) * R ^ 4 * (27 / 8 / h ^ 2) / 4)) * z ^ 2 +
      (π * (- qzz * R ^ 2 * (3 / 2 / h) + lz * R ^ 2 * (1 / h ^ 2) -
        (qxx + qyy) * R ^ 4 * (3 / h ^ 3) / 4)) * z ^ 3 +
      (π * (qzz * R ^ 2 * (1 / h ^ 2) + (qxx + qyy) * R ^ 4 * (1 / h ^ 4) / 4)) * z ^ 4 := by
    intro z; ring
  rw [integral_ab _ _ _ _ _ _ _ hint]
  field_simp
  ring

/-- Inner integrals in spherical coordinates. -/
theorem sph_inner (a b c d r J Φ k lx ly lz qxx qyy qzz qxy qxz qyz : ℝ) :
    (∫ φ in (0 : ℝ)..Φ, ∫ θ in (0 : ℝ)..(2 * π),
      (k + lx * (a * (r * sin φ * cos θ)) + ly * (b * (r * sin φ * sin θ)) + lz * (c * (r * cos φ) - d) +
      qxx * (a * (r * sin φ * cos θ)) ^ 2 + qyy * (b * (r * sin φ * sin θ)) ^ 2 +
      qzz * (c * (r * cos φ) - d) ^ 2 +
      qxy * ((a * (r * sin φ * cos θ)) * (b * (r * sin φ * sin θ))) +
      qxz * ((a * (r * sin φ * cos θ)) * (c * (r * cos φ) - d)) +
      qyz * ((b * (r * sin φ * sin θ)) * (c * (r * cos φ) - d))) * (J * sin φ)) =
    π * J * ((2 * (k - lz * d + qzz * d ^ 2) + (qxx * a ^ 2 + qyy * b ^ 2) * r ^ 2) * (1 - cos Φ) +
      (lz * c * r - 2 * qzz * c * d * r) * (1 - cos Φ ^ 2) +
      (2 * qzz * c ^ 2 - qxx * a ^ 2 - qyy * b ^ 2) * r ^ 2 / 3 * (1 - cos Φ ^ 3)) := by
  have hθ : ∀ φ : ℝ, (∫ θ in (0 : ℝ)..(2 * π),
      (k + lx * (a * (r * sin φ * cos θ)) + ly * (b * (r * sin φ * sin θ)) + lz * (c * (r * cos φ) - d) +
      qxx * (a * (r * sin φ * cos θ)) ^ 2 + qyy * (b * (r * sin φ * sin θ)) ^ 2 +
      qzz * (c * (r * cos φ) - d) ^ 2 +
      qxy * ((a * (r * sin φ * cos θ)) * (b * (r * sin φ * sin θ))) +
      qxz * ((a * (r * sin φ * cos θ)) * (c * (r * cos φ) - d)) +
      qyz * ((b * (r * sin φ * sin θ)) * (c * (r * cos φ) - d))) * (J * sin φ)) =
      2 * π * ((k + lz * (c * (r * cos φ) - d) + qzz * (c * (r * cos φ) - d) ^ 2) * (J * sin φ)) +
        π * (qxx * (a * (r * sin φ)) ^ 2 * (J * sin φ) + qyy * (b * (r * sin φ)) ^ 2 * (J * sin φ)) := by
    intro φ
    exact integral_turn _
      ((lx * (a * (r * sin φ)) + qxz * ((a * (r * sin φ)) * (c * (r * cos φ) - d))) * (J * sin φ))
      ((ly * (b * (r * sin φ)) + qyz * ((b * (r * sin φ)) * (c * (r * cos φ) - d))) * (J * sin φ)) _ _
      (qxy * ((a * (r * sin φ)) * (b * (r * sin φ))) * (J * sin φ)) (fun θ => by ring)
  simp only [hθ]
  rw [integral_polar
    (π * J * (2 * (k - lz * d + qzz * d ^ 2) + (qxx * a ^ 2 + qyy * b ^ 2) * r ^ 2))
    (π * J * 2 * (lz * c * r - 2 * qzz * c * d * r))
    (π * J * (2 * qzz * c ^ 2 - qxx * a ^ 2 - qyy * b ^ 2) * r ^ 2) Φ
    (fun φ => by
      have := sin_sq_add_cos_sq φ
      have e : sin φ ^ 2 = 1 - cos φ ^ 2 := by linarith
      simp only [mul_pow, e]; ring)]
  ring

theorem ball_moments (a b c r0 r1 : ℝ) :
    HasMoments (sphIntegral a b c 0 r0 r1 π) (4 * π * (a * b * c) * (r1 ^ 3 - r0 ^ 3) / 3) 0 0 0
      (4 * π * (a * b * c) * a ^ 2 * (r1 ^ 5 - r0 ^ 5) / 15)
      (4 * π * (a * b * c) * b ^ 2 * (r1 ^ 5 - r0 ^ 5) / 15)
      (4 * π * (a * b * c) * c ^ 2 * (r1 ^ 5 - r0 ^ 5) / 15) 0 0 0 := by
  intro k lx ly lz qxx qyy qzz qxy qxz qyz
  unfold sphIntegral
  have h : ∀ r φ : ℝ, a * b * c * (r ^ 2 * sin φ) = a * b * c * r ^ 2 * sin φ := fun r φ => by ring
  simp only [h, sph_inner, cos_pi]
  rw [integral_ab 0 0 (4 * π * (a * b * c) * k) 0
    (4 * π * (a * b * c) * (qxx * a ^ 2 + qyy * b ^ 2 + qzz * c ^ 2) / 3) _ _ (fun r => by ring)]
  ring

theorem hemisphere_moments (R : ℝ) :
    HasMoments (sphIntegral 1 1 1 (3 * R / 8) 0 R (π / 2)) (2 * π * R ^ 3 / 3) 0 0 0
      (2 * π * R ^ 5 / 15) (2 * π * R ^ 5 / 15) (2 * π * R ^ 5 * 19 / 960) 0 0 0 := by
  intro k lx ly lz qxx qyy qzz qxy qxz qyz
  unfold sphIntegral
  have h : ∀ r φ : ℝ, (1 : ℝ) * 1 * 1 * (r ^ 2 * sin φ) = r ^ 2 * sin φ := fun r φ => by ring
  simp only [h, sph_inner, cos_pi_div_two]
  rw [integral_ab 0 0 (2 * π * (k - lz * (3 * R / 8) + qzz * (3 * R / 8) ^ 2))
    (π * (lz - 2 * qzz * (3 * R / 8)))
    (π * ((qxx + qyy) + (2 * qzz - qxx - qyy) / 3)) _ _ (fun r => by ring)]
  ring

theorem torus_moments (C a : ℝ) :
    HasMoments (torusIntegral C a) (2 * π ^ 2 * C * a ^ 2) 0 0 0
      (2 * π ^ 2 * C * a ^ 2 * (4 * C ^ 2 + 3 * a ^ 2) / 8) (2 * π ^ 2 * C * a ^ 2 * a ^ 2 / 4)
      (2 * π ^ 2 * C * a ^ 2 * (4 * C ^ 2 + 3 * a ^ 2) / 8) 0 0 0 := by
  intro k lx ly lz qxx qyy qzz qxy qxz qyz
  unfold torusIntegral
  have hθ : ∀ r φ : ℝ, (∫ θ in (0 : ℝ)..(2 * π),
      (k + lx * ((C + r * cos φ) * sin θ) + ly * (r * sin φ) + lz * ((C + r * cos φ) * cos θ) +
      qxx * ((C + r * cos φ) * sin θ) ^ 2 + qyy * (r * sin φ) ^ 2 + qzz * ((C + r * cos φ) * cos θ) ^ 2 +
      qxy * ((C + r * cos φ) * sin θ * (r * sin φ)) +
      qxz * ((C + r * cos φ) * sin θ * ((C + r * cos φ) * cos θ)) +
      qyz * (r * sin φ * ((C + r * cos φ) * cos θ))) * (r * (C + r * cos φ))) =
      2 * π * ((k + ly * (r * sin φ) + qyy * (r * sin φ) ^ 2) * (r * (C + r * cos φ))) +
       π * (qzz * (C + r * cos φ) ^ 2 * (r * (C + r * cos φ)) +
        qxx * (C + r * cos φ) ^ 2 * (r * (C + r * cos φ))) := by
    intro r φ
    exact integral_turn _
      ((lz * (C + r * cos φ) + qyz * (r * sin φ * (C + r * cos φ))) * (r * (C + r * cos φ)))
      ((lx * (C + r * cos φ) + qxy * ((C + r * cos φ) * (r * sin φ))) * (r * (C + r * cos φ))) _ _
      (qxz * (C + r * cos φ) ^ 2 * (r * (C + r * cos φ))) (fun θ => by ring)
  simp only [hθ]
  have hφ : ∀ r : ℝ, (∫ φ in (0 : ℝ)..(2 * π),
      (2 * π * ((k + ly * (r * sin φ) + qyy * (r * sin φ) ^ 2) * (r * (C + r * cos φ))) +
       π * (qzz * (C + r * cos φ) ^ 2 * (r * (C + r * cos φ)) +
        qxx * (C + r * cos φ) ^ 2 * (r * (C + r * cos φ))))) =
      2 * π * (2 * π * (k + qyy * r ^ 2) * r * C + π * (qzz + qxx) * r * C ^ 3) +
        π * (- 2 * π * qyy * r ^ 2 * r * C + 3 * π * (qzz + qxx) * r * C * r ^ 2) := by
    intro r
    rw [integral_turn3 (2 * π * (k + qyy * r ^ 2) * r * C + π * (qzz + qxx) * r * C ^ 3)
      (2 * π * (k + qyy * r ^ 2) * r * r + 3 * π * (qzz + qxx) * r * C ^ 2 * r)
      (- 2 * π * qyy * r ^ 2 * r * C + 3 * π * (qzz + qxx) * r * C * r ^ 2)
      (- 2 * π * qyy * r ^ 2 * r * r + π * (qzz + qxx) * r * r ^ 3)
      (2 * π * ly * r * r * C) (2 * π * ly * r * r * r) 0
      (fun φ => by
        have := sin_sq_add_cos_sq φ
        have e : sin φ ^ 2 = 1 - cos φ ^ 2 := by linarith
        simp only [mul_pow, e]; ring)]
  simp only [hφ]
  rw [integral_ab 0 (2 * π * (2 * π * k * C + π * (qzz + qxx) * C ^ 3)) 0
    (2 * π * (2 * π * qyy * C) + π * (- 2 * π * qyy * C + 3 * π * (qzz + qxx) * C)) 0 _ _ (fun r => by ring)]
  ring

/-- Circle integral used for shells. -/
theorem ring_inner (ρ z J k lx ly lz qxx qyy qzz qxy qxz qyz : ℝ) :
    (∫ θ in (0 : ℝ)..(2 * π), (k + lx * (ρ * cos θ) + ly * (ρ * sin θ) + lz * z +
      qxx * (ρ * cos θ) ^ 2 + qyy * (ρ * sin θ) ^ 2 + qzz * z ^ 2 +
      qxy * ((ρ * cos θ) * (ρ * sin θ)) + qxz * ((ρ * cos θ) * z) +
      qyz * ((ρ * sin θ) * z)) * J) =
    2 * π * ((k + lz * z + qzz * z ^ 2) * J) + π * (qxx * ρ ^ 2 * J + qyy * ρ ^ 2 * J) :=
  integral_turn _ ((lx * ρ + qxz * ρ * z) * J) ((ly * ρ + qyz * ρ * z) * J) _ _ (qxy * (ρ * ρ) * J)
    (fun θ => by ring)

/-- Conical shells: radius `R` at `z = z0`, slope `s`. -/
theorem cone_shell_integral (R s z0 z1 k lx ly lz qxx qyy qzz qxy qxz qyz : ℝ) :
    revShellIntegral z0 z1 (fun z => R + s * (z - z0)) s (fun p => k + lx * p.x + ly * p.y + lz * p.z +
      qxx * p.x ^ 2 + qyy * p.y ^ 2 + qzz * p.z ^ 2 +
      qxy * (p.x * p.y) + qxz * (p.x * p.z) + qyz * (p.y * p.z)) =
    √(1 + s ^ 2) * π *
     (2 * k * ((R - s * z0) * (z1 - z0) + s * (z1 ^ 2 - z0 ^ 2) / 2) +
      2 * lz * ((R - s * z0) * (z1 ^ 2 - z0 ^ 2) / 2 + s * (z1 ^ 3 - z0 ^ 3) / 3) +
      2 * qzz * ((R - s * z0) * (z1 ^ 3 - z0 ^ 3) / 3 + s * (z1 ^ 4 - z0 ^ 4) / 4) +
      (qxx + qyy) * ((R - s * z0) ^ 3 * (z1 - z0) + 3 * (R - s * z0) ^ 2 * s * (z1 ^ 2 - z0 ^ 2) / 2 +
        3 * (R - s * z0) * s ^ 2 * (z1 ^ 3 - z0 ^ 3) / 3 + s ^ 3 * (z1 ^ 4 - z0 ^ 4) / 4)) := by
  unfold revShellIntegral
  simp only [ring_inner]
  generalize √(1 + s ^ 2) = L
  rw [integral_ab (L * π * (2 * k * (R - s * z0) + (qxx + qyy) * (R - s * z0) ^ 3))
    (L * π * (2 * k * s + 2 * lz * (R - s * z0) + (qxx + qyy) * (3 * (R - s * z0) ^ 2 * s)))
    (L * π * (2 * lz * s + 2 * qzz * (R - s * z0) + (qxx + qyy) * (3 * (R - s * z0) * s ^ 2)))
    (L * π * (2 * qzz * s + (qxx + qyy) * s ^ 3)) 0 _ _ (fun z => by ring)]
  ring

theorem disc_moments (R h : ℝ) : HasMoments (discIntegral R h) (π * R ^ 2) 0 0 (π * R ^ 2 * h)
    (π * R ^ 4 / 4) (π * R ^ 4 / 4) (π * R ^ 2 * h ^ 2) 0 0 0 := by
  intro k lx ly lz qxx qyy qzz qxy qxz qyz
  unfold discIntegral
  simp only [ring_inner]
  rw [integral_ab 0 (2 * π * (k + lz * h + qzz * h ^ 2)) 0 (π * (qxx + qyy)) 0 _ _ (fun r => by ring)]
  ring

theorem sphShell_moments (R : ℝ) : HasMoments (sphShellIntegral R 0 π) (4 * π * R ^ 2) 0 0 0
    (4 * π * R ^ 4 / 3) (4 * π * R ^ 4 / 3) (4 * π * R ^ 4 / 3) 0 0 0 := by
  intro k lx ly lz qxx qyy qzz qxy qxz qyz
  unfold sphShellIntegral
  have := sph_inner 1 1 1 0 R (R ^ 2) π k lx ly lz qxx qyy qzz qxy qxz qyz
  simp only [one_mul] at this
  rw [this, cos_pi]; ring

theorem hemiShell_moments (R : ℝ) : HasMoments (sphShellIntegral R (R / 2) (π / 2)) (2 * π * R ^ 2) 0 0 0
    (2 * π * R ^ 4 / 3) (2 * π * R ^ 4 / 3) (2 * π * R ^ 4 / 12) 0 0 0 := by
  intro k lx ly lz qxx qyy qzz qxy qxz qyz
  unfold sphShellIntegral
  have := sph_inner 1 1 1 (R / 2) R (R ^ 2) (π / 2) k lx ly lz qxx qyy qzz qxy qxz qyz
  simp only [one_mul] at this
  rw [this, cos_pi_div_two]; ring

end MM
