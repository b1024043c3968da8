import Verif.Model.VolumeQuadFl
import Verif.Proofs.VolumeFl
import Verif.Proofs.FaceProps
import Verif.Spec.Closed
import Verif.Spec.Mesh

/-!
# Proofs: the volume of a mesh with quadrangles in floating point
-/

namespace MM
namespace QuadFl

open Real

/-! ### Norms -/

lemma normSq_nonneg (v : V3 ℝ) : 0 ≤ v.normSq := by
  unfold V3.normSq V3.dot
  nlinarith [mul_self_nonneg v.x, mul_self_nonneg v.y, mul_self_nonneg v.z]

lemma norm_nonneg (v : V3 ℝ) : 0 ≤ v.norm := sqrt_nonneg _

lemma norm_sq (v : V3 ℝ) : v.norm ^ 2 = v.x ^ 2 + v.y ^ 2 + v.z ^ 2 := by
  unfold V3.norm
  rw [sq_sqrt (normSq_nonneg v)]
  unfold V3.normSq V3.dot; ring

lemma coord_le_norm (v : V3 ℝ) : |v.x| ≤ v.norm ∧ |v.y| ≤ v.norm ∧ |v.z| ≤ v.norm := by
  have h := norm_sq v
  have h0 := norm_nonneg v
  refine ⟨abs_le_of_sq_le_sq ?_ h0, abs_le_of_sq_le_sq ?_ h0, abs_le_of_sq_le_sq ?_ h0⟩ <;>
    nlinarith [sq_nonneg v.x, sq_nonneg v.y, sq_nonneg v.z]

lemma norm_le_of_coord {v : V3 ℝ} {t : ℝ} (hx : |v.x| ≤ t) (hy : |v.y| ≤ t) (hz : |v.z| ≤ t) : v.norm ≤ 7 / 4 * t := by
  have t0 : 0 ≤ t := (abs_nonneg _).trans hx
  have e : ∀ a : ℝ, |a| ≤ t → a ^ 2 ≤ t ^ 2 := fun a h => by rw [← sq_abs a]; exact pow_le_pow_left₀ (abs_nonneg _) h 2
  refine abs_le_of_sq_le_sq (by nlinarith [norm_sq v, e _ hx, e _ hy, e _ hz]) (by positivity) |> fun h => (le_abs_self _).trans h

lemma norm_diff (a b : V3 ℝ) : |a.norm - b.norm| ≤ (a - b).norm := by
  have ha := norm_sq a
  have hb := norm_sq b
  have hab := norm_sq (a - b)
  simp only [V3.sub_x, V3.sub_y, V3.sub_z] at hab
  have na := norm_nonneg a
  have nb := norm_nonneg b
  have cs : a.x * b.x + a.y * b.y + a.z * b.z ≤ a.norm * b.norm := by
    refine (le_abs_self _).trans (abs_le_of_sq_le_sq ?_ (mul_nonneg na nb))
    rw [mul_pow, ha, hb]
    nlinarith [sq_nonneg (a.x * b.y - a.y * b.x), sq_nonneg (a.x * b.z - a.z * b.x), sq_nonneg (a.y * b.z - a.z * b.y)]
  refine abs_le_of_sq_le_sq ?_ (norm_nonneg _)
  nlinarith

/-- Two directions. -/
lemma unit_near {c c' E : ℝ} {n n' : ℝ} (hc : 0 < n) (hn' : 0 < n') (hc' : |c'| ≤ n') (h1 : |c' - c| ≤ E)
    (h2 : |n' - n| ≤ E) : |c' / n' - c / n| ≤ 2 * (E / n) := by
  have e : c' / n' - c / n = (c' - c) / n + c' / n' * ((n - n') / n) := by field_simp; ring
  rw [e]
  have k1 : |(c' - c) / n| ≤ E / n := by rw [abs_div, abs_of_pos hc]; exact div_le_div_of_nonneg_right h1 hc.le
  have k2 : |(n - n') / n| ≤ E / n := by
    rw [abs_div, abs_of_pos hc, abs_sub_comm]; exact div_le_div_of_nonneg_right h2 hc.le
  have k3 : |c' / n'| ≤ 1 := by rw [abs_div, abs_of_pos hn']; exact (div_le_one hn').2 hc'
  have k4 : |c' / n' * ((n - n') / n)| ≤ E / n := by
    rw [abs_mul]
    calc _ ≤ 1 * (E / n) := mul_le_mul k3 k2 (abs_nonneg _) zero_le_one
      _ = _ := one_mul _
  linarith [abs_add_le ((c' - c) / n) (c' / n' * ((n - n') / n))]

/-! ### Roundings -/

variable {u ε R : ℝ} {rnd : ℝ → ℝ}

lemma rnd_near (hr : IsRounding u rnd) (hu : u ≤ ε) (h0 : 0 ≤ ε) {x x' a X : ℝ} (h : |x' - x| ≤ a) (hx : |x| ≤ X) :
    |rnd x' - x| ≤ a + ε * (X + a) := by
  have h1 := hr.near x'
  have h2 : |x'| ≤ X + a := by
    have := abs_add_le (x' - x) x
    rw [sub_add_cancel] at this
    linarith
  have h3 : u * |x'| ≤ ε * (X + a) := mul_le_mul hu h2 (abs_nonneg _) h0
  have := abs_add_le (rnd x' - x') (x' - x)
  rw [sub_add_sub_cancel] at this
  linarith

lemma mul_near {a a' b b' α β A B : ℝ} (h1 : |a' - a| ≤ α) (h2 : |b' - b| ≤ β) (ha : |a| ≤ A) (hb : |b| ≤ B) :
    |a' * b' - a * b| ≤ α * B + A * β + α * β := by
  have e : a' * b' - a * b = (a' - a) * b + a * (b' - b) + (a' - a) * (b' - b) := by ring
  have α0 := (abs_nonneg _).trans h1
  have A0 := (abs_nonneg _).trans ha
  rw [e]
  have t1 := mul_le_mul h1 hb (abs_nonneg _) α0
  have t2 := mul_le_mul ha h2 (abs_nonneg _) A0
  have t3 := mul_le_mul h1 h2 (abs_nonneg _) α0
  rw [← abs_mul] at t1 t2 t3
  have := abs_add_le ((a' - a) * b + a * (b' - b)) ((a' - a) * (b' - b))
  have := abs_add_le ((a' - a) * b) (a * (b' - b))
  linarith

lemma abs_mul_le {a b A B : ℝ} (ha : |a| ≤ A) (hb : |b| ≤ B) : |a * b| ≤ A * B := by
  rw [abs_mul]; exact mul_le_mul ha hb (abs_nonneg _) ((abs_nonneg _).trans ha)

section
variable (hr : IsRounding u rnd) (hu : u ≤ ε) (h0 : 0 ≤ ε) (h1 : ε ≤ 1 / 100) (hR : 0 ≤ R)
include hr hu h0 h1 hR

lemma sub_near {p q p' q' : ℝ} (hp : |p| ≤ R) (hq : |q| ≤ R) (cp : |p - p'| ≤ ε * R) (cq : |q - q'| ≤ ε * R) :
    |rnd (p' - q') - (p - q)| ≤ 5 * (ε * R) ∧ |p - q| ≤ 2 * R := by
  have b : |p - q| ≤ 2 * R := by have := abs_sub p q; linarith
  refine ⟨?_, b⟩
  have d : |p' - q' - (p - q)| ≤ 2 * (ε * R) := by
    have e : p' - q' - (p - q) = -(p - p') + (q - q') := by ring
    rw [e]
    have := abs_add_le (-(p - p')) (q - q')
    rw [abs_neg] at this
    linarith
  have := rnd_near hr hu h0 d b
  have e2 : ε * (ε * R) ≤ 1 / 100 * (ε * R) := mul_le_mul_of_nonneg_right h1 (by positivity)
  have e3 : ε * (2 * R + 2 * (ε * R)) = 2 * (ε * R) + 2 * (ε * (ε * R)) := by ring
  nlinarith [mul_nonneg h0 hR]

omit hR in
lemma cross_near {a b c d a' b' c' d' : ℝ} (ha : |a' - a| ≤ 5 * (ε * R) ∧ |a| ≤ 2 * R) (hb : |b' - b| ≤ 5 * (ε * R) ∧ |b| ≤ 2 * R)
    (hc : |c' - c| ≤ 5 * (ε * R) ∧ |c| ≤ 2 * R) (hd : |d' - d| ≤ 5 * (ε * R) ∧ |d| ≤ 2 * R) :
    |rnd (rnd (a' * b') - rnd (c' * d')) - (a * b - c * d)| ≤ 59 * (ε * R ^ 2) ∧ |a * b - c * d| ≤ 8 * R ^ 2 := by
  have s0 : 0 ≤ ε * R ^ 2 := by positivity
  have s1 : ε * (ε * R ^ 2) ≤ 1 / 100 * (ε * R ^ 2) := mul_le_mul_of_nonneg_right h1 s0
  have prod : ∀ x y x' y' : ℝ, (|x' - x| ≤ 5 * (ε * R) ∧ |x| ≤ 2 * R) → (|y' - y| ≤ 5 * (ε * R) ∧ |y| ≤ 2 * R) →
      |rnd (x' * y') - x * y| ≤ 25 * (ε * R ^ 2) ∧ |x * y| ≤ 4 * R ^ 2 := by
    intro x y x' y' hx hy
    have k : |x * y| ≤ 4 * R ^ 2 := (abs_mul_le hx.2 hy.2).trans (le_of_eq (by ring))
    refine ⟨?_, k⟩
    have m := mul_near hx.1 hy.1 hx.2 hy.2
    have m' : |x' * y' - x * y| ≤ 20.25 * (ε * R ^ 2) := by
      have e : 5 * (ε * R) * (2 * R) + 2 * R * (5 * (ε * R)) + 5 * (ε * R) * (5 * (ε * R)) =
        20 * (ε * R ^ 2) + 25 * (ε * (ε * R ^ 2)) := by ring
      rw [e] at m
      linarith
    have := rnd_near hr hu h0 m' k
    have e : ε * (4 * R ^ 2 + 20.25 * (ε * R ^ 2)) = 4 * (ε * R ^ 2) + 20.25 * (ε * (ε * R ^ 2)) := by ring
    rw [e] at this
    linarith
  have p1 := prod _ _ _ _ ha hb
  have p2 := prod _ _ _ _ hc hd
  have k : |a * b - c * d| ≤ 8 * R ^ 2 := by have := abs_sub (a * b) (c * d); linarith [p1.2, p2.2]
  refine ⟨?_, k⟩
  have m : |rnd (a' * b') - rnd (c' * d') - (a * b - c * d)| ≤ 50 * (ε * R ^ 2) := by
    have e : rnd (a' * b') - rnd (c' * d') - (a * b - c * d) = (rnd (a' * b') - a * b) - (rnd (c' * d') - c * d) := by ring
    rw [e]
    have := abs_sub (rnd (a' * b') - a * b) (rnd (c' * d') - c * d)
    linarith [p1.1, p2.1]
  have := rnd_near hr hu h0 m k
  have e : ε * (8 * R ^ 2 + 50 * (ε * R ^ 2)) = 8 * (ε * R ^ 2) + 50 * (ε * (ε * R ^ 2)) := by ring
  rw [e] at this
  linarith

/-- The vector product of two differences of points. -/
lemma crossV_near {a b a' b' : V3 ℝ} (ha : ∀ k, |a'.coord k - a.coord k| ≤ 5 * (ε * R) ∧ |a.coord k| ≤ 2 * R)
    (hb : ∀ k, |b'.coord k - b.coord k| ≤ 5 * (ε * R) ∧ |b.coord k| ≤ 2 * R) :
    (crossFl rnd a' b' - a.cross b).norm ≤ 104 * (ε * R ^ 2) ∧ (a.cross b).norm ≤ 14 * R ^ 2 := by
  have x := cross_near hr hu h0 h1 (ha 1) (hb 2) (ha 2) (hb 1)
  have y := cross_near hr hu h0 h1 (ha 2) (hb 0) (ha 0) (hb 2)
  have z := cross_near hr hu h0 h1 (ha 0) (hb 1) (ha 1) (hb 0)
  have s0 : 0 ≤ ε * R ^ 2 := by positivity
  constructor
  · have := norm_le_of_coord (v := crossFl rnd a' b' - a.cross b) x.1 y.1 z.1
    linarith
  · have := norm_le_of_coord (v := a.cross b) x.2 y.2 z.2
    linarith

lemma subV_near {p q p' q' : V3 ℝ} (hp : ∀ k, |p.coord k| ≤ R) (hq : ∀ k, |q.coord k| ≤ R) (cp : V3.Close (ε * R) p p')
    (cq : V3.Close (ε * R) q q') (k : Fin 3) :
    |(subFl rnd p' q').coord k - (p - q).coord k| ≤ 5 * (ε * R) ∧ |(p - q).coord k| ≤ 2 * R := by
  fin_cases k
  · exact sub_near hr hu h0 h1 hR (hp 0) (hq 0) cp.1 cq.1
  · exact sub_near hr hu h0 h1 hR (hp 1) (hq 1) cp.2.1 cq.2.1
  · exact sub_near hr hu h0 h1 hR (hp 2) (hq 2) cp.2.2 cq.2.2

lemma f1_near {a b c a' b' c' : ℝ} (ha : |a| ≤ R) (hb : |b| ≤ R) (hc : |c| ≤ R) (ca : |a - a'| ≤ ε * R) (cb : |b - b'| ≤ ε * R)
    (cc : |c - c'| ≤ ε * R) : |f1Fl rnd a' b' c' - MM.h1 a b c| ≤ 10 * (ε * R) ∧ |MM.h1 a b c| ≤ 3 * R := by
  have s0 : 0 ≤ ε * R := by positivity
  have s1 : ε * (ε * R) ≤ 1 / 100 * (ε * R) := mul_le_mul_of_nonneg_right h1 s0
  have k1 : |a + b| ≤ 2 * R := by have := abs_add_le a b; linarith
  have k2 : |a + b + c| ≤ 3 * R := by have := abs_add_le (a + b) c; linarith
  have m1 : |a' + b' - (a + b)| ≤ 2 * (ε * R) := by
    rw [show a' + b' - (a + b) = -(a - a') - (b - b') by ring]
    have := abs_sub (-(a - a')) (b - b')
    rw [abs_neg] at this
    linarith
  have r1 := rnd_near hr hu h0 m1 k1
  rw [show ε * (2 * R + 2 * (ε * R)) = 2 * (ε * R) + 2 * (ε * (ε * R)) by ring] at r1
  have m2 : |rnd (a' + b') + c' - (a + b + c)| ≤ 6 * (ε * R) := by
    rw [show rnd (a' + b') + c' - (a + b + c) = (rnd (a' + b') - (a + b)) - (c - c') by ring]
    have := abs_sub (rnd (a' + b') - (a + b)) (c - c')
    linarith
  have r2 := rnd_near hr hu h0 m2 k2
  rw [show ε * (3 * R + 6 * (ε * R)) = 3 * (ε * R) + 6 * (ε * (ε * R)) by ring] at r2
  refine ⟨?_, k2⟩
  unfold f1Fl MM.h1
  linarith

lemma integral_near {g : ℝ} (hg : g ≤ ε) {nrm : V3 ℝ → ℝ} (hnrm : ∀ v, |nrm v - v.norm| ≤ g * v.norm) {c c' : V3 ℝ} {f f' : ℝ}
    (hc : (c' - c).norm ≤ 104 * (ε * R ^ 2) ∧ c.norm ≤ 14 * R ^ 2) (hf : |f' - f| ≤ 10 * (ε * R) ∧ |f| ≤ 3 * R) :
    |integralFl rnd nrm c' f' 6 - c.norm * f / 6| ≤ 102 * (ε * R ^ 3) ∧ |c.norm * f / 6| ≤ 7 * R ^ 3 := by
  have s0 : 0 ≤ ε * R ^ 2 := by positivity
  have s1 : ε * (ε * R ^ 2) ≤ 1 / 100 * (ε * R ^ 2) := mul_le_mul_of_nonneg_right h1 s0
  have t0 : 0 ≤ ε * R ^ 3 := by positivity
  have t1 : ε * (ε * R ^ 3) ≤ 1 / 100 * (ε * R ^ 3) := mul_le_mul_of_nonneg_right h1 t0
  have d := norm_diff c' c
  have c0 := norm_nonneg c
  have c0' := norm_nonneg c'
  have cb : c'.norm ≤ 14 * R ^ 2 + 104 * (ε * R ^ 2) := by have := (abs_le.1 d).2; linarith [hc.1, hc.2]
  have dn : |nrm c' - c.norm| ≤ 120 * (ε * R ^ 2) := by
    have k := hnrm c'
    have k2 : g * c'.norm ≤ ε * (14 * R ^ 2 + 104 * (ε * R ^ 2)) := mul_le_mul hg cb c0' h0
    rw [show ε * (14 * R ^ 2 + 104 * (ε * R ^ 2)) = 14 * (ε * R ^ 2) + 104 * (ε * (ε * R ^ 2)) by ring] at k2
    have := abs_add_le (nrm c' - c'.norm) (c'.norm - c.norm)
    rw [sub_add_sub_cancel] at this
    linarith [hc.1]
  have cabs : |c.norm| ≤ 14 * R ^ 2 := by rw [abs_of_nonneg c0]; exact hc.2
  have kf : |c.norm * f| ≤ 42 * R ^ 3 := (abs_mul_le cabs hf.2).trans (le_of_eq (by ring))
  have m := mul_near dn hf.1 cabs hf.2
  rw [show 120 * (ε * R ^ 2) * (3 * R) + 14 * R ^ 2 * (10 * (ε * R)) + 120 * (ε * R ^ 2) * (10 * (ε * R)) =
    500 * (ε * R ^ 3) + 1200 * (ε * (ε * R ^ 3)) by ring] at m
  have m' : |nrm c' * f' - c.norm * f| ≤ 512 * (ε * R ^ 3) := by linarith
  have r1 := rnd_near hr hu h0 m' kf
  rw [show ε * (42 * R ^ 3 + 512 * (ε * R ^ 3)) = 42 * (ε * R ^ 3) + 512 * (ε * (ε * R ^ 3)) by ring] at r1
  have k6 : |c.norm * f / 6| ≤ 7 * R ^ 3 := by rw [abs_div, abs_of_pos (by norm_num : (0 : ℝ) < 6)]; linarith
  have m6 : |rnd (nrm c' * f') / 6 - c.norm * f / 6| ≤ 94 * (ε * R ^ 3) := by
    rw [← sub_div, abs_div, abs_of_pos (by norm_num : (0 : ℝ) < 6)]; linarith
  have r2 := rnd_near hr hu h0 m6 k6
  rw [show ε * (7 * R ^ 3 + 94 * (ε * R ^ 3)) = 7 * (ε * R ^ 3) + 94 * (ε * (ε * R ^ 3)) by ring] at r2
  refine ⟨?_, k6⟩
  unfold integralFl
  linarith

omit hR in
/-- A coordinate of the normal: `n` and `n'` are the coordinates of the exact and computed vector products. -/
lemma normal_near {g : ℝ} (hg : g ≤ ε) {nrm : V3 ℝ → ℝ} (hnrm : ∀ v, |nrm v - v.norm| ≤ g * v.norm) {C C' : V3 ℝ} {n n' : ℝ}
    (hC : (C' - C).norm ≤ 104 * (ε * R ^ 2)) (hC0 : 0 < C.norm) (hn0 : nrm C' ≠ 0) (hn' : |n'| ≤ C'.norm)
    (hnn : |n' - n| ≤ (C' - C).norm) :
    |rnd (n' / nrm C') - n / C.norm| ≤ 3 * ε + 208 * (ε * R ^ 2) / C.norm ∧ |rnd (n' / nrm C')| ≤ 1.03 := by
  have c0' : 0 < C'.norm := by
    rcases (norm_nonneg C').lt_or_eq with h | h
    · exact h
    · exfalso
      have := hnrm C'
      rw [← h, mul_zero, sub_zero] at this
      exact hn0 (abs_eq_zero.1 (le_antisymm this (abs_nonneg _)))
  have unit := unit_near hC0 c0' hn' (hnn.trans hC) ((norm_diff C' C).trans hC)
  have hk := hnrm C'
  have hk' : |nrm C' - C'.norm| ≤ ε * C'.norm := hk.trans (mul_le_mul_of_nonneg_right hg c0'.le)
  have np : 0.99 * C'.norm ≤ nrm C' := by
    have := (abs_le.1 hk').1
    have := mul_le_mul_of_nonneg_right h1 c0'.le
    linarith
  have np0 : 0 < nrm C' := by linarith
  have b1 : |n' / C'.norm| ≤ 1 := by rw [abs_div, abs_of_pos c0']; exact (div_le_one c0').2 hn'
  have d1 : |n' / nrm C' - n' / C'.norm| ≤ 1.02 * ε := by
    have e : n' / nrm C' - n' / C'.norm = n' / C'.norm * ((C'.norm - nrm C') / nrm C') := by field_simp
    rw [e, abs_mul]
    have : |(C'.norm - nrm C') / nrm C'| ≤ 1.02 * ε := by
      rw [abs_div, abs_of_pos np0, div_le_iff₀ np0, abs_sub_comm]
      have := mul_le_mul_of_nonneg_left np (by positivity : 0 ≤ 1.02 * ε)
      nlinarith [mul_nonneg h0 c0'.le]
    calc _ ≤ 1 * (1.02 * ε) := mul_le_mul b1 this (abs_nonneg _) zero_le_one
      _ = _ := one_mul _
  have r := rnd_near hr hu h0 d1 b1
  have e2 : ε * (1 + 1.02 * ε) ≤ 1.98 * ε := by nlinarith
  have r' : |rnd (n' / nrm C') - n' / C'.norm| ≤ 3 * ε := by linarith
  constructor
  · have := abs_add_le (rnd (n' / nrm C') - n' / C'.norm) (n' / C'.norm - n / C.norm)
    rw [sub_add_sub_cancel] at this
    have e : 2 * (104 * (ε * R ^ 2) / C.norm) = 208 * (ε * R ^ 2) / C.norm := by ring
    linarith
  · have := abs_add_le (rnd (n' / nrm C') - n' / C'.norm) (n' / C'.norm)
    rw [sub_add_cancel] at this
    linarith

/-- A coordinate of the normal times the integral over the face. -/
lemma product_near {N N' S S' L : ℝ} (hL : 0 < L) (hL' : L ≤ 14 * R ^ 2) (hN : |N| ≤ 1)
    (hN' : |N' - N| ≤ 3 * ε + 208 * (ε * R ^ 2) / L) (hN1 : |N'| ≤ 1.03) (hS : |S' - S| ≤ 214 * (ε * R ^ 3))
    (hSL : |S| ≤ L * R / 2) : |rnd (N' * S') - N * S| ≤ 357 * (ε * R ^ 3) ∧ |N * S| ≤ 7 * R ^ 3 := by
  have t0 : 0 ≤ ε * R ^ 3 := by positivity
  have t1 : ε * (ε * R ^ 3) ≤ 1 / 100 * (ε * R ^ 3) := mul_le_mul_of_nonneg_right h1 t0
  have S7 : L * R / 2 ≤ 7 * R ^ 3 := by
    have := mul_le_mul_of_nonneg_right hL' hR
    nlinarith
  have k : |N * S| ≤ 7 * R ^ 3 := by
    have := abs_mul_le hN (hSL.trans S7)
    linarith
  refine ⟨?_, k⟩
  have p1 : |N' * (S' - S)| ≤ 1.03 * (214 * (ε * R ^ 3)) := abs_mul_le hN1 hS
  have p2 : |(N' - N) * S| ≤ 125 * (ε * R ^ 3) := by
    refine (abs_mul_le hN' hSL).trans ?_
    have e : (3 * ε + 208 * (ε * R ^ 2) / L) * (L * R / 2) = 3 / 2 * (ε * R) * L + 104 * (ε * R ^ 3) := by field_simp; ring
    rw [e]
    have := mul_le_mul_of_nonneg_left hL' (by positivity : 0 ≤ 3 / 2 * (ε * R))
    nlinarith
  have m : |N' * S' - N * S| ≤ 346 * (ε * R ^ 3) := by
    rw [show N' * S' - N * S = N' * (S' - S) + (N' - N) * S by ring]
    have := abs_add_le (N' * (S' - S)) ((N' - N) * S)
    linarith
  have r := rnd_near hr hu h0 m k
  rw [show ε * (7 * R ^ 3 + 346 * (ε * R ^ 3)) = 7 * (ε * R ^ 3) + 346 * (ε * (ε * R ^ 3)) by ring] at r
  linarith

section coord
variable {g : ℝ} (hg : g ≤ ε) {nrm : V3 ℝ → ℝ} (hnrm : ∀ v, |nrm v - v.norm| ≤ g * v.norm)
include hg hnrm

lemma tri_coord {c c' : V3 ℝ} {n n' f f' : ℝ} (hc : (c' - c).norm ≤ 104 * (ε * R ^ 2) ∧ c.norm ≤ 14 * R ^ 2) (hc0 : 0 < c.norm)
    (hn0 : nrm c' ≠ 0) (hN : |n| ≤ c.norm) (hn' : |n'| ≤ c'.norm) (hnn : |n' - n| ≤ (c' - c).norm)
    (hf : |f' - f| ≤ 10 * (ε * R) ∧ |f| ≤ 3 * R) :
    |termFl rnd nrm c' n' f' 6 - n * f / 6| ≤ 357 * (ε * R ^ 3) ∧ |n * f / 6| ≤ 7 * R ^ 3 := by
  have I := integral_near hr hu h0 h1 hR hg hnrm hc hf
  have N := normal_near hr hu h0 h1 hg hnrm hc.1 hc0 hn0 hn' hnn
  have hN1 : |n / c.norm| ≤ 1 := by rw [abs_div, abs_of_pos hc0]; exact (div_le_one hc0).2 hN
  have hS : |c.norm * f / 6| ≤ c.norm * R / 2 := by
    rw [abs_div, abs_mul, abs_of_pos hc0, abs_of_pos (by norm_num : (0 : ℝ) < 6)]
    have := mul_le_mul_of_nonneg_left hf.2 hc0.le
    linarith
  have t0 : 0 ≤ ε * R ^ 3 := by positivity
  have P := product_near hr hu h0 h1 hR hc0 hc.2 hN1 N.1 N.2 (I.1.trans (by linarith)) hS
  have e : n / c.norm * (c.norm * f / 6) = n * f / 6 := by field_simp
  rw [e] at P
  exact P

lemma quad_coord {C C' c1 c1' c2 c2' : V3 ℝ} {n n' k1 k2 f1 f1' f2 f2' : ℝ}
    (hC : (C' - C).norm ≤ 104 * (ε * R ^ 2) ∧ C.norm ≤ 14 * R ^ 2)
    (hc1 : (c1' - c1).norm ≤ 104 * (ε * R ^ 2) ∧ c1.norm ≤ 14 * R ^ 2)
    (hc2 : (c2' - c2).norm ≤ 104 * (ε * R ^ 2) ∧ c2.norm ≤ 14 * R ^ 2) (hC0 : 0 < C.norm)
    (hn0 : nrm C' ≠ 0) (hN : |n| ≤ C.norm) (hn' : |n'| ≤ C'.norm) (hnn : |n' - n| ≤ (C' - C).norm)
    (hsum : C.norm = c1.norm + c2.norm) (e1 : n * c1.norm = k1 * C.norm) (e2 : n * c2.norm = k2 * C.norm)
    (hf1 : |f1' - f1| ≤ 10 * (ε * R) ∧ |f1| ≤ 3 * R) (hf2 : |f2' - f2| ≤ 10 * (ε * R) ∧ |f2| ≤ 3 * R) :
    |quadTermFl rnd nrm C' n' c1' f1' c2' f2' 6 - (k1 * f1 / 6 + k2 * f2 / 6)| ≤ 357 * (ε * R ^ 3) ∧
      |k1 * f1 / 6 + k2 * f2 / 6| ≤ 7 * R ^ 3 := by
  have I1 := integral_near hr hu h0 h1 hR hg hnrm hc1 hf1
  have I2 := integral_near hr hu h0 h1 hR hg hnrm hc2 hf2
  have N := normal_near hr hu h0 h1 hg hnrm hC.1 hC0 hn0 hn' hnn
  have hN1 : |n / C.norm| ≤ 1 := by rw [abs_div, abs_of_pos hC0]; exact (div_le_one hC0).2 hN
  have t0 : 0 ≤ ε * R ^ 3 := by positivity
  have t1 : ε * (ε * R ^ 3) ≤ 1 / 100 * (ε * R ^ 3) := mul_le_mul_of_nonneg_right h1 t0
  have hS : |c1.norm * f1 / 6 + c2.norm * f2 / 6| ≤ C.norm * R / 2 := by
    have a1 : |c1.norm * f1 / 6| ≤ c1.norm * R / 2 := by
      rw [abs_div, abs_mul, abs_of_nonneg (norm_nonneg c1), abs_of_pos (by norm_num : (0 : ℝ) < 6)]
      have := mul_le_mul_of_nonneg_left hf1.2 (norm_nonneg c1)
      linarith
    have a2 : |c2.norm * f2 / 6| ≤ c2.norm * R / 2 := by
      rw [abs_div, abs_mul, abs_of_nonneg (norm_nonneg c2), abs_of_pos (by norm_num : (0 : ℝ) < 6)]
      have := mul_le_mul_of_nonneg_left hf2.2 (norm_nonneg c2)
      linarith
    have := abs_add_le (c1.norm * f1 / 6) (c2.norm * f2 / 6)
    rw [hsum]
    linarith
  have hS7 : |c1.norm * f1 / 6 + c2.norm * f2 / 6| ≤ 7 * R ^ 3 := by
    have := mul_le_mul_of_nonneg_right hC.2 hR
    nlinarith
  have m : |integralFl rnd nrm c1' f1' 6 + integralFl rnd nrm c2' f2' 6 - (c1.norm * f1 / 6 + c2.norm * f2 / 6)| ≤
      204 * (ε * R ^ 3) := by
    rw [add_sub_add_comm]
    have := abs_add_le (integralFl rnd nrm c1' f1' 6 - c1.norm * f1 / 6) (integralFl rnd nrm c2' f2' 6 - c2.norm * f2 / 6)
    linarith [I1.1, I2.1]
  have r := rnd_near hr hu h0 m hS7
  rw [show ε * (7 * R ^ 3 + 204 * (ε * R ^ 3)) = 7 * (ε * R ^ 3) + 204 * (ε * (ε * R ^ 3)) by ring] at r
  have P := product_near hr hu h0 h1 hR hC0 hC.2 hN1 N.1 N.2 (r.trans (by linarith)) hS
  have e : n / C.norm * (c1.norm * f1 / 6 + c2.norm * f2 / 6) = k1 * f1 / 6 + k2 * f2 / 6 := by
    have : n / C.norm * (c1.norm * f1 / 6 + c2.norm * f2 / 6) = (n * c1.norm) * f1 / 6 / C.norm + (n * c2.norm) * f2 / 6 / C.norm := by
      ring
    rw [this, e1, e2]
    field_simp
  rw [e] at P
  exact P

end coord

end

/-- The sum of the fluxes through the triangles of a face. -/
noncomputable def faceFlux (m : Mesh ℝ) (f : Face) : V3 ℝ :=
  if f.a = f.d then flux1 (m.vert f.a) (m.vert f.b) (m.vert f.c)
  else flux1 (m.vert f.a) (m.vert f.b) (m.vert f.c) + flux1 (m.vert f.a) (m.vert f.c) (m.vert f.d)

/-- Near and bounded, coordinate by coordinate. -/
def NearV (ε R : ℝ) (x y : V3 ℝ) : Prop :=
  (|x.x - y.x| ≤ 357 * (ε * R ^ 3) ∧ |y.x| ≤ 7 * R ^ 3) ∧ (|x.y - y.y| ≤ 357 * (ε * R ^ 3) ∧ |y.y| ≤ 7 * R ^ 3) ∧
    (|x.z - y.z| ≤ 357 * (ε * R ^ 3) ∧ |y.z| ≤ 7 * R ^ 3)

lemma norm_pos {v : V3 ℝ} (h : v ≠ 0) : 0 < v.norm := by
  rcases (norm_nonneg v).lt_or_eq with h' | h'
  · exact h'
  · exfalso
    have := coord_le_norm v
    rw [← h'] at this
    have e : ∀ t : ℝ, |t| ≤ 0 → t = 0 := fun t h => abs_eq_zero.1 (le_antisymm h (abs_nonneg _))
    exact h (V3.ext (e _ this.1) (e _ this.2.1) (e _ this.2.2))

section
variable (hr : IsRounding u rnd) (hu : u ≤ ε) (h0 : 0 ≤ ε) (h1 : ε ≤ 1 / 100) (hR : 0 ≤ R)
variable {g : ℝ} (hg : g ≤ ε) {nrm : V3 ℝ → ℝ} (hnrm : ∀ v, |nrm v - v.norm| ≤ g * v.norm)
include hr hu h0 h1 hR hg hnrm

lemma tri_near {p q r p' q' r' : V3 ℝ} (hp : ∀ k, |p.coord k| ≤ R) (hq : ∀ k, |q.coord k| ≤ R) (hr' : ∀ k, |r.coord k| ≤ R)
    (cp : V3.Close (ε * R) p p') (cq : V3.Close (ε * R) q q') (cr : V3.Close (ε * R) r r') (hA : areaVec p q r ≠ 0)
    (hn : nrm (triCrossFl rnd p' q' r') ≠ 0) : NearV ε R (vol0Fl rnd nrm p' q' r') (flux1 p q r) := by
  have s1 := subV_near hr hu h0 h1 hR hq hp cq cp
  have s2 := subV_near hr hu h0 h1 hR hr' hp cr cp
  have C := crossV_near hr hu h0 h1 hR s1 s2
  have C0 := norm_pos hA
  have b1 := coord_le_norm (areaVec p q r)
  have b2 := coord_le_norm (triCrossFl rnd p' q' r')
  have b3 := coord_le_norm (triCrossFl rnd p' q' r' - areaVec p q r)
  exact ⟨tri_coord hr hu h0 h1 hR hg hnrm C C0 hn b1.1 b2.1 b3.1 (f1_near hr hu h0 h1 hR (hp 0) (hq 0) (hr' 0) cp.1 cq.1 cr.1),
    tri_coord hr hu h0 h1 hR hg hnrm C C0 hn b1.2.1 b2.2.1 b3.2.1
      (f1_near hr hu h0 h1 hR (hp 1) (hq 1) (hr' 1) cp.2.1 cq.2.1 cr.2.1),
    tri_coord hr hu h0 h1 hR hg hnrm C C0 hn b1.2.2 b2.2.2 b3.2.2
      (f1_near hr hu h0 h1 hR (hp 2) (hq 2) (hr' 2) cp.2.2 cq.2.2 cr.2.2)⟩

lemma quad_near {p q r s p' q' r' s' : V3 ℝ} (hp : ∀ k, |p.coord k| ≤ R) (hq : ∀ k, |q.coord k| ≤ R) (hr' : ∀ k, |r.coord k| ≤ R)
    (hs : ∀ k, |s.coord k| ≤ R) (cp : V3.Close (ε * R) p p') (cq : V3.Close (ε * R) q q') (cr : V3.Close (ε * R) r r')
    (cs : V3.Close (ε * R) s s') (hF : FlatQuad p q r s) (hn : nrm (quadCrossFl rnd p' q' r' s') ≠ 0) :
    NearV ε R (quad0Fl rnd nrm p' q' r' s') (flux1 p q r + flux1 p r s) := by
  obtain ⟨n, α, β, hα, hβ, hαβ, hn0, e1, e2⟩ := hF
  have sqp := subV_near hr hu h0 h1 hR hq hp cq cp
  have srp := subV_near hr hu h0 h1 hR hr' hp cr cp
  have ssp := subV_near hr hu h0 h1 hR hs hp cs cp
  have ssq := subV_near hr hu h0 h1 hR hs hq cs cq
  have C1 := crossV_near hr hu h0 h1 hR sqp srp
  have C2 := crossV_near hr hu h0 h1 hR srp ssp
  have C := crossV_near hr hu h0 h1 hR srp ssq
  have eC : (r - p).cross (s - q) = (α + β) • n := by
    have : (r - p).cross (s - q) = areaVec p q r + areaVec p r s := by
      unfold areaVec
      apply V3.ext <;> simp only [V3.cross, V3.add_x, V3.add_y, V3.add_z, V3.sub_x, V3.sub_y, V3.sub_z] <;> ring
    rw [this, e1, e2]
    apply V3.ext <;> simp <;> ring
  have n0 := norm_pos hn0
  have k1 : (areaVec p q r).norm = α * n.norm := by rw [e1]; exact V3.norm_smul_of_nonneg hα n
  have k2 : (areaVec p r s).norm = β * n.norm := by rw [e2]; exact V3.norm_smul_of_nonneg hβ n
  have kC : ((r - p).cross (s - q)).norm = (α + β) * n.norm := by rw [eC]; exact V3.norm_smul_of_nonneg hαβ.le n
  have C0 : 0 < ((r - p).cross (s - q)).norm := by rw [kC]; positivity
  have hsum : ((r - p).cross (s - q)).norm = (areaVec p q r).norm + (areaVec p r s).norm := by rw [kC, k1, k2]; ring
  have b1 := coord_le_norm ((r - p).cross (s - q))
  have b2 := coord_le_norm (quadCrossFl rnd p' q' r' s')
  have b3 := coord_le_norm (quadCrossFl rnd p' q' r' s' - (r - p).cross (s - q))
  have x1 : ((r - p).cross (s - q)).x * (areaVec p q r).norm = (areaVec p q r).x * ((r - p).cross (s - q)).norm := by
    rw [k1, kC, eC, e1, V3.smul_x, V3.smul_x]; ring
  have y1 : ((r - p).cross (s - q)).y * (areaVec p q r).norm = (areaVec p q r).y * ((r - p).cross (s - q)).norm := by
    rw [k1, kC, eC, e1, V3.smul_y, V3.smul_y]; ring
  have z1 : ((r - p).cross (s - q)).z * (areaVec p q r).norm = (areaVec p q r).z * ((r - p).cross (s - q)).norm := by
    rw [k1, kC, eC, e1, V3.smul_z, V3.smul_z]; ring
  have x2 : ((r - p).cross (s - q)).x * (areaVec p r s).norm = (areaVec p r s).x * ((r - p).cross (s - q)).norm := by
    rw [k2, kC, eC, e2, V3.smul_x, V3.smul_x]; ring
  have y2 : ((r - p).cross (s - q)).y * (areaVec p r s).norm = (areaVec p r s).y * ((r - p).cross (s - q)).norm := by
    rw [k2, kC, eC, e2, V3.smul_y, V3.smul_y]; ring
  have z2 : ((r - p).cross (s - q)).z * (areaVec p r s).norm = (areaVec p r s).z * ((r - p).cross (s - q)).norm := by
    rw [k2, kC, eC, e2, V3.smul_z, V3.smul_z]; ring
  exact ⟨quad_coord hr hu h0 h1 hR hg hnrm C C1 C2 C0 hn b1.1 b2.1 b3.1 hsum x1 x2
      (f1_near hr hu h0 h1 hR (hp 0) (hq 0) (hr' 0) cp.1 cq.1 cr.1) (f1_near hr hu h0 h1 hR (hp 0) (hr' 0) (hs 0) cp.1 cr.1 cs.1),
    quad_coord hr hu h0 h1 hR hg hnrm C C1 C2 C0 hn b1.2.1 b2.2.1 b3.2.1 hsum y1 y2
      (f1_near hr hu h0 h1 hR (hp 1) (hq 1) (hr' 1) cp.2.1 cq.2.1 cr.2.1)
      (f1_near hr hu h0 h1 hR (hp 1) (hr' 1) (hs 1) cp.2.1 cr.2.1 cs.2.1),
    quad_coord hr hu h0 h1 hR hg hnrm C C1 C2 C0 hn b1.2.2 b2.2.2 b3.2.2 hsum z1 z2
      (f1_near hr hu h0 h1 hR (hp 2) (hq 2) (hr' 2) cp.2.2 cq.2.2 cr.2.2)
      (f1_near hr hu h0 h1 hR (hp 2) (hr' 2) (hs 2) cp.2.2 cr.2.2 cs.2.2)⟩

end
end QuadFl
end MM
