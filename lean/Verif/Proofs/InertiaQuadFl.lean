import Verif.Model.InertiaQuadFl
import Verif.Proofs.VolumeQuadFl

/-!
# Errors on the integrals of triangles and quadrangles of any degree
-/

namespace MM
namespace QuadFl

variable {u ε R : ℝ} {rnd : ℝ → ℝ}

/-- `x'` is `x` up to `e ε X`, and `x` at most `k X`. -/
def Ap (ε e k X x' x : ℝ) : Prop := |x' - x| ≤ e * (ε * X) ∧ |x| ≤ k * X

lemma Ap.mono {e e' k k' X x' x : ℝ} (h0 : 0 ≤ ε) (hX : 0 ≤ X) (h : Ap ε e k X x' x) (he : e ≤ e') (hk : k ≤ k') :
    Ap ε e' k' X x' x :=
  ⟨h.1.trans (mul_le_mul_of_nonneg_right he (mul_nonneg h0 hX)), h.2.trans (mul_le_mul_of_nonneg_right hk hX)⟩

section
variable (hr : IsRounding u rnd) (hu : u ≤ ε) (h0 : 0 ≤ ε) (h1 : ε ≤ 1 / 100)
include hr hu h0 h1

lemma Ap.add {e₁ e₂ k₁ k₂ X x' x y' y : ℝ} (hX : 0 ≤ X) (h : Ap ε e₁ k₁ X x' x) (h' : Ap ε e₂ k₂ X y' y) (he₁ : 0 ≤ e₁)
    (he₂ : 0 ≤ e₂) : Ap ε ((e₁ + e₂) * 1.01 + (k₁ + k₂)) (k₁ + k₂) X (rnd (x' + y')) (x + y) := by
  have b : |x + y| ≤ (k₁ + k₂) * X := (abs_add_le _ _).trans (by linarith [h.2, h'.2])
  have d : |x' + y' - (x + y)| ≤ (e₁ + e₂) * (ε * X) := by
    rw [add_sub_add_comm]
    exact (abs_add_le _ _).trans (by linarith [h.1, h'.1])
  refine ⟨?_, b⟩
  have r := rnd_near hr hu h0 d b
  have s : ε * (ε * X) ≤ 1 / 100 * (ε * X) := mul_le_mul_of_nonneg_right h1 (mul_nonneg h0 hX)
  have t := mul_le_mul_of_nonneg_left s (by positivity : 0 ≤ e₁ + e₂)
  nlinarith

lemma Ap.mul {e₁ e₂ k₁ k₂ X Y x' x y' y : ℝ} (hX : 0 ≤ X) (hY : 0 ≤ Y) (h : Ap ε e₁ k₁ X x' x) (h' : Ap ε e₂ k₂ Y y' y)
    (he₁ : 0 ≤ e₁) (he₂ : 0 ≤ e₂) (hk₁ : 0 ≤ k₁) (hk₂ : 0 ≤ k₂) :
    Ap ε ((e₁ * k₂ + k₁ * e₂ + e₁ * e₂ / 100) * 1.01 + k₁ * k₂) (k₁ * k₂) (X * Y) (rnd (x' * y')) (x * y) := by
  have b : |x * y| ≤ k₁ * k₂ * (X * Y) := (abs_mul_le h.2 h'.2).trans (le_of_eq (by ring))
  have Z0 : 0 ≤ ε * (X * Y) := by positivity
  have s : ε * (ε * (X * Y)) ≤ 1 / 100 * (ε * (X * Y)) := mul_le_mul_of_nonneg_right h1 Z0
  have d : |x' * y' - x * y| ≤ (e₁ * k₂ + k₁ * e₂ + e₁ * e₂ / 100) * (ε * (X * Y)) := by
    refine (mul_near h.1 h'.1 h.2 h'.2).trans ?_
    have := mul_le_mul_of_nonneg_left s (by positivity : 0 ≤ e₁ * e₂)
    nlinarith
  refine ⟨?_, b⟩
  have r := rnd_near hr hu h0 d b
  have t := mul_le_mul_of_nonneg_left s (by positivity : 0 ≤ e₁ * k₂ + k₁ * e₂ + e₁ * e₂ / 100)
  nlinarith

variable (hR : 0 ≤ R)
include hR

lemma ap_f1 {a b c a' b' c' : ℝ} (ha : Ap ε 1 1 R a' a) (hb : Ap ε 1 1 R b' b) (hc : Ap ε 1 1 R c' c) :
    Ap ε 8.1 3 R (f1Fl rnd a' b' c') (MM.h1 a b c) :=
  ((((ha.add hr hu h0 h1 hR hb (by norm_num) (by norm_num))).add hr hu h0 h1 hR hc (by norm_num) (by norm_num))).mono h0 hR
    (by norm_num) (by norm_num)

lemma ap_t2 {a b a' b' : ℝ} (ha : Ap ε 1 1 R a' a) (hb : Ap ε 1 1 R b' b) :
    Ap ε 14.3 3 (R * R) (t2Fl rnd a' b') (a * a + b * (a + b)) := by
  have hs := ha.add hr hu h0 h1 hR hb (by norm_num) (by norm_num)
  exact ((ha.mul hr hu h0 h1 hR hR ha (by norm_num) (by norm_num) (by norm_num) (by norm_num)).add hr hu h0 h1 (by positivity)
    (hb.mul hr hu h0 h1 hR hR hs (by norm_num) (by norm_num) (by norm_num) (by norm_num)) (by norm_num) (by norm_num)).mono h0
      (by positivity) (by norm_num) (by norm_num)

lemma ap_f2 {a b c a' b' c' : ℝ} (ha : Ap ε 1 1 R a' a) (hb : Ap ε 1 1 R b' b) (hc : Ap ε 1 1 R c' c) :
    Ap ε 35 6 (R * R) (f2Fl rnd a' b' c') (h2 a b c) := by
  have h := ((ap_t2 hr hu h0 h1 hR ha hb).add hr hu h0 h1 (by positivity)
    (hc.mul hr hu h0 h1 hR hR (ap_f1 hr hu h0 h1 hR ha hb hc) (by norm_num) (by norm_num) (by norm_num) (by norm_num))
    (by norm_num) (by norm_num)).mono (e' := 35) (k' := 6) h0 (by positivity) (by norm_num) (by norm_num)
  have e : a * a + b * (a + b) + c * MM.h1 a b c = h2 a b c := by unfold MM.h1 h2; ring
  rw [e] at h
  exact h

lemma ap_f3 {a b c a' b' c' : ℝ} (ha : Ap ε 1 1 R a' a) (hb : Ap ε 1 1 R b' b) (hc : Ap ε 1 1 R c' c) :
    Ap ε 120 10 (R * (R * R)) (f3Fl rnd a' b' c') (h3 a b c) := by
  have haa := ha.mul hr hu h0 h1 hR hR ha (by norm_num) (by norm_num) (by norm_num) (by norm_num)
  have R2 : 0 ≤ R * R := by positivity
  have x := ha.mul hr hu h0 h1 hR R2 haa (by norm_num) (by norm_num) (by norm_num) (by norm_num)
  have y := hb.mul hr hu h0 h1 hR R2 (ap_t2 hr hu h0 h1 hR ha hb) (by norm_num) (by norm_num) (by norm_num) (by norm_num)
  have z := hc.mul hr hu h0 h1 hR R2 (ap_f2 hr hu h0 h1 hR ha hb hc) (by norm_num) (by norm_num) (by norm_num) (by norm_num)
  have h := ((x.add hr hu h0 h1 (by positivity) y (by norm_num) (by norm_num)).add hr hu h0 h1 (by positivity) z (by norm_num)
    (by norm_num)).mono (e' := 120) (k' := 10) h0 (by positivity) (by norm_num) (by norm_num)
  have e : a * (a * a) + b * (a * a + b * (a + b)) + c * h2 a b c = h3 a b c := by unfold h2 h3; ring
  rw [e] at h
  exact h

lemma ap_g {s a b c s' a' b' c' : ℝ} (hs : Ap ε 1 1 R s' s) (ha : Ap ε 1 1 R a' a) (hb : Ap ε 1 1 R b' b) (hc : Ap ε 1 1 R c' c) :
    Ap ε 73 10 (R * R) (gFl rnd s' a' b' c') (h2 a b c + s * (MM.h1 a b c + s)) :=
  ((ap_f2 hr hu h0 h1 hR ha hb hc).add hr hu h0 h1 (by positivity)
    (hs.mul hr hu h0 h1 hR hR ((ap_f1 hr hu h0 h1 hR ha hb hc).add hr hu h0 h1 hR hs (by norm_num) (by norm_num)) (by norm_num)
      (by norm_num) (by norm_num) (by norm_num)) (by norm_num) (by norm_num)).mono h0 (by positivity) (by norm_num) (by norm_num)

lemma ap_mix {y0 y1 y2 a b c y0' y1' y2' a' b' c' : ℝ} (h₀ : Ap ε 1 1 R y0' y0) (h₁ : Ap ε 1 1 R y1' y1) (h₂ : Ap ε 1 1 R y2' y2)
    (ha : Ap ε 1 1 R a' a) (hb : Ap ε 1 1 R b' b) (hc : Ap ε 1 1 R c' c) :
    Ap ε 360 30 (R * (R * R)) (mixFl rnd y0' y1' y2' a' b' c') (hmix y0 y1 y2 a b c) := by
  have R2 : 0 ≤ R * R := by positivity
  have x := h₀.mul hr hu h0 h1 hR R2 (ap_g hr hu h0 h1 hR ha ha hb hc) (by norm_num) (by norm_num) (by norm_num) (by norm_num)
  have y := h₁.mul hr hu h0 h1 hR R2 (ap_g hr hu h0 h1 hR hb ha hb hc) (by norm_num) (by norm_num) (by norm_num) (by norm_num)
  have z := h₂.mul hr hu h0 h1 hR R2 (ap_g hr hu h0 h1 hR hc ha hb hc) (by norm_num) (by norm_num) (by norm_num) (by norm_num)
  exact ((x.add hr hu h0 h1 (by positivity) y (by norm_num) (by norm_num)).add hr hu h0 h1 (by positivity) z (by norm_num)
    (by norm_num)).mono h0 (by positivity) (by norm_num) (by norm_num)

end

/-! ### Terms of a face, for a polynomial at most `q P / 2` -/

section
variable (hr : IsRounding u rnd) (hu : u ≤ ε) (h0 : 0 ≤ ε) (h1 : ε ≤ 1 / 100)
variable {g : ℝ} (hg : g ≤ ε) {nrm : V3 ℝ → ℝ} (hnrm : ∀ v, |nrm v - v.norm| ≤ g * v.norm) {P q : ℝ} (hP : 0 ≤ P) (hq : 0 < q)
include hr hu h0 h1 hg hnrm hP hq

lemma integralP_near {c c' : V3 ℝ} {f f' : ℝ} (hc : (c' - c).norm ≤ 104 * (ε * R ^ 2) ∧ c.norm ≤ 14 * R ^ 2)
    (hf : Ap ε (6 * q) (q / 2) P f' f) :
    |integralFl rnd nrm c' f' q - c.norm * f / q| ≤ 170 * (ε * (R ^ 2 * P)) ∧ |c.norm * f / q| ≤ c.norm * P / 2 := by
  have s0 : 0 ≤ ε * R ^ 2 := by positivity
  have s1 : ε * (ε * R ^ 2) ≤ 1 / 100 * (ε * R ^ 2) := mul_le_mul_of_nonneg_right h1 s0
  have t0 : 0 ≤ ε * (R ^ 2 * P) := by positivity
  have t1 : ε * (ε * (R ^ 2 * P)) ≤ 1 / 100 * (ε * (R ^ 2 * P)) := mul_le_mul_of_nonneg_right h1 t0
  have d := norm_diff c' c
  have c0 := QuadFl.norm_nonneg c
  have c0' := QuadFl.norm_nonneg c'
  have cb : c'.norm ≤ 14 * R ^ 2 + 104 * (ε * R ^ 2) := by have := (abs_le.1 d).2; linarith [hc.1, hc.2]
  have dn : |nrm c' - c.norm| ≤ 120 * (ε * R ^ 2) := by
    have k := hnrm c'
    have k2 : g * c'.norm ≤ ε * (14 * R ^ 2 + 104 * (ε * R ^ 2)) := mul_le_mul hg cb c0' h0
    rw [show ε * (14 * R ^ 2 + 104 * (ε * R ^ 2)) = 14 * (ε * R ^ 2) + 104 * (ε * (ε * R ^ 2)) by ring] at k2
    have := abs_add_le (nrm c' - c'.norm) (c'.norm - c.norm)
    rw [sub_add_sub_cancel] at this
    linarith [hc.1]
  have cabs : |c.norm| ≤ 14 * R ^ 2 := by rw [abs_of_nonneg c0]; exact hc.2
  have kf : |c.norm * f| ≤ q * (7 * (R ^ 2 * P)) := (abs_mul_le cabs hf.2).trans (le_of_eq (by ring))
  have m := mul_near dn hf.1 cabs hf.2
  have qt1 := mul_le_mul_of_nonneg_left t1 hq.le
  have m' : |nrm c' * f' - c.norm * f| ≤ q * (152 * (ε * (R ^ 2 * P))) := by
    refine m.trans ?_
    rw [show 120 * (ε * R ^ 2) * (q / 2 * P) + 14 * R ^ 2 * (6 * q * (ε * P)) + 120 * (ε * R ^ 2) * (6 * q * (ε * P)) =
      144 * (q * (ε * (R ^ 2 * P))) + 720 * (q * (ε * (ε * (R ^ 2 * P)))) by ring]
    have : 0 ≤ q * (ε * (R ^ 2 * P)) := by positivity
    linarith
  have r1 := rnd_near hr hu h0 m' kf
  have r1' : |rnd (nrm c' * f') - c.norm * f| ≤ q * (161 * (ε * (R ^ 2 * P))) := by
    refine r1.trans ?_
    rw [show ε * (q * (7 * (R ^ 2 * P)) + q * (152 * (ε * (R ^ 2 * P)))) =
      7 * (q * (ε * (R ^ 2 * P))) + 152 * (q * (ε * (ε * (R ^ 2 * P)))) by ring]
    have : 0 ≤ q * (ε * (R ^ 2 * P)) := by positivity
    linarith
  have kq : |c.norm * f / q| ≤ 7 * (R ^ 2 * P) := by
    rw [abs_div, abs_of_pos hq, div_le_iff₀ hq]; linarith
  have mq : |rnd (nrm c' * f') / q - c.norm * f / q| ≤ 161 * (ε * (R ^ 2 * P)) := by
    rw [← sub_div, abs_div, abs_of_pos hq, div_le_iff₀ hq]; linarith
  have r2 := rnd_near hr hu h0 mq kq
  rw [show ε * (7 * (R ^ 2 * P) + 161 * (ε * (R ^ 2 * P))) = 7 * (ε * (R ^ 2 * P)) + 161 * (ε * (ε * (R ^ 2 * P))) by ring] at r2
  constructor
  · unfold integralFl
    linarith
  · rw [abs_div, abs_mul, abs_of_pos hq, abs_of_nonneg c0, div_le_iff₀ hq]
    have := mul_le_mul_of_nonneg_left hf.2 c0
    linarith

omit hg hnrm hq in
lemma productP_near {N N' S S' L : ℝ} (hL : 0 < L) (hL' : L ≤ 14 * R ^ 2) (hN : |N| ≤ 1)
    (hN' : |N' - N| ≤ 3 * ε + 208 * (ε * R ^ 2) / L) (hN1 : |N'| ≤ 1.03) (hS : |S' - S| ≤ 351 * (ε * (R ^ 2 * P)))
    (hSL : |S| ≤ L * P / 2) : |rnd (N' * S') - N * S| ≤ 500 * (ε * (R ^ 2 * P)) ∧ |N * S| ≤ 7 * (R ^ 2 * P) := by
  have t0 : 0 ≤ ε * (R ^ 2 * P) := by positivity
  have t1 : ε * (ε * (R ^ 2 * P)) ≤ 1 / 100 * (ε * (R ^ 2 * P)) := mul_le_mul_of_nonneg_right h1 t0
  have LP := mul_le_mul_of_nonneg_right hL' hP
  have k : |N * S| ≤ 7 * (R ^ 2 * P) := by
    have := abs_mul_le hN (hSL.trans (by linarith : L * P / 2 ≤ 7 * (R ^ 2 * P)))
    linarith
  refine ⟨?_, k⟩
  have p1 : |N' * (S' - S)| ≤ 1.03 * (351 * (ε * (R ^ 2 * P))) := abs_mul_le hN1 hS
  have p2 : |(N' - N) * S| ≤ 125 * (ε * (R ^ 2 * P)) := by
    refine (abs_mul_le hN' hSL).trans ?_
    have e : (3 * ε + 208 * (ε * R ^ 2) / L) * (L * P / 2) = 3 / 2 * ε * (L * P) + 104 * (ε * (R ^ 2 * P)) := by field_simp; ring
    rw [e]
    have := mul_le_mul_of_nonneg_left LP (by positivity : 0 ≤ 3 / 2 * ε)
    linarith
  have m : |N' * S' - N * S| ≤ 487 * (ε * (R ^ 2 * P)) := by
    rw [show N' * S' - N * S = N' * (S' - S) + (N' - N) * S by ring]
    have := abs_add_le (N' * (S' - S)) ((N' - N) * S)
    linarith
  have r := rnd_near hr hu h0 m k
  rw [show ε * (7 * (R ^ 2 * P) + 487 * (ε * (R ^ 2 * P))) = 7 * (ε * (R ^ 2 * P)) + 487 * (ε * (ε * (R ^ 2 * P))) by ring] at r
  linarith

lemma triP_coord {c c' : V3 ℝ} {n n' f f' : ℝ} (hc : (c' - c).norm ≤ 104 * (ε * R ^ 2) ∧ c.norm ≤ 14 * R ^ 2) (hc0 : 0 < c.norm)
    (hn0 : nrm c' ≠ 0) (hN : |n| ≤ c.norm) (hn' : |n'| ≤ c'.norm) (hnn : |n' - n| ≤ (c' - c).norm)
    (hf : Ap ε (6 * q) (q / 2) P f' f) :
    |termFl rnd nrm c' n' f' q - n * f / q| ≤ 500 * (ε * (R ^ 2 * P)) ∧ |n * f / q| ≤ 7 * (R ^ 2 * P) := by
  have I := integralP_near hr hu h0 h1 hg hnrm hP hq hc hf
  have N := normal_near hr hu h0 h1 hg hnrm hc.1 hc0 hn0 hn' hnn
  have hN1 : |n / c.norm| ≤ 1 := by rw [abs_div, abs_of_pos hc0]; exact (div_le_one hc0).2 hN
  have t0 : 0 ≤ ε * (R ^ 2 * P) := by positivity
  have H := productP_near hr hu h0 h1 hP hc0 hc.2 hN1 N.1 N.2 (I.1.trans (by linarith)) I.2
  have e : n / c.norm * (c.norm * f / q) = n * f / q := by field_simp
  rw [e] at H
  exact H

lemma quadP_coord {C C' c1 c1' c2 c2' : V3 ℝ} {n n' k1 k2 f1 f1' f2 f2' : ℝ}
    (hC : (C' - C).norm ≤ 104 * (ε * R ^ 2) ∧ C.norm ≤ 14 * R ^ 2)
    (hc1 : (c1' - c1).norm ≤ 104 * (ε * R ^ 2) ∧ c1.norm ≤ 14 * R ^ 2)
    (hc2 : (c2' - c2).norm ≤ 104 * (ε * R ^ 2) ∧ c2.norm ≤ 14 * R ^ 2) (hC0 : 0 < C.norm)
    (hn0 : nrm C' ≠ 0) (hN : |n| ≤ C.norm) (hn' : |n'| ≤ C'.norm) (hnn : |n' - n| ≤ (C' - C).norm)
    (hsum : C.norm = c1.norm + c2.norm) (e1 : n * c1.norm = k1 * C.norm) (e2 : n * c2.norm = k2 * C.norm)
    (hf1 : Ap ε (6 * q) (q / 2) P f1' f1) (hf2 : Ap ε (6 * q) (q / 2) P f2' f2) :
    |quadTermFl rnd nrm C' n' c1' f1' c2' f2' q - (k1 * f1 / q + k2 * f2 / q)| ≤ 500 * (ε * (R ^ 2 * P)) ∧
      |k1 * f1 / q + k2 * f2 / q| ≤ 7 * (R ^ 2 * P) := by
  have I1 := integralP_near hr hu h0 h1 hg hnrm hP hq hc1 hf1
  have I2 := integralP_near hr hu h0 h1 hg hnrm hP hq hc2 hf2
  have N := normal_near hr hu h0 h1 hg hnrm hC.1 hC0 hn0 hn' hnn
  have hN1 : |n / C.norm| ≤ 1 := by rw [abs_div, abs_of_pos hC0]; exact (div_le_one hC0).2 hN
  have t0 : 0 ≤ ε * (R ^ 2 * P) := by positivity
  have t1 : ε * (ε * (R ^ 2 * P)) ≤ 1 / 100 * (ε * (R ^ 2 * P)) := mul_le_mul_of_nonneg_right h1 t0
  have hS : |c1.norm * f1 / q + c2.norm * f2 / q| ≤ C.norm * P / 2 := by
    have := abs_add_le (c1.norm * f1 / q) (c2.norm * f2 / q)
    rw [hsum]
    linarith [I1.2, I2.2]
  have hS7 : |c1.norm * f1 / q + c2.norm * f2 / q| ≤ 7 * (R ^ 2 * P) := by
    have := mul_le_mul_of_nonneg_right hC.2 hP
    linarith
  have m : |integralFl rnd nrm c1' f1' q + integralFl rnd nrm c2' f2' q - (c1.norm * f1 / q + c2.norm * f2 / q)| ≤
      340 * (ε * (R ^ 2 * P)) := by
    rw [add_sub_add_comm]
    have := abs_add_le (integralFl rnd nrm c1' f1' q - c1.norm * f1 / q) (integralFl rnd nrm c2' f2' q - c2.norm * f2 / q)
    linarith [I1.1, I2.1]
  have r := rnd_near hr hu h0 m hS7
  rw [show ε * (7 * (R ^ 2 * P) + 340 * (ε * (R ^ 2 * P))) = 7 * (ε * (R ^ 2 * P)) + 340 * (ε * (ε * (R ^ 2 * P))) by ring] at r
  have H := productP_near hr hu h0 h1 hP hC0 hC.2 hN1 N.1 N.2 (r.trans (by linarith)) hS
  have e : n / C.norm * (c1.norm * f1 / q + c2.norm * f2 / q) = k1 * f1 / q + k2 * f2 / q := by
    have : n / C.norm * (c1.norm * f1 / q + c2.norm * f2 / q) = (n * c1.norm) * f1 / q / C.norm + (n * c2.norm) * f2 / q / C.norm := by
      ring
    rw [this, e1, e2]
    field_simp
  rw [e] at H
  exact H

end

/-- Near and bounded, coordinate by coordinate. -/
def NearT (ε T : ℝ) (x y : V3 ℝ) : Prop :=
  (|x.x - y.x| ≤ 500 * (ε * T) ∧ |y.x| ≤ 7 * T) ∧ (|x.y - y.y| ≤ 500 * (ε * T) ∧ |y.y| ≤ 7 * T) ∧
    (|x.z - y.z| ≤ 500 * (ε * T) ∧ |y.z| ≤ 7 * T)

/-- The flux of three polynomials through a triangle. -/
noncomputable def fluxOf (hx hy hz : V3 ℝ → V3 ℝ → V3 ℝ → ℝ) (d : ℝ) (p q r : V3 ℝ) : V3 ℝ :=
  ⟨(areaVec p q r).x * hx p q r / d, (areaVec p q r).y * hy p q r / d, (areaVec p q r).z * hz p q r / d⟩

/-- A polynomial of three points and its value in floating point. -/
def PolyNear (ε R e k P : ℝ) (fl h : V3 ℝ → V3 ℝ → V3 ℝ → ℝ) : Prop :=
  ∀ p q r p' q' r' : V3 ℝ, (∀ k, |p.coord k| ≤ R) → (∀ k, |q.coord k| ≤ R) → (∀ k, |r.coord k| ≤ R) →
    V3.Close (ε * R) p p' → V3.Close (ε * R) q q' → V3.Close (ε * R) r r' → Ap ε e k P (fl p' q' r') (h p q r)

section
variable (hr : IsRounding u rnd) (hu : u ≤ ε) (h0 : 0 ≤ ε) (h1 : ε ≤ 1 / 100) (hR : 0 ≤ R)
variable {g : ℝ} (hg : g ≤ ε) {nrm : V3 ℝ → ℝ} (hnrm : ∀ v, |nrm v - v.norm| ≤ g * v.norm) {P d : ℝ} (hP : 0 ≤ P) (hd : 0 < d)
variable {fx fy fz hx hy hz : V3 ℝ → V3 ℝ → V3 ℝ → ℝ} (hfx : PolyNear ε R (6 * d) (d / 2) P fx hx)
  (hfy : PolyNear ε R (6 * d) (d / 2) P fy hy) (hfz : PolyNear ε R (6 * d) (d / 2) P fz hz)
include hr hu h0 h1 hR hg hnrm hP hd hfx hfy hfz

lemma triP_near {p q r p' q' r' : V3 ℝ} (hp : ∀ k, |p.coord k| ≤ R) (hq : ∀ k, |q.coord k| ≤ R) (hr' : ∀ k, |r.coord k| ≤ R)
    (cp : V3.Close (ε * R) p p') (cq : V3.Close (ε * R) q q') (cr : V3.Close (ε * R) r r') (hA : areaVec p q r ≠ 0)
    (hn : nrm (triCrossFl rnd p' q' r') ≠ 0) :
    NearT ε (R ^ 2 * P) (termsFl rnd nrm (triCrossFl rnd p' q' r') (fx p' q' r') (fy p' q' r') (fz p' q' r') d)
      (fluxOf hx hy hz d p q r) := by
  have s1 := subV_near hr hu h0 h1 hR hq hp cq cp
  have s2 := subV_near hr hu h0 h1 hR hr' hp cr cp
  have C := crossV_near hr hu h0 h1 hR s1 s2
  have C0 := norm_pos hA
  have b1 := coord_le_norm (areaVec p q r)
  have b2 := coord_le_norm (triCrossFl rnd p' q' r')
  have b3 := coord_le_norm (triCrossFl rnd p' q' r' - areaVec p q r)
  exact ⟨triP_coord hr hu h0 h1 hg hnrm hP hd C C0 hn b1.1 b2.1 b3.1 (hfx p q r p' q' r' hp hq hr' cp cq cr),
    triP_coord hr hu h0 h1 hg hnrm hP hd C C0 hn b1.2.1 b2.2.1 b3.2.1 (hfy p q r p' q' r' hp hq hr' cp cq cr),
    triP_coord hr hu h0 h1 hg hnrm hP hd C C0 hn b1.2.2 b2.2.2 b3.2.2 (hfz p q r p' q' r' hp hq hr' cp cq cr)⟩

lemma quadP_near {p q r s p' q' r' s' : V3 ℝ} (hp : ∀ k, |p.coord k| ≤ R) (hq : ∀ k, |q.coord k| ≤ R) (hr' : ∀ k, |r.coord k| ≤ R)
    (hs : ∀ k, |s.coord k| ≤ R) (cp : V3.Close (ε * R) p p') (cq : V3.Close (ε * R) q q') (cr : V3.Close (ε * R) r r')
    (cs : V3.Close (ε * R) s s') (hF : FlatQuad p q r s) (hn : nrm (quadCrossFl rnd p' q' r' s') ≠ 0) :
    NearT ε (R ^ 2 * P) (quadTermsFl rnd nrm p' q' r' s' fx fy fz d) (fluxOf hx hy hz d p q r + fluxOf hx hy hz d p r s) := by
  obtain ⟨n, α, β, hα, hβ, hαβ, hn0, e1, e2⟩ := hF
  have sqp := subV_near hr hu h0 h1 hR hq hp cq cp
  have srp := subV_near hr hu h0 h1 hR hr' hp cr cp
  have ssp := subV_near hr hu h0 h1 hR hs hp cs cp
  have ssq := subV_near hr hu h0 h1 hR hs hq cs cq
  have C1 := crossV_near hr hu h0 h1 hR sqp srp
  have C2 := crossV_near hr hu h0 h1 hR srp ssp
  have C := crossV_near hr hu h0 h1 hR srp ssq
  have eC : (r - p).cross (s - q) = (α + β) • n := by
    have : (r - p).cross (s - q) = areaVec p q r + areaVec p r s := by
      unfold areaVec
      apply V3.ext <;> simp only [V3.cross, V3.add_x, V3.add_y, V3.add_z, V3.sub_x, V3.sub_y, V3.sub_z] <;> ring
    rw [this, e1, e2]
    apply V3.ext <;> simp <;> ring
  have n0 := norm_pos hn0
  have k1 : (areaVec p q r).norm = α * n.norm := by rw [e1]; exact V3.norm_smul_of_nonneg hα n
  have k2 : (areaVec p r s).norm = β * n.norm := by rw [e2]; exact V3.norm_smul_of_nonneg hβ n
  have kC : ((r - p).cross (s - q)).norm = (α + β) * n.norm := by rw [eC]; exact V3.norm_smul_of_nonneg hαβ.le n
  have C0 : 0 < ((r - p).cross (s - q)).norm := by rw [kC]; positivity
  have hsum : ((r - p).cross (s - q)).norm = (areaVec p q r).norm + (areaVec p r s).norm := by rw [kC, k1, k2]; ring
  have b1 := coord_le_norm ((r - p).cross (s - q))
  have b2 := coord_le_norm (quadCrossFl rnd p' q' r' s')
  have b3 := coord_le_norm (quadCrossFl rnd p' q' r' s' - (r - p).cross (s - q))
  have x1 : ((r - p).cross (s - q)).x * (areaVec p q r).norm = (areaVec p q r).x * ((r - p).cross (s - q)).norm := by
    rw [k1, kC, eC, e1, V3.smul_x, V3.smul_x]; ring
  have y1 : ((r - p).cross (s - q)).y * (areaVec p q r).norm = (areaVec p q r).y * ((r - p).cross (s - q)).norm := by
    rw [k1, kC, eC, e1, V3.smul_y, V3.smul_y]; ring
  have z1 : ((r - p).cross (s - q)).z * (areaVec p q r).norm = (areaVec p q r).z * ((r - p).cross (s - q)).norm := by
    rw [k1, kC, eC, e1, V3.smul_z, V3.smul_z]; ring
  have x2 : ((r - p).cross (s - q)).x * (areaVec p r s).norm = (areaVec p r s).x * ((r - p).cross (s - q)).norm := by
    rw [k2, kC, eC, e2, V3.smul_x, V3.smul_x]; ring
  have y2 : ((r - p).cross (s - q)).y * (areaVec p r s).norm = (areaVec p r s).y * ((r - p).cross (s - q)).norm := by
    rw [k2, kC, eC, e2, V3.smul_y, V3.smul_y]; ring
  have z2 : ((r - p).cross (s - q)).z * (areaVec p r s).norm = (areaVec p r s).z * ((r - p).cross (s - q)).norm := by
    rw [k2, kC, eC, e2, V3.smul_z, V3.smul_z]; ring
  exact ⟨quadP_coord hr hu h0 h1 hg hnrm hP hd C C1 C2 C0 hn b1.1 b2.1 b3.1 hsum x1 x2
      (hfx p q r p' q' r' hp hq hr' cp cq cr) (hfx p r s p' r' s' hp hr' hs cp cr cs),
    quadP_coord hr hu h0 h1 hg hnrm hP hd C C1 C2 C0 hn b1.2.1 b2.2.1 b3.2.1 hsum y1 y2
      (hfy p q r p' q' r' hp hq hr' cp cq cr) (hfy p r s p' r' s' hp hr' hs cp cr cs),
    quadP_coord hr hu h0 h1 hg hnrm hP hd C C1 C2 C0 hn b1.2.2 b2.2.2 b3.2.2 hsum z1 z2
      (hfz p q r p' q' r' hp hq hr' cp cq cr) (hfz p r s p' r' s' hp hr' hs cp cr cs)⟩

end
end QuadFl
end MM
