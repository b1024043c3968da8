import Verif.Model.MovesFl
import Verif.Proofs.VolumeQuadFl
import Verif.Props.Motion

/-!
# Rigid motions in floating point: one motion
-/

namespace MM
namespace MovesFl

open Real QuadFl

lemma norm_tri (a b : V3 ℝ) : (a + b).norm ≤ a.norm + b.norm := by
  have h := norm_diff (a + b) b
  have e : a + b - b = a := by ext <;> simp
  rw [e] at h
  linarith [(abs_le.1 h).2]

lemma norm_le_of_le {a b : V3 ℝ} (hx : |a.x| ≤ |b.x|) (hy : |a.y| ≤ |b.y|) (hz : |a.z| ≤ |b.z|) : a.norm ≤ b.norm := by
  have ha := norm_sq a
  have hb := norm_sq b
  have e1 := sq_le_sq.2 hx
  have e2 := sq_le_sq.2 hy
  have e3 := sq_le_sq.2 hz
  have := abs_le_of_sq_le_sq (a := a.norm) (b := b.norm) (by rw [ha, hb]; linarith) (norm_nonneg b)
  exact (le_abs_self _).trans this

lemma absDot_le (a b : V3 ℝ) : absDot a b ≤ a.norm * b.norm := by
  unfold absDot
  refine (le_abs_self _).trans (abs_le_of_sq_le_sq ?_ (mul_nonneg (norm_nonneg a) (norm_nonneg b)))
  rw [mul_pow, norm_sq, norm_sq, abs_mul, abs_mul, abs_mul]
  have h : ∀ x : ℝ, x ^ 2 = |x| ^ 2 := fun x => (sq_abs x).symm
  rw [h a.x, h a.y, h a.z, h b.x, h b.y, h b.z]
  nlinarith [sq_nonneg (|a.x| * |b.y| - |a.y| * |b.x|), sq_nonneg (|a.x| * |b.z| - |a.z| * |b.x|),
    sq_nonneg (|a.y| * |b.z| - |a.z| * |b.y|)]

lemma abs_dot_le (a b : V3 ℝ) : |a.dot b| ≤ a.norm * b.norm := by
  refine le_trans ?_ (absDot_le a b)
  unfold V3.dot absDot
  exact abs_add_three _ _ _

section
variable {u δ : ℝ} {rnd : ℝ → ℝ}

lemma prod_near (hr : IsRounding u rnd) (hu : u ≤ δ) (h1 : δ ≤ 1 / 100) (h0 : 0 ≤ δ) {a b a' b' p q : ℝ} (ha : |a| ≤ 1) (hb : |b| ≤ 1)
    (ea : |a' - a| ≤ p * δ) (eb : |b' - b| ≤ δ) (hp0 : 0 ≤ p) (hp : p + 1 + p / 100 + (1 + p / 100) * (1 + 1 / 100) ≤ q) :
    |rnd (a' * b') - a * b| ≤ q * δ := by
  have h := hr.near (a' * b')
  have pa : p * δ ≤ p / 100 := by nlinarith
  have a1 : |a'| ≤ 1 + p / 100 := by
    have := abs_add_le a (a' - a); rw [add_sub_cancel] at this; linarith
  have b1 : |b'| ≤ 1 + 1 / 100 := by
    have := abs_add_le b (b' - b); rw [add_sub_cancel] at this; linarith
  have e : a' * b' - a * b = (a' - a) * b + a * (b' - b) + (a' - a) * (b' - b) := by ring
  have d : |a' * b' - a * b| ≤ p * δ * 1 + 1 * δ + p * δ * (1 / 100) := by
    rw [e]
    refine (abs_add_three _ _ _).trans ?_
    rw [abs_mul, abs_mul, abs_mul]
    exact add_le_add (add_le_add (mul_le_mul ea hb (abs_nonneg _) (by positivity))
      (mul_le_mul ha eb (abs_nonneg _) (by norm_num))) (mul_le_mul ea (eb.trans h1) (abs_nonneg _) (by positivity))
  have m : |a' * b'| ≤ (1 + p / 100) * (1 + 1 / 100) := by
    rw [abs_mul]; exact mul_le_mul a1 b1 (abs_nonneg _) (by positivity)
  have r : u * |a' * b'| ≤ δ * ((1 + p / 100) * (1 + 1 / 100)) := mul_le_mul hu m (abs_nonneg _) h0
  have t := abs_sub_le (rnd (a' * b')) (a' * b') (a * b)
  nlinarith

lemma add_near (hr : IsRounding u rnd) (hu : u ≤ δ) (h1 : δ ≤ 1 / 100) (h0 : 0 ≤ δ) {a b a' b' : ℝ} (ha : |a| ≤ 1) (hb : |b| ≤ 1)
    (ea : |a' - a| ≤ 6 * δ) (eb : |b' - b| ≤ 7 / 2 * δ) : |rnd (a' + b') - (a + b)| ≤ 12 * δ := by
  have h := hr.near (a' + b')
  have d : |a' + b' - (a + b)| ≤ 6 * δ + 7 / 2 * δ := by
    have : a' + b' - (a + b) = (a' - a) + (b' - b) := by ring
    rw [this]; exact (abs_add_le _ _).trans (add_le_add ea eb)
  have m : |a' + b'| ≤ 2 + 95 / 1000 := by
    have h2 := abs_add_le (a + b) (a' + b' - (a + b))
    rw [add_sub_cancel] at h2
    have := abs_add_le a b
    linarith
  have r : u * |a' + b'| ≤ δ * (2 + 95 / 1000) := mul_le_mul hu m (abs_nonneg _) h0
  have t := abs_sub_le (rnd (a' + b')) (a' + b') (a + b)
  linarith

variable {cosF sinF : ℝ → ℝ}

lemma cardan_near (hr : IsRounding u rnd) (hu : u ≤ δ) (h1 : δ ≤ 1 / 100) (h0 : 0 ≤ δ) (hc : ∀ x, |cosF x - cos x| ≤ δ)
    (hs : ∀ x, |sinF x - sin x| ≤ δ) (a b c : ℝ) :
    let r' := cardanFl rnd cosF sinF a b c
    let r := cardanToRotmat a b c
    V3.Close (12 * δ) r'.r0 r.r0 ∧ V3.Close (12 * δ) r'.r1 r.r1 ∧ V3.Close (12 * δ) r'.r2 r.r2 := by
  have C := fun x => abs_cos_le_one x
  have S := fun x => abs_sin_le_one x
  have p2 : ∀ {x y x' y' : ℝ}, |x| ≤ 1 → |y| ≤ 1 → |x' - x| ≤ δ → |y' - y| ≤ δ → |rnd (x' * y') - x * y| ≤ 7 / 2 * δ :=
    fun hx hy ex ey => prod_near hr hu h1 h0 (p := 1) hx hy (by rwa [one_mul]) ey (by norm_num) (by norm_num)
  have ab : ∀ {x y : ℝ}, |x| ≤ 1 → |y| ≤ 1 → |x * y| ≤ 1 := fun hx hy => by
    rw [abs_mul]; exact mul_le_one₀ hx (abs_nonneg _) hy
  have p3 : ∀ {x y z x' y' z' : ℝ}, |x| ≤ 1 → |y| ≤ 1 → |z| ≤ 1 → |x' - x| ≤ δ → |y' - y| ≤ δ → |z' - z| ≤ δ →
      |rnd (rnd (x' * y') * z') - x * y * z| ≤ 6 * δ :=
    fun hx hy hz ex ey ez => prod_near hr hu h1 h0 (p := 7 / 2) (ab hx hy) hz (p2 hx hy ex ey) ez (by norm_num) (by norm_num)
  have w : ∀ {x : ℝ}, x ≤ 7 / 2 * δ → x ≤ 12 * δ := fun h => by linarith
  have sub : ∀ {x y x' y' : ℝ}, |x| ≤ 1 → |y| ≤ 1 → |x' - x| ≤ 6 * δ → |y' - y| ≤ 7 / 2 * δ →
      |rnd (x' - y') - (x - y)| ≤ 12 * δ := fun {x y x' y'} hx hy ex ey => by
    have := add_near hr hu h1 h0 (a := x) (b := -y) (a' := x') (b' := -y') hx (by rwa [abs_neg]) ex
      (by rw [← abs_neg]; simpa [neg_add_eq_sub, sub_eq_add_neg, add_comm] using ey)
    simpa [sub_eq_add_neg] using this
  refine ⟨⟨w (p2 (C _) (C _) (hc _) (hc _)), ?_, ?_⟩, ⟨w (p2 (C _) (S _) (hc _) (hs _)), ?_, ?_⟩,
    ⟨?_, w (p2 (C _) (S _) (hc _) (hs _)), w (p2 (C _) (C _) (hc _) (hc _))⟩⟩
  · exact sub (ab (ab (S _) (S _)) (C _)) (ab (C _) (S _)) (p3 (S _) (S _) (C _) (hs _) (hs _) (hc _)) (p2 (C _) (S _) (hc _) (hs _))
  · exact add_near hr hu h1 h0 (ab (ab (C _) (S _)) (C _)) (ab (S _) (S _)) (p3 (C _) (S _) (C _) (hc _) (hs _) (hc _))
      (p2 (S _) (S _) (hs _) (hs _))
  · exact add_near hr hu h1 h0 (ab (ab (S _) (S _)) (S _)) (ab (C _) (C _)) (p3 (S _) (S _) (S _) (hs _) (hs _) (hs _))
      (p2 (C _) (C _) (hc _) (hc _))
  · exact sub (ab (ab (C _) (S _)) (S _)) (ab (S _) (C _)) (p3 (C _) (S _) (S _) (hc _) (hs _) (hs _)) (p2 (S _) (C _) (hs _) (hc _))
  · show |-sinF b - -sin b| ≤ 12 * δ
    have := hs b
    rw [show -sinF b - -sin b = -(sinF b - sin b) by ring, abs_neg]
    linarith

/-- A row of a computed rotation times a vector. -/
lemma row_near {g : ℝ} {dot : V3 ℝ → V3 ℝ → ℝ} (hd : IsDot g dot) (hg : g ≤ δ) (h1 : δ ≤ 1 / 100) (h0 : 0 ≤ δ) {r r' : V3 ℝ}
    (hn : r.norm = 1) (hc : V3.Close (12 * δ) r' r) (v : V3 ℝ) : |dot r' v - r.dot v| ≤ (121 / 100 + 21) * δ * v.norm := by
  have e : (r' - r).norm ≤ 21 * δ := by
    have := norm_le_of_coord (v := r' - r) (t := 12 * δ) hc.1 hc.2.1 hc.2.2
    linarith
  have n' : r'.norm ≤ 121 / 100 := by
    have := norm_tri r (r' - r)
    rw [show r + (r' - r) = r' by ext <;> simp, hn] at this
    linarith
  have v0 := norm_nonneg v
  have k1 : |dot r' v - r'.dot v| ≤ δ * (121 / 100 * v.norm) := by
    refine (hd r' v).trans ?_
    exact mul_le_mul hg ((absDot_le r' v).trans (mul_le_mul_of_nonneg_right n' v0)) (by unfold absDot; positivity) h0
  have k2 : |r'.dot v - r.dot v| ≤ 21 * δ * v.norm := by
    have : r'.dot v - r.dot v = (r' - r).dot v := by simp [V3.dot]; ring
    rw [this]
    exact (abs_dot_le _ _).trans (mul_le_mul_of_nonneg_right e v0)
  have t := abs_sub_le (dot r' v) (r'.dot v) (r.dot v)
  nlinarith

end

/-- The point which a motion makes of a point. -/
noncomputable def pt : RigidMove → V3 ℝ → V3 ℝ
  | .translate t, v => v + t
  | .translateX t, v => ⟨v.x + t, v.y, v.z⟩
  | .translateY t, v => ⟨v.x, v.y + t, v.z⟩
  | .translateZ t, v => ⟨v.x, v.y, v.z + t⟩
  | .rotate a b c, v => (cardanToRotmat a b c).mulVec v

/-- The same in floating point. -/
def ptFl (rnd cosF sinF : ℝ → ℝ) (dot : V3 ℝ → V3 ℝ → ℝ) : RigidMove → V3 ℝ → V3 ℝ
  | .translate t, v => ⟨rnd (v.x + t.x), rnd (v.y + t.y), rnd (v.z + t.z)⟩
  | .translateX t, v => ⟨rnd (v.x + t), v.y, v.z⟩
  | .translateY t, v => ⟨v.x, rnd (v.y + t), v.z⟩
  | .translateZ t, v => ⟨v.x, v.y, rnd (v.z + t)⟩
  | .rotate a b c, v =>
    let r := cardanFl rnd cosF sinF a b c
    ⟨dot r.r0 v, dot r.r1 v, dot r.r2 v⟩

lemma run_eq (a : RigidMove) (m : Mesh ℝ) : a.run m = m.mapVertices (pt a) := by cases a <;> rfl

lemma runFl_eq (rnd cosF sinF : ℝ → ℝ) (dot : V3 ℝ → V3 ℝ → ℝ) (a : RigidMove) (m : Mesh ℝ) :
    a.runFl rnd cosF sinF dot m = m.mapVertices (ptFl rnd cosF sinF dot a) := by cases a <;> rfl

/-- A motion is a rotation followed by a translation. -/
lemma pt_rigid (a : RigidMove) : ∃ R : M3 ℝ, R.IsRotation ∧ ∃ t, ∀ v, pt a v = R.mulVec v + t := by
  have one : (M3.one : M3 ℝ).IsRotation := ⟨by simp [M3.one, M3.mul, M3.transpose, M3.c0, M3.c1, M3.c2, V3.dot],
    by simp [M3.one, M3.mul, M3.transpose, M3.c0, M3.c1, M3.c2, V3.dot], by simp [M3.one, M3.det, V3.dot, V3.cross]⟩
  cases a with
  | translate t => exact ⟨M3.one, one, t, fun v => by simp [pt, M3.mulVec, M3.one, V3.dot]⟩
  | translateX t => exact ⟨M3.one, one, ⟨t, 0, 0⟩, fun v => by ext <;> simp [pt, M3.mulVec, M3.one, V3.dot]⟩
  | translateY t => exact ⟨M3.one, one, ⟨0, t, 0⟩, fun v => by ext <;> simp [pt, M3.mulVec, M3.one, V3.dot]⟩
  | translateZ t => exact ⟨M3.one, one, ⟨0, 0, t⟩, fun v => by ext <;> simp [pt, M3.mulVec, M3.one, V3.dot]⟩
  | rotate a b c => exact ⟨_, cardan_isRotation a b c, 0, fun v => by ext <;> simp [pt]⟩

lemma pt_dist (a : RigidMove) (v w : V3 ℝ) : (pt a v - pt a w).norm = (v - w).norm := by
  obtain ⟨R, hR, t, h⟩ := pt_rigid a
  rw [h, h, show R.mulVec v + t - (R.mulVec w + t) = R.mulVec v - R.mulVec w by ext <;> simp, ← M3.mulVec_sub, hR.norm_mulVec]

lemma rows_unit {R : M3 ℝ} (hR : R.IsRotation) : R.r0.norm = 1 ∧ R.r1.norm = 1 ∧ R.r2.norm = 1 := by
  have h := hR.orth'
  simp only [M3.mul, M3.transpose, M3.one, M3.mk.injEq, V3.mk.injEq] at h
  have key : ∀ r : V3 ℝ, r.dot r = 1 → r.norm = 1 := fun r e => by
    unfold V3.norm V3.normSq
    rw [e, sqrt_one]
  refine ⟨key _ ?_, key _ ?_, key _ ?_⟩
  · simpa [M3.c0, M3.c1, M3.c2, V3.dot] using h.1.1
  · simpa [M3.c0, M3.c1, M3.c2, V3.dot] using h.2.1.2.1
  · simpa [M3.c0, M3.c1, M3.c2, V3.dot] using h.2.2.2.2

/-- The error of one motion. -/
lemma ptFl_near {u g δ : ℝ} {rnd cosF sinF : ℝ → ℝ} {dot : V3 ℝ → V3 ℝ → ℝ} (hr : IsRounding u rnd) (hu : u ≤ δ)
    (h1 : δ ≤ 1 / 100) (h0 : 0 ≤ δ) (hc : ∀ x, |cosF x - cos x| ≤ δ) (hs : ∀ x, |sinF x - sin x| ≤ δ) (hd : IsDot g dot)
    (hg : g ≤ δ) (a : RigidMove) (v : V3 ℝ) :
    (ptFl rnd cosF sinF dot a v - pt a v).norm ≤ 39 * δ * (pt a v).norm := by
  have n0 := norm_nonneg (pt a v)
  have base : ∀ w e : V3 ℝ, |e.x| ≤ u * |w.x| → |e.y| ≤ u * |w.y| → |e.z| ≤ u * |w.z| → e.norm ≤ 39 * δ * w.norm := by
    intro w e hx hy hz
    have k : e.norm ≤ (δ • w).norm := by
      have s : ∀ x y : ℝ, |x| ≤ u * |y| → |x| ≤ |δ * y| := fun x y h => by
        rw [abs_mul, abs_of_nonneg h0]
        exact h.trans (mul_le_mul_of_nonneg_right hu (abs_nonneg _))
      exact norm_le_of_le (s _ _ hx) (s _ _ hy) (s _ _ hz)
    have k2 : (δ • w).norm = δ * w.norm := by
      have hh := norm_sq (δ • w)
      have hw := norm_sq w
      simp only [V3.smul_x, V3.smul_y, V3.smul_z] at hh
      have : (δ • w).norm ^ 2 = (δ * w.norm) ^ 2 := by rw [hh, mul_pow δ w.norm, hw]; ring
      exact (pow_left_inj₀ (QuadFl.norm_nonneg _) (mul_nonneg h0 (QuadFl.norm_nonneg _)) two_ne_zero).1 this
    have := mul_nonneg h0 (norm_nonneg w)
    rw [k2] at k
    linarith
  have nn := fun x => hr.near x
  have u0 : 0 ≤ u := by
    have := (abs_nonneg _).trans (nn 1)
    simpa using this
  have z : ∀ x y : ℝ, |x - x| ≤ u * |y| := fun x y => by rw [sub_self, abs_zero]; positivity
  cases a with
  | translate t => exact base _ _ (nn _) (nn _) (nn _)
  | translateX t => exact base _ _ (nn _) (z _ _) (z _ _)
  | translateY t => exact base _ _ (z _ _) (nn _) (z _ _)
  | translateZ t => exact base _ _ (z _ _) (z _ _) (nn _)
  | rotate a b c =>
    obtain ⟨c0, c1, c2⟩ := cardan_near hr hu h1 h0 hc hs a b c
    obtain ⟨r0, r1, r2⟩ := rows_unit (cardan_isRotation a b c)
    have hn : (pt (.rotate a b c) v).norm = v.norm := (cardan_isRotation a b c).norm_mulVec v
    rw [hn]
    have := norm_le_of_coord (v := ptFl rnd cosF sinF dot (.rotate a b c) v - pt (.rotate a b c) v)
      (t := (121 / 100 + 21) * δ * v.norm)
      (row_near hd hg h1 h0 r0 c0 v) (row_near hd hg h1 h0 r1 c1 v) (row_near hd hg h1 h0 r2 c2 v)
    have := mul_nonneg h0 (norm_nonneg v)
    linarith

end MovesFl
end MM
