import Verif.Model.PlaneFl
import Verif.Spec.Rounding
import Mathlib.Tactic.Linarith
import Mathlib.Tactic.FieldSimp
import Mathlib.Tactic.Ring
import Mathlib.Tactic.Positivity

/-!
# Error bounds for the plane in floating point
-/

namespace MM

variable {K : Type*} [Field K] [LinearOrder K] [IsStrictOrderedRing K]

/-- The error after one more rounding. -/
lemma rnd_err {u : K} {rnd : K → K} (hr : IsRounding u rnd) (hu : 0 ≤ u) {x a e A : K} (hx : |x - a| ≤ e * A)
    (ha : |a| ≤ A) : |rnd x - a| ≤ (u * (1 + e) + e) * A := by
  have h1 := hr.near x
  have h2 : |x| ≤ (1 + e) * A := by
    calc |x| = |(x - a) + a| := by rw [sub_add_cancel]
      _ ≤ |x - a| + |a| := abs_add_le _ _
      _ ≤ (1 + e) * A := by linarith
  calc |rnd x - a| = |(rnd x - x) + (x - a)| := by rw [sub_add_sub_cancel]
    _ ≤ |rnd x - x| + |x - a| := abs_add_le _ _
    _ ≤ u * ((1 + e) * A) + e * A := by
      have := mul_le_mul_of_nonneg_left h2 hu
      linarith
    _ = _ := by ring

lemma add_err {x y a b e f A B : K} (hx : |x - a| ≤ e * A) (hy : |y - b| ≤ f * B) (hef : f ≤ e) (hB : 0 ≤ B) :
    |x + y - (a + b)| ≤ e * (A + B) := by
  calc |x + y - (a + b)| = |(x - a) + (y - b)| := by congr 1; ring
    _ ≤ |x - a| + |y - b| := abs_add_le _ _
    _ ≤ e * (A + B) := by
      have := mul_le_mul_of_nonneg_right hef hB
      linarith

lemma zero_err (a : K) : |a - a| ≤ 0 * |a| := by simp

lemma dotFl_isDot {u : K} {rnd : K → K} (hr : IsRounding u rnd) (hu : 0 ≤ u) :
    IsDot ((1 + u) ^ 3 - 1) (dotFl rnd) := by
  intro a b
  have hx := rnd_err hr hu (zero_err (a.x * b.x)) le_rfl
  have hy := rnd_err hr hu (zero_err (a.y * b.y)) le_rfl
  have hz := rnd_err hr hu (zero_err (a.z * b.z)) le_rfl
  have h1 := rnd_err hr hu (add_err hx hy le_rfl (abs_nonneg _)) (abs_add_le _ _)
  have h2 := rnd_err hr hu (add_err h1 hz (by nlinarith [mul_nonneg hu hu]) (abs_nonneg _))
    ((abs_add_le _ _).trans (add_le_add_left (abs_add_le _ _) _))
  unfold dotFl absDot
  refine h2.trans (le_of_eq ?_)
  ring

lemma dotFma_isDot {u : K} {rnd : K → K} (hr : IsRounding u rnd) (hu : 0 ≤ u) :
    IsDot ((1 + u) ^ 3 - 1) (dotFma rnd) := by
  intro a b
  have hz := rnd_err hr hu (zero_err (a.z * b.z)) le_rfl
  have hy : |a.y * b.y - a.y * b.y| ≤ 0 * |a.y * b.y| := zero_err _
  have hx : |a.x * b.x - a.x * b.x| ≤ 0 * |a.x * b.x| := zero_err _
  have h1 := rnd_err hr hu (add_err hz hy (by linarith) (abs_nonneg _)) (abs_add_le _ _)
  have h2 := rnd_err hr hu (add_err h1 hx (by nlinarith [mul_nonneg hu hu]) (abs_nonneg _))
    ((abs_add_le _ _).trans (add_le_add_left (abs_add_le _ _) _))
  unfold dotFma absDot
  have e1 : a.x * b.x + rnd (a.y * b.y + rnd (a.z * b.z)) = rnd (rnd (a.z * b.z) + a.y * b.y) + a.x * b.x := by
    rw [add_comm (a.y * b.y)]; ring
  rw [e1, show a.x * b.x + a.y * b.y + a.z * b.z = a.z * b.z + a.y * b.y + a.x * b.x by ring]
  refine h2.trans (le_of_eq ?_)
  ring

lemma absDot_nonneg (a b : V3 K) : 0 ≤ absDot a b := by unfold absDot; positivity

/-- The error of the distance. -/
lemma distFl_err {u g : K} {rnd : K → K} (hr : IsRounding u rnd) (hu : 0 ≤ u) {dot : V3 K → V3 K → K}
    (hd : IsDot g dot) (p : Plane K) (v : V3 K) :
    |p.distFl rnd dot v - p.dist v| ≤ g * absDot v p.normal + u * (|p.dist v| + g * absDot v p.normal) := by
  have h1 := hd v p.normal
  have h2 := hr.near (dot v p.normal - p.c)
  have e : p.dist v = v.x * p.normal.x + v.y * p.normal.y + v.z * p.normal.z - p.c := rfl
  have h3 : |dot v p.normal - p.c| ≤ |p.dist v| + g * absDot v p.normal := by
    calc |dot v p.normal - p.c| = |p.dist v + (dot v p.normal - (v.x * p.normal.x + v.y * p.normal.y +
          v.z * p.normal.z))| := by rw [e]; congr 1; ring
      _ ≤ _ := (abs_add_le _ _).trans (by linarith)
  calc |p.distFl rnd dot v - p.dist v| = |(rnd (dot v p.normal - p.c) - (dot v p.normal - p.c)) +
        (dot v p.normal - (v.x * p.normal.x + v.y * p.normal.y + v.z * p.normal.z))| := by
        rw [e, Plane.distFl]; congr 1; ring
    _ ≤ _ := abs_add_le _ _
    _ ≤ u * (|p.dist v| + g * absDot v p.normal) + g * absDot v p.normal :=
      add_le_add (h2.trans (mul_le_mul_of_nonneg_left h3 hu)) h1
    _ = _ := by ring

lemma rnd_pos_bounds {u : K} {rnd : K → K} (hr : IsRounding u rnd) {x : K} (hx : 0 < x) :
    (1 - u) * x ≤ rnd x ∧ rnd x ≤ (1 + u) * x := by
  have h := abs_le.1 (hr.near x)
  rw [abs_of_pos hx] at h
  constructor <;> linarith [h.1, h.2]

/-- The parameter of the intersection, for ends with scalar products `c + X` and `c + X - Y`. -/
lemma param_err_pos {u : K} {rnd : K → K} (hr : IsRounding u rnd) (hu : 0 ≤ u) (hu1 : u < 1) (h1 : rnd 1 = 1) {X Y : K}
    (hX : 0 < X) (hXY : X ≤ Y) :
    rnd Y ≠ 0 ∧ 0 ≤ rnd (rnd X / rnd Y) ∧ rnd (rnd X / rnd Y) ≤ 1 ∧
      |rnd (rnd X / rnd Y) - X / Y| ≤ ((1 + u) ^ 2 / (1 - u) - 1) * (X / Y) := by
  have hY : 0 < Y := hX.trans_le hXY
  have v : 0 < 1 - u := by linarith
  have w : 0 < 1 + u := by linarith
  obtain ⟨x1, x2⟩ := rnd_pos_bounds hr hX
  obtain ⟨y1, y2⟩ := rnd_pos_bounds hr hY
  have fX : 0 < rnd X := (mul_pos v hX).trans_le x1
  have fY : 0 < rnd Y := (mul_pos v hY).trans_le y1
  have hq : 0 < rnd X / rnd Y := div_pos fX fY
  have hq1 : rnd X / rnd Y ≤ 1 := (div_le_one fY).2 (hr.mono _ _ hXY)
  obtain ⟨q1, q2⟩ := rnd_pos_bounds hr hq
  have ht0 : 0 < X / Y := div_pos hX hY
  refine ⟨fY.ne', (mul_pos v hq).le.trans q1, h1 ▸ hr.mono _ _ hq1, ?_⟩
  have up : rnd X / rnd Y ≤ (1 + u) / (1 - u) * (X / Y) := by
    rw [div_mul_div_comm]
    exact div_le_div₀ (by positivity) x2 (by positivity) y1
  have lo : (1 - u) / (1 + u) * (X / Y) ≤ rnd X / rnd Y := by
    rw [div_mul_div_comm]
    exact div_le_div₀ fX.le x1 fY y2
  have U : rnd (rnd X / rnd Y) ≤ (1 + u) ^ 2 / (1 - u) * (X / Y) := by
    refine q2.trans ((mul_le_mul_of_nonneg_left up w.le).trans (le_of_eq ?_))
    field_simp
  have L : (1 - u) ^ 2 / (1 + u) * (X / Y) ≤ rnd (rnd X / rnd Y) := by
    refine le_trans (le_of_eq ?_) ((mul_le_mul_of_nonneg_left lo v.le).trans q1)
    field_simp
  have S : 2 ≤ (1 + u) ^ 2 / (1 - u) + (1 - u) ^ 2 / (1 + u) := by
    rw [div_add_div _ _ v.ne' w.ne', le_div_iff₀ (by positivity)]
    nlinarith [mul_nonneg hu hu]
  rw [abs_le]
  constructor
  · have := mul_le_mul_of_nonneg_right S ht0.le
    linarith
  · linarith

lemma param_err {u : K} {rnd : K → K} (hr : IsRounding u rnd) (hu : 0 ≤ u) (hu1 : u < 1) (h1 : rnd 1 = 1) {X Y : K}
    (h : (0 < X ∧ X ≤ Y) ∨ (X < 0 ∧ Y ≤ X)) :
    rnd Y ≠ 0 ∧ 0 ≤ rnd (rnd X / rnd Y) ∧ rnd (rnd X / rnd Y) ≤ 1 ∧
      |rnd (rnd X / rnd Y) - X / Y| ≤ ((1 + u) ^ 2 / (1 - u) - 1) * (X / Y) := by
  rcases h with ⟨a, b⟩ | ⟨a, b⟩
  · exact param_err_pos hr hu hu1 h1 a b
  · have := param_err_pos hr hu hu1 h1 (X := -X) (Y := -Y) (by linarith) (by linarith)
    simpa only [hr.odd, neg_div_neg_eq, neg_ne_zero] using this

/-- One coordinate of the intersection. -/
lemma coord_err {u : K} {rnd : K → K} (hr : IsRounding u rnd) (hu : 0 ≤ u) {t : K} (h0 : 0 ≤ t) (h1 : t ≤ 1) (a b : K) :
    |rnd (rnd (rnd (1 - t) * a) + rnd (t * b)) - ((1 - t) * a + t * b)| ≤
      ((1 + u) ^ 3 - 1) * ((1 - t) * |a| + t * |b|) := by
  have s0 : 0 ≤ 1 - t := by linarith
  have e1 : |(1 - t) * a| = (1 - t) * |a| := by rw [abs_mul, abs_of_nonneg s0]
  have e2 : |t * b| = t * |b| := by rw [abs_mul, abs_of_nonneg h0]
  have hm : |rnd (1 - t) * a - (1 - t) * a| ≤ u * |(1 - t) * a| := by
    rw [← sub_mul, abs_mul, abs_mul, ← mul_assoc]
    exact mul_le_mul_of_nonneg_right (hr.near _) (abs_nonneg _)
  have h2 := rnd_err hr hu hm le_rfl
  have h3 := rnd_err hr hu (zero_err (t * b)) le_rfl
  have h4 := rnd_err hr hu (add_err h2 h3 (by nlinarith [mul_nonneg hu hu]) (abs_nonneg _)) (abs_add_le _ _)
  rw [e1, e2] at h4
  refine h4.trans (le_of_eq ?_)
  ring

/-- The computed intersection: its parameter, its coordinates and its distance to the plane. -/
lemma intersectionFl_spec (u g : K) (hu : 0 ≤ u) (hu1 : u < 1) (rnd : K → K) (hr : IsRounding u rnd) (hone : rnd 1 = 1)
    (dot dot' : V3 K → V3 K → K) (hd : IsDot g dot) (hd' : IsDot g dot') (p : Plane K) (tol B : K) (p0 p1 : V3 K)
    (hB0 : absDot p0 p.normal + |p.c| ≤ B) (hB1 : absDot p1 p.normal + |p.c| ≤ B) (hg : 0 ≤ g)
    (htol : 2 * g * (1 + u) * B ≤ tol)
    (hside : (p.distFl rnd dot' p0 > tol ∧ p.distFl rnd dot' p1 < -tol) ∨
      (p.distFl rnd dot' p0 < -tol ∧ p.distFl rnd dot' p1 > tol)) :
    ∃ q t, p.edgeIntersectionFl rnd dot p0 p1 = .ok (some q) ∧ 0 ≤ t ∧ t ≤ 1 ∧
      |q.x - ((1 - t) * p0.x + t * p1.x)| ≤ ((1 + u) ^ 3 - 1) * ((1 - t) * |p0.x| + t * |p1.x|) ∧
      |q.y - ((1 - t) * p0.y + t * p1.y)| ≤ ((1 + u) ^ 3 - 1) * ((1 - t) * |p0.y| + t * |p1.y|) ∧
      |q.z - ((1 - t) * p0.z + t * p1.z)| ≤ ((1 + u) ^ 3 - 1) * ((1 - t) * |p0.z| + t * |p1.z|) ∧
      |(1 - t) * p.dist p0 + t * p.dist p1| ≤ (g + ((1 + u) ^ 2 / (1 - u) - 1) * (1 + 3 * g)) * B := by
  have w : 0 < 1 + u := by linarith
  have v : 0 < 1 - u := by linarith
  have S0 : absDot p0 p.normal ≤ B := le_trans (le_add_of_nonneg_right (abs_nonneg _)) hB0
  have S1 : absDot p1 p.normal ≤ B := le_trans (le_add_of_nonneg_right (abs_nonneg _)) hB1
  have B0 : 0 ≤ B := (absDot_nonneg _ _).trans S0
  have gB : 0 ≤ g * B := mul_nonneg hg B0
  have tol0 : 0 ≤ tol := le_trans (by positivity) htol
  have hz : rnd 0 = 0 := by simpa using hr.near 0
  -- a vertex classified above has a scalar product above `c`
  have above : ∀ q : V3 K, absDot q p.normal ≤ B → p.distFl rnd dot' q > tol → 0 < dot q p.normal - p.c := by
    intro q hq h
    have hx : 0 < dot' q p.normal - p.c := by
      by_contra hc
      have := hr.mono _ _ (not_lt.1 hc)
      rw [hz] at this
      exact absurd (h.trans_le this) (not_lt.2 tol0)
    have h1 : tol < (1 + u) * (dot' q p.normal - p.c) := h.trans_le (rnd_pos_bounds hr hx).2
    have h2 : 2 * (g * B) < dot' q p.normal - p.c := by
      have : (1 + u) * (2 * (g * B)) < (1 + u) * (dot' q p.normal - p.c) := lt_of_le_of_lt (by linarith) h1
      exact lt_of_mul_lt_mul_left this w.le
    have a1 := abs_le.1 (hd q p.normal)
    have a2 := abs_le.1 (hd' q p.normal)
    have a3 := mul_le_mul_of_nonneg_left hq hg
    linarith [a1.1, a2.2]
  have below : ∀ q : V3 K, absDot q p.normal ≤ B → p.distFl rnd dot' q < -tol → dot q p.normal - p.c < 0 := by
    intro q hq h
    have hx : 0 < -(dot' q p.normal - p.c) := by
      by_contra hc
      have := hr.mono 0 (dot' q p.normal - p.c) (by linarith [not_lt.1 hc])
      rw [hz] at this
      exact absurd (this.trans_lt h) (not_lt.2 (by linarith))
    have h1 : tol < (1 + u) * -(dot' q p.normal - p.c) := by
      refine lt_of_lt_of_le ?_ (rnd_pos_bounds hr hx).2
      rw [hr.odd]
      unfold Plane.distFl at h
      linarith
    have h2 : 2 * (g * B) < -(dot' q p.normal - p.c) := by
      have : (1 + u) * (2 * (g * B)) < (1 + u) * -(dot' q p.normal - p.c) := lt_of_le_of_lt (by linarith) h1
      exact lt_of_mul_lt_mul_left this w.le
    have a1 := abs_le.1 (hd q p.normal)
    have a2 := abs_le.1 (hd' q p.normal)
    have a3 := mul_le_mul_of_nonneg_left hq hg
    linarith [a1.2, a2.1]
  set a := dot p0 p.normal with ha
  set b := dot p1 p.normal with hb
  have hXY : (0 < a - p.c ∧ a - p.c ≤ a - b) ∨ (a - p.c < 0 ∧ a - b ≤ a - p.c) := by
    rcases hside with ⟨h, h'⟩ | ⟨h, h'⟩
    · left; have h1 := above p0 S0 h; have h2 := below p1 S1 h'
      exact ⟨h1, by linarith⟩
    · right; have h1 := below p0 S0 h; have h2 := above p1 S1 h'
      exact ⟨h1, by linarith⟩
  obtain ⟨hne, ht0, ht1, herr⟩ := param_err hr hu hu1 hone hXY
  set t := rnd (rnd (a - p.c) / rnd (a - b)) with htdef
  have cx := coord_err hr hu ht0 ht1 p0.x p1.x
  have cy := coord_err hr hu ht0 ht1 p0.y p1.y
  have cz := coord_err hr hu ht0 ht1 p0.z p1.z
  set qx := rnd (rnd (rnd (1 - t) * p0.x) + rnd (t * p1.x)) with hqx
  set qy := rnd (rnd (rnd (1 - t) * p0.y) + rnd (t * p1.y)) with hqy
  set qz := rnd (rnd (rnd (1 - t) * p0.z) + rnd (t * p1.z)) with hqz
  refine ⟨⟨qx, qy, qz⟩, t, ?_, ht0, ht1, cx, cy, cz, ?_⟩
  · unfold Plane.edgeIntersectionFl
    simp only [← ha, ← hb, ← htdef]
    rw [if_neg hne, if_neg (not_or.2 ⟨not_lt.2 ht0, not_lt.2 ht1⟩)]
  · have heta : 0 ≤ (1 + u) ^ 2 / (1 - u) - 1 := by
      rw [sub_nonneg, le_div_iff₀ v]
      nlinarith [mul_nonneg hu hu]
    set eta := (1 + u) ^ 2 / (1 - u) - 1
    -- the parameter
    set D0 := p0.x * p.normal.x + p0.y * p.normal.y + p0.z * p.normal.z with hD0
    set D1 := p1.x * p.normal.x + p1.y * p.normal.y + p1.z * p.normal.z with hD1
    have e0 : |a - D0| ≤ g * B := (hd p0 p.normal).trans (mul_le_mul_of_nonneg_left S0 hg)
    have e1 : |b - D1| ≤ g * B := (hd p1 p.normal).trans (mul_le_mul_of_nonneg_left S1 hg)
    have hab : a - b ≠ 0 := by rcases hXY with h | h <;> intro h' <;> linarith [h.1, h.2]
    set t' := (a - p.c) / (a - b) with ht'
    have tab : t' * (a - b) = a - p.c := div_mul_cancel₀ _ hab
    have t'0 : 0 ≤ t' := by
      rcases hXY with h | h
      · exact div_nonneg h.1.le (h.1.le.trans h.2)
      · exact div_nonneg_of_nonpos h.1.le (h.2.trans h.1.le)
    have t'1 : t' ≤ 1 := by
      rcases hXY with h | h
      · exact (div_le_one (h.1.trans_le h.2)).2 h.2
      · exact (div_le_one_of_neg (h.2.trans_lt h.1)).2 h.2
    have hd0 : |D0 - p.c| ≤ B := by
      refine le_trans ?_ hB0
      refine (abs_sub _ _).trans (add_le_add_left ?_ _)
      unfold absDot
      exact (abs_add_le _ _).trans (add_le_add_left (abs_add_le _ _) _)
    have hac : |a - p.c| ≤ (1 + g) * B := by
      calc |a - p.c| = |(a - D0) + (D0 - p.c)| := by rw [sub_add_sub_cancel]
        _ ≤ _ := (abs_add_le _ _).trans (by linarith)
    have hdiff : t' * |D0 - D1| ≤ (1 + 3 * g) * B := by
      calc t' * |D0 - D1| = |t' * (D0 - D1)| := by rw [abs_mul, abs_of_nonneg t'0]
        _ = |(a - p.c) + (-(t' * (a - D0)) + t' * (b - D1))| := by rw [← tab]; congr 1; ring
        _ ≤ |a - p.c| + (|t' * (a - D0)| + |t' * (b - D1)|) := by
          refine (abs_add_le _ _).trans (add_le_add_right ((abs_add_le _ _).trans ?_) _)
          rw [abs_neg]
        _ ≤ (1 + 3 * g) * B := by
          rw [abs_mul, abs_mul, abs_of_nonneg t'0]
          have := mul_le_mul t'1 e0 (abs_nonneg _) zero_le_one
          have := mul_le_mul t'1 e1 (abs_nonneg _) zero_le_one
          linarith
    have hmain : |(1 - t) * (D0 - p.c) + t * (D1 - p.c)| ≤ g * B + eta * ((1 + 3 * g) * B) := by
      have id1 : (1 - t) * (D0 - p.c) + t * (D1 - p.c) =
          (-((1 - t') * (a - D0)) + -(t' * (b - D1))) + -((t - t') * (D0 - D1)) := by
        linear_combination -tab
      rw [id1]
      refine (abs_add_le _ _).trans (add_le_add ((abs_add_le _ _).trans ?_) ?_)
      · rw [abs_neg, abs_neg, abs_mul, abs_mul, abs_of_nonneg t'0, abs_of_nonneg (sub_nonneg.2 t'1)]
        have := mul_le_mul_of_nonneg_left e0 (sub_nonneg.2 t'1)
        have := mul_le_mul_of_nonneg_left e1 t'0
        linarith
      · rw [abs_neg, abs_mul]
        calc |t - t'| * |D0 - D1| ≤ eta * t' * |D0 - D1| := mul_le_mul_of_nonneg_right herr (abs_nonneg _)
          _ = eta * (t' * |D0 - D1|) := by ring
          _ ≤ _ := mul_le_mul_of_nonneg_left hdiff heta
    refine hmain.trans (le_of_eq ?_)
    ring

end MM
