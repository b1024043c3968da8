import Verif.Model.HydroFl
import Verif.Props.WaterplaneFl

/-!
# Hydrostatics in floating point (C138)
-/

namespace MM
namespace Hydro
open QuadFl Clipper

variable {u ε : ℝ} {rnd : ℝ → ℝ}

/-- A rounded quotient. -/
lemma Ap_div (hr : IsRounding u rnd) (hu0 : 0 ≤ u) (hu : u ≤ ε) (h1 : ε ≤ 1 / 100) {e₁ e₂ X x' x y' y Y : ℝ} (hX : 0 ≤ X) (he₁ : 0 ≤ e₁)
    (he₂ : 0 ≤ e₂) (h2 : e₂ ≤ 4) (h : Ap ε e₁ 1 X x' x) (hY : 0 < Y) (hy : |y| = Y) (h' : |y' - y| ≤ e₂ * (ε * Y)) :
    Ap ε ((e₁ + e₂) * 1.06 + 1) 1 (X / Y) (rnd (x' / y')) (x / y) := by
  have h0 : 0 ≤ ε := hu0.trans hu
  have hq : |x / y| ≤ X / Y := by
    rw [abs_div, hy]
    exact div_le_div_of_nonneg_right (by linarith [h.2]) hY.le
  have e4 : e₂ * ε ≤ 4 / 100 := by
    calc e₂ * ε ≤ 4 * (1 / 100) := mul_le_mul h2 h1 h0 (by norm_num)
      _ = _ := by norm_num
  have dl : e₂ * (ε * Y) ≤ 4 / 100 * Y := by
    rw [← mul_assoc]; exact mul_le_mul_of_nonneg_right e4 hY.le
  have k := div_near hr hu0 h.1 h' (by rw [hy]; linarith)
  rw [hy] at k
  refine ⟨k.trans ?_, by rw [one_mul]; exact hq⟩
  have q0 : 0 ≤ X / Y := by positivity
  have n1 : e₁ * (ε * X) + |x / y| * (e₂ * (ε * Y)) ≤ (e₁ + e₂) * ε * X := by
    have : |x / y| * (e₂ * (ε * Y)) ≤ X / Y * (e₂ * (ε * Y)) := mul_le_mul_of_nonneg_right hq (by positivity)
    have e : X / Y * (e₂ * (ε * Y)) = e₂ * ε * X := by field_simp
    rw [e] at this
    linarith
  have n2 : (e₁ * (ε * X) + |x / y| * (e₂ * (ε * Y))) / (Y - e₂ * (ε * Y)) ≤ (e₁ + e₂) * ε * (X / Y) * (100 / 96) := by
    have d1 : 96 / 100 * Y ≤ Y - e₂ * (ε * Y) := by linarith
    have d0 : 0 < 96 / 100 * Y := by positivity
    calc _ ≤ (e₁ + e₂) * ε * X / (96 / 100 * Y) := div_le_div₀ (by positivity) n1 d0 d1
      _ = _ := by field_simp
  have w : 0 ≤ (e₁ + e₂) * ε * (X / Y) := by positivity
  have n3 : (1 + u) * ((e₁ * (ε * X) + |x / y| * (e₂ * (ε * Y))) / (Y - e₂ * (ε * Y))) ≤ 1.01 * ((e₁ + e₂) * ε * (X / Y) * (100 / 96)) := by
    calc _ ≤ (1 + u) * ((e₁ + e₂) * ε * (X / Y) * (100 / 96)) := mul_le_mul_of_nonneg_left n2 (by linarith)
      _ ≤ _ := mul_le_mul_of_nonneg_right (by linarith) (by positivity)
  have n4 : u * |x / y| ≤ ε * (X / Y) := mul_le_mul hu hq (abs_nonneg _) h0
  nlinarith

lemma zeroTiny_near {a a' d : ℝ} (h : |a' - a| ≤ d) : |zeroTiny a' - zeroTiny a| ≤ d + 1 / 10000 := by
  have d0 := (abs_nonneg _).trans h
  unfold zeroTiny
  split_ifs with h1 h2 h2
  · simp; linarith
  · rw [zero_sub, abs_neg]
    have := abs_sub_abs_le_abs_sub a a'
    rw [abs_sub_comm] at this
    linarith
  · rw [sub_zero]
    have := abs_sub_abs_le_abs_sub a' a
    linarith
  · linarith

/-- **C138.** The coefficients computed in floating point from a mass, a height of the centre of buoyancy and of the centre of gravity and line sums
known with a relative error `ε`. -/
theorem C138_coefficients (u ε : ℝ) (hu0 : 0 ≤ u) (hu : u ≤ ε) (h1 : ε ≤ 1 / 100) (rnd : ℝ → ℝ) (hr : IsRounding u rnd)
    (rho grav V mass zb zb' zcog zcog' M J Z : ℝ) (s s' : Sigmas ℝ) (hrho : 0 < rho) (hgr : grav ≠ 0) (hV : 0 < V) (hs0 : s.s0 ≠ 0)
    (hm : |mass - rho * V| ≤ ε * (rho * V)) (hb : |zb' - zb| ≤ ε * Z) (hbZ : |zb| ≤ Z) (hc : |zcog' - zcog| ≤ ε * Z) (hcZ : |zcog| ≤ Z)
    (a0 : |s'.s0 - s.s0| ≤ ε * |s.s0|)
    (a1 : |s'.s1 - s.s1| ≤ ε * M) (b1 : |s.s1| ≤ M) (a2 : |s'.s2 - s.s2| ≤ ε * M) (b2 : |s.s2| ≤ M)
    (a3 : |s'.s3 - s.s3| ≤ ε * J) (b3 : |s.s3| ≤ J) (a4 : |s'.s4 - s.s4| ≤ ε * J) (b4 : |s.s4| ≤ J)
    (a5 : |s'.s5 - s.s5| ≤ ε * J) (b5 : |s.s5| ≤ J) :
    let G := |rho * grav|
    let h := coeffsFl rnd rho grav mass zb' zcog' s'
    |h.dispVolume - V| ≤ 2.1 * ε * V ∧ |h.dispMass - rho * V| ≤ 3.2 * ε * (rho * V) ∧ |h.waterplaneArea - s.s0| ≤ ε * |s.s0| ∧
    |h.transversalRadius - s.s5 / V| ≤ 4.3 * ε * (J / V) ∧ |h.longitudinalRadius - s.s4 / V| ≤ 4.3 * ε * (J / V) ∧
    |h.transversalHeight - (s.s5 / V - (zcog - zb))| ≤ 12 * ε * (J / V + Z) ∧
    |h.longitudinalHeight - (s.s4 / V - (zcog - zb))| ≤ 12 * ε * (J / V + Z) ∧
    |h.stiffness.r0.x - zeroTiny (rho * grav * s.s0)| ≤ 3.1 * ε * (G * |s.s0|) + 1 / 10000 ∧
    |h.stiffness.r0.y - zeroTiny (rho * grav * s.s2)| ≤ 3.1 * ε * (G * M) + 1 / 10000 ∧
    |h.stiffness.r0.z - zeroTiny (-(rho * grav) * s.s1)| ≤ 3.1 * ε * (G * M) + 1 / 10000 ∧
    |h.stiffness.r1.z - zeroTiny (-(rho * grav) * s.s3)| ≤ 3.1 * ε * (G * J) + 1 / 10000 ∧
    |h.stiffness.r1.y - zeroTiny (rho * grav * V * (s.s5 / V - (zcog - zb)))| ≤ 29 * ε * (G * (J + V * Z)) + 1 / 10000 ∧
    |h.stiffness.r2.z - zeroTiny (rho * grav * V * (s.s4 / V - (zcog - zb)))| ≤ 29 * ε * (G * (J + V * Z)) + 1 / 10000 ∧
    h.stiffness.transpose = h.stiffness ∧
    |h.xf - s.s1 / s.s0| ≤ 8 * ε * (M / |s.s0|) ∧ |h.yf - s.s2 / s.s0| ≤ 8 * ε * (M / |s.s0|) := by
  intro G h
  have h0 : 0 ≤ ε := hu0.trans hu
  have mk : ∀ {x' x X : ℝ}, |x' - x| ≤ ε * X → |x| ≤ X → Ap ε 1 1 X x' x := fun a b => ⟨by rw [one_mul]; exact a, by rw [one_mul]; exact b⟩
  have neg : ∀ {e k X x' x : ℝ}, Ap ε e k X x' x → Ap ε e k X (-x') (-x) := by
    intro e k X x' x h
    exact ⟨by rw [neg_sub_neg, abs_sub_comm]; exact h.1, by rw [abs_neg]; exact h.2⟩
  have hG : 0 < G := abs_pos.2 (mul_ne_zero hrho.ne' hgr)
  have hA : 0 < |s.s0| := abs_pos.2 hs0
  have hM : 0 ≤ M := (abs_nonneg _).trans b1
  have hJ : 0 ≤ J := (abs_nonneg _).trans b3
  have hZ : 0 ≤ Z := (abs_nonneg _).trans hbZ
  have hrV : 0 < rho * V := by positivity
  have g : Ap ε 1 1 G (rnd (rho * grav)) (rho * grav) := mk ((hr.near _).trans (mul_le_mul_of_nonneg_right hu hG.le)) le_rfl
  have v : Ap ε 2.1 1 V (rnd (mass / rho)) V := by
    have := Ap_div hr hu0 hu h1 (e₂ := 0) hrV.le zero_le_one le_rfl (by norm_num) (mk hm (abs_of_pos hrV).le) hrho (abs_of_pos hrho)
      (y' := rho) (y := rho) (by simp)
    rw [mul_div_cancel_left₀ _ hrho.ne'] at this
    exact this.mono h0 hV.le (by norm_num) le_rfl
  have hvY : |V| = V := abs_of_pos hV
  have mg : ∀ {x' x X : ℝ}, 0 ≤ X → Ap ε 1 1 X x' x → Ap ε 3.1 1 (G * X) (rnd (rnd (rho * grav) * x')) (rho * grav * x) := by
    intro x' x X hX h
    exact (g.mul hr hu h0 h1 hG.le hX h zero_le_one zero_le_one zero_le_one zero_le_one).mono h0 (by positivity) (by norm_num) (by norm_num)
  have mn : ∀ {x' x X : ℝ}, 0 ≤ X → Ap ε 1 1 X x' x → Ap ε 3.1 1 (G * X) (rnd (-rnd (rho * grav) * x')) (-(rho * grav) * x) := by
    intro x' x X hX h
    exact ((neg g).mul hr hu h0 h1 hG.le hX h zero_le_one zero_le_one zero_le_one zero_le_one).mono h0 (by positivity) (by norm_num)
      (by norm_num)
  have d : Ap ε 3.2 1 (rho * V) (rnd (rho * rnd (mass / rho))) (rho * V) := by
    have r : Ap ε 0 1 rho rho rho := ⟨by simp, by rw [one_mul, abs_of_pos hrho]⟩
    exact (r.mul hr hu h0 h1 hrho.le hV.le v le_rfl (by norm_num) zero_le_one zero_le_one).mono h0 hrV.le (by norm_num) (by norm_num)
  have rad : ∀ {x' x : ℝ}, Ap ε 1 1 J x' x → Ap ε 4.3 1 (J / V) (rnd (x' / rnd (mass / rho))) (x / V) := by
    intro x' x h
    exact (Ap_div hr hu0 hu h1 hJ zero_le_one (by norm_num) (by norm_num) h hV hvY v.1).mono h0 (by positivity) (by norm_num) le_rfl
  have a : Ap ε 4.1 2 Z (rnd (zcog' - zb')) (zcog - zb) :=
    ((mk hc hcZ).sub hr hu h0 h1 hZ (mk hb hbZ) zero_le_one zero_le_one).mono h0 hZ (by norm_num) (by norm_num)
  have hJV : 0 ≤ J / V := by positivity
  have wid : ∀ {e k X Y x' x : ℝ}, 0 ≤ e → 0 ≤ k → X ≤ Y → Ap ε e k X x' x → Ap ε e k Y x' x := by
    intro e k X Y x' x he hk hXY h
    exact ⟨h.1.trans (mul_le_mul_of_nonneg_left (mul_le_mul_of_nonneg_left hXY h0) he), h.2.trans (mul_le_mul_of_nonneg_left hXY hk)⟩
  have hX : 0 ≤ J / V + Z := by positivity
  have hgt : ∀ {x' x : ℝ}, Ap ε 1 1 J x' x →
      Ap ε 12 3 (J / V + Z) (rnd (rnd (x' / rnd (mass / rho)) - rnd (zcog' - zb'))) (x / V - (zcog - zb)) := by
    intro x' x h
    exact ((wid (by norm_num) (by norm_num) (by linarith) (rad h)).sub hr hu h0 h1 hX (wid (by norm_num) (by norm_num) (by linarith) a)
      (by norm_num) (by norm_num)).mono h0 hX (by norm_num) (by norm_num)
  have gv : Ap ε 4.2 1 (G * V) (rnd (rnd (rho * grav) * rnd (mass / rho))) (rho * grav * V) :=
    (g.mul hr hu h0 h1 hG.le hV.le v zero_le_one (by norm_num) zero_le_one zero_le_one).mono h0 (by positivity) (by norm_num) (by norm_num)
  have rot : ∀ {x' x : ℝ}, Ap ε 1 1 J x' x →
      |rnd (rnd (rnd (rho * grav) * rnd (mass / rho)) * rnd (rnd (x' / rnd (mass / rho)) - rnd (zcog' - zb'))) -
        rho * grav * V * (x / V - (zcog - zb))| ≤ 29 * ε * (G * (J + V * Z)) := by
    intro x' x h
    have := ((gv.mul hr hu h0 h1 (by positivity) hX (hgt h) (by norm_num) (by norm_num) zero_le_one (by norm_num)).mono h0
      (by positivity) (e' := 29) (by norm_num) le_rfl).1
    refine this.trans (le_of_eq ?_)
    field_simp
  have cen : ∀ {x' x y' y : ℝ}, Ap ε 3.1 1 (G * M) x' x → Ap ε 3.1 1 (G * |s.s0|) y' y → |y| = G * |s.s0| →
      |rnd (x' / y') - x / y| ≤ 8 * ε * (M / |s.s0|) := by
    intro x' x y' y h h' hy
    have := ((Ap_div hr hu0 hu h1 (by positivity) (by norm_num) (by norm_num) (by norm_num) h (by positivity) hy h'.1).mono h0
      (by positivity) (e' := 8) (by norm_num) le_rfl).1
    rw [mul_div_mul_left _ _ hG.ne'] at this
    linarith
  have i1 := mk a1 b1
  have i2 := mk a2 b2
  have i3 := mk a3 b3
  have i4 := mk a4 b4
  have i5 := mk a5 b5
  have k0 := mg hA.le (mk a0 le_rfl)
  have fin : ∀ {e k X x' x : ℝ}, Ap ε e k X x' x → |x' - x| ≤ e * ε * X := by
    intro e k X x' x h
    rw [mul_assoc]; exact h.1
  refine ⟨fin v, fin d, a0, fin (rad i5), fin (rad i4), fin (hgt i5), fin (hgt i4), zeroTiny_near (fin k0), zeroTiny_near (fin (mg hM i2)),
    zeroTiny_near (fin (mn hM i1)), zeroTiny_near (fin (mn hJ i3)), zeroTiny_near (rot i5), zeroTiny_near (rot i4), rfl, ?_, ?_⟩
  · have := cen (neg (mn hM i1)) k0 (abs_mul _ _)
    have e : -(-(rho * grav) * s.s1) / (rho * grav * s.s0) = s.s1 / s.s0 := by
      rw [neg_mul, neg_neg, mul_div_mul_left _ _ (mul_ne_zero hrho.ne' hgr)]
    rw [e] at this
    exact this
  · have := cen (mg hM i2) k0 (abs_mul _ _)
    rw [mul_div_mul_left _ _ (mul_ne_zero hrho.ne' hgr)] at this
    exact this

/-- **C138.** `compute_hydrostatics` in floating point, with `at_cog` false, once the mesh is in position: the mesh is clipped in floating point, the
mass, the centre of buoyancy, the line sums and the coefficients are computed in floating point. Under the conditions of C121 and C136, the result is that of the
exact calculation, up to errors proportional to `E`; `E` bounds the relative errors of C136 and C137 (last hypotheses) and tends to 0 with them. -/
theorem C138_hydrostatics (u g : ℝ) (hu : 0 ≤ u) (hu1 : u < 1) (rnd : ℝ → ℝ) (hr : IsRounding u rnd) (hone : rnd 1 = 1)
    (hidem : ∀ a ∈ [1 / 100000, 1 / 100000000], rnd (rnd a) = rnd a) (dot dot' : V3 ℝ → V3 ℝ → ℝ) (hd : IsDot g dot) (hd' : IsDot g dot') (hg : 0 ≤ g)
    (srt srt' : (ℕ → ℝ) → List ℕ → List ℕ) (hsrt : IsArgsort srt) (hsrt' : IsArgsort srt') (p : Plane ℝ) (tol B R e : ℝ)
    (htol0 : 0 < tol) (htol : 2 * g * (1 + u) * B ≤ tol) (b : Bool) (m : Mesh ℝ) (hwf : m.WF)
    (hclear : ∀ v ∈ m.vertices,
      g * absDot v p.normal + u * (|p.dist v| + g * absDot v p.normal) < |p.dist v - tol| ∧
      g * absDot v p.normal + u * (|p.dist v| + g * absDot v p.normal) < |p.dist v + tol|)
    (hB : ∀ v ∈ m.vertices, absDot v p.normal + |p.c| ≤ B) (hR : ∀ v ∈ m.vertices, ∀ k, |v.coord k| ≤ R)
    (he0 : 0 ≤ e) (he : (g + ((1 + u) ^ 2 / (1 - u) - 1) * (1 + 3 * g)) * B / tol * R + ((1 + u) ^ 3 - 1) * R ≤ e)
    (hsep : m.TolSeparated p tol)
    (hgap : ∀ X Y, m.TolClipPoint p tol X → m.TolClipPoint p tol Y → ∀ a ∈ [1 / 100000, 1 / 100000000], ∀ k,
      |X.coord k - Y.coord k| + 2 * e ≤ (1 - u) * a ∨ (1 + u) / (1 - u) * a + 2 * e < |X.coord k - Y.coord k|)
    (hR0 : 0 ≤ R) (hcv : m.StrictlyConvexFaces) (c : Clipped ℝ) (hc : clip srt p tol b m = .ok c)
    (ε g' : ℝ) (huε : u ≤ ε) (hgε : g' ≤ ε) (h1 : ε ≤ 1 / 100) (heε : e ≤ ε * R) (nrm : V3 ℝ → ℝ)
    (hnrm : ∀ v, |nrm v - v.norm| ≤ g' * v.norm)
    (hA : ∀ f ∈ c.clipped.faces, 104 * (ε * R ^ 2) < (c.clipped.twiceArea f).norm)
    (d : ℝ) (hd0 : d = 2 * (c.clipped.faces.length * R ^ 3 * (357 * ε + 11 * ((1 + u) ^ (3 * c.clipped.faces.length + 2) - 1))))
    (hV0 : 0 < c.clipped.volume) (hV : d < |2 * c.clipped.volume|)
    (m₀ : Mesh ℝ) (cog : V3 ℝ) (rho grav : ℝ) (hrho : 0 < rho) (hgr : grav ≠ 0) (rot : M3 ℝ) (z : ℝ) (lpp : Option ℝ) (ap : Bool)
    (E M J Z zcog : ℝ) (huE : u ≤ E) (hE : E ≤ 1 / 100)
    (s : Sigmas ℝ) (hs : s = sigmas (polyVerts c.clippedCrown c.closedPolygons false 0)) (hs0 : s.s0 ≠ 0)
    (hM1 : |s.s1| ≤ M) (hM2 : |s.s2| ≤ M) (hJ3 : |s.s3| ≤ J) (hJ4 : |s.s4| ≤ J) (hJ5 : |s.s5| ≤ J)
    (hZb : |(c.clipped.evalPlain rho).cog.z| ≤ Z) (hZc : |(workingPoint cog rot z).z| ≤ Z)
    (hzc : |zcog - (workingPoint cog rot z).z| ≤ E * Z)
    (hEV : c.clipped.faces.length * R ^ 3 * (357 * ε + 11 * ((1 + u) ^ (3 * c.clipped.faces.length + 2) - 1)) ≤ E * c.clipped.volume)
    (hEb : (1 + u) * ((c.clipped.faces.length * R ^ 4 * (500 * ε + 12 * ((1 + u) ^ c.clipped.faces.length - 1)) + Z * d) /
      (|2 * c.clipped.volume| - d)) + u * Z ≤ E * Z)
    (n : ℕ) (hn : n = ((polyVerts c.clippedCrown c.closedPolygons false 0).flatMap chainPairs).length)
    (hE0 : n * R ^ 2 * (11 * ε + 3 * ((1 + u) ^ (n + 1) - 1)) ≤ E * |s.s0|)
    (hE1 : n * R ^ 3 * (16 * ε + 2 * ((1 + u) ^ (n + 1) - 1)) ≤ E * M)
    (hE3 : n * R ^ 4 * (12 * ε + ((1 + u) ^ (n + 1) - 1)) ≤ E * J) :
    ∃ c', clipFl rnd dot dot' srt' p tol b m = .ok c' ∧
      ∀ h, HydroFl rnd nrm c' rho grav zcog h →
        let H := ofClipped m₀ cog rho grav rot z false lpp ap c
        let V := H.dispVolume
        let A := |H.waterplaneArea|
        let G := |rho * grav|
        |h.dispVolume - V| ≤ 2.1 * E * V ∧ |h.dispMass - H.dispMass| ≤ 3.2 * E * H.dispMass ∧ |h.waterplaneArea - H.waterplaneArea| ≤ E * A ∧
        |h.transversalRadius - H.transversalRadius| ≤ 4.3 * E * (J / V) ∧ |h.longitudinalRadius - H.longitudinalRadius| ≤ 4.3 * E * (J / V) ∧
        |h.transversalHeight - H.transversalHeight| ≤ 12 * E * (J / V + Z) ∧
        |h.longitudinalHeight - H.longitudinalHeight| ≤ 12 * E * (J / V + Z) ∧
        |h.stiffness.r0.x - H.stiffness.r0.x| ≤ 3.1 * E * (G * A) + 1 / 10000 ∧
        |h.stiffness.r0.y - H.stiffness.r0.y| ≤ 3.1 * E * (G * M) + 1 / 10000 ∧
        |h.stiffness.r0.z - H.stiffness.r0.z| ≤ 3.1 * E * (G * M) + 1 / 10000 ∧
        |h.stiffness.r1.z - H.stiffness.r1.z| ≤ 3.1 * E * (G * J) + 1 / 10000 ∧
        |h.stiffness.r1.y - H.stiffness.r1.y| ≤ 29 * E * (G * (J + V * Z)) + 1 / 10000 ∧
        |h.stiffness.r2.z - H.stiffness.r2.z| ≤ 29 * E * (G * (J + V * Z)) + 1 / 10000 ∧
        h.stiffness.transpose = h.stiffness ∧
        ∃ x y, H.waterplaneCenter = rot.transpose.mulVec ⟨x, y, -z⟩ ∧ |h.xf - x| ≤ 8 * E * (M / A) ∧ |h.yf - y| ≤ 8 * E * (M / A) := by
  have E0 : 0 ≤ E := hu.trans huE
  obtain ⟨c', hc', -, w⟩ := C137_waterplane u g hu hu1 rnd hr hone hidem dot dot' hd hd' hg srt srt' hsrt hsrt' p tol B R e htol0 htol b m hwf hclear
    hB hR he0 he hsep hgap hR0 c hc ε huε h1 heε
  obtain ⟨c'', hc'', q⟩ := C136_buoyancy_centre u g hu hu1 rnd hr hone hidem dot dot' hd hd' hg srt srt' hsrt hsrt' p tol B R e htol0 htol b m hwf
    hclear hB hR he0 he hsep hgap hR0 hcv c hc ε g' huε hgε h1 heε nrm hnrm hA d hd0 hV
  rw [hc'] at hc''
  cases hc''
  refine ⟨c', hc', ?_⟩
  rintro h ⟨r, hrr, rfl⟩ H V A G
  obtain ⟨q0, -, -, qz⟩ := q rho r hrr
  dsimp only at w
  rw [← hs, ← hn] at w
  obtain ⟨w0, w1, w2, w3, w4, w5⟩ := w
  have ρ0 : 0 ≤ (1 + u) ^ (n + 1) - 1 := pow_sub_nonneg hu _
  have ε0 : 0 ≤ ε := hu.trans huε
  have hJE : n * R ^ 4 * (8 * ε + ((1 + u) ^ (n + 1) - 1)) ≤ E * J :=
    (mul_le_mul_of_nonneg_left (by linarith) (by positivity)).trans hE3
  have hmass : (c.clipped.evalPlain rho).mass = rho * c.clipped.volume := rfl
  have hVe : V = c.clipped.volume := by
    show (c.clipped.evalPlain rho).mass / rho = _
    rw [hmass, mul_div_cancel_left₀ _ hrho.ne']
  have d0 : 0 ≤ d := by
    have : 0 ≤ (1 + u) ^ (3 * c.clipped.faces.length + 2) - 1 := pow_sub_nonneg hu _
    rw [hd0]; positivity
  have k := C138_coefficients u E hu huE hE rnd hr rho grav c.clipped.volume r.mass (c.clipped.evalPlain rho).cog.z r.cog.z
    (workingPoint cog rot z).z zcog M J Z s (sigmasFl rnd (polyVerts c'.clippedCrown c'.closedPolygons false 0)) hrho hgr hV0 hs0
    (by
      rw [← hmass]
      refine q0.trans ?_
      rw [abs_of_pos hrho, hmass]
      have := mul_le_mul_of_nonneg_left hEV hrho.le
      exact le_trans (le_of_eq (by ring)) (this.trans (le_of_eq (by ring))))
    (by
      refine qz.trans (le_trans ?_ hEb)
      have hp : 0 < |2 * c.clipped.volume| - d := by linarith
      have t1 := mul_le_mul_of_nonneg_right hZb d0
      have t2 := mul_le_mul_of_nonneg_left hZb hu
      have t3 := div_le_div_of_nonneg_right (add_le_add_right t1
        (c.clipped.faces.length * R ^ 4 * (500 * ε + 12 * ((1 + u) ^ c.clipped.faces.length - 1)))) hp.le
      have t4 := mul_le_mul_of_nonneg_left t3 (by linarith : 0 ≤ 1 + u)
      exact add_le_add t4 t2) hZb hzc hZc (w0.trans hE0) (w1.trans hE1) hM1 (w2.trans hE1) hM2 (w3.trans hE3) hJ3 (w4.trans hJE) hJ4 (w5.trans hJE) hJ5
  obtain ⟨k1, k2, k3, k4, k5, k6, k7, k8, k9, k10, k11, k12, k13, k14, k15, k16⟩ := k
  have hpos : (c.clipped.evalPlain rho).mass / rho = c.clipped.volume := hVe
  have hpv : polyVerts c.clippedCrown c.closedPolygons false (c.clipped.evalPlain rho).cog =
      polyVerts c.clippedCrown c.closedPolygons false 0 := by simp [polyVerts]
  simp only [H, V, A, G, ofClipped, hpos, hpv, ← hs]
  have hG : rho * grav ≠ 0 := mul_ne_zero hrho.ne' hgr
  refine ⟨k1, k2, k3, k4, k5, k6, k7, k8, k9, k10, k11, k12, k13, k14, s.s1 / s.s0, s.s2 / s.s0, ?_, k15, k16⟩
  simp only [Bool.false_eq_true, if_false]
  rw [neg_mul, neg_neg, mul_div_mul_left _ _ hG, mul_div_mul_left _ _ hG]

/-- The hypotheses of C138 are met by the half immersed cube. -/
theorem halfCube_meets_C138 :
    ∃ c', clipFl (topRound (1 / 2 ^ 53)) (dotFl (topRound (1 / 2 ^ 53))) (dotFma (topRound (1 / 2 ^ 53))) insArgsort
        ⟨⟨0, 0, 1⟩, 0⟩ (1 / 1000) true halfCube.real = .ok c' ∧
      ∀ h, HydroFl (topRound (1 / 2 ^ 53)) V3.norm c' 1000 10 0 h →
        |h.dispVolume - 1 / 2| ≤ 1 / 10 ^ 5 ∧ |h.transversalHeight - 5 / 12| ≤ 1 / 10 ^ 5 ∧ |h.stiffness.r0.x - 10000| ≤ 1 / 10 ∧
          |h.xf - 1 / 2| ≤ 1 / 10 ^ 5 := by
  obtain ⟨c, hc, hp, hm⟩ := halfCube_clip
  have hmesh : (c.aff ratReal 0).clipped = halfCubeClipped := by
    show c.clipped.aff ratReal 0 = _
    rw [hm]
    simp [Mesh.aff, affMap, ratReal_apply, halfCubeClipped]
  have hR := clip_real (by decide +kernel) hc
  have hu : (0 : ℝ) ≤ 1 / 2 ^ 53 := by norm_num
  have hr := topRound_isRounding hu
  have verts : ∀ v ∈ halfCube.real.vertices, (|v.x| ≤ 1 ∧ |v.y| ≤ 1) ∧ |v.z| = 1 / 2 := by
    have : ∀ v ∈ halfCube.vertices, (|v.x| ≤ 1 ∧ |v.y| ≤ 1) ∧ |v.z| = 1 / 2 := by decide +kernel
    intro v hv
    rw [Mesh.real_vertices, List.mem_map] at hv
    obtain ⟨w, hw, rfl⟩ := hv
    obtain ⟨⟨a, b⟩, c⟩ := this w hw
    refine ⟨⟨?_, ?_⟩, ?_⟩
    · show |(w.x : ℝ)| ≤ 1
      exact_mod_cast a
    · show |(w.y : ℝ)| ≤ 1
      exact_mod_cast b
    · have : ((|w.z| : ℚ) : ℝ) = ((1 / 2 : ℚ) : ℝ) := by rw [c]
      push_cast at this
      exact this
  have gap : ∀ X Y, halfCube.real.TolClipPoint ⟨⟨0, 0, 1⟩, 0⟩ (1 / 1000) X → halfCube.real.TolClipPoint ⟨⟨0, 0, 1⟩, 0⟩ (1 / 1000) Y →
      ∀ k, X.coord k = Y.coord k ∨ 1 / 2 ≤ |X.coord k - Y.coord k| := by
    intro X Y hX hY k
    obtain ⟨a, ha⟩ := halfCube_points hX k
    obtain ⟨b, hb⟩ := halfCube_points hY k
    rw [ha, hb]
    by_cases h : a = b
    · left; rw [h]
    · right
      rw [← sub_div, abs_div, abs_of_pos (by norm_num : (0 : ℝ) < 2)]
      have : (1 : ℤ) ≤ |a - b| := Int.one_le_abs (sub_ne_zero.2 h)
      have : (1 : ℝ) ≤ |(a : ℝ) - b| := by exact_mod_cast this
      linarith
  obtain ⟨c0, hc0, hw⟩ := Hydro.halfCube_waterline
  rw [hR] at hc0
  simp only [Except.ok.injEq] at hc0
  subst hc0
  have hpv : polyVerts (c.aff ratReal 0).clippedCrown (c.aff ratReal 0).closedPolygons false 0 = [[(1, 0), (1, 1), (0, 1), (0, 0), (1, 0)]] := by
    rw [polyVerts_eq, hw]; simp
  have es : sigmas (polyVerts (c.aff ratReal 0).clippedCrown (c.aff ratReal 0).closedPolygons false 0) = ⟨1, 1 / 2, 1 / 2, 5 / 24, 1 / 3, 1 / 3⟩ := by
    rw [hpv]
    simp only [sigmas, List.foldl_cons, List.foldl_nil, Sigmas.poly, Sigmas.step, Sigmas.scale]; norm_num
  have en : 4 = ((polyVerts (c.aff ratReal 0).clippedCrown (c.aff ratReal 0).closedPolygons false 0).flatMap chainPairs).length := by
    rw [hpv]; rfl
  have wz : (workingPoint (0 : V3 ℝ) M3.one 0).z = 0 := by
    simp [workingPoint, M3.mulVec, V3.dot]
  obtain ⟨c', h1, h2⟩ := C138_hydrostatics (1 / 2 ^ 53) ((1 + 1 / 2 ^ 53) ^ 3 - 1) hu (by norm_num) (topRound (1 / 2 ^ 53)) hr
    (by simp [topRound]) (by
      intro a ha
      have : |a| ≤ 1 := by
        rcases List.mem_cons.1 ha with rfl | ha
        · norm_num [abs_of_pos]
        · rw [List.mem_singleton.1 ha]; norm_num [abs_of_pos]
      simp [topRound, this]) (dotFl (topRound (1 / 2 ^ 53))) (dotFma (topRound (1 / 2 ^ 53))) (dotFl_isDot hr hu) (dotFma_isDot hr hu)
    (by norm_num) insArgsort insArgsort insArgsort_isArgsort insArgsort_isArgsort ⟨⟨0, 0, 1⟩, 0⟩ (1 / 1000) (1 / 2) 1 (1 / 10 ^ 12)
    (by norm_num) (by norm_num) true halfCube.real (Mesh.WF.real (by decide +kernel)) (by
      intro v hv
      have z := (verts v hv).2
      have d : (⟨⟨0, 0, 1⟩, 0⟩ : Plane ℝ).dist v = v.z := by simp [Plane.dist, V3.dot]
      have a : absDot v (⟨0, 0, 1⟩ : V3 ℝ) = 1 / 2 := by simp [absDot, z]
      rw [d, a, z]
      rcases abs_eq (by norm_num : (0 : ℝ) ≤ 1 / 2) |>.1 z with h | h <;> rw [h] <;> norm_num [abs_of_pos, abs_of_neg]) (by
      intro v hv
      have z := (verts v hv).2
      simp [absDot, z]) (by
      intro v hv k
      obtain ⟨⟨a, b⟩, c⟩ := verts v hv
      fin_cases k
      · exact a
      · exact b
      · show |v.z| ≤ 1
        rw [c]; norm_num) (by norm_num) (by norm_num) (by
      intro X Y hX hY hXY
      have k : ∀ k, |X.coord k - Y.coord k| ≤ 1 / 100000 → X.coord k = Y.coord k := by
        intro k h
        rcases gap X Y hX hY k with h' | h'
        · exact h'
        · exfalso; linarith [(by norm_num : (1 / 100000 : ℝ) < 1 / 2)]
      exact V3.ext (k 0 hXY.1) (k 1 hXY.2.1) (k 2 hXY.2.2)) (by
      intro X Y hX hY a ha k
      have a1 : 1 / 100000000 ≤ a ∧ a ≤ 1 / 100000 := by
        rcases List.mem_cons.1 ha with rfl | ha
        · norm_num
        · rw [List.mem_singleton.1 ha]; norm_num
      rcases gap X Y hX hY k with h | h
      · left
        rw [h, sub_self, abs_zero]
        have := mul_le_mul_of_nonneg_left a1.1 (by norm_num : (0 : ℝ) ≤ 1 - 1 / 2 ^ 53)
        refine le_trans ?_ this
        norm_num
      · right
        have := mul_le_mul_of_nonneg_left a1.2 (by norm_num : (0 : ℝ) ≤ (1 + 1 / 2 ^ 53) / (1 - 1 / 2 ^ 53))
        refine lt_of_lt_of_le (lt_of_le_of_lt (add_le_add_left this _) ?_) h
        norm_num) (by norm_num) (Mesh.StrictlyConvexFaces.real Hydro.halfCube_strictlyConvex) _ hR (1 / 10 ^ 12) 0 (by norm_num) (by norm_num) (by norm_num) (by norm_num)
    V3.norm (by simp) (by
      rw [hmesh]
      intro f hf
      have h2 : 1 / 2 ≤ (halfCubeClipped.twiceArea f).norm := by
        simp only [halfCubeClipped, List.mem_cons, List.not_mem_nil, or_false] at hf
        have k := coord_le_norm (halfCubeClipped.twiceArea f)
        rcases hf with rfl | rfl | rfl | rfl | rfl
        · refine le_trans ?_ k.2.2
          simp [halfCubeClipped, Mesh.twiceArea, Mesh.vert, V3.cross]; norm_num
        · refine le_trans ?_ k.2.1
          simp [halfCubeClipped, Mesh.twiceArea, Mesh.vert, V3.cross]; norm_num
        · refine le_trans ?_ k.2.1
          simp [halfCubeClipped, Mesh.twiceArea, Mesh.vert, V3.cross]; norm_num
        · refine le_trans ?_ k.1
          simp [halfCubeClipped, Mesh.twiceArea, Mesh.vert, V3.cross]; norm_num
        · refine le_trans ?_ k.1
          simp [halfCubeClipped, Mesh.twiceArea, Mesh.vert, V3.cross]; norm_num
      refine lt_of_lt_of_le ?_ h2
      norm_num) _ rfl (by
      rw [hmesh, halfCubeClipped_volume]; norm_num) (by
      rw [hmesh, halfCubeClipped_volume]
      simp only [halfCubeClipped, List.length_cons, List.length_nil]
      norm_num) halfCube.real 0 1000 10 (by norm_num) (by norm_num) M3.one 0 none false (1 / 10 ^ 7) (1 / 2) (1 / 3) (1 / 4) 0
    (by norm_num) (by norm_num) _ es.symm (by norm_num) (by norm_num) (by norm_num) (by norm_num) (by norm_num) (by norm_num)
    (by rw [hmesh, Old.halfCubeClipped_cogz, abs_of_neg (by norm_num)]; norm_num) (by rw [wz]; norm_num) (by rw [wz]; norm_num) (by
      rw [hmesh, halfCubeClipped_volume]
      simp only [halfCubeClipped, List.length_cons, List.length_nil]
      norm_num) (by
      rw [hmesh, halfCubeClipped_volume]
      simp only [halfCubeClipped, List.length_cons, List.length_nil]
      norm_num) 4 en (by norm_num) (by norm_num) (by norm_num)
  refine ⟨c', h1, fun h hh => ?_⟩
  obtain ⟨k1, -, -, -, -, k6, -, k8, -, -, -, -, -, -, x, y, hx, k15, -⟩ := h2 h hh
  have hpv' : ∀ b, polyVerts (c.aff ratReal 0).clippedCrown (c.aff ratReal 0).closedPolygons false b =
      polyVerts (c.aff ratReal 0).clippedCrown (c.aff ratReal 0).closedPolygons false 0 := by intro b; simp [polyVerts]
  have hvol : (halfCubeClipped.evalPlain 1000).mass = 500 := by
    show (1000 : ℝ) * halfCubeClipped.volume = 500
    rw [halfCubeClipped_volume]; norm_num
  have x1 := congrArg V3.x hx
  simp only [ofClipped, hpv', es, hmesh, hvol, wz, Old.halfCubeClipped_cogz] at k1 k6 k8 k15 x1
  have x2 : x = 1 / 2 := by
    simp [M3.mulVec, V3.dot, M3.transpose, M3.one, M3.c0] at x1
    linarith
  rw [x2] at k15
  have z8 : zeroTiny (1000 * 10 * 1) = 10000 := by unfold zeroTiny; norm_num [abs_of_pos]
  rw [z8] at k8
  refine ⟨?_, ?_, ?_, ?_⟩
  · rw [show (1 / 2 : ℝ) = 500 / 1000 by norm_num]
    refine k1.trans ?_
    norm_num
  · rw [show (5 / 12 : ℝ) = 1 / 3 / (500 / 1000) - (0 - -1 / 4) by norm_num]
    refine k6.trans ?_
    norm_num
  · refine k8.trans ?_
    norm_num [abs_of_pos]
  · refine k15.trans ?_
    norm_num [abs_of_pos]

end Hydro
end MM
