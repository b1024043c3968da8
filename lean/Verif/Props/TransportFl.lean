import Verif.Model.TransportFl
import Verif.Props.WaterplaneFl

/-!
# Change of reduction point of an inertia in floating point (C142)
-/

namespace MM

open QuadFl

/-- Entry by entry, two matrices differ by at most `e`. -/
def M3.Near (e : ℝ) (A B : M3 ℝ) : Prop :=
  ∀ k, |A.r0.coord k - B.r0.coord k| ≤ e ∧ |A.r1.coord k - B.r1.coord k| ≤ e ∧ |A.r2.coord k - B.r2.coord k| ≤ e

section
variable {u ε R g M J : ℝ} {rnd : ℝ → ℝ} {dot : V3 ℝ → V3 ℝ → ℝ}
variable (hr : IsRounding u rnd) (hu : u ≤ ε) (h0 : 0 ≤ ε) (h1 : ε ≤ 1 / 100) (hR : 0 ≤ R) (hM : 0 ≤ M)
include hr hu h0 h1 hR

lemma ap_diff {a b : ℝ} (ha : |a| ≤ R) (hb : |b| ≤ R) : Ap ε 2 2 R (rnd (a - b)) (a - b) := by
  have ka : Ap ε 0 1 R a a := ⟨by simp, by linarith⟩
  have kb : Ap ε 0 1 R b b := ⟨by simp, by linarith⟩
  exact (ka.sub hr hu h0 h1 hR kb le_rfl le_rfl).mono h0 hR (by norm_num) (by norm_num)

lemma ap_dot (hd : IsDot g dot) (hg0 : 0 ≤ g) (hg : g ≤ 4 * ε) {d d' : V3 ℝ} (hx : Ap ε 2 2 R d'.x d.x) (hy : Ap ε 2 2 R d'.y d.y)
    (hz : Ap ε 2 2 R d'.z d.z) : Ap ε 75 12 (R * R) (dot d' d') (d.dot d) := by
  have R2 : 0 ≤ R * R := by positivity
  have E0 : 0 ≤ ε * (R * R) := by positivity
  have s : ε * (ε * (R * R)) ≤ 1 / 100 * (ε * (R * R)) := mul_le_mul_of_nonneg_right h1 E0
  have one : ∀ {a' a : ℝ}, Ap ε 2 2 R a' a → |a' * a' - a * a| ≤ 8.04 * (ε * (R * R)) ∧ |a * a| ≤ 4 * (R * R) ∧ |a' * a'| ≤ 4.1 * (R * R) := by
    intro a' a h
    have d1 := mul_near h.1 h.1 h.2 h.2
    have d2 : |a' * a' - a * a| ≤ 8.04 * (ε * (R * R)) := by
      refine d1.trans ?_
      rw [show 2 * (ε * R) * (2 * R) + 2 * R * (2 * (ε * R)) + 2 * (ε * R) * (2 * (ε * R)) =
        8 * (ε * (R * R)) + 4 * (ε * (ε * (R * R))) by ring]
      linarith
    have d3 : |a * a| ≤ 4 * (R * R) := (abs_mul_le h.2 h.2).trans (le_of_eq (by ring))
    refine ⟨d2, d3, ?_⟩
    have := abs_add_le (a' * a' - a * a) (a * a)
    rw [sub_add_cancel] at this
    have k : ε * (R * R) ≤ 1 / 100 * (R * R) := mul_le_mul_of_nonneg_right h1 R2
    linarith
  obtain ⟨x1, x2, x3⟩ := one hx
  obtain ⟨y1, y2, y3⟩ := one hy
  obtain ⟨z1, z2, z3⟩ := one hz
  have D := hd d' d'
  have A : absDot d' d' ≤ 12.3 * (R * R) := by unfold absDot; linarith
  have A0 : 0 ≤ absDot d' d' := by unfold absDot; positivity
  have G : g * absDot d' d' ≤ 4 * ε * (12.3 * (R * R)) := mul_le_mul hg A A0 (by linarith)
  unfold V3.dot
  constructor
  · rw [abs_le] at D x1 y1 z1 ⊢
    constructor <;> nlinarith [D.1, D.2, x1.1, x1.2, y1.1, y1.2, z1.1, z1.2]
  · have := abs_add_le (d.x * d.x + d.y * d.y) (d.z * d.z)
    have := abs_add_le (d.x * d.x) (d.y * d.y)
    linarith

include hM

/-- The terms of `_huygens_transport`. -/
lemma huygens_near (hd : IsDot g dot) (hg0 : 0 ≤ g) (hg : g ≤ 4 * ε) {I : Inertia} (hm : |I.mass| ≤ M)
    (hc : ∀ k, |I.cog.coord k| ≤ R) (hp : ∀ k, |I.point.coord k| ≤ R) :
    let H := I.huygensFl rnd dot
    let S := I.huygens
    let Q := fun a b : ℝ => Ap ε 122 16 (M * (R * R)) a b
    (Q H.r0.x S.r0.x ∧ Q H.r0.y S.r0.y ∧ Q H.r0.z S.r0.z) ∧ (Q H.r1.x S.r1.x ∧ Q H.r1.y S.r1.y ∧ Q H.r1.z S.r1.z) ∧
      (Q H.r2.x S.r2.x ∧ Q H.r2.y S.r2.y ∧ Q H.r2.z S.r2.z) := by
  have R2 : 0 ≤ R * R := by positivity
  have MR : 0 ≤ M * (R * R) := by positivity
  have dx : Ap ε 2 2 R (subFl rnd I.cog I.point).x (I.cog - I.point).x := ap_diff hr hu h0 h1 hR (hc 0) (hp 0)
  have dy : Ap ε 2 2 R (subFl rnd I.cog I.point).y (I.cog - I.point).y := ap_diff hr hu h0 h1 hR (hc 1) (hp 1)
  have dz : Ap ε 2 2 R (subFl rnd I.cog I.point).z (I.cog - I.point).z := ap_diff hr hu h0 h1 hR (hc 2) (hp 2)
  have ds := ap_dot hr hu h0 h1 hR hd hg0 hg dx dy dz
  have km : Ap ε 0 1 M I.mass I.mass := ⟨by simp, by linarith⟩
  have prod : ∀ {a' a b' b : ℝ}, Ap ε 2 2 R a' a → Ap ε 2 2 R b' b → Ap ε 12.2 4 (R * R) (rnd (a' * b')) (a * b) := by
    intro a' a b' b ha hb
    exact (ha.mul hr hu h0 h1 hR hR hb (by norm_num) (by norm_num) (by norm_num) (by norm_num)).mono h0 R2 (by norm_num) (by norm_num)
  have off : ∀ {a' a b' b : ℝ}, Ap ε 2 2 R a' a → Ap ε 2 2 R b' b →
      Ap ε 122 16 (M * (R * R)) (rnd (I.mass * rnd (0 - rnd (a' * b')))) (I.mass * (0 - a * b)) := by
    intro a' a b' b ha hb
    have z : Ap ε 0 0 (R * R) (0 : ℝ) 0 := ⟨by simp, by simp⟩
    exact (km.mul hr hu h0 h1 hM R2 (z.sub hr hu h0 h1 R2 (prod ha hb) le_rfl (by norm_num)) le_rfl (by norm_num) (by norm_num)
      (by norm_num)).mono h0 MR (by norm_num) (by norm_num)
  have diag : ∀ {a' a : ℝ}, Ap ε 2 2 R a' a → Ap ε 122 16 (M * (R * R))
      (rnd (I.mass * rnd (dot (subFl rnd I.cog I.point) (subFl rnd I.cog I.point) - rnd (a' * a'))))
      (I.mass * ((I.cog - I.point).dot (I.cog - I.point) - a * a)) := by
    intro a' a ha
    exact (km.mul hr hu h0 h1 hM R2 (ds.sub hr hu h0 h1 R2 (prod ha ha) (by norm_num) (by norm_num)) le_rfl (by norm_num) (by norm_num)
      (by norm_num)).mono h0 MR (by norm_num) (by norm_num)
  exact ⟨⟨diag dx, off dx dy, off dx dz⟩, ⟨off dy dx, diag dy, off dy dz⟩, ⟨off dz dx, off dz dy, diag dz⟩⟩

end

/-- **C142.** An inertia expressed at its centre of gravity, moved to a point `P` in floating point: mass and centre are unchanged, the matrix is
that of the parallel axis theorem up to an explicit error. `M` bounds the mass, `J` the matrix, `R` the coordinates of the centre and of `P`. -/
theorem C142_transport (u ε g R M J : ℝ) (hu0 : 0 ≤ u) (hu : u ≤ ε) (h1 : ε ≤ 1 / 100) (rnd : ℝ → ℝ) (hr : IsRounding u rnd)
    (dot : V3 ℝ → V3 ℝ → ℝ) (hd : IsDot g dot) (hg0 : 0 ≤ g) (hg : g ≤ 4 * ε) (I : Inertia) (hI : I.isAtCog) (P : V3 ℝ)
    (hm : |I.mass| ≤ M) (hc : ∀ k, |I.cog.coord k| ≤ R) (hP : ∀ k, |P.coord k| ≤ R)
    (hJ : ∀ k, |I.mat.r0.coord k| ≤ J ∧ |I.mat.r1.coord k| ≤ J ∧ |I.mat.r2.coord k| ≤ J) :
    let r := I.setReductionPointFl rnd dot P
    r.mass = I.mass ∧ r.cog = I.cog ∧ r.point = P ∧
    M3.Near (142 * ε * (J + M * R ^ 2)) r.mat (I.mat.add (steiner I.mass (I.cog - P))) := by
  have h0 : 0 ≤ ε := hu0.trans hu
  have hR : 0 ≤ R := (abs_nonneg _).trans (hc 0)
  have hM : 0 ≤ M := (abs_nonneg _).trans hm
  have J0 : 0 ≤ J := (abs_nonneg _).trans (hJ 0).1
  intro r
  refine ⟨rfl, rfl, rfl, ?_⟩
  have MR : 0 ≤ M * (R * R) := by positivity
  have X0 : 0 ≤ J + M * (R * R) := by positivity
  have z0 : rnd 0 = 0 := by
    have := hr.near 0
    rw [sub_zero, abs_zero, mul_zero] at this
    exact abs_eq_zero.1 (le_antisymm this (abs_nonneg _))
  have hz : I.huygensFl rnd dot = ⟨⟨0, 0, 0⟩, ⟨0, 0, 0⟩, ⟨0, 0, 0⟩⟩ := by
    have e : subFl rnd I.cog I.point = ⟨0, 0, 0⟩ := by
      unfold Inertia.isAtCog at hI
      rw [hI]
      simp [subFl, z0]
    have d0 : dot ⟨0, 0, 0⟩ ⟨0, 0, 0⟩ = 0 := by
      have := hd ⟨0, 0, 0⟩ ⟨0, 0, 0⟩
      simp [absDot] at this
      exact this
    unfold Inertia.huygensFl
    rw [e]
    simp [d0, z0]
  have H := huygens_near hr hu h0 h1 hR hM hd hg0 hg (I := { I with point := P }) hm hc hP
  have hs : ({ I with point := P } : Inertia).huygens = steiner I.mass (I.cog - P) := huygens_eq _
  dsimp only at H
  rw [hs] at H
  have key : ∀ {a h' h : ℝ}, |a| ≤ J → Ap ε 122 16 (M * (R * R)) h' h →
      |rnd (rnd (a + 0) + h') - (a + h)| ≤ 142 * ε * (J + M * R ^ 2) := by
    intro a h' h ha hh
    have ka : Ap ε 0 1 (J + M * (R * R)) a a := ⟨by simp, by linarith⟩
    have kz : Ap ε 0 0 (J + M * (R * R)) (0 : ℝ) 0 := ⟨by simp, by simp⟩
    have kh : Ap ε 122 16 (J + M * (R * R)) h' h := by
      have e : 0 ≤ ε * J := by positivity
      exact ⟨hh.1.trans (by linarith), hh.2.trans (by linarith)⟩
    have s := (ka.add hr hu h0 h1 X0 kz le_rfl le_rfl).add hr hu h0 h1 X0 kh (by norm_num) (by norm_num)
    have t := (s.mono (e' := 142) (k' := 17) h0 X0 (by norm_num) (by norm_num)).1
    rw [add_zero] at t
    refine (le_of_eq ?_).trans (t.trans (le_of_eq (by ring)))
    rw [add_zero]
  have rm : r.mat = (I.mat.addFl rnd ⟨⟨0, 0, 0⟩, ⟨0, 0, 0⟩, ⟨0, 0, 0⟩⟩).addFl rnd (({ I with point := P } : Inertia).huygensFl rnd dot) := by
    show (I.mat.addFl rnd (I.huygensFl rnd dot)).addFl rnd _ = _
    rw [hz]
  rw [rm]
  obtain ⟨⟨a1, a2, a3⟩, ⟨b1, b2, b3⟩, ⟨c1, c2, c3⟩⟩ := H
  intro k
  fin_cases k
  · exact ⟨key (hJ 0).1 a1, key (hJ 0).2.1 b1, key (hJ 0).2.2 c1⟩
  · exact ⟨key (hJ 1).1 a2, key (hJ 1).2.1 b2, key (hJ 1).2.2 c2⟩
  · exact ⟨key (hJ 2).1 a3, key (hJ 2).2.1 b3, key (hJ 2).2.2 c3⟩

/-- A body of mass 2 at its centre of gravity. -/
noncomputable def transportSample : Inertia := Inertia.init 2 ⟨1, 1, 0⟩ 3 4 5 0 0 1 none

/-- The hypotheses of C142 are met by a body of mass 2 moved to the origin: there the diagonal moment about `z` is `5 + 2 * 2 = 9`. -/
theorem sample_meets_C142 :
    let r := transportSample.setReductionPointFl (topRound (1 / 2 ^ 53)) (dotFl (topRound (1 / 2 ^ 53))) 0
    |r.zz - 9| ≤ 1 / 10 ^ 12 ∧ |r.xy - 3| ≤ 1 / 10 ^ 12 := by
  intro r
  have hu : (0 : ℝ) ≤ 1 / 2 ^ 53 := by norm_num
  have hr := topRound_isRounding hu
  obtain ⟨-, -, -, h⟩ := C142_transport (1 / 2 ^ 53) (1 / 2 ^ 53) ((1 + 1 / 2 ^ 53) ^ 3 - 1) 1 2 5 hu le_rfl (by norm_num) _ hr
    (dotFl (topRound (1 / 2 ^ 53))) (dotFl_isDot hr hu) (by norm_num) (by norm_num) transportSample rfl 0
    (by norm_num [transportSample, Inertia.init, abs_of_pos]) (by intro k; fin_cases k <;> norm_num [transportSample, Inertia.init, V3.coord])
    (by intro k; fin_cases k <;> norm_num [V3.coord])
    (by intro k; fin_cases k <;> norm_num [transportSample, Inertia.init, V3.coord, abs_of_pos])
  have hz := (h 2).2.2
  have hxy := (h 1).1
  have e1 : (transportSample.mat.add (steiner transportSample.mass (transportSample.cog - 0))).r2.coord 2 = 9 := by
    norm_num [transportSample, Inertia.init, steiner, M3.add, M3.smul, M3.one, V3.coord, V3.dot]
  have e2 : (transportSample.mat.add (steiner transportSample.mass (transportSample.cog - 0))).r0.coord 1 = -3 := by
    norm_num [transportSample, Inertia.init, steiner, M3.add, M3.smul, M3.one, V3.coord, V3.dot]
  rw [e1] at hz
  rw [e2] at hxy
  constructor
  · exact hz.trans (by norm_num)
  · show |-(r.mat.r0.y) - 3| ≤ _
    rw [show -(r.mat.r0.y) - 3 = -(r.mat.r0.y - -3) by ring, abs_neg]
    exact hxy.trans (by norm_num)

end MM
