import Verif.Proofs.ClipConvex

/-!
# Additive quantities and clipping

A quantity attached to triangles, additive under subdivision, which is zero for triangles above the plane and equal to `Φ`
for triangles below the plane, has on the mesh the value that `Φ` has on the clipped mesh.
-/

namespace MM
namespace Clipper

set_option linter.unusedSectionVars false
set_option linter.unusedSimpArgs false
set_option linter.unusedVariables false

variable {K : Type*} [Field K] [LinearOrder K] [IsStrictOrderedRing K]

/-- `X` is in the plane of normal `n` through `A`. -/
def InPlane (n A X : V3 K) : Prop := n.dot (X - A) = 0

/-- Additive in each plane. -/
structure PlaneAdditive (Φ : V3 K → V3 K → V3 K → K) : Prop where
  anti : ∀ o p q, Φ o p q = -Φ o q p
  degenerate : ∀ o p q, areaVec o p q = 0 → Φ o p q = 0
  fan : ∀ o p q r, (p - o).dot (areaVec o q r) = 0 → Φ p q r = Φ o p q + Φ o q r + Φ o r p

/-- `J` is additive under subdivision, zero above the plane and equal to `Φ` below. -/
structure CutsOff (p : Plane K) (J Φ : V3 K → V3 K → V3 K → K) : Prop where
  cycle : ∀ a b c, J a b c = J b c a
  split : ∀ a b c, ∀ t : K, 0 ≤ t → t ≤ 1 → J a b c = J a b (a + t • (c - a)) + J (a + t • (c - a)) b c
  above : ∀ a b c, 0 ≤ p.dist a → 0 ≤ p.dist b → 0 ≤ p.dist c → J a b c = 0
  below : ∀ a b c, p.dist a ≤ 0 → p.dist b ≤ 0 → p.dist c ≤ 0 → p.dist a < 0 ∨ p.dist c < 0 → J a b c = Φ a b c

lemma coplanar_det {n A o p q r : V3 K} (hn : n ≠ 0) (ho : InPlane n A o) (hp : InPlane n A p) (hq : InPlane n A q)
    (hr : InPlane n A r) : (p - o).dot (areaVec o q r) = 0 := by
  unfold InPlane at *
  have h1 : n.dot (p - o) = 0 := by
    simp only [V3.dot, V3.sub_x, V3.sub_y, V3.sub_z] at *; linear_combination hp - ho
  have h2 : n.dot (q - o) = 0 := by
    simp only [V3.dot, V3.sub_x, V3.sub_y, V3.sub_z] at *; linear_combination hq - ho
  have h3 : n.dot (r - o) = 0 := by
    simp only [V3.dot, V3.sub_x, V3.sub_y, V3.sub_z] at *; linear_combination hr - ho
  unfold areaVec
  generalize p - o = u at *
  generalize q - o = v at *
  generalize r - o = w at *
  simp only [V3.dot, V3.cross] at *
  by_contra hD
  apply hn
  ext
  · refine (mul_eq_zero.1 ?_).resolve_right hD
    linear_combination (v.y * w.z - v.z * w.y) * h1 + (w.y * u.z - w.z * u.y) * h2 + (u.y * v.z - u.z * v.y) * h3
  · refine (mul_eq_zero.1 ?_).resolve_right hD
    linear_combination (v.z * w.x - v.x * w.z) * h1 + (w.z * u.x - w.x * u.z) * h2 + (u.z * v.x - u.x * v.z) * h3
  · refine (mul_eq_zero.1 ?_).resolve_right hD
    linear_combination (v.x * w.y - v.y * w.x) * h1 + (w.x * u.y - w.y * u.x) * h2 + (u.x * v.y - u.y * v.x) * h3

/-- In the plane of a face, there is a point aligned with any two points of the clipping plane. -/
lemma exists_apex (p : Plane K) {n A : V3 K} (hn : n ≠ 0) (hA : p.dist A ≠ 0) :
    ∃ o, InPlane n A o ∧ ∀ X Y, InPlane n A X → InPlane n A Y → p.dist X = 0 → p.dist Y = 0 → areaVec o X Y = 0 := by
  obtain ⟨N, c⟩ := p
  simp only [Plane.dist] at *
  set D := N.normSq * n.normSq - N.dot n * N.dot n with hD
  have hDs : D = (n.y * N.z - n.z * N.y) ^ 2 + (n.z * N.x - n.x * N.z) ^ 2 + (n.x * N.y - n.y * N.x) ^ 2 := by
    simp only [hD, V3.normSq, V3.dot]; ring
  by_cases h0 : D = 0
  · have e1 : n.y * N.z - n.z * N.y = 0 := by
      have := sq_nonneg (n.y * N.z - n.z * N.y); have := sq_nonneg (n.z * N.x - n.x * N.z)
      have := sq_nonneg (n.x * N.y - n.y * N.x)
      apply pow_eq_zero_iff (two_ne_zero) |>.1; linarith
    have e2 : n.z * N.x - n.x * N.z = 0 := by
      have := sq_nonneg (n.y * N.z - n.z * N.y); have := sq_nonneg (n.z * N.x - n.x * N.z)
      have := sq_nonneg (n.x * N.y - n.y * N.x)
      apply pow_eq_zero_iff (two_ne_zero) |>.1; linarith
    have e3 : n.x * N.y - n.y * N.x = 0 := by
      have := sq_nonneg (n.y * N.z - n.z * N.y); have := sq_nonneg (n.z * N.x - n.x * N.z)
      have := sq_nonneg (n.x * N.y - n.y * N.x)
      apply pow_eq_zero_iff (two_ne_zero) |>.1; linarith
    refine ⟨A, by simp [InPlane, V3.dot], ?_⟩
    intro X Y hX hY dX dY
    exfalso
    apply hn
    have hne : N.dot (X - A) ≠ 0 := by
      intro h; apply hA
      simp only [V3.dot, V3.sub_x, V3.sub_y, V3.sub_z] at *
      linear_combination dX - h
    simp only [InPlane, V3.dot, V3.sub_x, V3.sub_y, V3.sub_z] at hX hne
    ext
    · refine (mul_eq_zero.1 ?_).resolve_right hne
      linear_combination N.x * hX + (X.y - A.y) * e3 - (X.z - A.z) * e2
    · refine (mul_eq_zero.1 ?_).resolve_right hne
      linear_combination N.y * hX + (X.z - A.z) * e1 - (X.x - A.x) * e3
    · refine (mul_eq_zero.1 ?_).resolve_right hne
      linear_combination N.z * hX + (X.x - A.x) * e2 - (X.y - A.y) * e1
  · set d : V3 K := n.normSq • N - N.dot n • n with hd
    set k := (N.dot A - c) / D with hk
    have hkD : k * D = N.dot A - c := by rw [hk]; field_simp
    set o := A - k • d with ho
    have o1 : InPlane n A o := by
      simp only [InPlane, ho, hd, V3.dot, V3.normSq, V3.sub_x, V3.sub_y, V3.sub_z, V3.smul_x, V3.smul_y, V3.smul_z]
      ring
    have o2 : N.dot o - c = 0 := by
      have : N.dot o = N.dot A - k * D := by
        simp only [ho, hd, hD, V3.dot, V3.normSq, V3.sub_x, V3.sub_y, V3.sub_z, V3.smul_x, V3.smul_y, V3.smul_z]
        ring
      rw [this, hkD]; ring
    refine ⟨o, o1, ?_⟩
    intro X Y hX hY dX dY
    clear_value o
    have a1 : n.dot (X - o) = 0 := by
      simp only [InPlane, V3.dot, V3.sub_x, V3.sub_y, V3.sub_z] at *; linear_combination hX - o1
    have a2 : n.dot (Y - o) = 0 := by
      simp only [InPlane, V3.dot, V3.sub_x, V3.sub_y, V3.sub_z] at *; linear_combination hY - o1
    have b1 : N.dot (X - o) = 0 := by
      simp only [InPlane, V3.dot, V3.sub_x, V3.sub_y, V3.sub_z] at *; linear_combination dX - o2
    have b2 : N.dot (Y - o) = 0 := by
      simp only [InPlane, V3.dot, V3.sub_x, V3.sub_y, V3.sub_z] at *; linear_combination dY - o2
    unfold areaVec
    generalize X - o = u at *
    generalize Y - o = v at *
    simp only [V3.dot] at a1 a2 b1 b2
    rw [hDs] at h0
    clear_value D
    set s := (n.y * N.z - n.z * N.y) ^ 2 + (n.z * N.x - n.x * N.z) ^ 2 + (n.x * N.y - n.y * N.x) ^ 2 with hs
    have dir : ∀ w : V3 K, n.x * w.x + n.y * w.y + n.z * w.z = 0 → N.x * w.x + N.y * w.y + N.z * w.z = 0 →
        ∃ α : K, s * w.x = α * (n.y * N.z - n.z * N.y) ∧ s * w.y = α * (n.z * N.x - n.x * N.z) ∧
          s * w.z = α * (n.x * N.y - n.y * N.x) := by
      intro w w1 w2
      refine ⟨w.x * (n.y * N.z - n.z * N.y) + w.y * (n.z * N.x - n.x * N.z) + w.z * (n.x * N.y - n.y * N.x), ?_, ?_, ?_⟩
      · linear_combination (n.z * N.x - n.x * N.z) * (n.z * w2 - N.z * w1) - (n.x * N.y - n.y * N.x) * (n.y * w2 - N.y * w1)
      · linear_combination (n.x * N.y - n.y * N.x) * (n.x * w2 - N.x * w1) - (n.y * N.z - n.z * N.y) * (n.z * w2 - N.z * w1)
      · linear_combination (n.y * N.z - n.z * N.y) * (n.y * w2 - N.y * w1) - (n.z * N.x - n.x * N.z) * (n.x * w2 - N.x * w1)
    obtain ⟨α, u1, u2, u3⟩ := dir u a1 b1
    obtain ⟨β, v1, v2, v3⟩ := dir v a2 b2
    clear_value s
    have hss : s * s ≠ 0 := mul_ne_zero h0 h0
    ext
    · simp only [V3.cross, V3.zero_x]
      refine (mul_eq_zero.1 ?_).resolve_left hss
      linear_combination (s * v.z) * u2 + α * (n.z * N.x - n.x * N.z) * v3 - (s * v.y) * u3 - α * (n.x * N.y - n.y * N.x) * v2
    · simp only [V3.cross, V3.zero_y]
      refine (mul_eq_zero.1 ?_).resolve_left hss
      linear_combination (s * v.x) * u3 + α * (n.x * N.y - n.y * N.x) * v1 - (s * v.z) * u1 - α * (n.y * N.z - n.z * N.y) * v3
    · simp only [V3.cross, V3.zero_z]
      refine (mul_eq_zero.1 ?_).resolve_left hss
      linear_combination (s * v.y) * u1 + α * (n.y * N.z - n.z * N.y) * v2 - (s * v.x) * u2 - α * (n.z * N.x - n.x * N.z) * v1

lemma cutPt_dist {p : Plane K} {a b : V3 K} (h : p.dist a ≠ p.dist b) : p.dist (p.cutPt a b) = 0 := by
  have h' : p.dist a - p.dist b ≠ 0 := sub_ne_zero.2 h
  have e : (p.dist a - p.dist b) * p.dist (p.cutPt a b) = 0 := by
    have : p.cutPt a b = (p.dist a - p.dist b)⁻¹ • (p.dist a • b - p.dist b • a) := rfl
    rw [this]
    generalize hk : (p.dist a - p.dist b)⁻¹ = k
    have hk' : k * (p.dist a - p.dist b) = 1 := by rw [← hk]; exact inv_mul_cancel₀ h'
    have e1 : p.dist (k • (p.dist a • b - p.dist b • a)) =
        k * (p.dist a * (p.dist b + p.c) - p.dist b * (p.dist a + p.c)) - p.c := by
      simp only [Plane.dist, V3.dot, V3.smul_x, V3.smul_y, V3.smul_z, V3.sub_x, V3.sub_y, V3.sub_z]; ring
    rw [e1]
    linear_combination p.c * (p.dist a - p.dist b) * hk'
  exact (mul_eq_zero.1 e).resolve_left h'

lemma cutPt_param {p : Plane K} {a b : V3 K} (h : p.dist a ≠ p.dist b) :
    p.cutPt a b = a + (p.dist a / (p.dist a - p.dist b)) • (b - a) := by
  have h' : p.dist a - p.dist b ≠ 0 := sub_ne_zero.2 h
  unfold Plane.cutPt
  ext <;> simp <;> field_simp <;> ring

lemma InPlane.cutPt {n A a b : V3 K} {p : Plane K} (ha : InPlane n A a) (hb : InPlane n A b) (h : p.dist a ≠ p.dist b) :
    InPlane n A (p.cutPt a b) := by
  rw [cutPt_param h]
  generalize p.dist a / (p.dist a - p.dist b) = t
  simp only [InPlane, V3.dot, V3.sub_x, V3.sub_y, V3.sub_z, V3.add_x, V3.add_y, V3.add_z, V3.smul_x, V3.smul_y,
    V3.smul_z] at *
  linear_combination (1 - t) * ha + t * hb

section tri
variable {p : Plane K} {J Φ : V3 K → V3 K → V3 K → K} (hJ : CutsOff p J Φ) (hΦ : PlaneAdditive Φ)
  {n A o : V3 K} (hn : n ≠ 0) (ho : InPlane n A o)
  (hcol : ∀ X Y, InPlane n A X → InPlane n A Y → p.dist X = 0 → p.dist Y = 0 → areaVec o X Y = 0)
include hJ hΦ hn ho hcol

omit hΦ hn ho hcol in
lemma CutsOff.split' {a b c : V3 K} (h : p.dist a < 0 ∧ 0 < p.dist c ∨ 0 < p.dist a ∧ p.dist c < 0) :
    J a b c = J a b (p.cutPt a c) + J (p.cutPt a c) b c := by
  have hne : p.dist a ≠ p.dist c := by rcases h with h | h <;> linarith [h.1, h.2]
  rw [cutPt_param hne]
  refine hJ.split a b c _ ?_ ?_
  · rcases h with h | h
    · exact div_nonneg_of_nonpos h.1.le (by linarith [h.1, h.2])
    · exact div_nonneg h.1.le (by linarith [h.1, h.2])
  · rcases h with h | h
    · rw [div_le_one_of_neg (by linarith [h.1, h.2])]; linarith [h.2]
    · rw [div_le_one (by linarith [h.1, h.2])]; linarith [h.2]

lemma tri_one_below {a b c : V3 K} (ha : InPlane n A a) (hb : InPlane n A b) (hc : InPlane n A c) (da : 0 < p.dist a)
    (db : 0 < p.dist b) (dc : p.dist c < 0) :
    J a b c = belowEdge p (Φ o) a b + belowEdge p (Φ o) b c + belowEdge p (Φ o) c a := by
  have ac : p.dist a ≠ p.dist c := by linarith
  have cb : p.dist c ≠ p.dist b := by linarith
  have y0 := cutPt_dist ac
  have x0 := cutPt_dist cb
  have yP := ha.cutPt hc ac
  have xP := hc.cutPt hb cb
  have b1 : belowEdge p (Φ o) a b = 0 := by simp [belowEdge, da.not_gt, db.not_gt]
  have b2 : belowEdge p (Φ o) b c = Φ o (p.cutPt c b) c := by simp [belowEdge, db.not_gt, dc, cutPt_symm p b c]
  have b3 : belowEdge p (Φ o) c a = Φ o c (p.cutPt a c) := by simp [belowEdge, da.not_gt, dc, cutPt_symm p c a]
  rw [b1, b2, b3, hJ.split' (Or.inr ⟨da, dc⟩), hJ.above _ _ _ da.le db.le y0.ge, zero_add, hJ.cycle, hJ.cycle,
    hJ.split' (Or.inl ⟨dc, db⟩), hJ.above _ _ _ x0.ge y0.ge db.le, add_zero,
    hJ.below _ _ _ dc.le y0.le x0.le (Or.inl dc),
    hΦ.fan o _ _ _ (coplanar_det hn ho hc yP xP), hΦ.degenerate _ _ _ (hcol _ _ yP xP y0 x0)]
  ring

lemma tri_one_above {a b c : V3 K} (ha : InPlane n A a) (hb : InPlane n A b) (hc : InPlane n A c) (da : p.dist a < 0)
    (db : p.dist b < 0) (dc : 0 < p.dist c) :
    J a b c = belowEdge p (Φ o) a b + belowEdge p (Φ o) b c + belowEdge p (Φ o) c a := by
  have ac : p.dist a ≠ p.dist c := by linarith
  have cb : p.dist c ≠ p.dist b := by linarith
  have y0 := cutPt_dist ac
  have x0 := cutPt_dist cb
  have yP := ha.cutPt hc ac
  have xP := hc.cutPt hb cb
  have b1 : belowEdge p (Φ o) a b = Φ o a b := by simp [belowEdge, da, db]
  have b2 : belowEdge p (Φ o) b c = Φ o b (p.cutPt c b) := by simp [belowEdge, db, dc.not_gt, cutPt_symm p b c]
  have b3 : belowEdge p (Φ o) c a = Φ o (p.cutPt a c) a := by simp [belowEdge, da, dc.not_gt, cutPt_symm p c a]
  rw [b1, b2, b3, hJ.split' (Or.inl ⟨da, dc⟩), hJ.below _ _ _ da.le db.le y0.le (Or.inl da), hJ.cycle (p.cutPt a c),
    hJ.cycle, hJ.split' (Or.inr ⟨dc, db⟩), hJ.above _ _ _ dc.le y0.ge x0.ge, zero_add,
    hJ.below _ _ _ x0.le y0.le db.le (Or.inr db),
    hΦ.fan o _ _ _ (coplanar_det hn ho ha hb yP), hΦ.fan o _ _ _ (coplanar_det hn ho xP yP hb),
    hΦ.degenerate _ _ _ (hcol _ _ xP yP x0 y0), hΦ.anti o b (p.cutPt a c)]
  ring

omit hJ hΦ hn ho hcol in
lemma cutPt_left {a b : V3 K} (ha : p.dist a = 0) (hb : p.dist b ≠ 0) : p.cutPt a b = a := by
  rw [cutPt_param (by rw [ha]; exact hb.symm), ha, zero_div, zero_smul, add_zero]

omit hJ hn ho in
lemma belowEdge_nonpos {a b : V3 K} (ha : InPlane n A a) (hb : InPlane n A b) (da : p.dist a ≤ 0) (db : p.dist b ≤ 0) :
    belowEdge p (Φ o) a b = Φ o a b := by
  unfold belowEdge
  rcases da.lt_or_eq with da | da <;> rcases db.lt_or_eq with db | db
  · simp [da, db]
  · rw [if_pos da, if_neg (by linarith), cutPt_symm, cutPt_left db da.ne]
  · rw [if_neg (by linarith), if_pos db, cutPt_left da db.ne]
  · rw [if_neg (by linarith), if_neg (by linarith), hΦ.degenerate _ _ _ (hcol _ _ ha hb da db)]

omit hJ hΦ hn ho hcol in
lemma belowEdge_nonneg (φ : V3 K → V3 K → K) {a b : V3 K} (da : 0 ≤ p.dist a) (db : 0 ≤ p.dist b) : belowEdge p φ a b = 0 := by
  simp [belowEdge, da.not_gt, db.not_gt]

lemma tri_nonpos {a b c : V3 K} (ha : InPlane n A a) (hb : InPlane n A b) (hc : InPlane n A c) (da : p.dist a ≤ 0)
    (db : p.dist b ≤ 0) (dc : p.dist c ≤ 0) :
    J a b c = belowEdge p (Φ o) a b + belowEdge p (Φ o) b c + belowEdge p (Φ o) c a := by
  by_cases h : p.dist a < 0 ∨ p.dist c < 0
  · rw [hJ.below _ _ _ da db dc h, hΦ.fan o _ _ _ (coplanar_det hn ho ha hb hc), belowEdge_nonpos hΦ hcol ha hb da db,
      belowEdge_nonpos hΦ hcol hb hc db dc, belowEdge_nonpos hΦ hcol hc ha dc da]
  · push Not at h
    by_cases h' : p.dist b < 0
    · rw [hJ.cycle, hJ.below _ _ _ db dc da (.inl h'), hΦ.fan o _ _ _ (coplanar_det hn ho hb hc ha),
        belowEdge_nonpos hΦ hcol ha hb da db, belowEdge_nonpos hΦ hcol hb hc db dc, belowEdge_nonpos hΦ hcol hc ha dc da]
      ring
    · rw [hJ.above _ _ _ h.1 (not_lt.1 h') h.2, belowEdge_nonneg _ h.1 (not_lt.1 h'), belowEdge_nonneg _ (not_lt.1 h') h.2,
        belowEdge_nonneg _ h.2 h.1]
      ring

lemma tri_nonneg {a b c : V3 K} (ha : InPlane n A a) (hb : InPlane n A b) (hc : InPlane n A c) (da : 0 ≤ p.dist a)
    (db : 0 ≤ p.dist b) (dc : 0 ≤ p.dist c) :
    J a b c = belowEdge p (Φ o) a b + belowEdge p (Φ o) b c + belowEdge p (Φ o) c a := by
  rw [hJ.above _ _ _ da db dc, belowEdge_nonneg _ da db, belowEdge_nonneg _ db dc, belowEdge_nonneg _ dc da]
  ring

/-- A corner on the plane and one on each side. -/
lemma tri_on {a b c : V3 K} (ha : InPlane n A a) (hb : InPlane n A b) (hc : InPlane n A c) (db : p.dist b = 0)
    (h : p.dist a < 0 ∧ 0 < p.dist c ∨ 0 < p.dist a ∧ p.dist c < 0) :
    J a b c = belowEdge p (Φ o) a b + belowEdge p (Φ o) b c + belowEdge p (Φ o) c a := by
  have ac : p.dist a ≠ p.dist c := by rcases h with h | h <;> linarith [h.1, h.2]
  have y0 := cutPt_dist ac
  have yP := ha.cutPt hc ac
  rw [hJ.split' h]
  rcases h with ⟨da, dc⟩ | ⟨da, dc⟩
  · rw [hJ.above _ _ _ y0.ge db.ge dc.le, add_zero, hJ.below _ _ _ da.le db.le y0.le (.inl da),
      hΦ.fan o _ _ _ (coplanar_det hn ho ha hb yP), belowEdge_nonneg _ db.ge dc.le, belowEdge_nonpos hΦ hcol ha hb da.le db.le,
      hΦ.degenerate _ _ _ (hcol _ _ hb yP db y0)]
    simp [belowEdge, dc.not_gt, da, cutPt_symm p c a]
  · rw [hJ.above _ _ _ da.le db.ge y0.ge, zero_add, hJ.below _ _ _ y0.le db.le dc.le (.inr dc),
      hΦ.fan o _ _ _ (coplanar_det hn ho yP hb hc), belowEdge_nonneg _ da.le db.ge, belowEdge_nonpos hΦ hcol hb hc db.le dc.le,
      hΦ.degenerate _ _ _ (hcol _ _ yP hb y0 db)]
    simp [belowEdge, da.not_gt, dc, cutPt_symm p c a]

/-- The quantity of a triangle, as a sum over the parts of its sides below the plane. -/
lemma tri_below {a b c : V3 K} (ha : InPlane n A a) (hb : InPlane n A b) (hc : InPlane n A c) :
    J a b c = belowEdge p (Φ o) a b + belowEdge p (Φ o) b c + belowEdge p (Φ o) c a := by
  rcases lt_trichotomy (p.dist a) 0 with da | da | da <;> rcases lt_trichotomy (p.dist b) 0 with db | db | db <;>
    rcases lt_trichotomy (p.dist c) 0 with dc | dc | dc <;>
    first
    | exact tri_nonpos hJ hΦ hn ho hcol ha hb hc (by linarith) (by linarith) (by linarith)
    | exact tri_nonneg hJ hΦ hn ho hcol ha hb hc (by linarith) (by linarith) (by linarith)
    | exact tri_one_above hJ hΦ hn ho hcol ha hb hc da db dc
    | exact tri_one_below hJ hΦ hn ho hcol ha hb hc da db dc
    | exact tri_on hJ hΦ hn ho hcol ha hb hc db (.inl ⟨da, dc⟩)
    | exact tri_on hJ hΦ hn ho hcol ha hb hc db (.inr ⟨da, dc⟩)
    | (rw [hJ.cycle]
       first
       | rw [tri_one_above hJ hΦ hn ho hcol hb hc ha db dc da]
       | rw [tri_one_below hJ hΦ hn ho hcol hb hc ha db dc da]
       | rw [tri_on hJ hΦ hn ho hcol hb hc ha dc (.inl ⟨db, da⟩)]
       | rw [tri_on hJ hΦ hn ho hcol hb hc ha dc (.inr ⟨db, da⟩)]
       ring)
    | (rw [hJ.cycle, hJ.cycle]
       first
       | rw [tri_one_above hJ hΦ hn ho hcol hc ha hb dc da db]
       | rw [tri_one_below hJ hΦ hn ho hcol hc ha hb dc da db]
       | rw [tri_on hJ hΦ hn ho hcol hc ha hb da (.inl ⟨dc, db⟩)]
       | rw [tri_on hJ hΦ hn ho hcol hc ha hb da (.inr ⟨dc, db⟩)]
       ring)

/-- The same for a face. -/
lemma face_below {V : ℕ → V3 K} {f : Face} (hP : ∀ i ∈ f.toList, InPlane n A (V i)) :
    (if f.a = f.d then J (V f.a) (V f.b) (V f.c) else J (V f.a) (V f.b) (V f.c) + J (V f.a) (V f.c) (V f.d)) =
      (f.directedEdges.map (fun e => belowEdge p (Φ o) (V e.1) (V e.2))).sum := by
  have ma : f.a ∈ f.toList := by simp [Face.toList]
  have mb : f.b ∈ f.toList := by simp [Face.toList]
  have mc : f.c ∈ f.toList := by simp [Face.toList]
  have md : f.d ∈ f.toList := by simp [Face.toList]
  have t1 := tri_below hJ hΦ hn ho hcol (hP _ ma) (hP _ mb) (hP _ mc)
  have t2 := tri_below hJ hΦ hn ho hcol (hP _ ma) (hP _ mc) (hP _ md)
  have t3 := belowEdge_anti (p := p) (hΦ.anti o) (V f.c) (V f.a)
  unfold Face.directedEdges
  split_ifs with h
  · simp [t1]; ring
  · simp only [t1, t2, t3, List.map_cons, List.map_nil, List.sum_cons, List.sum_nil]; ring

omit hJ hcol in
/-- The sum over the sides of a face in the plane. -/
lemma edgeSum_fan {W : ℕ → V3 K} {g : Face} (hP : ∀ i ∈ g.toList, InPlane n A (W i)) :
    edgeSum (Φ o) W g = Φ (W g.a) (W g.b) (W g.c) + Φ (W g.a) (W g.c) (W g.d) := by
  have ma := hP g.a (by simp [Face.toList])
  have mb := hP g.b (by simp [Face.toList])
  have mc := hP g.c (by simp [Face.toList])
  have md := hP g.d (by simp [Face.toList])
  rw [hΦ.fan o _ _ _ (coplanar_det hn ho ma mb mc), hΦ.fan o _ _ _ (coplanar_det hn ho ma mc md), edgeSum,
    hΦ.anti o (W g.c) (W g.a)]
  ring

end tri

/-- The points of the table are in the plane of the face. -/
lemma pt_inPlane {p : Plane K} {tol : K} {V : ℕ → V3 K} {f : Face} {n A : V3 K} {q : Plan} {N : ℕ → V3 K}
    (hP : ∀ i ∈ f.toList, InPlane n A (V i)) (h1 : plan (cornerCls p tol V f) = .ok q) (h2 : CutsOk p (cornerPt V f) N q) :
    ∀ r, Ref.inRange f.corners.length q.cuts.length r = true → InPlane n A (pt (cornerPt V f) N r) := by
  have hrange := PlanRes.check_ok (table_range _ (cornerCls_mem p tol V f)) h1
  simp only [Plan.inRange, Bool.and_eq_true, List.all_eq_true, cornerCls_length] at hrange
  have hc : ∀ k, k < f.corners.length → InPlane n A (cornerPt V f k) := fun k hk =>
    hP _ (Face.corners_sub f _ (corners_getD_mem hk))
  intro r hr
  cases r with
  | old k =>
    simp only [Ref.inRange, decide_eq_true_eq] at hr
    exact hc k hr
  | new j =>
    simp only [Ref.inRange, decide_eq_true_eq] at hr
    have hget : q.cuts[j]? = some (q.cuts[j]) := List.getElem?_eq_getElem hr
    have hr' := hrange.1.2 _ (List.getElem_mem hr)
    simp only [Bool.and_eq_true, decide_eq_true_eq] at hr'
    have hcut : IsCut p _ _ _ := h2 j _ hget
    obtain ⟨t, t0, t1, e⟩ := hcut.coef'
    have i1 := hc _ hr'.1
    have i2 := hc _ hr'.2
    show InPlane n A (N j)
    rw [e]
    simp only [InPlane, V3.dot, V3.sub_x, V3.sub_y, V3.sub_z, V3.add_x, V3.add_y, V3.add_z, V3.smul_x, V3.smul_y,
      V3.smul_z] at *
    linear_combination (1 - t) * i1 + t * i2

/-- The corners of the polygons of the table are in the plane of the face. -/
lemma planned_inPlane {p : Plane K} {tol : K} {V W : ℕ → V3 K} {f : Face} {gs : List Face} {n A : V3 K}
    (hP : ∀ i ∈ f.toList, InPlane n A (V i)) (h : Planned p tol V W f gs) : ∀ g ∈ gs, ∀ i ∈ g.toList, InPlane n A (W i) := by
  obtain ⟨q, N, h1, h2, h3⟩ := h
  have hrange := PlanRes.check_ok (table_range _ (cornerCls_mem p tol V f)) h1
  simp only [Plan.inRange, Bool.and_eq_true, List.all_eq_true, cornerCls_length] at hrange
  have hpt := pt_inPlane hP h1 h2
  intro g hg i hi
  obtain ⟨j, hj, rfl⟩ := List.mem_iff_getElem.1 hg
  rw [List.forall₂_iff_get] at h3
  have hj' : j < q.faces.length := by rw [h3.1]; exact hj
  obtain ⟨a, b, c, d, hl, wa, wb, wc, wd, had⟩ := h3.2 j hj' hj
  simp only [List.get_eq_getElem] at hl wa wb wc wd
  have hmem : [a, b, c, d] ∈ q.faces := by rw [← hl]; exact List.getElem_mem _
  have hin := hrange.1.1 _ hmem
  simp only [Face.toList, List.mem_cons, List.not_mem_nil, or_false] at hi
  rcases hi with rfl | rfl | rfl | rfl
  · rw [wa]; exact hpt a (hin a (by simp))
  · rw [wb]; exact hpt b (hin b (by simp))
  · rw [wc]; exact hpt c (hin c (by simp))
  · rw [wd]; exact hpt d (hin d (by simp))

/-- The plane of a face. -/
lemma face_plane {V : ℕ → V3 K} {f : Face} (h : if f.a = f.d then areaVec (V f.a) (V f.b) (V f.c) ≠ 0
    else StrictlyConvexQuad (V f.a) (V f.b) (V f.c) (V f.d)) : ∃ n, n ≠ 0 ∧ ∀ i ∈ f.toList, InPlane n (V f.a) (V i) := by
  by_cases ht : f.a = f.d
  · rw [if_pos ht] at h
    refine ⟨_, h, ?_⟩
    intro i hi
    simp only [Face.toList, List.mem_cons, List.not_mem_nil, or_false] at hi
    rcases hi with rfl | rfl | rfl | rfl
    · simp [InPlane, V3.dot]
    · simp only [InPlane, areaVec, V3.dot, V3.cross]; ring
    · simp only [InPlane, areaVec, V3.dot, V3.cross]; ring
    · rw [ht]; simp [InPlane, V3.dot]
  · rw [if_neg ht] at h
    obtain ⟨n, α, β, γ, δ, h1, h2, h3, h4, hn, e1, e2, e3, e4⟩ := h
    refine ⟨n, hn, ?_⟩
    intro i hi
    simp only [Face.toList, List.mem_cons, List.not_mem_nil, or_false] at hi
    rcases hi with rfl | rfl | rfl | rfl
    · simp [InPlane, V3.dot]
    · have : α * n.dot (V f.b - V f.a) = 0 := by
        have : (α • n).dot (V f.b - V f.a) = 0 := by rw [← e1]; simp only [areaVec, V3.dot, V3.cross]; ring
        simp only [V3.dot, V3.smul_x, V3.smul_y, V3.smul_z] at this ⊢; linear_combination this
      exact (mul_eq_zero.1 this).resolve_left h1.ne'
    · have : α * n.dot (V f.c - V f.a) = 0 := by
        have : (α • n).dot (V f.c - V f.a) = 0 := by rw [← e1]; simp only [areaVec, V3.dot, V3.cross]; ring
        simp only [V3.dot, V3.smul_x, V3.smul_y, V3.smul_z] at this ⊢; linear_combination this
      exact (mul_eq_zero.1 this).resolve_left h1.ne'
    · have : β * n.dot (V f.d - V f.a) = 0 := by
        have : (β • n).dot (V f.d - V f.a) = 0 := by rw [← e2]; simp only [areaVec, V3.dot, V3.cross]; ring
        simp only [V3.dot, V3.smul_x, V3.smul_y, V3.smul_z] at this ⊢; linear_combination this
      exact (mul_eq_zero.1 this).resolve_left h2.ne'

lemma directedEdges_sub (f : Face) : ∀ e ∈ f.directedEdges, e.1 ∈ f.toList ∧ e.2 ∈ f.toList := by
  unfold Face.directedEdges Face.toList
  split_ifs with h <;> simp

/-! ## Vertices on the plane -/

lemma clear_notAt {p : Plane K} {tol : K} {v : V3 K} (h : p.Clear tol v) : |p.dist v| ≠ tol := by
  rcases h with h | ⟨h, h0⟩
  · exact h.ne'
  · rw [h, abs_zero]; exact h0.ne

lemma clear_cls {p : Plane K} {tol : K} (htol : 0 ≤ tol) {v : V3 K} (h : p.Clear tol v) :
    ((classOf tol (p.dist v)).isA = true ↔ 0 < p.dist v) ∧ ((classOf tol (p.dist v)).isB = true ↔ p.dist v < 0) ∧
    ((classOf tol (p.dist v)).isO = true ↔ p.dist v = 0) := by
  unfold classOf
  rcases h with h | ⟨h, h0⟩
  · rcases lt_abs.1 h with h' | h'
    · rw [if_pos h']
      have h1 : 0 < p.dist v := by linarith
      simp [Cls.isA, Cls.isB, Cls.isO, h1, h1.le, h1.ne']
    · rw [if_neg (by linarith), if_neg (by linarith), if_pos (by linarith)]
      have h1 : p.dist v < 0 := by linarith
      simp [Cls.isA, Cls.isB, Cls.isO, h1, h1.le, h1.ne]
  · rw [h, if_neg (by linarith), if_pos (by simpa using h0), if_neg (by linarith)]
    simp [Cls.isA, Cls.isB, Cls.isO]

/-- A side on the plane, one of the other corners above and the last one below. -/
def flatOn : List Cls → Bool
  | [a, b, c, d] => crossing [a, b, c, d] && ((a.isO && b.isO) || (b.isO && c.isO) || (c.isO && d.isO) || (d.isO && a.isO))
  | _ => false

/-- The point cut on the edge between two corners. -/
def newOf (q : Plan) (k j : ℕ) : Ref := .new (q.cuts.findIdx (fun e => e == (k, j) || e == (j, k)))

def onRef (c : List Cls) : Ref → Bool
  | .old k => (c.getD k .P).isO
  | .new _ => true

/-- The part below of the edge from corner `k` to the next one. -/
def stepRef' (c : List Cls) (q : Plan) (k : ℕ) : List (Ref × Ref) :=
  let j := (k + 1) % c.length
  if (c.getD k .P).isB then if (c.getD j .P).isA then [(.old k, newOf q k j)] else [(.old k, .old j)]
  else if (c.getD j .P).isB then if (c.getD k .P).isA then [(newOf q k j, .old j)] else [(.old k, .old j)] else []

def touchCheck (c : List Cls) (q : Plan) : Bool :=
  let E := (q.faces.flatMap refEdges).filter (fun e => !(onRef c e.1 && onRef c e.2))
  let E' := (List.range c.length).flatMap (stepRef' c q)
  (E ++ E'.map Prod.swap).isPerm (E' ++ E.map Prod.swap) && q.faces.all (fun l => l.length == 4) &&
  (List.range c.length).all (fun k =>
    let j := (k + 1) % c.length
    !(((c.getD k .P).isA && (c.getD j .P).isB) || ((c.getD k .P).isB && (c.getD j .P).isA)) ||
      q.cuts.any (fun e => e == (k, j) || e == (j, k)))

theorem table_touch : ∀ c ∈ lists3 ++ lists4, c.any Cls.isBad = false → altern c = false → flatOn c = false →
    (plan c).check (touchCheck c) = true := by decide +kernel

/-- When each vertex is on the plane or away from it, an antisymmetric quantity summed over the sides of the pieces of a face
is the sum over the parts below the plane of the sides of the face, and over segments of the plane. -/
lemma planned_chain_clear {p : Plane K} {tol : K} (htol : 0 ≤ tol) {V W : ℕ → V3 K} {f : Face} {gs : List Face}
    (hpos : ∀ i ∈ f.toList, p.Clear tol (V i)) (halt : altern (cornerCls p tol V f) = false)
    (hflat : flatOn (cornerCls p tol V f) = false)
    (h : Planned p tol V W f gs) :
    ∃ S : List (V3 K × V3 K), (∀ e ∈ S, p.dist e.1 = 0 ∧ p.dist e.2 = 0 ∧
      ∀ n A, (∀ i ∈ f.toList, InPlane n A (V i)) → InPlane n A e.1 ∧ InPlane n A e.2) ∧
      ∀ φ : V3 K → V3 K → K, (∀ x y, φ x y = -φ y x) → (gs.map (edgeSum φ W)).sum =
        (f.directedEdges.map (fun e => belowEdge p φ (V e.1) (V e.2))).sum + (S.map (fun e => φ e.1 e.2)).sum := by
  obtain ⟨q, N, h1, h2, h3⟩ := h
  have hin := fun n A hP => pt_inPlane (n := n) (A := A) hP h1 h2
  set c := cornerCls p tol V f with hc
  set n := f.corners.length with hn
  have hlen : c.length = n := cornerCls_length p tol V f
  set P := cornerPt V f with hP
  have hbad : c.any Cls.isBad = false := by
    rw [hc, cornerCls, List.any_map, List.any_eq_false]
    intro i hi
    simp [(notAt_cls htol (clear_notAt (hpos i (Face.corners_sub f i hi)))).1]
  have hchk := PlanRes.check_ok (table_touch c (cornerCls_mem p tol V f) hbad halt hflat) h1
  have hrange := PlanRes.check_ok (table_range c (cornerCls_mem p tol V f)) h1
  simp only [touchCheck, Plan.inRange, Bool.and_eq_true, List.all_eq_true, List.mem_range, hlen] at hchk hrange
  obtain ⟨⟨hperm, hfour⟩, hcut⟩ := hchk
  have hcls : ∀ k, k < n → c.getD k .P = classOf tol (p.dist (P k)) := by
    intro k hk
    rw [hc, cornerCls, getD_map _ f.corners k 0 hk]; rfl
  have hclr : ∀ k, k < n → p.Clear tol (P k) := fun k hk => hpos _ (Face.corners_sub f _ (corners_getD_mem hk))
  have hA : ∀ k, k < n → ((c.getD k .P).isA = true ↔ 0 < p.dist (P k)) := fun k hk => by
    rw [hcls k hk]; exact (clear_cls htol (hclr k hk)).1
  have hB : ∀ k, k < n → ((c.getD k .P).isB = true ↔ p.dist (P k) < 0) := fun k hk => by
    rw [hcls k hk]; exact (clear_cls htol (hclr k hk)).2.1
  have hO : ∀ k, k < n → ((c.getD k .P).isO = true ↔ p.dist (P k) = 0) := fun k hk => by
    rw [hcls k hk]; exact (clear_cls htol (hclr k hk)).2.2
  have hn3 : 0 < n := by have := corners_length f; omega
  have hnext : ∀ k, (k + 1) % n < n := fun k => Nat.mod_lt _ hn3
  have hnew : ∀ k, k < n → (0 < p.dist (P k) ∧ p.dist (P ((k + 1) % n)) < 0) ∨
      (p.dist (P k) < 0 ∧ 0 < p.dist (P ((k + 1) % n))) →
      pt P N (newOf q k ((k + 1) % n)) = p.cutPt (P k) (P ((k + 1) % n)) := by
    intro k hk hs
    have hh := hcut k hk
    have hs' : (((c.getD k .P).isA && (c.getD ((k + 1) % n) .P).isB) ||
        ((c.getD k .P).isB && (c.getD ((k + 1) % n) .P).isA)) = true := by
      rw [Bool.or_eq_true, Bool.and_eq_true, Bool.and_eq_true, hA k hk, hB k hk, hA _ (hnext k), hB _ (hnext k)]
      exact hs
    rw [hs', Bool.not_true, Bool.false_or] at hh
    have hlt : q.cuts.findIdx (fun e => e == (k, (k + 1) % n) || e == ((k + 1) % n, k)) < q.cuts.length := by
      rw [List.findIdx_lt_length]
      exact List.any_eq_true.1 hh
    have hg := List.findIdx_getElem (w := hlt)
    simp only [Bool.or_eq_true, beq_iff_eq] at hg
    simp only [newOf, pt]
    have hget := List.getElem?_eq_getElem hlt
    rcases hg with hg | hg
    · rw [hg] at hget
      have h5 : IsCut p (P k) (P ((k + 1) % n)) (N _) := h2 _ (k, (k + 1) % n) hget
      exact IsCut.eq_cutPt h5
    · rw [hg] at hget
      rw [cutPt_symm]
      have h5 : IsCut p (P ((k + 1) % n)) (P k) (N _) := h2 _ ((k + 1) % n, k) hget
      exact IsCut.eq_cutPt h5
  set E := q.faces.flatMap refEdges with hE
  have hEr : ∀ e ∈ E, Ref.inRange n q.cuts.length e.1 = true ∧ Ref.inRange n q.cuts.length e.2 = true := by
    intro e he
    obtain ⟨l, hl, hel⟩ := List.mem_flatMap.1 he
    have hr := hrange.1.1 l hl
    have h4 := hfour l hl
    match l, hr, h4, hel with
    | [a, b, c, d], hr, _, hel =>
      simp only [refEdges, List.mem_cons, List.not_mem_nil, or_false] at hel
      rcases hel with rfl | rfl | rfl | rfl <;> exact ⟨hr _ (by simp), hr _ (by simp)⟩
  have hon : ∀ r, Ref.inRange n q.cuts.length r = true → onRef c r = true → p.dist (pt P N r) = 0 := by
    intro r hr ho
    cases r with
    | old k =>
      simp only [Ref.inRange, decide_eq_true_eq] at hr
      exact (hO k hr).1 ho
    | new j =>
      simp only [Ref.inRange, decide_eq_true_eq] at hr
      have hget : q.cuts[j]? = some (q.cuts[j]) := List.getElem?_eq_getElem hr
      have hcj : IsCut p _ _ _ := h2 j _ hget
      have hcj' := hcj.1
      show p.dist (N j) = 0
      rw [IsCut.eq_cutPt hcj]
      apply cutPt_dist
      intro h0
      rw [h0] at hcj'
      nlinarith [mul_self_nonneg (p.dist (cornerPt V f q.cuts[j].2))]
  refine ⟨(E.filter (fun e => onRef c e.1 && onRef c e.2)).map (fun e => (pt P N e.1, pt P N e.2)), ?_, ?_⟩
  · intro e he
    obtain ⟨r, hr, rfl⟩ := List.mem_map.1 he
    obtain ⟨hr, ho⟩ := List.mem_filter.1 hr
    rw [Bool.and_eq_true] at ho
    exact ⟨hon _ (hEr r hr).1 ho.1, hon _ (hEr r hr).2 ho.2, fun n A hP =>
      ⟨hin n A hP _ (hEr r hr).1, hin n A hP _ (hEr r hr).2⟩⟩
  intro φ hφ
  set ψ : Ref × Ref → K := fun e => φ (pt P N e.1) (pt P N e.2) with hψ
  have hψs : ∀ e, ψ e.swap = -ψ e := fun e => hφ _ _
  have s1 : (gs.map (edgeSum φ W)).sum = (E.map ψ).sum := by
    rw [hE]
    clear hperm hfour hEr
    clear_value E
    clear hE hrange
    generalize q.faces = L at h3
    induction h3 with
    | nil => rfl
    | @cons l g L G h4 _ ih =>
      obtain ⟨x, y, z, w, rfl, e1, e2, e3, e4, _⟩ := h4
      simp only [List.map_cons, List.sum_cons, List.flatMap_cons, List.map_append, List.sum_append, ih, refEdges, edgeSum,
        List.map_nil, List.sum_nil, hψ, e1, e2, e3, e4]
      ring
  have s2 : (E.map ψ).sum = ((E.filter (fun e => !(onRef c e.1 && onRef c e.2))).map ψ).sum +
      ((E.filter (fun e => onRef c e.1 && onRef c e.2)).map ψ).sum := by
    clear hperm s1 hEr
    clear_value E
    clear hE
    induction E with
    | nil => simp
    | cons e E ih =>
      rw [List.map_cons, List.sum_cons, ih, List.filter_cons, List.filter_cons]
      by_cases hb : (onRef c e.1 && onRef c e.2) = true
      · simp [hb]; ring
      · rw [Bool.not_eq_true] at hb
        simp only [hb, Bool.not_false, if_true, Bool.false_eq_true, if_false, List.map_cons, List.sum_cons]; ring
  have s3 : ((E.filter (fun e => !(onRef c e.1 && onRef c e.2))).map ψ).sum =
      (((List.range n).flatMap (stepRef' c q)).map ψ).sum := by
    have hp := ((List.isPerm_iff.1 hperm).map ψ).sum_eq
    simp only [List.map_append, List.sum_append, sum_swap hψs] at hp
    linarith
  rw [s1, s2, s3]
  congr 1
  · rw [directed_range, List.map_map, List.map_flatMap, sum_flatMap']
    congr 1
    apply List.map_congr_left
    intro k hk
    rw [List.mem_range] at hk
    have e1 : V (f.corners.getD k 0) = P k := rfl
    have e2 : V (f.corners.getD ((k + 1) % n) 0) = P ((k + 1) % n) := rfl
    simp only [Function.comp, belowEdge]
    rw [← hn, e1, e2]
    unfold stepRef'
    simp only [hlen]
    by_cases b1 : p.dist (P k) < 0
    · rw [if_pos ((hB k hk).2 b1), if_pos b1]
      by_cases b2 : 0 < p.dist (P ((k + 1) % n))
      · rw [if_pos ((hA _ (hnext k)).2 b2), if_neg b2.not_gt]
        simp [hψ, hnew k hk (.inr ⟨b1, b2⟩)]
        rfl
      · rw [if_neg (fun h => b2 ((hA _ (hnext k)).1 h))]
        by_cases b3 : p.dist (P ((k + 1) % n)) < 0
        · rw [if_pos b3]; simp [hψ, pt]
        · rw [if_neg b3, cutPt_symm, cutPt_left (le_antisymm (not_lt.1 b2) (not_lt.1 b3)) b1.ne]; simp [hψ, pt]
    · rw [if_neg (fun h => b1 ((hB _ hk).1 h)), if_neg b1]
      by_cases b2 : p.dist (P ((k + 1) % n)) < 0
      · rw [if_pos ((hB _ (hnext k)).2 b2), if_pos b2]
        by_cases b3 : 0 < p.dist (P k)
        · rw [if_pos ((hA k hk).2 b3)]
          simp [hψ, hnew k hk (.inl ⟨b3, b2⟩)]
          rfl
        · rw [if_neg (fun h => b3 ((hA k hk).1 h)), cutPt_left (le_antisymm (not_lt.1 b3) (not_lt.1 b1)) b2.ne]
          simp [hψ, pt]
      · rw [if_neg (fun h => b2 ((hB _ (hnext k)).1 h)), if_neg b2]; rfl
  · rw [List.map_map]; rfl

lemma flat_quad {p : Plane K} {a b c d : V3 K} (h : DiagonalsCross a b c d) (hab : a ≠ b)
    (ha : p.dist a = 0) (hb : p.dist b = 0) : ¬ (p.dist c * p.dist d < 0) := by
  obtain ⟨s, t, s0, s1, t0, t1, e⟩ := h
  intro hcd
  have e' : s * p.dist c = t * p.dist d := by
    have h1 : p.dist ((1 - s) • a + s • c) = (1 - s) * p.dist a + s * p.dist c := by
      simp only [Plane.dist, V3.dot, V3.add_x, V3.add_y, V3.add_z, V3.smul_x, V3.smul_y, V3.smul_z]; ring
    have h2 : p.dist ((1 - t) • b + t • d) = (1 - t) * p.dist b + t * p.dist d := by
      simp only [Plane.dist, V3.dot, V3.add_x, V3.add_y, V3.add_z, V3.smul_x, V3.smul_y, V3.smul_z]; ring
    rw [e, h2, ha, hb] at h1
    linarith
  have hs : s = 0 ∧ t = 0 := by
    rcases mul_neg_iff.1 hcd with ⟨hc, hd⟩ | ⟨hc, hd⟩
    · constructor
      · by_contra h0
        have : 0 < s := lt_of_le_of_ne s0 (Ne.symm h0)
        nlinarith [mul_pos this hc, mul_nonneg t0 (neg_nonneg.2 hd.le)]
      · by_contra h0
        have : 0 < t := lt_of_le_of_ne t0 (Ne.symm h0)
        nlinarith [mul_pos this (neg_pos.2 hd), mul_nonneg s0 hc.le]
    · constructor
      · by_contra h0
        have : 0 < s := lt_of_le_of_ne s0 (Ne.symm h0)
        nlinarith [mul_pos this (neg_pos.2 hc), mul_nonneg t0 hd.le]
      · by_contra h0
        have : 0 < t := lt_of_le_of_ne t0 (Ne.symm h0)
        nlinarith [mul_pos this hd, mul_nonneg s0 (neg_nonneg.2 hc.le)]
  rw [hs.1, hs.2] at e
  simp only [sub_zero, one_smul, zero_smul, add_zero] at e
  exact hab e

/-- A convex face has no side on the plane with corners on both sides. -/
lemma not_flatOn {p : Plane K} {tol : K} (htol : 0 ≤ tol) {V : ℕ → V3 K} {f : Face}
    (hpos : ∀ i ∈ f.toList, p.Clear tol (V i))
    (hq : f.a ≠ f.d → DiagonalsCross (V f.a) (V f.b) (V f.c) (V f.d))
    (hf : if f.a = f.d then areaVec (V f.a) (V f.b) (V f.c) ≠ 0
      else StrictlyConvexQuad (V f.a) (V f.b) (V f.c) (V f.d)) : flatOn (cornerCls p tol V f) = false := by
  unfold cornerCls
  by_cases ht : f.a = f.d
  · have hc : f.corners = [f.a, f.b, f.c] := by unfold Face.corners Face.isTri; simp [ht, Face.toList]
    rw [hc]; rfl
  · have hc : f.corners = [f.a, f.b, f.c, f.d] := by unfold Face.corners Face.isTri; simp [ht, Face.toList]
    have ka := clear_cls htol (hpos f.a (by simp [Face.toList]))
    have kb := clear_cls htol (hpos f.b (by simp [Face.toList]))
    have kc := clear_cls htol (hpos f.c (by simp [Face.toList]))
    have kd := clear_cls htol (hpos f.d (by simp [Face.toList]))
    have hx := hq ht
    rw [if_neg ht] at hf
    obtain ⟨n, α, β, γ, δ, h1, h2, h3, h4, hn, e1, e2, e3, e4⟩ := hf
    have nab : V f.a ≠ V f.b := fun h => smul_ne_zero' h1 hn (by rw [← e1]; exact area_eq_zero (.inl h))
    have nbc : V f.b ≠ V f.c := fun h => smul_ne_zero' h1 hn (by rw [← e1]; exact area_eq_zero (.inr (.inl h)))
    have ncd : V f.c ≠ V f.d := fun h => smul_ne_zero' h2 hn (by rw [← e2]; exact area_eq_zero (.inr (.inl h)))
    have nda : V f.d ≠ V f.a := fun h => smul_ne_zero' h2 hn (by rw [← e2]; exact area_eq_zero (.inr (.inr h)))
    have f1 := flat_quad (p := p) hx nab
    have f2 := flat_quad (p := p) hx.rot nbc
    have f3 := flat_quad (p := p) hx.rot.rot ncd
    have f4 := flat_quad (p := p) hx.rot.rot.rot nda
    rw [hc]
    by_contra hh
    rw [Bool.not_eq_false] at hh
    simp only [List.map_cons, List.map_nil, flatOn, crossing, List.any_cons, List.any_nil, Bool.or_false,
      Bool.and_eq_true, Bool.or_eq_true, ka.1, ka.2.1, ka.2.2, kb.1, kb.2.1, kb.2.2, kc.1, kc.2.1, kc.2.2,
      kd.1, kd.2.1, kd.2.2] at hh
    obtain ⟨⟨hA, hB⟩, ((⟨ha, hb⟩ | ⟨hb, hc⟩) | ⟨hc, hd⟩) | ⟨hd, ha⟩⟩ := hh
    · apply f1 ha hb
      simp only [ha, hb, lt_irrefl, false_or] at hA hB
      rcases hA with hA | hA <;> rcases hB with hB | hB <;> first | (exfalso; linarith) | nlinarith
    · apply f2 hb hc
      simp only [hb, hc, lt_irrefl, false_or] at hA hB
      rcases hA with hA | hA <;> rcases hB with hB | hB <;> first | (exfalso; linarith) | nlinarith
    · apply f3 hc hd
      simp only [hc, hd, lt_irrefl, or_false] at hA hB
      rcases hA with hA | hA <;> rcases hB with hB | hB <;> first | (exfalso; linarith) | nlinarith
    · apply f4 hd ha
      simp only [hd, ha, lt_irrefl, or_false, false_or] at hA hB
      rcases hA with hA | hA <;> rcases hB with hB | hB <;> first | (exfalso; linarith) | nlinarith

lemma plan_on : ∀ c ∈ lists3 ++ lists4, c.all Cls.isO = true → plan c = .ok ⟨[], [], none⟩ := by decide +kernel

/-- The pieces of a face together have the value of the face. -/
lemma planned_additive {p : Plane K} {tol : K} (htol : 0 ≤ tol) {V W : ℕ → V3 K} {f : Face} {gs : List Face}
    (hpos : ∀ i ∈ f.toList, p.Clear tol (V i)) (halt : altern (cornerCls p tol V f) = false)
    (hq : f.a ≠ f.d → DiagonalsCross (V f.a) (V f.b) (V f.c) (V f.d))
    (hf : if f.a = f.d then areaVec (V f.a) (V f.b) (V f.c) ≠ 0
      else StrictlyConvexQuad (V f.a) (V f.b) (V f.c) (V f.d)) (h : Planned p tol V W f gs)
    {J Φ : V3 K → V3 K → V3 K → K} (hJ : CutsOff p J Φ) (hΦ : PlaneAdditive Φ) :
    (gs.map (fun g => Φ (W g.a) (W g.b) (W g.c) + Φ (W g.a) (W g.c) (W g.d))).sum =
      (if f.a = f.d then J (V f.a) (V f.b) (V f.c) else J (V f.a) (V f.b) (V f.c) + J (V f.a) (V f.c) (V f.d)) := by
  by_cases hoff : ∀ i ∈ f.toList, p.dist (V i) = 0
  · -- the face is in the plane
    have hgs : gs = [] := by
      obtain ⟨q, N, h1, _, h3⟩ := h
      rw [plan_on _ (cornerCls_mem p tol V f) (by
        rw [cornerCls, List.all_map, List.all_eq_true]
        intro i hi
        have hi' := Face.corners_sub f i hi
        exact (clear_cls htol (hpos i hi')).2.2.2 (hoff i hi'))] at h1
      cases h1
      cases h3
      rfl
    have ha := hoff f.a (by simp [Face.toList])
    have hb := hoff f.b (by simp [Face.toList])
    have hc := hoff f.c (by simp [Face.toList])
    have hd := hoff f.d (by simp [Face.toList])
    rw [hgs, hJ.above _ _ _ ha.ge hb.ge hc.ge, hJ.above _ _ _ ha.ge hc.ge hd.ge]
    simp
  push Not at hoff
  obtain ⟨i0, hi0, hA⟩ := hoff
  obtain ⟨n, hn, hP0⟩ := face_plane hf
  have hP : ∀ i ∈ f.toList, InPlane n (V i0) (V i) := by
    intro i hi
    have h1 := hP0 i hi
    have h2 := hP0 i0 hi0
    simp only [InPlane, V3.dot, V3.sub_x, V3.sub_y, V3.sub_z] at *
    linear_combination h1 - h2
  obtain ⟨o, ho, hcol⟩ := exists_apex p (n := n) (A := V i0) hn hA
  have e1 : gs.map (fun g => Φ (W g.a) (W g.b) (W g.c) + Φ (W g.a) (W g.c) (W g.d)) = gs.map (edgeSum (Φ o) W) := by
    apply List.map_congr_left
    intro g hg
    exact (edgeSum_fan hΦ hn ho (planned_inPlane hP h g hg)).symm
  obtain ⟨S, hS, hsum⟩ := planned_chain_clear htol hpos halt (not_flatOn htol hpos hq hf) h
  rw [e1, hsum _ (hΦ.anti o), face_below hJ hΦ hn ho hcol hP]
  have : S.map (fun e => Φ o e.1 e.2) = S.map (fun _ => 0) := by
    apply List.map_congr_left
    intro e he
    obtain ⟨d1, d2, h3⟩ := hS e he
    exact hΦ.degenerate _ _ _ (hcol _ _ (h3 _ _ hP).1 (h3 _ _ hP).2 d1 d2)
  rw [this]
  simp

/-- The value on the clipped mesh of an additive quantity. -/
theorem clip_additive {srt : (ℕ → K) → List ℕ → List ℕ} (hsrt : IsArgsort srt) {p : Plane K} {tol : K}
    (htol : 0 ≤ tol) {b : Bool} {m : Mesh K} (hwf : m.WF)
    (hpos : ∀ f ∈ m.faces, ∀ i ∈ f.toList, p.Clear tol (m.vert i)) (hq : QuadsCross m) (hsep : m.WellSeparated p)
    (hcv : m.StrictlyConvexFaces) {c : Clipped K} (hc : clip srt p tol b m = .ok c)
    {J Φ : V3 K → V3 K → V3 K → K} (hJ : CutsOff p J Φ) (hΦ : PlaneAdditive Φ) :
    (c.clipped.faces.map (fun g => Φ (c.clipped.vert g.a) (c.clipped.vert g.b) (c.clipped.vert g.c) +
      Φ (c.clipped.vert g.a) (c.clipped.vert g.c) (c.clipped.vert g.d))).sum =
    (m.faces.map (fun f => if f.a = f.d then J (m.vert f.a) (m.vert f.b) (m.vert f.c)
      else J (m.vert f.a) (m.vert f.b) (m.vert f.c) + J (m.vert f.a) (m.vert f.c) (m.vert f.d))).sum := by
  obtain ⟨exact, parts, w1, w2, hg, hperm, hfaces, hpl, _, htri⟩ :=
    clip_planned_notAt hsrt htol hwf (fun f hf i hi => clear_notAt (hpos f hf i hi))
      (fun f hf => .inr (corners_nodup (hcv f hf))) hsep hc
  rw [geometry_congr (fun u v w t => Φ u v w + Φ u w t) hg, hfaces, List.map_flatMap, sum_flatMap',
    ← (hperm.map _).sum_eq, List.map_map]
  congr 1
  apply List.map_congr_left
  intro t ht
  have hf : t.1 ∈ m.faces := hperm.mem_iff.1 (List.mem_map_of_mem ht)
  exact planned_additive htol (hpos _ hf) (cls_not_altern htol hwf hq hf) (hq _ hf) (hcv _ hf) (hpl t ht) hJ hΦ

/-- For a closed surface: the sum of an antisymmetric quantity over the sides of the faces of the clipped mesh is a sum over
segments of the plane. -/
lemma clip_closed_clear {srt : (ℕ → K) → List ℕ → List ℕ} (hsrt : IsArgsort srt) {p : Plane K} {tol : K}
    (htol : 0 ≤ tol) {b : Bool} {m : Mesh K} (hwf : m.WF) (hcl : m.ClosedOriented)
    (hpos : ∀ f ∈ m.faces, ∀ i ∈ f.toList, p.Clear tol (m.vert i)) (hq : QuadsCross m) (hsep : m.WellSeparated p)
    (hcv : m.StrictlyConvexFaces) {c : Clipped K} (h : clip srt p tol b m = .ok c) {φ : V3 K → V3 K → K}
    (hφ : ∀ x y, φ x y = -φ y x) (h0 : ∀ x y, p.dist x = 0 → p.dist y = 0 → φ x y = 0) :
    (c.clipped.pointEdges.map (fun e => φ e.1 e.2)).sum = 0 := by
  obtain ⟨exact, parts, _, _, hg, hperm, hfaces, hpl, _, _⟩ :=
    clip_planned_notAt hsrt htol hwf (fun f hf i hi => clear_notAt (hpos f hf i hi))
      (fun f hf => .inr (corners_nodup (hcv f hf))) hsep h
  have s0 : (c.clipped.pointEdges.map (fun e => φ e.1 e.2)).sum = (c.clipped.faces.map (edgeSum φ c.clipped.vert)).sum := by
    unfold Mesh.pointEdges Mesh.directedEdges
    rw [List.map_map, List.map_flatMap, sum_flatMap']
    congr 1
    apply List.map_congr_left
    intro f _
    rw [edgeSum_directed hφ]; rfl
  have s1 : c.clipped.faces.map (edgeSum φ c.clipped.vert) = exact.faces.map (edgeSum φ exact.vert) :=
    geometry_congr (fun u v w t => φ u v + φ v w + φ w t + φ t u) hg
  have s2 : (exact.faces.map (edgeSum φ exact.vert)).sum =
      (parts.map (fun t => (t.1.directedEdges.map (fun e => belowEdge p φ (m.vert e.1) (m.vert e.2))).sum)).sum := by
    rw [hfaces, List.map_flatMap, sum_flatMap']
    congr 1
    apply List.map_congr_left
    intro t ht
    have hf : t.1 ∈ m.faces := hperm.subset (List.mem_map_of_mem ht)
    obtain ⟨S, hS, hsum⟩ := planned_chain_clear htol (hpos _ hf) (cls_not_altern htol hwf hq hf)
      (not_flatOn htol (hpos _ hf) (hq _ hf) (hcv _ hf)) (hpl t ht)
    rw [hsum φ hφ]
    have : S.map (fun e => φ e.1 e.2) = S.map (fun _ => 0) := by
      apply List.map_congr_left
      intro e he
      obtain ⟨d1, d2, _⟩ := hS e he
      exact h0 _ _ d1 d2
    rw [this]
    simp
  have s3 : (parts.map (fun t => (t.1.directedEdges.map (fun e => belowEdge p φ (m.vert e.1) (m.vert e.2))).sum)).sum =
      (m.directedEdges.map (fun e => belowEdge p φ (m.vert e.1) (m.vert e.2))).sum := by
    unfold Mesh.directedEdges
    rw [List.map_flatMap, sum_flatMap', ← (hperm.map _).sum_eq, List.map_map]; rfl
  rw [s0, s1, s2, s3]
  exact closed_sum hcl (fun i j => belowEdge p φ (m.vert i) (m.vert j)) (fun i j => belowEdge_anti hφ _ _)

end Clipper
end MM
