import Verif.Proofs.ClipLoop

/-!
# Geometry of the clipping of a triangle and of a convex quadrangle
-/

namespace MM

set_option linter.unusedSectionVars false
set_option linter.unusedSimpArgs false

variable {K : Type*} [Field K] [LinearOrder K] [IsStrictOrderedRing K]

/-! ## Convex quadrangles -/

lemma smul_eq_zero_V3 {a : K} {v : V3 K} (h : a • v = 0) (hv : v ≠ 0) : a = 0 := by
  by_contra ha
  apply hv
  have := congrArg (fun w => a⁻¹ • w) h
  simpa [smul_smul, ha] using this

lemma smul_eq_zero_V3' {a : K} {v : V3 K} (h : a • v = 0) (ha : a ≠ 0) : v = 0 := by
  have := congrArg (fun w => a⁻¹ • w) h
  simpa [smul_smul, ha] using this

/-- The weighted corners of a plane quadrangle. -/
lemma convex_weights {p q r s n : V3 K} {α β γ δ : K} (hs : 0 < α + β) (hn : n ≠ 0)
    (e1 : areaVec p q r = α • n) (e2 : areaVec p r s = β • n) (e3 : areaVec p q s = γ • n)
    (e4 : areaVec q r s = δ • n) : γ + δ = α + β ∧ δ • p + γ • r = α • s + β • q := by
  have hsum' : γ + δ = α + β := by
    have hsum : (γ + δ) • n = (α + β) • n := by
      rw [add_smul, add_smul, ← e1, ← e2, ← e3, ← e4]
      ext <;> simp [areaVec, V3.cross] <;> ring
    have h0 : ((γ + δ) - (α + β)) • n = 0 := by rw [sub_smul, hsum, sub_self]
    linarith [smul_eq_zero_V3 h0 hn]
  refine ⟨hsum', ?_⟩
  have hnn : n.dot n ≠ 0 := fun h => hn (V3.normSq_eq_zero.1 h)
  have f1 := fun k : V3 K => congrArg (V3.dot k) e1
  have f2 := fun k : V3 K => congrArg (V3.dot k) e2
  have hun : α * (q - p).dot n = 0 := by
    have := f1 (q - p)
    have z : (q - p).dot (areaVec p q r) = 0 := by simp [areaVec, V3.dot, V3.cross]; ring
    rw [z] at this
    rw [this]; simp [V3.dot]; ring
  have hwn : β * (s - p).dot n = 0 := by
    have := f2 (s - p)
    have z : (s - p).dot (areaVec p r s) = 0 := by simp [areaVec, V3.dot, V3.cross]; ring
    rw [z] at this
    rw [this]; simp [V3.dot]; ring
  have hdet : (q - p).dot (areaVec p r s) = 0 := by
    have g1 : (q - p).dot (areaVec p r s) = β * (q - p).dot n := by rw [e2]; simp [V3.dot]; ring
    have g2 : (q - p).dot (areaVec p r s) = α * (s - p).dot n := by
      have : (q - p).dot (areaVec p r s) = (s - p).dot (areaVec p q r) := by
        simp [areaVec, V3.dot, V3.cross]; ring
      rw [this, e1]; simp [V3.dot]; ring
    have : (α + β) * (q - p).dot (areaVec p r s) = 0 := by
      rw [add_mul]; nth_rw 1 [g1]; rw [g2]
      have : α * (β * (q - p).dot n) + β * (α * (s - p).dot n) =
        β * (α * (q - p).dot n) + α * (β * (s - p).dot n) := by ring
      rw [this, hun, hwn]; ring
    rcases mul_eq_zero.1 this with h | h
    · linarith
    · exact h
  have key : (n.dot n) • (α • (s - p) + β • (q - p) - γ • (r - p)) = 0 := by
    have id1 : ((areaVec p q r).dot n) • (s - p) + ((areaVec p r s).dot n) • (q - p) -
        ((areaVec p q s).dot n) • (r - p) = ((q - p).dot (areaVec p r s)) • n := by
      ext <;> simp [areaVec, V3.dot, V3.cross] <;> ring
    rw [hdet, e1, e2, e3] at id1
    have z : (0 : K) • n = 0 := by simp
    rw [z] at id1
    rw [← id1]
    ext <;> simp [V3.dot] <;> ring
  have key2 := smul_eq_zero_V3' key hnn
  have hx := congrArg V3.x key2
  have hy := congrArg V3.y key2
  have hz := congrArg V3.z key2
  simp at hx hy hz
  have hδ : δ = α + β - γ := by linarith
  subst hδ
  ext <;> simp <;> linarith

/-- The diagonals of a plane convex quadrangle cross. -/
theorem ConvexQuad.diagonalsCross {p q r s : V3 K} (h : ConvexQuad p q r s) : DiagonalsCross p q r s := by
  obtain ⟨n, α, β, γ, δ, hα, hβ, hγ, hδ, hs, hn, e1, e2, e3, e4⟩ := h
  obtain ⟨hsum, hw⟩ := convex_weights hs hn e1 e2 e3 e4
  have hne : α + β ≠ 0 := hs.ne'
  have hd : 1 - γ / (α + β) = δ / (α + β) := by field_simp; linarith
  have hb : 1 - α / (α + β) = β / (α + β) := by field_simp; ring
  refine ⟨γ / (α + β), α / (α + β), by positivity, ?_, by positivity, ?_, ?_⟩
  · rw [div_le_one hs]; linarith
  · rw [div_le_one hs]; linarith
  · rw [hd, hb]
    have := congrArg (fun v => (α + β)⁻¹ • v) hw
    simp only [smul_add, smul_smul] at this
    rw [div_eq_inv_mul, div_eq_inv_mul, div_eq_inv_mul, div_eq_inv_mul, this, add_comm]

/-! ## Convex hulls -/

lemma InTri.rot {a b c X : V3 K} (h : InTri a b c X) : InTri b c a X := by
  obtain ⟨α, β, γ, h1, h2, h3, h4, rfl⟩ := h
  exact ⟨β, γ, α, h2, h3, h1, by linarith, by abel⟩

lemma InQuad.rot {a b c d X : V3 K} (h : InQuad a b c d X) : InQuad b c d a X := by
  obtain ⟨α, β, γ, δ, h1, h2, h3, h4, h5, rfl⟩ := h
  exact ⟨β, γ, δ, α, h2, h3, h4, h1, by linarith, by abel⟩

lemma inTri_rot {a b c X : V3 K} : InTri b c a X ↔ InTri a b c X := ⟨fun h => h.rot.rot, fun h => h.rot⟩
lemma inQuad_rot {a b c d X : V3 K} : InQuad b c d a X ↔ InQuad a b c d X := ⟨fun h => h.rot.rot.rot, fun h => h.rot⟩

lemma DiagonalsCross.rot {a b c d : V3 K} (h : DiagonalsCross a b c d) : DiagonalsCross b c d a := by
  obtain ⟨s, t, h1, h2, h3, h4, h5⟩ := h
  refine ⟨t, 1 - s, h3, h4, by linarith, by linarith, ?_⟩
  rw [sub_sub_cancel, ← h5, add_comm]

/-- A set closed by segments. -/
def Cvx (S : V3 K → Prop) : Prop := ∀ x y : V3 K, ∀ s t : K, S x → S y → 0 ≤ s → 0 ≤ t → s + t = 1 → S (s • x + t • y)

lemma Cvx.and {S T : V3 K → Prop} (hS : Cvx S) (hT : Cvx T) : Cvx (fun x => S x ∧ T x) :=
  fun x y s t h1 h2 h3 h4 h5 => ⟨hS x y s t h1.1 h2.1 h3 h4 h5, hT x y s t h1.2 h2.2 h3 h4 h5⟩

lemma cvx_tri (a b c : V3 K) : Cvx (InTri a b c) := by
  rintro x y s t ⟨α, β, γ, h1, h2, h3, h4, rfl⟩ ⟨α', β', γ', h1', h2', h3', h4', rfl⟩ hs ht hst
  refine ⟨s * α + t * α', s * β + t * β', s * γ + t * γ', by positivity, by positivity, by positivity, ?_, ?_⟩
  · linear_combination s * h4 + t * h4' + hst
  · ext <;> simp <;> ring

lemma cvx_quad (a b c d : V3 K) : Cvx (InQuad a b c d) := by
  rintro x y s t ⟨α, β, γ, δ, h1, h2, h3, h3d, h4, rfl⟩ ⟨α', β', γ', δ', h1', h2', h3', h3d', h4', rfl⟩ hs ht hst
  refine ⟨s * α + t * α', s * β + t * β', s * γ + t * γ', s * δ + t * δ', by positivity, by positivity, by positivity,
    by positivity, ?_, ?_⟩
  · linear_combination s * h4 + t * h4' + hst
  · ext <;> simp <;> ring

lemma cvx_below (p : Plane K) (e : K) : Cvx (fun X => p.dist X ≤ e) := by
  intro x y s t h1 h2 h3 h4 h5
  beta_reduce at *
  rw [Clipper.dist_comb p s t x y h5]
  have h6 : e = s * e + t * e := by rw [← add_mul, h5, one_mul]
  have := mul_le_mul_of_nonneg_left h1 h3
  have := mul_le_mul_of_nonneg_left h2 h4
  linarith

lemma Cvx.tri {S : V3 K → Prop} (hS : Cvx S) {a b c X : V3 K} (ha : S a) (hb : S b) (hc : S c) (h : InTri a b c X) :
    S X := by
  obtain ⟨α, β, γ, h1, h2, h3, h4, rfl⟩ := h
  by_cases h0 : α + β = 0
  · have e1 : α = 0 := by linarith
    have e2 : β = 0 := by linarith
    have e3 : γ = 1 := by linarith
    subst e1 e2 e3; simpa using hc
  · have hpos : 0 < α + β := lt_of_le_of_ne (by linarith) (Ne.symm h0)
    have h5 := hS a b (α / (α + β)) (β / (α + β)) ha hb (by positivity) (by positivity) (by field_simp)
    have h6 := hS _ c (α + β) γ h5 hc hpos.le h3 h4
    have : (α + β) • ((α / (α + β)) • a + (β / (α + β)) • b) + γ • c = α • a + β • b + γ • c := by
      rw [smul_add, smul_smul, smul_smul, mul_div_cancel₀ _ h0, mul_div_cancel₀ _ h0]
    rwa [this] at h6

lemma Cvx.quad {S : V3 K → Prop} (hS : Cvx S) {a b c d X : V3 K} (ha : S a) (hb : S b) (hc : S c) (hd : S d)
    (h : InQuad a b c d X) : S X := by
  obtain ⟨α, β, γ, δ, h1, h2, h3, h3d, h4, rfl⟩ := h
  by_cases h0 : α + β + γ = 0
  · have e1 : α = 0 := by linarith
    have e2 : β = 0 := by linarith
    have e3 : γ = 0 := by linarith
    have e4 : δ = 1 := by linarith
    subst e1 e2 e3 e4; simpa using hd
  · have hpos : 0 < α + β + γ := lt_of_le_of_ne (by linarith) (Ne.symm h0)
    have h5 : S ((α / (α + β + γ)) • a + (β / (α + β + γ)) • b + (γ / (α + β + γ)) • c) :=
      hS.tri ha hb hc ⟨_, _, _, by positivity, by positivity, by positivity, by field_simp, rfl⟩
    have h6 := hS _ d (α + β + γ) δ h5 hd hpos.le h3d h4
    have : (α + β + γ) • ((α / (α + β + γ)) • a + (β / (α + β + γ)) • b + (γ / (α + β + γ)) • c) + δ • d =
        α • a + β • b + γ • c + δ • d := by
      rw [smul_add, smul_add, smul_smul, smul_smul, smul_smul, mul_div_cancel₀ _ h0, mul_div_cancel₀ _ h0,
        mul_div_cancel₀ _ h0]
    rwa [this] at h6

lemma inTri_a (a b c : V3 K) : InTri a b c a := ⟨1, 0, 0, by simp, by simp, by simp, by simp, by simp⟩
lemma inTri_b (a b c : V3 K) : InTri a b c b := ⟨0, 1, 0, by simp, by simp, by simp, by simp, by simp⟩
lemma inTri_c (a b c : V3 K) : InTri a b c c := ⟨0, 0, 1, by simp, by simp, by simp, by simp, by simp⟩
lemma inQuad_a (a b c d : V3 K) : InQuad a b c d a := ⟨1, 0, 0, 0, by simp, by simp, by simp, by simp, by simp, by simp⟩
lemma inQuad_b (a b c d : V3 K) : InQuad a b c d b := ⟨0, 1, 0, 0, by simp, by simp, by simp, by simp, by simp, by simp⟩
lemma inQuad_c (a b c d : V3 K) : InQuad a b c d c := ⟨0, 0, 1, 0, by simp, by simp, by simp, by simp, by simp, by simp⟩
lemma inQuad_d (a b c d : V3 K) : InQuad a b c d d := ⟨0, 0, 0, 1, by simp, by simp, by simp, by simp, by simp, by simp⟩

/-- A quadrangle whose diagonals cross is the union of two triangles. -/
lemma inQuad_split {a b c d X : V3 K} (h : DiagonalsCross a b c d) :
    InQuad a b c d X ↔ InTri a b d X ∨ InTri b c d X := by
  constructor
  · rintro ⟨α, β, γ, δ, h1, h2, h3, h4, h5, rfl⟩
    obtain ⟨s, t, hs0, hs1, ht0, ht1, he⟩ := h
    have hx := congrArg V3.x he
    have hy := congrArg V3.y he
    have hz := congrArg V3.z he
    simp only [V3.add_x, V3.add_y, V3.add_z, V3.smul_x, V3.smul_y, V3.smul_z] at hx hy hz
    by_cases hc : α * s ≤ γ * (1 - s)
    · right
      rcases eq_or_lt_of_le hs1 with rfl | hs
      · have : α = 0 := by linarith
        subst this
        exact ⟨β, γ, δ, h2, h3, h4, by linarith, by simp⟩
      · have hs' : 0 < 1 - s := by linarith
        have hs'' : 1 - s ≠ 0 := hs'.ne'
        refine ⟨β + α / (1 - s) * (1 - t), γ - α / (1 - s) * s, δ + α / (1 - s) * t, ?_, ?_, ?_, ?_, ?_⟩
        · have : 0 ≤ α / (1 - s) * (1 - t) := mul_nonneg (by positivity) (by linarith)
          linarith
        · rw [sub_nonneg, div_mul_eq_mul_div, div_le_iff₀ hs']; exact hc
        · positivity
        · field_simp; linear_combination (1 - s) * h5
        · ext <;> simp only [V3.add_x, V3.add_y, V3.add_z, V3.smul_x, V3.smul_y, V3.smul_z] <;> field_simp
          · linear_combination α * hx
          · linear_combination α * hy
          · linear_combination α * hz
    · left
      push Not at hc
      have hs : 0 < s := by
        rcases eq_or_lt_of_le hs0 with h | h
        · subst h; exfalso; simp at hc; linarith
        · exact h
      have hs' : s ≠ 0 := hs.ne'
      refine ⟨α - γ / s * (1 - s), β + γ / s * (1 - t), δ + γ / s * t, ?_, ?_, ?_, ?_, ?_⟩
      · rw [sub_nonneg, div_mul_eq_mul_div, div_le_iff₀ hs]; exact hc.le
      · have : 0 ≤ γ / s * (1 - t) := mul_nonneg (by positivity) (by linarith)
        linarith
      · positivity
      · field_simp; linear_combination s * h5
      · ext <;> simp only [V3.add_x, V3.add_y, V3.add_z, V3.smul_x, V3.smul_y, V3.smul_z] <;> field_simp
        · linear_combination γ * hx
        · linear_combination γ * hy
        · linear_combination γ * hz
  · rintro (h | h)
    · exact (cvx_quad a b c d).tri (inQuad_a ..) (inQuad_b ..) (inQuad_d ..) h
    · exact (cvx_quad a b c d).tri (inQuad_b ..) (inQuad_c ..) (inQuad_d ..) h

/-! ## The point where an edge crosses the plane -/

/-- `x` is the point of the plane on the edge `a b`, whose ends are strictly on both sides. -/
def IsCut (p : Plane K) (a b x : V3 K) : Prop :=
  p.dist a * p.dist b < 0 ∧ (p.dist a - p.dist b) • x = p.dist a • b - p.dist b • a

lemma IsCut.symm {p : Plane K} {a b x : V3 K} (h : IsCut p a b x) : IsCut p b a x := by
  refine ⟨by rw [mul_comm]; exact h.1, ?_⟩
  have := h.2
  rw [← neg_sub (p.dist a), neg_smul, this, neg_sub]

lemma IsCut.coef {p : Plane K} {a b x : V3 K} (h : IsCut p a b x) (ha : 0 < p.dist a) :
    ∃ t, 0 < t ∧ t < 1 ∧ x = (1 - t) • a + t • b ∧ t * (p.dist a - p.dist b) = p.dist a := by
  have hb : p.dist b < 0 := by
    by_contra hb; push Not at hb
    have := mul_nonneg ha.le hb; linarith [h.1]
  have hd : 0 < p.dist a - p.dist b := by linarith
  refine ⟨p.dist a / (p.dist a - p.dist b), by positivity, by rw [div_lt_one hd]; linarith, ?_, by field_simp⟩
  have := congrArg (fun v => (p.dist a - p.dist b)⁻¹ • v) h.2
  simp only [smul_smul, inv_mul_cancel₀ hd.ne', one_smul] at this
  rw [this]
  ext <;> simp <;> field_simp <;> ring

lemma IsCut.dist {p : Plane K} {a b x : V3 K} (h : IsCut p a b x) : p.dist x = 0 := by
  have hne : p.dist a - p.dist b ≠ 0 := by
    intro h0
    have : p.dist a = p.dist b := by linarith
    have h1 := h.1
    rw [this] at h1
    nlinarith [mul_self_nonneg (p.dist b)]
  have h2 := congrArg (fun v => v.dot p.normal) h.2
  simp only [V3.sub_dot, V3.smul_dot] at h2
  have : (p.dist a - p.dist b) * p.dist x = 0 := by
    simp only [Plane.dist] at *
    linear_combination h2
  exact (mul_eq_zero.1 this).resolve_left hne

lemma IsCut.mem {p : Plane K} {a b x : V3 K} (h : IsCut p a b x) {S : V3 K → Prop} (hS : Cvx S) (ha : S a) (hb : S b) :
    S x := by
  have key : ∀ {a b : V3 K}, IsCut p a b x → S a → S b → 0 < p.dist a → S x := by
    intro a b h ha hb hp
    obtain ⟨t, h0, h1, h2, _⟩ := h.coef hp
    rw [h2]; exact hS a b _ _ ha hb (by linarith) h0.le (by ring)
  rcases lt_trichotomy (p.dist a) 0 with h1 | h1 | h1
  · refine key h.symm hb ha ?_
    by_contra h2; push Not at h2
    have := mul_nonneg_of_nonpos_of_nonpos h1.le h2; linarith [h.1]
  · have := h.1; rw [h1] at this; simp at this
  · exact key h ha hb h1

/-! ## Triangles -/

/-- One corner above, two below. -/
lemma tri_ABB {p : Plane K} {a b c x y X : V3 K} (ha : 0 < p.dist a) (hb : p.dist b < 0) (hc : p.dist c < 0)
    (hx : IsCut p a b x) (hy : IsCut p a c y) :
    (InTri a b c X ∧ p.dist X ≤ 0) ↔ InQuad x b c y X := by
  constructor
  · rintro ⟨⟨α, β, γ, h1, h2, h3, h4, rfl⟩, hd⟩
    obtain ⟨s, s0, s1, rfl, hs⟩ := hx.coef ha
    obtain ⟨t, t0, t1, rfl, ht⟩ := hy.coef ha
    have hD : p.dist (α • a + β • b + γ • c) = α * p.dist a + β * p.dist b + γ * p.dist c := by
      simp only [Plane.dist, V3.add_dot, V3.smul_dot]; linear_combination (-p.c) * (1 - h4) + p.c * 0
    rw [hD] at hd
    set da := p.dist a
    set eb := -p.dist b with heb
    set ec := -p.dist c with hec
    have hb' : p.dist b = -eb := by rw [heb]; ring
    have hc' : p.dist c = -ec := by rw [hec]; ring
    rw [hb'] at hb hs hd
    rw [hc'] at hc ht hd
    set E := β * eb + γ * ec with hE
    have hEnn : 0 ≤ E := by have := mul_nonneg h2 (show 0 ≤ eb by linarith); have := mul_nonneg h3 (show 0 ≤ ec by linarith); linarith
    rcases eq_or_lt_of_le hEnn with hE0 | hEpos
    · -- all the weight is on `a`: impossible unless the weight vanishes
      have z1 : β * eb = 0 := by
        have := mul_nonneg h2 (show 0 ≤ eb by linarith); have := mul_nonneg h3 (show 0 ≤ ec by linarith); linarith
      have z2 : γ * ec = 0 := by
        have := mul_nonneg h2 (show 0 ≤ eb by linarith); have := mul_nonneg h3 (show 0 ≤ ec by linarith); linarith
      have z3 : β = 0 := (mul_eq_zero.1 z1).resolve_right (by linarith)
      have z4 : γ = 0 := (mul_eq_zero.1 z2).resolve_right (by linarith)
      subst z3 z4
      have : α = 1 := by linarith
      subst this
      exfalso; linarith
    · have hE' : E ≠ 0 := hEpos.ne'
      have hDE : α * da ≤ E := by linarith
      have hd1 : 0 < da + eb := by linarith
      have hd2 : 0 < da + ec := by linarith
      have k1 : 0 ≤ 1 - α * da / E := by rw [sub_nonneg, div_le_one hEpos]; exact hDE
      have s' : s = da / (da + eb) := by field_simp; linarith
      have t' : t = da / (da + ec) := by field_simp; linarith
      refine ⟨α * β / E * (da + eb), β * (1 - α * da / E), γ * (1 - α * da / E), α * γ / E * (da + ec),
        by positivity, by positivity, by positivity, by positivity, ?_, ?_⟩
      · field_simp
        linear_combination E * h4 - α * hE
      · rw [s', t']
        ext <;> simp only [V3.add_x, V3.add_y, V3.add_z, V3.smul_x, V3.smul_y, V3.smul_z] <;> field_simp <;> rw [hE] <;> ring
  · intro h
    have hS := (cvx_tri a b c).and (cvx_below p 0)
    exact hS.quad (hx.mem (cvx_tri a b c) (inTri_a ..) (inTri_b ..) |> fun h => ⟨h, hx.dist.le⟩) ⟨inTri_b .., hb.le⟩
      ⟨inTri_c .., hc.le⟩ (hy.mem (cvx_tri a b c) (inTri_a ..) (inTri_c ..) |> fun h => ⟨h, hy.dist.le⟩) h

/-- One corner below, two above. -/
lemma tri_BAA {p : Plane K} {a b c x y X : V3 K} (ha : p.dist a < 0) (hb : 0 < p.dist b) (hc : 0 < p.dist c)
    (hx : IsCut p a b x) (hy : IsCut p a c y) :
    (InTri a b c X ∧ p.dist X ≤ 0) ↔ InTri y a x X := by
  constructor
  · rintro ⟨⟨α, β, γ, h1, h2, h3, h4, rfl⟩, hd⟩
    obtain ⟨s, s0, s1, rfl, hs⟩ := hx.symm.coef hb
    obtain ⟨t, t0, t1, rfl, ht⟩ := hy.symm.coef hc
    have hD : p.dist (α • a + β • b + γ • c) = α * p.dist a + β * p.dist b + γ * p.dist c := by
      simp only [Plane.dist, V3.add_dot, V3.smul_dot]; linear_combination (-p.c) * (1 - h4) + p.c * 0
    rw [hD] at hd
    set db := p.dist b
    set dc := p.dist c
    set e := -p.dist a with he
    have ha' : p.dist a = -e := by rw [he]; ring
    rw [ha'] at ha hs ht hd
    have hepos : 0 < e := by linarith
    have hd1 : 0 < db + e := by linarith
    have hd2 : 0 < dc + e := by linarith
    have s' : s = db / (db + e) := by field_simp; linarith
    have t' : t = dc / (dc + e) := by field_simp; linarith
    refine ⟨γ / e * (dc + e), α - (β * db + γ * dc) / e, β / e * (db + e), by positivity, ?_, by positivity, ?_, ?_⟩
    · rw [sub_nonneg, div_le_iff₀ hepos]; linarith
    · field_simp; linear_combination e * h4
    · rw [s', t']
      ext <;> simp only [V3.add_x, V3.add_y, V3.add_z, V3.smul_x, V3.smul_y, V3.smul_z] <;> field_simp <;> ring
  · intro h
    have hS := (cvx_tri a b c).and (cvx_below p 0)
    exact hS.tri (hy.mem (cvx_tri a b c) (inTri_a ..) (inTri_c ..) |> fun h => ⟨h, hy.dist.le⟩) ⟨inTri_a .., ha.le⟩
      (hx.mem (cvx_tri a b c) (inTri_a ..) (inTri_b ..) |> fun h => ⟨h, hx.dist.le⟩) h

lemma tri_above {p : Plane K} {a b c X : V3 K} (ha : 0 < p.dist a) (hb : 0 < p.dist b) (hc : 0 < p.dist c)
    (h : InTri a b c X) : 0 < p.dist X := by
  have hS : Cvx (fun X => 0 < p.dist X) := by
    intro x y s t h1 h2 h3 h4 h5
    beta_reduce at *
    rw [Clipper.dist_comb p s t x y h5]
    rcases eq_or_lt_of_le h3 with rfl | h
    · have : t = 1 := by linarith
      subst this; linarith
    · have := mul_pos h h1; have := mul_nonneg h4 h2.le; linarith
  exact hS.tri ha hb hc h

/-! ## Quadrangles -/

/-- One corner above. -/
lemma quad_ABBB {p : Plane K} {a b c d x y X : V3 K} (hq : DiagonalsCross a b c d) (ha : 0 < p.dist a)
    (hb : p.dist b < 0) (hc : p.dist c < 0) (hd : p.dist d < 0) (hx : IsCut p a b x) (hy : IsCut p a d y) :
    (InQuad a b c d X ∧ p.dist X ≤ 0) ↔ InQuad x b d y X ∨ InTri b c d X := by
  rw [inQuad_split hq, or_and_right, tri_ABB ha hb hd hx hy]
  refine or_congr Iff.rfl ⟨fun h => h.1, fun h => ⟨h, (cvx_below p 0).tri hb.le hc.le hd.le h⟩⟩

/-- One corner below. -/
lemma quad_BAAA {p : Plane K} {a b c d x y X : V3 K} (hq : DiagonalsCross a b c d) (ha : p.dist a < 0)
    (hb : 0 < p.dist b) (hc : 0 < p.dist c) (hd : 0 < p.dist d) (hx : IsCut p a b x) (hy : IsCut p a d y) :
    (InQuad a b c d X ∧ p.dist X ≤ 0) ↔ InTri y a x X := by
  rw [inQuad_split hq, or_and_right, tri_BAA ha hb hd hx hy]
  constructor
  · rintro (h | ⟨h1, h2⟩)
    · exact h
    · have := tri_above hb hc hd h1; linarith
  · exact Or.inl

lemma scalar_ABBA {s t d0 d3 e1 e2 C a b c d : K} (p0 : 0 < d0) (p3 : 0 < d3) (p1 : 0 < e1) (p2 : 0 < e2) (hC : 0 < C)
    (h1 : C * e1 = (1 - s) * d0 + (1 - t) * e1) (h2 : C * e1 = s * e2 + t * d3)
    (he : (1 - s) * a + s * c = (1 - t) * b + t * d) :
    (1 - s) / e1 * (d0 + e1) * d3 / (C * (d3 + e1)) * ((1 - d0 / (d0 + e1)) * a + d0 / (d0 + e1) * b) +
      s * (d3 + e2) / (C * (d3 + e1)) * ((1 - d3 / (d3 + e2)) * d + d3 / (d3 + e2) * c) =
      (1 - d3 / (d3 + e1)) * d + d3 / (d3 + e1) * b := by
  have q1 : 0 < d0 + e1 := by linarith
  have q2 : 0 < d3 + e2 := by linarith
  have q3 : 0 < d3 + e1 := by linarith
  have r1 : 1 - d0 / (d0 + e1) = e1 / (d0 + e1) := by field_simp; ring
  have r2 : 1 - d3 / (d3 + e2) = e2 / (d3 + e2) := by field_simp; ring
  have r3 : 1 - d3 / (d3 + e1) = e1 / (d3 + e1) := by field_simp; ring
  have G : (1 - s) * d3 * (e1 * a + d0 * b) + s * e1 * (e2 * d + d3 * c) = C * e1 * (e1 * d + d3 * b) := by
    linear_combination d3 * e1 * he - d3 * b * h1 - e1 * d * h2
  rw [r1, r2, r3]
  field_simp
  linear_combination G

/-- Two consecutive corners below. -/
lemma quad_ABBA {p : Plane K} {a b c d x y X : V3 K} (hq : DiagonalsCross a b c d) (ha : 0 < p.dist a)
    (hb : p.dist b < 0) (hc : p.dist c < 0) (hd : 0 < p.dist d) (hx : IsCut p a b x) (hy : IsCut p c d y) :
    (InQuad a b c d X ∧ p.dist X ≤ 0) ↔ InQuad x b c y X := by
  constructor
  · intro h
    -- the point where the diagonal `b d` crosses the plane
    have hbd : p.dist b - p.dist d ≠ 0 := by linarith
    set z : V3 K := (p.dist b - p.dist d)⁻¹ • (p.dist b • d - p.dist d • b) with hz
    have hcut : IsCut p b d z := by
      refine ⟨mul_neg_of_neg_of_pos hb hd, ?_⟩
      rw [hz, smul_smul, mul_inv_cancel₀ hbd, one_smul]
    have hzin : InQuad x b c y z := by
      obtain ⟨s, t, hs0, hs1, ht0, ht1, he⟩ := hq
      have hedist := congrArg p.dist he
      rw [Clipper.dist_comb p _ _ _ _ (by ring), Clipper.dist_comb p _ _ _ _ (by ring)] at hedist
      have ex := congrArg V3.x he
      have ey := congrArg V3.y he
      have ez := congrArg V3.z he
      simp only [V3.add_x, V3.add_y, V3.add_z, V3.smul_x, V3.smul_y, V3.smul_z] at ex ey ez
      obtain ⟨u, u0, u1, rfl, hu⟩ := hx.coef ha
      obtain ⟨v, v0, v1, rfl, hv⟩ := hy.symm.coef hd
      obtain ⟨w, w0, w1, hw', hw⟩ := hcut.symm.coef hd
      rw [hw']
      set d0 := p.dist a
      set d3 := p.dist d
      set e1 := -p.dist b with he1
      set e2 := -p.dist c with he2
      have hb' : p.dist b = -e1 := by rw [he1]; ring
      have hc' : p.dist c = -e2 := by rw [he2]; ring
      rw [hb'] at hb hu hw hedist
      rw [hc'] at hc hv hedist
      have p1 : 0 < e1 := by linarith
      have p2 : 0 < e2 := by linarith
      set C := (1 - s) * d0 / e1 + (1 - t) with hC
      have hs' : 0 ≤ 1 - s := by linarith
      have ht' : 0 ≤ 1 - t := by linarith
      have hCnn : 0 ≤ (1 - s) * d0 / e1 := by positivity
      have hCpos : 0 < C := by
        rcases eq_or_lt_of_le ht' with h | h
        · rcases eq_or_lt_of_le hs' with h2 | h2
          · exfalso
            have : t = 1 := by linarith
            have h3 : s = 1 := by linarith
            subst this h3
            linarith
          · have : 0 < (1 - s) * d0 / e1 := by positivity
            linarith
        · linarith
      have hCne : C ≠ 0 := hCpos.ne'
      -- `C x13 = ...`
      have hC2 : C * e1 = s * e2 + t * d3 := by
        rw [hC]; field_simp; linarith
      have hu' : u = d0 / (d0 + e1) := by field_simp; linarith
      have hv' : v = d3 / (d3 + e2) := by field_simp; linarith
      have hw'' : w = d3 / (d3 + e1) := by field_simp; linarith
      have q1 : 0 < d0 + e1 := by linarith
      have q2 : 0 < d3 + e2 := by linarith
      have q3 : 0 < d3 + e1 := by linarith
      have hC4 : C * e1 = (1 - s) * d0 + (1 - t) * e1 := by rw [hC]; field_simp
      refine ⟨(1 - s) / e1 * (d0 + e1) * d3 / (C * (d3 + e1)), 0, 0, s * (d3 + e2) / (C * (d3 + e1)),
        by positivity, le_refl _, le_refl _, by positivity, ?_, ?_⟩
      · field_simp
        linear_combination -d3 * hC4 - e1 * hC2
      · rw [hu', hv', hw'']
        have gx := scalar_ABBA ha hd p1 p2 hCpos hC4 hC2 ex
        have gy := scalar_ABBA ha hd p1 p2 hCpos hC4 hC2 ey
        have gz := scalar_ABBA ha hd p1 p2 hCpos hC4 hC2 ez
        ext <;> simp only [V3.add_x, V3.add_y, V3.add_z, V3.smul_x, V3.smul_y, V3.smul_z, zero_mul, add_zero]
        · exact gx.symm
        · exact gy.symm
        · exact gz.symm
    have hS := cvx_quad x b c y
    have hbz : InTri x b z X ∨ InQuad z b c y X → InQuad x b c y X := by
      rintro (h | h)
      · exact hS.tri (inQuad_a ..) (inQuad_b ..) hzin h
      · exact hS.quad hzin (inQuad_b ..) (inQuad_c ..) (inQuad_d ..) h
    rw [inQuad_split hq, or_and_right] at h
    apply hbz
    rcases h with ⟨h1, h2⟩ | ⟨h1, h2⟩
    · left
      have := (tri_BAA hb hd ha hcut hx.symm).1 ⟨inTri_rot.2 h1, h2⟩
      exact this
    · right
      have := (tri_ABB hd hb hc hcut.symm hy.symm).1 ⟨inTri_rot.2 (inTri_rot.2 h1), h2⟩
      exact this
  · intro h
    have hS := (cvx_quad a b c d).and (cvx_below p 0)
    exact hS.quad (hx.mem (cvx_quad a b c d) (inQuad_a ..) (inQuad_b ..) |> fun h => ⟨h, hx.dist.le⟩)
      ⟨inQuad_b .., hb.le⟩ ⟨inQuad_c .., hc.le⟩
      (hy.mem (cvx_quad a b c d) (inQuad_c ..) (inQuad_d ..) |> fun h => ⟨h, hy.dist.le⟩) h

end MM
