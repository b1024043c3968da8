import Verif.Proofs.ClipGeom

/-!
# The table of cases, geometrically

For corners strictly above or below the plane, the polygons of the table cover the part of the face below the
plane, with the orientation of the face.
-/

namespace MM
namespace Clipper

set_option linter.unusedSectionVars false
set_option linter.unusedSimpArgs false
set_option linter.unusedVariables false

variable {K : Type*} [Field K] [LinearOrder K] [IsStrictOrderedRing K]

lemma areaVec_rot (a b c : V3 K) : areaVec b c a = areaVec a b c := by
  ext <;> simp [areaVec, V3.cross] <;> ring

lemma quadArea_rot (a b c d : V3 K) : areaVec b c d + areaVec b d a = areaVec a b c + areaVec a c d := by
  ext <;> simp [areaVec, V3.cross] <;> ring

lemma _root_.MM.ConvexQuad.rot {a b c d : V3 K} (h : ConvexQuad a b c d) : ConvexQuad b c d a := by
  obtain ⟨n, α, β, γ, δ, hα, hβ, hγ, hδ, hs, hn, e1, e2, e3, e4⟩ := h
  obtain ⟨hsum, _⟩ := convex_weights hs hn e1 e2 e3 e4
  refine ⟨n, δ, γ, α, β, hδ, hγ, hα, hβ, by linarith, hn, e4, ?_, ?_, ?_⟩
  · rw [← e3]; ext <;> simp [areaVec, V3.cross] <;> ring
  · rw [← e1, areaVec_rot]
  · rw [← e2, areaVec_rot]

lemma _root_.MM.IsCut.coef' {p : Plane K} {a b x : V3 K} (h : IsCut p a b x) :
    ∃ t : K, 0 < t ∧ t < 1 ∧ x = (1 - t) • a + t • b := by
  rcases lt_trichotomy (p.dist a) 0 with h1 | h1 | h1
  · have h2 : 0 < p.dist b := by
      by_contra h2; push Not at h2
      have := mul_nonneg_of_nonpos_of_nonpos h1.le h2; linarith [h.1]
    obtain ⟨t, a1, a2, a3, _⟩ := h.symm.coef h2
    exact ⟨1 - t, by linarith, by linarith, by rw [a3, sub_sub_cancel, add_comm]⟩
  · have := h.1; rw [h1] at this; simp at this
  · obtain ⟨t, a1, a2, a3, _⟩ := h.coef h1
    exact ⟨t, a1, a2, a3⟩

/-! ## Orientation -/

lemma area_ABB {p : Plane K} {a b c x y : V3 K} (hx : IsCut p a b x) (hy : IsCut p a c y) :
    ∃ k : K, 0 ≤ k ∧ areaVec x b c + areaVec x c y = k • areaVec a b c := by
  obtain ⟨s, s0, s1, rfl⟩ := hx.coef'
  obtain ⟨t, t0, t1, rfl⟩ := hy.coef'
  refine ⟨1 - s * t, ?_, ?_⟩
  · have := mul_le_mul s1.le t1.le t0.le (by norm_num); linarith
  · ext <;> simp [areaVec, V3.cross] <;> ring

lemma area_BAA {p : Plane K} {a b c x y : V3 K} (hx : IsCut p a b x) (hy : IsCut p a c y) :
    ∃ k : K, 0 ≤ k ∧ areaVec y a x = k • areaVec a b c := by
  obtain ⟨s, s0, s1, rfl⟩ := hx.coef'
  obtain ⟨t, t0, t1, rfl⟩ := hy.coef'
  refine ⟨s * t, by positivity, ?_⟩
  ext <;> simp [areaVec, V3.cross] <;> ring

/-- The halves of a convex quadrangle. -/
lemma halves {a b c d : V3 K} (h : ConvexQuad a b c d) :
    (∃ k : K, 0 ≤ k ∧ areaVec a b d = k • (areaVec a b c + areaVec a c d)) ∧
    (∃ k : K, 0 ≤ k ∧ areaVec b c d = k • (areaVec a b c + areaVec a c d)) ∧
    (∃ k : K, 0 ≤ k ∧ areaVec a b c = k • (areaVec a b c + areaVec a c d)) := by
  obtain ⟨n, α, β, γ, δ, hα, hβ, hγ, hδ, hs, hn, e1, e2, e3, e4⟩ := h
  have hne := hs.ne'
  rw [e1, e2, e3, e4, ← add_smul]
  refine ⟨⟨γ / (α + β), by positivity, ?_⟩, ⟨δ / (α + β), by positivity, ?_⟩, ⟨α / (α + β), by positivity, ?_⟩⟩ <;>
  rw [smul_smul, div_mul_cancel₀ _ hne]

lemma scale {u v w : V3 K} (h1 : ∃ k : K, 0 ≤ k ∧ u = k • v) (h2 : ∃ k : K, 0 ≤ k ∧ v = k • w) :
    ∃ k : K, 0 ≤ k ∧ u = k • w := by
  obtain ⟨k, hk, rfl⟩ := h1
  obtain ⟨k', hk', rfl⟩ := h2
  exact ⟨k * k', by positivity, by rw [smul_smul]⟩

lemma area_ABBA {p : Plane K} {a b c d x y : V3 K} (h : ConvexQuad a b c d) (hx : IsCut p a b x) (hy : IsCut p c d y) :
    ∃ k : K, 0 ≤ k ∧ areaVec x b c + areaVec x c y = k • (areaVec a b c + areaVec a c d) := by
  obtain ⟨_, ⟨k2, hk2, e2⟩, ⟨k3, hk3, e3⟩⟩ := halves h
  obtain ⟨s, s0, s1, rfl⟩ := hx.coef'
  obtain ⟨t, t0, t1, rfl⟩ := hy.coef'
  have s1' : 0 < 1 - s := by linarith
  have t1' : 0 < 1 - t := by linarith
  refine ⟨(1 - s) * (1 - t) * k3 + (1 - s) * t + s * t * k2, by positivity, ?_⟩
  rw [add_smul, add_smul, mul_smul _ k3, mul_smul _ k2, ← e2, ← e3]
  ext <;> simp [areaVec, V3.cross] <;> ring

/-! ## The table -/

/-- Point of a reference: `P` gives the corners, `N` the new points. -/
def pt (P N : ℕ → V3 K) : Ref → V3 K
  | .old k => P k
  | .new j => N j

/-- Points of a polygon of the table. -/
def InRefs (P N : ℕ → V3 K) : List Ref → V3 K → Prop
  | [a, b, c, d], X => if a = d then InTri (pt P N a) (pt P N b) (pt P N c) X
      else InQuad (pt P N a) (pt P N b) (pt P N c) (pt P N d) X
  | _, _ => False

/-- Area vector of a polygon of the table. -/
def refsArea (P N : ℕ → V3 K) : List Ref → V3 K
  | [a, b, c, d] => if a = d then areaVec (pt P N a) (pt P N b) (pt P N c)
      else areaVec (pt P N a) (pt P N b) (pt P N c) + areaVec (pt P N a) (pt P N c) (pt P N d)
  | _ => 0

/-- The new points are the points cut on the edges of the plan. -/
def CutsOk (p : Plane K) (P N : ℕ → V3 K) (q : Plan) : Prop :=
  ∀ j ij, q.cuts[j]? = some ij → IsCut p (P ij.1) (P ij.2) (N j)

/-- Side of a corner. -/
def Side (p : Plane K) (c : Cls) (v : V3 K) : Prop := (c = .A ∧ 0 < p.dist v) ∨ (c = .B ∧ p.dist v < 0)

theorem tri_table {p : Plane K} {P N : ℕ → V3 K} {c0 c1 c2 : Cls} {q : Plan} (h0 : Side p c0 (P 0))
    (h1 : Side p c1 (P 1)) (h2 : Side p c2 (P 2)) (hq : plan [c0, c1, c2] = .ok q) (hN : CutsOk p P N q) :
    (∀ X, (InTri (P 0) (P 1) (P 2) X ∧ p.dist X ≤ 0) ↔ ∃ l ∈ q.faces, InRefs P N l X) ∧
    ∀ l ∈ q.faces, ∃ k : K, 0 ≤ k ∧ refsArea P N l = k • areaVec (P 0) (P 1) (P 2) := by
  rcases h0 with ⟨rfl, h0⟩ | ⟨rfl, h0⟩ <;> rcases h1 with ⟨rfl, h1⟩ | ⟨rfl, h1⟩ <;> rcases h2 with ⟨rfl, h2⟩ | ⟨rfl, h2⟩
  · rw [show plan [.A, .A, .A] = .ok ⟨[], [], none⟩ by decide] at hq
    cases hq
    refine ⟨fun X => ?_, by simp⟩
    constructor
    · rintro ⟨h3, h4⟩; have := tri_above h0 h1 h2 h3; linarith
    · simp
  · rw [show plan [.A, .A, .B] = .ok ⟨[[.new 0, .old 2, .new 1, .new 0]], [(2, 1), (2, 0)], some (.new 0, .new 1)⟩ by decide] at hq
    cases hq
    have k0 := hN 0 _ rfl
    have k1 := hN 1 _ rfl
    refine ⟨fun X => ?_, ?_⟩
    · simp only [List.mem_cons, List.not_mem_nil, or_false, exists_eq_left, exists_eq_or_imp, InRefs, pt, if_true, reduceCtorEq, Ref.new.injEq, zero_ne_one, if_false]
      rw [← inTri_rot, ← inTri_rot]
      exact tri_BAA h2 h0 h1 k1 k0
    · intro l hl
      simp only [List.mem_cons, List.not_mem_nil, or_false] at hl
      rw [← areaVec_rot, ← areaVec_rot]
      subst hl
      simpa [refsArea, pt] using area_BAA k1 k0
  · rw [show plan [.A, .B, .A] = .ok ⟨[[.new 0, .old 1, .new 1, .new 0]], [(1, 0), (1, 2)], some (.new 0, .new 1)⟩ by decide] at hq
    cases hq
    have k0 := hN 0 _ rfl
    have k1 := hN 1 _ rfl
    refine ⟨fun X => ?_, ?_⟩
    · simp only [List.mem_cons, List.not_mem_nil, or_false, exists_eq_left, exists_eq_or_imp, InRefs, pt, if_true, reduceCtorEq, Ref.new.injEq, zero_ne_one, if_false]
      rw [← inTri_rot]
      exact tri_BAA h1 h2 h0 k1 k0
    · intro l hl
      simp only [List.mem_cons, List.not_mem_nil, or_false] at hl
      rw [← areaVec_rot]
      subst hl
      simpa [refsArea, pt] using area_BAA k1 k0
  · rw [show plan [.A, .B, .B] = .ok ⟨[[.new 0, .old 1, .old 2, .new 1]], [(0, 1), (0, 2)], some (.new 0, .new 1)⟩ by decide] at hq
    cases hq
    have k0 := hN 0 _ rfl
    have k1 := hN 1 _ rfl
    refine ⟨fun X => ?_, ?_⟩
    · simp only [List.mem_cons, List.not_mem_nil, or_false, exists_eq_left, exists_eq_or_imp, InRefs, pt, if_true, reduceCtorEq, Ref.new.injEq, zero_ne_one, if_false]
      exact tri_ABB h0 h1 h2 k0 k1
    · intro l hl
      simp only [List.mem_cons, List.not_mem_nil, or_false] at hl
      subst hl
      simpa [refsArea, pt] using area_ABB k0 k1
  · rw [show plan [.B, .A, .A] = .ok ⟨[[.new 0, .old 0, .new 1, .new 0]], [(0, 2), (0, 1)], some (.new 0, .new 1)⟩ by decide] at hq
    cases hq
    have k0 := hN 0 _ rfl
    have k1 := hN 1 _ rfl
    refine ⟨fun X => ?_, ?_⟩
    · simp only [List.mem_cons, List.not_mem_nil, or_false, exists_eq_left, exists_eq_or_imp, InRefs, pt, if_true, reduceCtorEq, Ref.new.injEq, zero_ne_one, if_false]
      exact tri_BAA h0 h1 h2 k1 k0
    · intro l hl
      simp only [List.mem_cons, List.not_mem_nil, or_false] at hl
      subst hl
      simpa [refsArea, pt] using area_BAA k1 k0
  · rw [show plan [.B, .A, .B] = .ok ⟨[[.new 0, .old 2, .old 0, .new 1]], [(1, 2), (1, 0)], some (.new 0, .new 1)⟩ by decide] at hq
    cases hq
    have k0 := hN 0 _ rfl
    have k1 := hN 1 _ rfl
    refine ⟨fun X => ?_, ?_⟩
    · simp only [List.mem_cons, List.not_mem_nil, or_false, exists_eq_left, exists_eq_or_imp, InRefs, pt, if_true, reduceCtorEq, Ref.new.injEq, zero_ne_one, if_false]
      rw [← inTri_rot]
      exact tri_ABB h1 h2 h0 k0 k1
    · intro l hl
      simp only [List.mem_cons, List.not_mem_nil, or_false] at hl
      rw [← areaVec_rot]
      subst hl
      simpa [refsArea, pt] using area_ABB k0 k1
  · rw [show plan [.B, .B, .A] = .ok ⟨[[.new 0, .old 0, .old 1, .new 1]], [(2, 0), (2, 1)], some (.new 0, .new 1)⟩ by decide] at hq
    cases hq
    have k0 := hN 0 _ rfl
    have k1 := hN 1 _ rfl
    refine ⟨fun X => ?_, ?_⟩
    · simp only [List.mem_cons, List.not_mem_nil, or_false, exists_eq_left, exists_eq_or_imp, InRefs, pt, if_true, reduceCtorEq, Ref.new.injEq, zero_ne_one, if_false]
      rw [← inTri_rot, ← inTri_rot]
      exact tri_ABB h2 h0 h1 k0 k1
    · intro l hl
      simp only [List.mem_cons, List.not_mem_nil, or_false] at hl
      rw [← areaVec_rot, ← areaVec_rot]
      subst hl
      simpa [refsArea, pt] using area_ABB k0 k1
  · rw [show plan [.B, .B, .B] = .ok ⟨[[.old 0, .old 1, .old 2, .old 0]], [], none⟩ by decide] at hq
    cases hq
    refine ⟨fun X => ?_, ?_⟩
    · simp only [List.mem_singleton, exists_eq_left, InRefs, pt, if_true, reduceCtorEq, Ref.old.injEq, OfNat.zero_ne_ofNat, if_false]
      exact ⟨fun h => h.1, fun h => ⟨h, (cvx_below p 0).tri h0.le h1.le h2.le h⟩⟩
    · intro l hl
      rw [List.mem_singleton] at hl; subst hl
      exact ⟨1, by norm_num, by simp [refsArea, pt]⟩

lemma alt_absurd {s t d0 d1 d2 d3 : K} (s0 : 0 ≤ s) (s1 : s ≤ 1) (t0 : 0 ≤ t) (t1 : t ≤ 1) (h0 : 0 < d0) (h2 : 0 < d2)
    (h1 : d1 < 0) (h3 : d3 < 0) : ¬ ((1 - s) * d0 + s * d2 = (1 - t) * d1 + t * d3) := by
  intro h
  have a1 : 0 ≤ (1 - s) * d0 := mul_nonneg (by linarith) h0.le
  have a2 : 0 ≤ s * d2 := by positivity
  have a3 : (1 - t) * d1 ≤ 0 := mul_nonpos_of_nonneg_of_nonpos (by linarith) h1.le
  have a4 : t * d3 ≤ 0 := mul_nonpos_of_nonneg_of_nonpos t0 h3.le
  have b1 : (1 - s) * d0 = 0 := by linarith
  have b2 : s * d2 = 0 := by linarith
  have c1 : 1 - s = 0 := (mul_eq_zero.1 b1).resolve_right h0.ne'
  have c2 : s = 0 := (mul_eq_zero.1 b2).resolve_right h2.ne'
  linarith

lemma alt_absurd' {s t d0 d1 d2 d3 : K} (s0 : 0 ≤ s) (s1 : s ≤ 1) (t0 : 0 ≤ t) (t1 : t ≤ 1) (h0 : d0 < 0) (h2 : d2 < 0)
    (h1 : 0 < d1) (h3 : 0 < d3) : ¬ ((1 - s) * d0 + s * d2 = (1 - t) * d1 + t * d3) :=
  fun h => alt_absurd t0 t1 s0 s1 h1 h3 h0 h2 h.symm

theorem quad_table {p : Plane K} {P N : ℕ → V3 K} {c0 c1 c2 c3 : Cls} {q : Plan} (h0 : Side p c0 (P 0))
    (h1 : Side p c1 (P 1)) (h2 : Side p c2 (P 2)) (h3 : Side p c3 (P 3)) (hc : ConvexQuad (P 0) (P 1) (P 2) (P 3))
    (hq : plan [c0, c1, c2, c3] = .ok q) (hN : CutsOk p P N q) :
    (∀ X, (InQuad (P 0) (P 1) (P 2) (P 3) X ∧ p.dist X ≤ 0) ↔ ∃ l ∈ q.faces, InRefs P N l X) ∧
    ∀ l ∈ q.faces, ∃ k : K, 0 ≤ k ∧
      refsArea P N l = k • (areaVec (P 0) (P 1) (P 2) + areaVec (P 0) (P 2) (P 3)) := by
  rcases h0 with ⟨rfl, h0⟩ | ⟨rfl, h0⟩ <;> rcases h1 with ⟨rfl, h1⟩ | ⟨rfl, h1⟩ <;>
    rcases h2 with ⟨rfl, h2⟩ | ⟨rfl, h2⟩ <;> rcases h3 with ⟨rfl, h3⟩ | ⟨rfl, h3⟩
  · rw [show plan [.A, .A, .A, .A] = .ok ⟨[], [], none⟩ by decide] at hq
    cases hq
    refine ⟨fun X => ?_, by simp⟩
    constructor
    · rintro ⟨h4, h5⟩
      rcases (inQuad_split hc.diagonalsCross).1 h4 with h4 | h4
      · have := tri_above h0 h1 h3 h4; linarith
      · have := tri_above h1 h2 h3 h4; linarith
    · simp
  · rw [show plan [.A, .A, .A, .B] = .ok ⟨[[.new 0, .old 3, .new 1, .new 0]], [(3, 2), (3, 0)], some (.new 0, .new 1)⟩ by decide] at hq
    cases hq
    have k0 := hN 0 _ rfl
    have k1 := hN 1 _ rfl
    have hc' := hc.rot.rot.rot
    refine ⟨fun X => ?_, ?_⟩
    · simp only [List.mem_cons, List.not_mem_nil, or_false, exists_eq_left, exists_eq_or_imp, InRefs, pt, if_true, reduceCtorEq, Ref.new.injEq, zero_ne_one, if_false]
      rw [← inQuad_rot, ← inQuad_rot, ← inQuad_rot]
      exact quad_BAAA hc'.diagonalsCross h3 h0 h1 h2 k1 k0
    · intro l hl
      simp only [List.mem_cons, List.not_mem_nil, or_false] at hl
      rw [← quadArea_rot, ← quadArea_rot, ← quadArea_rot]
      subst hl
      simpa [refsArea, pt] using scale (area_BAA k1 k0) (halves hc').1
  · rw [show plan [.A, .A, .B, .A] = .ok ⟨[[.new 0, .old 2, .new 1, .new 0]], [(2, 1), (2, 3)], some (.new 0, .new 1)⟩ by decide] at hq
    cases hq
    have k0 := hN 0 _ rfl
    have k1 := hN 1 _ rfl
    have hc' := hc.rot.rot
    refine ⟨fun X => ?_, ?_⟩
    · simp only [List.mem_cons, List.not_mem_nil, or_false, exists_eq_left, exists_eq_or_imp, InRefs, pt, if_true, reduceCtorEq, Ref.new.injEq, zero_ne_one, if_false]
      rw [← inQuad_rot, ← inQuad_rot]
      exact quad_BAAA hc'.diagonalsCross h2 h3 h0 h1 k1 k0
    · intro l hl
      simp only [List.mem_cons, List.not_mem_nil, or_false] at hl
      rw [← quadArea_rot, ← quadArea_rot]
      subst hl
      simpa [refsArea, pt] using scale (area_BAA k1 k0) (halves hc').1
  · rw [show plan [.A, .A, .B, .B] = .ok ⟨[[.new 0, .old 2, .old 3, .new 1]], [(1, 2), (3, 0)], some (.new 0, .new 1)⟩ by decide] at hq
    cases hq
    have k0 := hN 0 _ rfl
    have k1 := hN 1 _ rfl
    have hc' := hc.rot
    refine ⟨fun X => ?_, ?_⟩
    · simp only [List.mem_cons, List.not_mem_nil, or_false, exists_eq_left, exists_eq_or_imp, InRefs, pt, if_true, reduceCtorEq, Ref.new.injEq, zero_ne_one, if_false]
      rw [← inQuad_rot]
      exact quad_ABBA hc'.diagonalsCross h1 h2 h3 h0 k0 k1
    · intro l hl
      simp only [List.mem_cons, List.not_mem_nil, or_false] at hl
      rw [← quadArea_rot]
      subst hl
      simpa [refsArea, pt] using area_ABBA hc' k0 k1
  · rw [show plan [.A, .B, .A, .A] = .ok ⟨[[.new 0, .old 1, .new 1, .new 0]], [(1, 0), (1, 2)], some (.new 0, .new 1)⟩ by decide] at hq
    cases hq
    have k0 := hN 0 _ rfl
    have k1 := hN 1 _ rfl
    have hc' := hc.rot
    refine ⟨fun X => ?_, ?_⟩
    · simp only [List.mem_cons, List.not_mem_nil, or_false, exists_eq_left, exists_eq_or_imp, InRefs, pt, if_true, reduceCtorEq, Ref.new.injEq, zero_ne_one, if_false]
      rw [← inQuad_rot]
      exact quad_BAAA hc'.diagonalsCross h1 h2 h3 h0 k1 k0
    · intro l hl
      simp only [List.mem_cons, List.not_mem_nil, or_false] at hl
      rw [← quadArea_rot]
      subst hl
      simpa [refsArea, pt] using scale (area_BAA k1 k0) (halves hc').1
  · exfalso
    obtain ⟨s, t, s0, s1, t0, t1, he⟩ := hc.diagonalsCross
    have := congrArg p.dist he
    rw [dist_comb p _ _ _ _ (by ring), dist_comb p _ _ _ _ (by ring)] at this
    exact absurd this (alt_absurd s0 s1 t0 t1 h0 h2 h1 h3)
  · rw [show plan [.A, .B, .B, .A] = .ok ⟨[[.new 0, .old 1, .old 2, .new 1]], [(0, 1), (2, 3)], some (.new 0, .new 1)⟩ by decide] at hq
    cases hq
    have k0 := hN 0 _ rfl
    have k1 := hN 1 _ rfl
    have hc' := hc
    refine ⟨fun X => ?_, ?_⟩
    · simp only [List.mem_cons, List.not_mem_nil, or_false, exists_eq_left, exists_eq_or_imp, InRefs, pt, if_true, reduceCtorEq, Ref.new.injEq, zero_ne_one, if_false]
      exact quad_ABBA hc'.diagonalsCross h0 h1 h2 h3 k0 k1
    · intro l hl
      simp only [List.mem_cons, List.not_mem_nil, or_false] at hl
      subst hl
      simpa [refsArea, pt] using area_ABBA hc' k0 k1
  · rw [show plan [.A, .B, .B, .B] = .ok ⟨[[.new 0, .old 1, .old 3, .new 1], [.old 1, .old 2, .old 3, .old 1]], [(0, 1), (0, 3)], some (.new 0, .new 1)⟩ by decide] at hq
    cases hq
    have k0 := hN 0 _ rfl
    have k1 := hN 1 _ rfl
    have hc' := hc
    refine ⟨fun X => ?_, ?_⟩
    · simp only [List.mem_cons, List.not_mem_nil, or_false, exists_eq_left, exists_eq_or_imp, InRefs, pt, if_true, reduceCtorEq, Ref.new.injEq, zero_ne_one, if_false]
      exact quad_ABBB hc'.diagonalsCross h0 h1 h2 h3 k0 k1
    · intro l hl
      simp only [List.mem_cons, List.not_mem_nil, or_false] at hl
      rcases hl with rfl | rfl
      · simpa [refsArea, pt] using scale (area_ABB k0 k1) (halves hc').1
      · simpa [refsArea, pt] using (halves hc').2.1
  · rw [show plan [.B, .A, .A, .A] = .ok ⟨[[.new 0, .old 0, .new 1, .new 0]], [(0, 3), (0, 1)], some (.new 0, .new 1)⟩ by decide] at hq
    cases hq
    have k0 := hN 0 _ rfl
    have k1 := hN 1 _ rfl
    have hc' := hc
    refine ⟨fun X => ?_, ?_⟩
    · simp only [List.mem_cons, List.not_mem_nil, or_false, exists_eq_left, exists_eq_or_imp, InRefs, pt, if_true, reduceCtorEq, Ref.new.injEq, zero_ne_one, if_false]
      exact quad_BAAA hc'.diagonalsCross h0 h1 h2 h3 k1 k0
    · intro l hl
      simp only [List.mem_cons, List.not_mem_nil, or_false] at hl
      subst hl
      simpa [refsArea, pt] using scale (area_BAA k1 k0) (halves hc').1
  · rw [show plan [.B, .A, .A, .B] = .ok ⟨[[.new 0, .old 3, .old 0, .new 1]], [(2, 3), (0, 1)], some (.new 0, .new 1)⟩ by decide] at hq
    cases hq
    have k0 := hN 0 _ rfl
    have k1 := hN 1 _ rfl
    have hc' := hc.rot.rot
    refine ⟨fun X => ?_, ?_⟩
    · simp only [List.mem_cons, List.not_mem_nil, or_false, exists_eq_left, exists_eq_or_imp, InRefs, pt, if_true, reduceCtorEq, Ref.new.injEq, zero_ne_one, if_false]
      rw [← inQuad_rot, ← inQuad_rot]
      exact quad_ABBA hc'.diagonalsCross h2 h3 h0 h1 k0 k1
    · intro l hl
      simp only [List.mem_cons, List.not_mem_nil, or_false] at hl
      rw [← quadArea_rot, ← quadArea_rot]
      subst hl
      simpa [refsArea, pt] using area_ABBA hc' k0 k1
  · exfalso
    obtain ⟨s, t, s0, s1, t0, t1, he⟩ := hc.diagonalsCross
    have := congrArg p.dist he
    rw [dist_comb p _ _ _ _ (by ring), dist_comb p _ _ _ _ (by ring)] at this
    exact absurd this (alt_absurd' s0 s1 t0 t1 h0 h2 h1 h3)
  · rw [show plan [.B, .A, .B, .B] = .ok ⟨[[.new 0, .old 2, .old 0, .new 1], [.old 2, .old 3, .old 0, .old 2]], [(1, 2), (1, 0)], some (.new 0, .new 1)⟩ by decide] at hq
    cases hq
    have k0 := hN 0 _ rfl
    have k1 := hN 1 _ rfl
    have hc' := hc.rot
    refine ⟨fun X => ?_, ?_⟩
    · simp only [List.mem_cons, List.not_mem_nil, or_false, exists_eq_left, exists_eq_or_imp, InRefs, pt, if_true, reduceCtorEq, Ref.new.injEq, zero_ne_one, if_false]
      rw [← inQuad_rot]
      exact quad_ABBB hc'.diagonalsCross h1 h2 h3 h0 k0 k1
    · intro l hl
      simp only [List.mem_cons, List.not_mem_nil, or_false] at hl
      rw [← quadArea_rot]
      rcases hl with rfl | rfl
      · simpa [refsArea, pt] using scale (area_ABB k0 k1) (halves hc').1
      · simpa [refsArea, pt] using (halves hc').2.1
  · rw [show plan [.B, .B, .A, .A] = .ok ⟨[[.new 0, .old 0, .old 1, .new 1]], [(3, 0), (1, 2)], some (.new 0, .new 1)⟩ by decide] at hq
    cases hq
    have k0 := hN 0 _ rfl
    have k1 := hN 1 _ rfl
    have hc' := hc.rot.rot.rot
    refine ⟨fun X => ?_, ?_⟩
    · simp only [List.mem_cons, List.not_mem_nil, or_false, exists_eq_left, exists_eq_or_imp, InRefs, pt, if_true, reduceCtorEq, Ref.new.injEq, zero_ne_one, if_false]
      rw [← inQuad_rot, ← inQuad_rot, ← inQuad_rot]
      exact quad_ABBA hc'.diagonalsCross h3 h0 h1 h2 k0 k1
    · intro l hl
      simp only [List.mem_cons, List.not_mem_nil, or_false] at hl
      rw [← quadArea_rot, ← quadArea_rot, ← quadArea_rot]
      subst hl
      simpa [refsArea, pt] using area_ABBA hc' k0 k1
  · rw [show plan [.B, .B, .A, .B] = .ok ⟨[[.new 0, .old 3, .old 1, .new 1], [.old 3, .old 0, .old 1, .old 3]], [(2, 3), (2, 1)], some (.new 0, .new 1)⟩ by decide] at hq
    cases hq
    have k0 := hN 0 _ rfl
    have k1 := hN 1 _ rfl
    have hc' := hc.rot.rot
    refine ⟨fun X => ?_, ?_⟩
    · simp only [List.mem_cons, List.not_mem_nil, or_false, exists_eq_left, exists_eq_or_imp, InRefs, pt, if_true, reduceCtorEq, Ref.new.injEq, zero_ne_one, if_false]
      rw [← inQuad_rot, ← inQuad_rot]
      exact quad_ABBB hc'.diagonalsCross h2 h3 h0 h1 k0 k1
    · intro l hl
      simp only [List.mem_cons, List.not_mem_nil, or_false] at hl
      rw [← quadArea_rot, ← quadArea_rot]
      rcases hl with rfl | rfl
      · simpa [refsArea, pt] using scale (area_ABB k0 k1) (halves hc').1
      · simpa [refsArea, pt] using (halves hc').2.1
  · rw [show plan [.B, .B, .B, .A] = .ok ⟨[[.new 0, .old 0, .old 2, .new 1], [.old 0, .old 1, .old 2, .old 0]], [(3, 0), (3, 2)], some (.new 0, .new 1)⟩ by decide] at hq
    cases hq
    have k0 := hN 0 _ rfl
    have k1 := hN 1 _ rfl
    have hc' := hc.rot.rot.rot
    refine ⟨fun X => ?_, ?_⟩
    · simp only [List.mem_cons, List.not_mem_nil, or_false, exists_eq_left, exists_eq_or_imp, InRefs, pt, if_true, reduceCtorEq, Ref.new.injEq, zero_ne_one, if_false]
      rw [← inQuad_rot, ← inQuad_rot, ← inQuad_rot]
      exact quad_ABBB hc'.diagonalsCross h3 h0 h1 h2 k0 k1
    · intro l hl
      simp only [List.mem_cons, List.not_mem_nil, or_false] at hl
      rw [← quadArea_rot, ← quadArea_rot, ← quadArea_rot]
      rcases hl with rfl | rfl
      · simpa [refsArea, pt] using scale (area_ABB k0 k1) (halves hc').1
      · simpa [refsArea, pt] using (halves hc').2.1
  · rw [show plan [.B, .B, .B, .B] = .ok ⟨[[.old 0, .old 1, .old 2, .old 3]], [], none⟩ by decide] at hq
    cases hq
    refine ⟨fun X => ?_, ?_⟩
    · simp only [List.mem_singleton, exists_eq_left, InRefs, pt, if_true, reduceCtorEq, Ref.old.injEq, OfNat.zero_ne_ofNat, if_false]
      exact ⟨fun h => h.1, fun h => ⟨h, (cvx_below p 0).quad h0.le h1.le h2.le h3.le h⟩⟩
    · intro l hl
      rw [List.mem_singleton] at hl; subst hl
      exact ⟨1, by norm_num, by simp [refsArea, pt]⟩

end Clipper
end MM
