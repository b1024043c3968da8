import Verif.Proofs.ClipChain
import Verif.Proofs.FaceProps

/-!
# The polygons of the table are convex

The corners of the polygons are on the boundary of the face, in the order of the boundary.
-/

namespace MM
namespace Clipper

set_option linter.unusedSectionVars false
set_option linter.unusedSimpArgs false
set_option linter.unusedVariables false

variable {K : Type*} [Field K] [LinearOrder K] [IsStrictOrderedRing K]

/-! ## The table -/

/-- Three corners are in the order of the boundary: `1`, or two of them are the same: `0`. -/
def sgn (i j k : ℕ) : ℤ :=
  if i = j ∨ j = k ∨ k = i then 0
  else if (i < j ∧ j < k) ∨ (j < k ∧ k < i) ∨ (k < i ∧ i < j) then 1 else -1

/-- The two ends of the edge a point is on. -/
def supp (q : Plan) : Ref → ℕ × ℕ
  | .old k => (k, k)
  | .new j => q.cuts.getD j (0, 0)

def pick (e : ℕ × ℕ) (b : Bool) : ℕ := if b then e.2 else e.1

def bools3 : List (Bool × Bool × Bool) :=
  [(false, false, false), (false, false, true), (false, true, false), (false, true, true),
   (true, false, false), (true, false, true), (true, true, false), (true, true, true)]

/-- The points are in the order of the boundary, and not on the same edge. -/
def posTriple (q : Plan) (a b c : Ref) : Bool :=
  bools3.all (fun x => decide (0 ≤ sgn (pick (supp q a) x.1) (pick (supp q b) x.2.1) (pick (supp q c) x.2.2))) &&
  bools3.any (fun x => decide (sgn (pick (supp q a) x.1) (pick (supp q b) x.2.1) (pick (supp q c) x.2.2) = 1))

def convexRefs (q : Plan) : List Ref → Bool
  | [a, b, c, d] =>
    if a = d then posTriple q a b c
    else posTriple q a b c && posTriple q a c d && posTriple q a b d && posTriple q b c d
  | _ => false

theorem table_convex : ∀ c ∈ lists3 ++ lists4, c.any Cls.isBad = false → altern c = false →
    (plan c).check (fun q => q.faces.all (convexRefs q)) = true := by decide +kernel

/-! ## Orientation -/

lemma area_rot (a b c : V3 K) : areaVec b c a = areaVec a b c := by
  ext <;> simp [areaVec, V3.cross] <;> ring

lemma area_eq_zero {a b c : V3 K} (h : a = b ∨ b = c ∨ c = a) : areaVec a b c = 0 := by
  rcases h with rfl | rfl | rfl <;> (ext <;> simp [areaVec, V3.cross]) <;> ring

/-- The corners are in the order of the boundary of a strictly convex polygon with normal `n`. -/
def Oriented (P : ℕ → V3 K) (len : ℕ) (n : V3 K) : Prop :=
  ∀ i j k, i < j → j < k → k < len → ∃ s : K, 0 < s ∧ areaVec (P i) (P j) (P k) = s • n

lemma oriented_sgn {P : ℕ → V3 K} {len : ℕ} {n : V3 K} (h : Oriented P len n) {i j k : ℕ} (hi : i < len) (hj : j < len)
    (hk : k < len) (h0 : 0 ≤ sgn i j k) :
    ∃ s : K, 0 ≤ s ∧ areaVec (P i) (P j) (P k) = s • n ∧ (sgn i j k = 1 → 0 < s) := by
  unfold sgn at h0 ⊢
  by_cases h1 : i = j ∨ j = k ∨ k = i
  · rw [if_pos h1]
    refine ⟨0, le_rfl, ?_, by norm_num⟩
    rw [zero_smul]
    apply area_eq_zero
    rcases h1 with rfl | rfl | rfl <;> simp
  · rw [if_neg h1] at h0 ⊢
    by_cases h2 : (i < j ∧ j < k) ∨ (j < k ∧ k < i) ∨ (k < i ∧ i < j)
    · rw [if_pos h2]
      obtain ⟨s, hs, e⟩ : ∃ s : K, 0 < s ∧ areaVec (P i) (P j) (P k) = s • n := by
        rcases h2 with ⟨a, b⟩ | ⟨a, b⟩ | ⟨a, b⟩
        · exact h i j k a b hk
        · rw [← area_rot]; exact h j k i a b hi
        · rw [← area_rot, ← area_rot]; exact h k i j a b hj
      exact ⟨s, hs.le, e, fun _ => hs⟩
    · rw [if_neg h2] at h0; norm_num at h0

/-- The area vector of three points on edges. -/
lemma area_expand (a a' b b' c c' : V3 K) (s t u : K) :
    areaVec ((1 - s) • a + s • a') ((1 - t) • b + t • b') ((1 - u) • c + u • c') =
      ((1 - s) * (1 - t) * (1 - u)) • areaVec a b c + ((1 - s) * (1 - t) * u) • areaVec a b c' +
      ((1 - s) * t * (1 - u)) • areaVec a b' c + ((1 - s) * t * u) • areaVec a b' c' +
      (s * (1 - t) * (1 - u)) • areaVec a' b c + (s * (1 - t) * u) • areaVec a' b c' +
      (s * t * (1 - u)) • areaVec a' b' c + (s * t * u) • areaVec a' b' c' := by
  ext <;> simp [areaVec, V3.cross] <;> ring

/-- A point on an edge, not at its ends. -/
def OnEdge (P : ℕ → V3 K) (e : ℕ × ℕ) (x : V3 K) : Prop :=
  ∃ t : K, 0 < t ∧ t < 1 ∧ x = (1 - t) • P e.1 + t • P e.2

lemma onEdge_area {P : ℕ → V3 K} {len : ℕ} {n : V3 K} (h : Oriented P len n) {ea eb ec : ℕ × ℕ}
    (ha : ea.1 < len ∧ ea.2 < len) (hb : eb.1 < len ∧ eb.2 < len) (hc : ec.1 < len ∧ ec.2 < len) {x y z : V3 K}
    (hx : OnEdge P ea x) (hy : OnEdge P eb y) (hz : OnEdge P ec z)
    (h1 : ∀ w ∈ bools3, 0 ≤ sgn (pick ea w.1) (pick eb w.2.1) (pick ec w.2.2))
    (h2 : ∃ w ∈ bools3, sgn (pick ea w.1) (pick eb w.2.1) (pick ec w.2.2) = 1) :
    ∃ s : K, 0 < s ∧ areaVec x y z = s • n := by
  obtain ⟨s, s0, s1, rfl⟩ := hx
  obtain ⟨t, t0, t1, rfl⟩ := hy
  obtain ⟨u, u0, u1, rfl⟩ := hz
  have s1' : 0 < 1 - s := by linarith
  have t1' : 0 < 1 - t := by linarith
  have u1' : 0 < 1 - u := by linarith
  have g : ∀ w ∈ bools3, ∃ s : K, 0 ≤ s ∧ areaVec (P (pick ea w.1)) (P (pick eb w.2.1)) (P (pick ec w.2.2)) = s • n ∧
      (sgn (pick ea w.1) (pick eb w.2.1) (pick ec w.2.2) = 1 → 0 < s) := by
    intro w hw
    apply oriented_sgn h _ _ _ (h1 w hw)
    · unfold pick; split_ifs; exacts [ha.2, ha.1]
    · unfold pick; split_ifs; exacts [hb.2, hb.1]
    · unfold pick; split_ifs; exacts [hc.2, hc.1]
  choose! S S0 S1 S2 using g
  have m1 : (false, false, false) ∈ bools3 := by decide
  have m2 : (false, false, true) ∈ bools3 := by decide
  have m3 : (false, true, false) ∈ bools3 := by decide
  have m4 : (false, true, true) ∈ bools3 := by decide
  have m5 : (true, false, false) ∈ bools3 := by decide
  have m6 : (true, false, true) ∈ bools3 := by decide
  have m7 : (true, true, false) ∈ bools3 := by decide
  have m8 : (true, true, true) ∈ bools3 := by decide
  have A1 := S1 _ m1
  have A2 := S1 _ m2
  have A3 := S1 _ m3
  have A4 := S1 _ m4
  have A5 := S1 _ m5
  have A6 := S1 _ m6
  have A7 := S1 _ m7
  have A8 := S1 _ m8
  simp only [pick, if_true, if_false, Bool.false_eq_true] at A1 A2 A3 A4 A5 A6 A7 A8
  have W : ∀ c : K, 0 < c → ∀ w ∈ bools3, 0 ≤ c * S w := fun c hc w hw => mul_nonneg hc.le (S0 w hw)
  have c1 : 0 < (1 - s) * (1 - t) * (1 - u) := by positivity
  have c2 : 0 < (1 - s) * (1 - t) * u := by positivity
  have c3 : 0 < (1 - s) * t * (1 - u) := by positivity
  have c4 : 0 < (1 - s) * t * u := by positivity
  have c5 : 0 < s * (1 - t) * (1 - u) := by positivity
  have c6 : 0 < s * (1 - t) * u := by positivity
  have c7 : 0 < s * t * (1 - u) := by positivity
  have c8 : 0 < s * t * u := by positivity
  refine ⟨((1 - s) * (1 - t) * (1 - u)) * S (false, false, false) + ((1 - s) * (1 - t) * u) * S (false, false, true) +
      ((1 - s) * t * (1 - u)) * S (false, true, false) + ((1 - s) * t * u) * S (false, true, true) +
      (s * (1 - t) * (1 - u)) * S (true, false, false) + (s * (1 - t) * u) * S (true, false, true) +
      (s * t * (1 - u)) * S (true, true, false) + (s * t * u) * S (true, true, true), ?_, ?_⟩
  · have d1 := W _ c1 _ m1
    have d2 := W _ c2 _ m2
    have d3 := W _ c3 _ m3
    have d4 := W _ c4 _ m4
    have d5 := W _ c5 _ m5
    have d6 := W _ c6 _ m6
    have d7 := W _ c7 _ m7
    have d8 := W _ c8 _ m8
    obtain ⟨w, hw, hs⟩ := h2
    have hS := S2 w hw hs
    simp only [bools3, List.mem_cons, List.not_mem_nil, or_false] at hw
    rcases hw with rfl | rfl | rfl | rfl | rfl | rfl | rfl | rfl
    · have := mul_pos c1 hS; linarith
    · have := mul_pos c2 hS; linarith
    · have := mul_pos c3 hS; linarith
    · have := mul_pos c4 hS; linarith
    · have := mul_pos c5 hS; linarith
    · have := mul_pos c6 hS; linarith
    · have := mul_pos c7 hS; linarith
    · have := mul_pos c8 hS; linarith
  · rw [area_expand, A1, A2, A3, A4, A5, A6, A7, A8]
    simp only [smul_smul, ← add_smul]

lemma smul_ne_zero' {s : K} {n : V3 K} (hs : 0 < s) (hn : n ≠ 0) : s • n ≠ 0 := by
  intro h
  apply hn
  have h1 := congrArg V3.x h
  have h2 := congrArg V3.y h
  have h3 := congrArg V3.z h
  simp only [V3.smul_x, V3.smul_y, V3.smul_z, V3.zero_x, V3.zero_y, V3.zero_z, mul_eq_zero, hs.ne', false_or] at h1 h2 h3
  ext <;> simp [h1, h2, h3]

/-- The corners of a face that is not degenerate are in the order of the boundary. -/
lemma face_oriented {V : ℕ → V3 K} {f : Face} (h : if f.a = f.d then areaVec (V f.a) (V f.b) (V f.c) ≠ 0
    else StrictlyConvexQuad (V f.a) (V f.b) (V f.c) (V f.d)) :
    ∃ n, n ≠ 0 ∧ Oriented (cornerPt V f) f.corners.length n := by
  by_cases ht : f.a = f.d
  · rw [if_pos ht] at h
    have hc : f.corners = [f.a, f.b, f.c] := by unfold Face.corners Face.isTri; simp [ht, Face.toList]
    refine ⟨_, h, ?_⟩
    intro i j k h1 h2 h3
    rw [hc] at h3
    simp only [List.length_cons, List.length_nil] at h3
    obtain ⟨rfl, rfl, rfl⟩ : i = 0 ∧ j = 1 ∧ k = 2 := by omega
    refine ⟨1, one_pos, ?_⟩
    simp [cornerPt, hc]
  · rw [if_neg ht] at h
    have hc : f.corners = [f.a, f.b, f.c, f.d] := by unfold Face.corners Face.isTri; simp [ht, Face.toList]
    obtain ⟨n, α, β, γ, δ, h1, h2, h3, h4, hn, e1, e2, e3, e4⟩ := h
    refine ⟨n, hn, ?_⟩
    intro i j k g1 g2 g3
    rw [hc] at g3
    simp only [List.length_cons, List.length_nil] at g3
    obtain ⟨rfl, rfl, rfl⟩ | ⟨rfl, rfl, rfl⟩ | ⟨rfl, rfl, rfl⟩ | ⟨rfl, rfl, rfl⟩ :
        (i = 0 ∧ j = 1 ∧ k = 2) ∨ (i = 0 ∧ j = 2 ∧ k = 3) ∨ (i = 0 ∧ j = 1 ∧ k = 3) ∨ (i = 1 ∧ j = 2 ∧ k = 3) := by omega
    · exact ⟨α, h1, by simpa [cornerPt, hc] using e1⟩
    · exact ⟨β, h2, by simpa [cornerPt, hc] using e2⟩
    · exact ⟨γ, h3, by simpa [cornerPt, hc] using e3⟩
    · exact ⟨δ, h4, by simpa [cornerPt, hc] using e4⟩

lemma oriented_nodup {V : ℕ → V3 K} {f : Face} {n : V3 K} (hn : n ≠ 0)
    (h : Oriented (cornerPt V f) f.corners.length n) : f.corners.Nodup := by
  have h3 := corners_length f
  have key : ∀ i j, i < j → j < f.corners.length → f.corners.getD i 0 ≠ f.corners.getD j 0 := by
    intro i j hij hj he
    have hP : cornerPt V f i = cornerPt V f j := by unfold cornerPt; rw [he]
    obtain ⟨a, b, c, h1, h2, h4, h5⟩ : ∃ a b c, a < b ∧ b < c ∧ c < f.corners.length ∧
        ((a = i ∧ b = j) ∨ (b = i ∧ c = j) ∨ (a = i ∧ c = j)) := by
      by_cases hk : j + 1 < f.corners.length
      · exact ⟨i, j, j + 1, hij, by omega, hk, by simp⟩
      · by_cases hk' : i = 0
        · by_cases hk'' : i + 1 < j
          · exact ⟨i, i + 1, j, by omega, hk'', hj, by simp⟩
          · omega
        · exact ⟨i - 1, i, j, by omega, hij, hj, by simp⟩
    obtain ⟨s, hs, e⟩ := h a b c h1 h2 h4
    rw [area_eq_zero] at e
    · exact smul_ne_zero' hs hn e.symm
    · rcases h5 with ⟨rfl, rfl⟩ | ⟨rfl, rfl⟩ | ⟨rfl, rfl⟩
      · exact .inl hP
      · exact .inr (.inl hP)
      · exact .inr (.inr hP.symm)
  rw [List.nodup_iff_injective_getElem]
  rintro ⟨i, hi⟩ ⟨j, hj⟩ he
  simp only at he
  have e1 : ∀ k (hk : k < f.corners.length), f.corners.getD k 0 = f.corners[k] := fun k hk => by
    simp [List.getD_eq_getElem?_getD, hk]
  rcases lt_trichotomy i j with hij | hij | hij
  · exact absurd (by rw [e1 i hi, e1 j hj, he]) (key i j hij hj)
  · simp [hij]
  · exact absurd (by rw [e1 i hi, e1 j hj, he]) (key j i hij hi)

/-- The corners of a face that is not degenerate are distinct. -/
lemma corners_nodup {V : ℕ → V3 K} {f : Face} (h : if f.a = f.d then areaVec (V f.a) (V f.b) (V f.c) ≠ 0
    else StrictlyConvexQuad (V f.a) (V f.b) (V f.c) (V f.d)) : f.corners.Nodup := by
  obtain ⟨n, hn, ho⟩ := face_oriented h
  exact oriented_nodup hn ho

/-- The polygons of the table for a strictly convex face are strictly convex, with the orientation of the face. -/
lemma planned_oriented {p : Plane K} {tol : K} (htol : 0 ≤ tol) {V W : ℕ → V3 K} {f : Face} {gs : List Face}
    (hpos : ∀ i ∈ f.toList, |p.dist (V i)| ≠ tol) (halt : altern (cornerCls p tol V f) = false)
    {n : V3 K} (hor : Oriented (cornerPt V f) f.corners.length n) (h : Planned p tol V W f gs) :
    ∀ g ∈ gs, if g.a = g.d then ∃ α : K, 0 < α ∧ areaVec (W g.a) (W g.b) (W g.c) = α • n
      else ∃ α β γ δ : K, 0 < α ∧ 0 < β ∧ 0 < γ ∧ 0 < δ ∧ areaVec (W g.a) (W g.b) (W g.c) = α • n ∧
        areaVec (W g.a) (W g.c) (W g.d) = β • n ∧ areaVec (W g.a) (W g.b) (W g.d) = γ • n ∧
        areaVec (W g.b) (W g.c) (W g.d) = δ • n := by
  obtain ⟨q, N, h1, h2, h3⟩ := h
  have hAB : (cornerCls p tol V f).any Cls.isBad = false := by
    rw [cornerCls, List.any_map, List.any_eq_false]
    intro i hi
    simp [(notAt_cls htol (hpos i (Face.corners_sub f i hi))).1]
  have hchk := PlanRes.check_ok (table_convex _ (cornerCls_mem p tol V f) hAB halt) h1
  have hrange := PlanRes.check_ok (table_range _ (cornerCls_mem p tol V f)) h1
  simp only [Plan.inRange, Bool.and_eq_true, List.all_eq_true, cornerCls_length] at hrange hchk
  have hpt : ∀ r, Ref.inRange f.corners.length q.cuts.length r = true →
      ((supp q r).1 < f.corners.length ∧ (supp q r).2 < f.corners.length) ∧
      OnEdge (cornerPt V f) (supp q r) (pt (cornerPt V f) N r) := by
    intro r hr
    cases r with
    | old k =>
      simp only [Ref.inRange, decide_eq_true_eq] at hr
      refine ⟨⟨hr, hr⟩, 1 / 2, by norm_num, by norm_num, ?_⟩
      simp only [supp, pt, ← add_smul]
      norm_num
    | new j =>
      simp only [Ref.inRange, decide_eq_true_eq] at hr
      have hget : q.cuts[j]? = some (q.cuts[j]) := List.getElem?_eq_getElem hr
      have hs : supp q (.new j) = q.cuts[j] := by
        simp only [supp, List.getD_eq_getElem?_getD, hget, Option.getD_some]
      have hr' := hrange.1.2 _ (List.getElem_mem hr)
      simp only [Bool.and_eq_true, decide_eq_true_eq] at hr'
      rw [hs]
      refine ⟨hr', ?_⟩
      have hcut : IsCut p _ _ _ := h2 j _ hget
      obtain ⟨t, t0, t1, e⟩ := hcut.coef'
      exact ⟨t, t0, t1, e⟩
  have htri : ∀ a b c, Ref.inRange f.corners.length q.cuts.length a = true →
      Ref.inRange f.corners.length q.cuts.length b = true → Ref.inRange f.corners.length q.cuts.length c = true →
      posTriple q a b c = true → ∃ s : K, 0 < s ∧
        areaVec (pt (cornerPt V f) N a) (pt (cornerPt V f) N b) (pt (cornerPt V f) N c) = s • n := by
    intro a b c ha hb hc hp
    simp only [posTriple, Bool.and_eq_true, List.all_eq_true, List.any_eq_true, decide_eq_true_eq] at hp
    exact onEdge_area hor (hpt a ha).1 (hpt b hb).1 (hpt c hc).1 (hpt a ha).2 (hpt b hb).2 (hpt c hc).2 hp.1 hp.2
  intro g hg
  obtain ⟨i, hi, rfl⟩ := List.mem_iff_getElem.1 hg
  rw [List.forall₂_iff_get] at h3
  have hi' : i < q.faces.length := by rw [h3.1]; exact hi
  obtain ⟨a, b, c, d, hl, wa, wb, wc, wd, had⟩ := h3.2 i hi' hi
  simp only [List.get_eq_getElem] at hl wa wb wc wd had
  have hmem : [a, b, c, d] ∈ q.faces := by rw [← hl]; exact List.getElem_mem _
  have hcv := hchk _ hmem
  have hin := hrange.1.1 _ hmem
  have ia := hin a (by simp)
  have ib := hin b (by simp)
  have ic := hin c (by simp)
  have id := hin d (by simp)
  rw [wa, wb, wc, wd]
  simp only [convexRefs] at hcv
  by_cases hd : a = d
  · rw [if_pos hd] at hcv
    rw [if_pos (had.2 hd)]
    exact htri a b c ia ib ic hcv
  · rw [if_neg hd] at hcv
    rw [if_neg (fun h => hd (had.1 h))]
    simp only [Bool.and_eq_true] at hcv
    obtain ⟨s1, p1, e1⟩ := htri a b c ia ib ic hcv.1.1.1
    obtain ⟨s2, p2, e2⟩ := htri a c d ia ic id hcv.1.1.2
    obtain ⟨s3, p3, e3⟩ := htri a b d ia ib id hcv.1.2
    obtain ⟨s4, p4, e4⟩ := htri b c d ib ic id hcv.2
    exact ⟨s1, s2, s3, s4, p1, p2, p3, p4, e1, e2, e3, e4⟩

/-- The polygons of the table for a strictly convex face are strictly convex. -/
lemma planned_convex {p : Plane K} {tol : K} (htol : 0 ≤ tol) {V W : ℕ → V3 K} {f : Face} {gs : List Face}
    (hpos : ∀ i ∈ f.toList, |p.dist (V i)| ≠ tol) (halt : altern (cornerCls p tol V f) = false)
    (hf : if f.a = f.d then areaVec (V f.a) (V f.b) (V f.c) ≠ 0
      else StrictlyConvexQuad (V f.a) (V f.b) (V f.c) (V f.d)) (h : Planned p tol V W f gs) :
    ∀ g ∈ gs, if g.a = g.d then areaVec (W g.a) (W g.b) (W g.c) ≠ 0
      else StrictlyConvexQuad (W g.a) (W g.b) (W g.c) (W g.d) := by
  obtain ⟨n, hn, hor⟩ := face_oriented hf
  intro g hg
  have := planned_oriented htol hpos halt hor h g hg
  split_ifs at this ⊢
  · obtain ⟨s, hs, e⟩ := this
    rw [e]
    exact smul_ne_zero' hs hn
  · obtain ⟨s1, s2, s3, s4, p1, p2, p3, p4, e1, e2, e3, e4⟩ := this
    exact ⟨n, s1, s2, s3, s4, p1, p2, p3, p4, hn, e1, e2, e3, e4⟩

lemma vert_geometry {m m' : Mesh K} {g g' : Face} (hg : ∀ i ∈ g.toList, i < m.nv) (hg' : ∀ i ∈ g'.toList, i < m'.nv)
    (h : g.toList.map (m.vertices[·]?) = g'.toList.map (m'.vertices[·]?)) :
    m.vert g.a = m'.vert g'.a ∧ m.vert g.b = m'.vert g'.b ∧ m.vert g.c = m'.vert g'.c ∧ m.vert g.d = m'.vert g'.d := by
  simp only [Face.toList, List.map_cons, List.map_nil, List.cons.injEq, and_true] at h
  obtain ⟨h1, h2, h3, h4⟩ := h
  simp only [Mesh.vert, List.getD_eq_getElem?_getD, h1, h2, h3, h4, and_self]

/-- Clipping a mesh with strictly convex faces gives a mesh with strictly convex faces. -/
theorem clip_convex {srt : (ℕ → K) → List ℕ → List ℕ} (hsrt : IsArgsort srt) {p : Plane K} {tol : K}
    (htol : 0 ≤ tol) {b : Bool} {m : Mesh K} (hwf : m.WF)
    (hpos : ∀ f ∈ m.faces, ∀ i ∈ f.toList, |p.dist (m.vert i)| ≠ tol) (hq : QuadsCross m) (hsep : m.WellSeparated p)
    (hcv : m.StrictlyConvexFaces) {c : Clipped K} (hc : clip srt p tol b m = .ok c) : c.clipped.StrictlyConvexFaces := by
  obtain ⟨exact, parts, w1, w2, hg, hperm, hfaces, hpl, _, htri⟩ :=
    clip_planned_notAt hsrt htol hwf hpos (fun f hf => .inr (corners_nodup (hcv f hf))) hsep hc
  have hex : exact.StrictlyConvexFaces := by
    intro g hg
    rw [hfaces, List.mem_flatMap] at hg
    obtain ⟨t, ht, hgt⟩ := hg
    have hf : t.1 ∈ m.faces := hperm.mem_iff.1 (List.mem_map_of_mem ht)
    exact planned_convex htol (hpos _ hf) (cls_not_altern htol hwf hq hf) (hcv _ hf) (hpl t ht) g hgt
  intro g' hg'
  obtain ⟨i, hi, rfl⟩ := List.mem_iff_getElem.1 hg'
  unfold SameTri at htri
  rw [List.forall₂_iff_get] at htri
  have hi' : i < exact.faces.length := by rw [htri.1]; exact hi
  have h1 := htri.2 i hi' hi
  simp only [List.get_eq_getElem] at h1
  have h2 := hex _ (List.getElem_mem hi')
  have h3 : (exact.faces[i]).toList.map (exact.vertices[·]?) = (c.clipped.faces[i]).toList.map (c.clipped.vertices[·]?) := by
    have := congrArg (fun l => l[i]?) hg
    simp only [Mesh.geometry, List.getElem?_map, List.getElem?_eq_getElem hi, List.getElem?_eq_getElem hi', Option.map_some,
      Option.some.injEq] at this
    exact this.symm
  obtain ⟨va, vb, vc, vd⟩ := vert_geometry (w1 _ (List.getElem_mem hi')) (w2 _ (List.getElem_mem hi)) h3
  rw [va, vb, vc, vd] at h2
  by_cases ht : (exact.faces[i]).a = (exact.faces[i]).d
  · rw [if_pos ht] at h2
    rw [if_pos (h1 ht)]
    exact h2
  · rw [if_neg ht] at h2
    have hne : (c.clipped.faces[i]).a ≠ (c.clipped.faces[i]).d := by
      intro hh
      obtain ⟨n, α, β, γ, δ, h1, h2, h3, h4, hn, e1, e2, e3, e4⟩ := h2
      rw [hh] at e3
      have : areaVec (c.clipped.vert c.clipped.faces[i].d) (c.clipped.vert c.clipped.faces[i].b)
        (c.clipped.vert c.clipped.faces[i].d) = 0 := area_eq_zero (by simp)
      rw [this] at e3
      exact smul_ne_zero' h3 hn e3.symm
    rw [if_neg hne]
    exact h2

end Clipper
end MM
