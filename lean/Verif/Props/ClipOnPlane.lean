import Verif.Props.ClipSection

/-!
# C45, with vertices on the plane: the clipper returns
-/

namespace MM
namespace Clipper

set_option linter.unusedSimpArgs false
set_option linter.unusedVariables false

variable {K : Type*} [Field K] [LinearOrder K] [IsStrictOrderedRing K]

/-- Three corners of a plane quadrangle on the plane: so is the fourth. -/
lemma fourth_on {p : Plane K} {A B C D n : V3 K} {α β : K} (hα : α ≠ 0) (hβ : β ≠ 0) (hn : n ≠ 0)
    (e1 : areaVec A B C = α • n) (e2 : areaVec A C D = β • n) (ha : p.dist A = 0) (hb : p.dist B = 0) (hc : p.dist C = 0) :
    p.dist D = 0 := by
  have x1 := congrArg V3.x e1
  have y1 := congrArg V3.y e1
  have z1 := congrArg V3.z e1
  have x2 := congrArg V3.x e2
  have y2 := congrArg V3.y e2
  have z2 := congrArg V3.z e2
  obtain ⟨⟨Nx, Ny, Nz⟩, k⟩ := p
  obtain ⟨n1, n2, n3⟩ := n
  simp only [Plane.dist, V3.dot] at ha hb hc ⊢
  simp only [areaVec, V3.cross, V3.sub_x, V3.sub_y, V3.sub_z, V3.smul_x, V3.smul_y, V3.smul_z] at x1 y1 z1 x2 y2 z2
  have hnn : n1 ^ 2 + n2 ^ 2 + n3 ^ 2 ≠ 0 := by
    intro h
    apply hn
    have h1 : n1 = 0 := by nlinarith [sq_nonneg n1, sq_nonneg n2, sq_nonneg n3]
    have h2 : n2 = 0 := by nlinarith [sq_nonneg n1, sq_nonneg n2, sq_nonneg n3]
    have h3 : n3 = 0 := by nlinarith [sq_nonneg n1, sq_nonneg n2, sq_nonneg n3]
    subst h1 h2 h3
    rfl
  have hw : (D.x - A.x) * n1 + (D.y - A.y) * n2 + (D.z - A.z) * n3 = 0 := by
    have : β * ((D.x - A.x) * n1 + (D.y - A.y) * n2 + (D.z - A.z) * n3) = 0 := by
      linear_combination -(D.x - A.x) * x2 - (D.y - A.y) * y2 - (D.z - A.z) * z2
    exact (mul_eq_zero.1 this).resolve_left hβ
  -- the normal is parallel to `n`
  have hu : Nx * (B.x - A.x) + Ny * (B.y - A.y) + Nz * (B.z - A.z) = 0 := by linear_combination hb - ha
  have hv : Nx * (C.x - A.x) + Ny * (C.y - A.y) + Nz * (C.z - A.z) = 0 := by linear_combination hc - ha
  have c1 : α * (Ny * n3 - Nz * n2) = 0 := by
    linear_combination -Ny * z1 + Nz * y1 - (C.x - A.x) * hu + (B.x - A.x) * hv
  have c2 : α * (Nz * n1 - Nx * n3) = 0 := by
    linear_combination -Nz * x1 + Nx * z1 - (C.y - A.y) * hu + (B.y - A.y) * hv
  have c3 : α * (Nx * n2 - Ny * n1) = 0 := by
    linear_combination -Nx * y1 + Ny * x1 - (C.z - A.z) * hu + (B.z - A.z) * hv
  have d1 := (mul_eq_zero.1 c1).resolve_left hα
  have d2 := (mul_eq_zero.1 c2).resolve_left hα
  have d3 := (mul_eq_zero.1 c3).resolve_left hα
  have : (n1 ^ 2 + n2 ^ 2 + n3 ^ 2) * (Nx * (D.x - A.x) + Ny * (D.y - A.y) + Nz * (D.z - A.z)) = 0 := by
    linear_combination (Nx * n1 + Ny * n2 + Nz * n3) * hw
      + (n3 * (D.y - A.y) - n2 * (D.z - A.z)) * d1 + (n1 * (D.z - A.z) - n3 * (D.x - A.x)) * d2
      + (n2 * (D.x - A.x) - n1 * (D.y - A.y)) * d3
  have := (mul_eq_zero.1 this).resolve_left hnn
  linear_combination this + ha

/-- No quadrangle of the mesh has exactly three corners on the plane. -/
lemma not_three_on {p : Plane K} {tol : K} (htol : 0 ≤ tol) {V : ℕ → V3 K} {f : Face} (hpos : ∀ i ∈ f.toList, p.Clear tol (V i))
    (ht : f.a ≠ f.d) (hf : StrictlyConvexQuad (V f.a) (V f.b) (V f.c) (V f.d)) :
    (f.corners.filter (fun i => |p.dist (V i)| < tol)).length ≠ 3 := by
  have hc : f.corners = [f.a, f.b, f.c, f.d] := by unfold Face.corners Face.isTri; simp [ht, Face.toList]
  have hon : ∀ i ∈ f.toList, (|p.dist (V i)| < tol ↔ p.dist (V i) = 0) := by
    intro i hi
    rcases hpos i hi with h | ⟨h, h'⟩
    · constructor
      · intro h'; exact absurd h' (not_lt.2 h.le)
      · intro h'
        rw [h', abs_zero] at h
        exact absurd h (not_lt.2 htol)
    · simp [h, h']
  have ka := hon f.a (by simp [Face.toList])
  have kb := hon f.b (by simp [Face.toList])
  have kc := hon f.c (by simp [Face.toList])
  have kd := hon f.d (by simp [Face.toList])
  obtain ⟨n, α, β, γ, δ, hα, hβ, hγ, hδ, hn, e1, e2, e3, e4⟩ := hf
  have f1 := fourth_on (p := p) hα.ne' hβ.ne' hn e1 e2
  have f2 : p.dist (V f.a) = 0 → p.dist (V f.c) = 0 → p.dist (V f.d) = 0 → p.dist (V f.b) = 0 := by
    have r1 : areaVec (V f.a) (V f.d) (V f.c) = (-β) • n := by
      have : areaVec (V f.a) (V f.d) (V f.c) = (-1 : K) • areaVec (V f.a) (V f.c) (V f.d) := by
        ext <;> simp [areaVec, V3.cross] <;> ring
      rw [this, e2]; ext <;> simp
    have r2 : areaVec (V f.a) (V f.c) (V f.b) = (-α) • n := by
      have : areaVec (V f.a) (V f.c) (V f.b) = (-1 : K) • areaVec (V f.a) (V f.b) (V f.c) := by
        ext <;> simp [areaVec, V3.cross] <;> ring
      rw [this, e1]; ext <;> simp
    intro a c d
    exact fourth_on (neg_ne_zero.2 hβ.ne') (neg_ne_zero.2 hα.ne') hn r1 r2 a d c
  have f3 : p.dist (V f.b) = 0 → p.dist (V f.c) = 0 → p.dist (V f.d) = 0 → p.dist (V f.a) = 0 := by
    have r2 : areaVec (V f.b) (V f.d) (V f.a) = γ • n := by
      rw [← e3]; ext <;> simp [areaVec, V3.cross] <;> ring
    intro b c d
    exact fourth_on hδ.ne' hγ.ne' hn e4 r2 b c d
  have f4 : p.dist (V f.a) = 0 → p.dist (V f.b) = 0 → p.dist (V f.d) = 0 → p.dist (V f.c) = 0 := by
    have r1 : areaVec (V f.a) (V f.b) (V f.d) = γ • n := e3
    have r2 : areaVec (V f.a) (V f.d) (V f.c) = (-β) • n := by
      have : areaVec (V f.a) (V f.d) (V f.c) = (-1 : K) • areaVec (V f.a) (V f.c) (V f.d) := by
        ext <;> simp [areaVec, V3.cross] <;> ring
      rw [this, e2]; ext <;> simp
    intro a b d
    exact fourth_on hγ.ne' (neg_ne_zero.2 hβ.ne') hn r1 r2 a b d
  rw [List.filter_congr (q := fun i => decide (p.dist (V i) = 0)) (fun i hi => by
    simp only [hon i (Face.corners_sub f i hi)]), hc]
  by_cases da : p.dist (V f.a) = 0 <;> by_cases db : p.dist (V f.b) = 0 <;> by_cases dc : p.dist (V f.c) = 0 <;>
    by_cases dd : p.dist (V f.d) = 0 <;>
    first
    | exact absurd (f1 da db dc) dd
    | exact absurd (f2 da dc dd) db
    | exact absurd (f3 db dc dd) da
    | exact absurd (f4 da db dd) dc
    | simp [da, db, dc, dd]

/-- Around a face with a corner where `P` holds and one where it does not, it changes both ways. -/
lemma changes {P : ℕ → Bool} {f : Face} (h1 : ∃ i ∈ f.toList, P i = true) (h2 : ∃ i ∈ f.toList, P i = false) :
    (∃ e ∈ f.directedEdges, P e.1 = true ∧ P e.2 = false) ∧ ∃ e ∈ f.directedEdges, P e.1 = false ∧ P e.2 = true := by
  unfold Face.directedEdges
  simp only [Face.toList, List.mem_cons, List.not_mem_nil, or_false, exists_eq_or_imp, exists_eq_left] at h1 h2
  split_ifs with ht
  · simp only [← ht] at h1 h2
    simp only [List.mem_cons, List.not_mem_nil, or_false, exists_eq_or_imp, exists_eq_left]
    cases ha : P f.a <;> cases hb : P f.b <;> cases hc : P f.c <;> simp [ha, hb, hc] at h1 h2 ⊢
  · simp only [List.mem_cons, List.not_mem_nil, or_false, exists_eq_or_imp, exists_eq_left]
    cases ha : P f.a <;> cases hb : P f.b <;> cases hc : P f.c <;> cases hd : P f.d <;> simp [ha, hb, hc, hd] at h1 h2 ⊢

/-- Two opposite corners below: not both other corners on the plane or above. -/
lemma opposite_below {p : Plane K} {a b c d : V3 K} (h : DiagonalsCross a b c d) (ha : 0 ≤ p.dist a) (hc : 0 ≤ p.dist c)
    (hb : p.dist b < 0) (hd : p.dist d < 0) : False := by
  obtain ⟨s, t, s0, s1, t0, t1, e⟩ := h
  have h1 : p.dist ((1 - s) • a + s • c) = (1 - s) * p.dist a + s * p.dist c := by
    simp only [Plane.dist, V3.dot, V3.add_x, V3.add_y, V3.add_z, V3.smul_x, V3.smul_y, V3.smul_z]; ring
  have h2 : p.dist ((1 - t) • b + t • d) = (1 - t) * p.dist b + t * p.dist d := by
    simp only [Plane.dist, V3.dot, V3.add_x, V3.add_y, V3.add_z, V3.smul_x, V3.smul_y, V3.smul_z]; ring
  rw [e, h2] at h1
  have n1 : 0 ≤ (1 - s) * p.dist a + s * p.dist c := add_nonneg (mul_nonneg (by linarith) ha) (mul_nonneg s0 hc)
  rw [← h1] at n1
  rcases t0.lt_or_eq with ht | ht
  · nlinarith [mul_pos ht (neg_pos.2 hd), mul_nonneg (sub_nonneg.2 t1) (neg_nonneg.2 hb.le)]
  · rw [← ht] at n1; linarith

/-- The face has an edge in the boundary, in the plane, of its part below, exactly when it has a corner below the plane and
either a corner above it or two corners on it. -/
lemma lowerSectionEdge_isSome {p : Plane K} {V : ℕ → V3 K} {f : Face} (hnd : f.corners.Nodup)
    (hq : f.a ≠ f.d → DiagonalsCross (V f.a) (V f.b) (V f.c) (V f.d)) :
    f.lowerSectionEdge p V ≠ none ↔ (∃ i ∈ f.toList, p.dist (V i) < 0) ∧
      ((∃ i ∈ f.toList, 0 < p.dist (V i)) ∨ ∃ i ∈ f.toList, ∃ j ∈ f.toList, i ≠ j ∧ p.dist (V i) = 0 ∧ p.dist (V j) = 0) := by
  constructor
  · intro h
    unfold Face.lowerSectionEdge at h
    split at h
    · rename_i e e' h1 h2
      have c1 := List.find?_some h1
      have c2 := List.find?_some h2
      have m1 := edges_mem_toList (List.mem_of_find?_eq_some h1)
      have m2 := edges_mem_toList (List.mem_of_find?_eq_some h2)
      simp only [Bool.and_eq_true, decide_eq_true_eq] at c1 c2
      refine ⟨⟨_, m1.2, c1.2⟩, ?_⟩
      split_ifs at h with hh
      · exact absurd rfl h
      · rcases c1.1.lt_or_eq with k | k
        · exact .inl ⟨_, m1.1, k⟩
        · rcases c2.2.lt_or_eq with k' | k'
          · exact .inl ⟨_, m2.2, k'⟩
          · exact .inr ⟨_, m1.1, _, m2.2, fun he => hh ⟨he, k.symm⟩, k.symm, k'.symm⟩
    · exact absurd rfl h
  · rintro ⟨⟨b, hbm, hb⟩, hu⟩
    have hu' : ∃ i ∈ f.toList, 0 ≤ p.dist (V i) := by
      rcases hu with ⟨i, hi, h⟩ | ⟨i, hi, _, _, _, h, _⟩
      · exact ⟨i, hi, h.le⟩
      · exact ⟨i, hi, h.ge⟩
    obtain ⟨⟨e1, he1, k1⟩, e2, he2, k2⟩ := changes (P := fun i => decide (0 ≤ p.dist (V i))) (f := f)
      (by simpa using hu') ⟨b, hbm, by simpa using hb⟩
    simp only [decide_eq_true_eq, decide_eq_false_iff_not, not_le] at k1 k2
    unfold Face.lowerSectionEdge
    cases h1 : f.directedEdges.find? (fun e => decide (0 ≤ p.dist (V e.1)) && decide (p.dist (V e.2) < 0)) with
    | none =>
      exfalso
      rw [List.find?_eq_none] at h1
      have := h1 e1 he1
      simp only [Bool.and_eq_true, decide_eq_true_eq] at this
      exact this k1
    | some e =>
      cases h2 : f.directedEdges.find? (fun e => decide (p.dist (V e.1) < 0) && decide (0 ≤ p.dist (V e.2))) with
      | none =>
        exfalso
        rw [List.find?_eq_none] at h2
        have := h2 e2 he2
        simp only [Bool.and_eq_true, decide_eq_true_eq] at this
        exact this k2
      | some e' =>
        simp only
        rw [if_neg]
        · simp
        rintro ⟨hee, h0⟩
        have c1 := List.find?_some h1
        have c2 := List.find?_some h2
        have m1 := List.mem_of_find?_eq_some h1
        have m2 := List.mem_of_find?_eq_some h2
        simp only [Bool.and_eq_true, decide_eq_true_eq] at c1 c2
        clear h1 h2 e1 he1 k1 e2 he2 k2 hu' hbm hb b
        have c1 := c1.2
        have c2 := c2.1
        unfold Face.directedEdges at m1 m2
        by_cases ht : f.a = f.d
        · have hc : f.corners = [f.a, f.b, f.c] := by unfold Face.corners Face.isTri; simp [ht, Face.toList]
          rw [hc] at hnd
          simp only [List.nodup_cons, List.mem_cons, List.not_mem_nil, or_false, not_or, not_false_eq_true, List.nodup_nil,
            and_true] at hnd
          obtain ⟨⟨n1, n2⟩, n3⟩ := hnd
          rw [if_pos ht] at m1 m2
          simp only [List.mem_cons, List.not_mem_nil, or_false] at m1 m2
          simp only [Face.toList, ← ht, List.mem_cons, List.not_mem_nil, or_false] at hu
          rcases m1 with rfl | rfl | rfl <;> rcases m2 with rfl | rfl | rfl <;>
            first
            | exact absurd hee (by first | exact n1 | exact n2 | exact n3 | exact Ne.symm n1 | exact Ne.symm n2 | exact Ne.symm n3)
            | (rcases hu with ⟨i, rfl | rfl | rfl | rfl, h⟩ | ⟨i, rfl | rfl | rfl | rfl, j, rfl | rfl | rfl | rfl, hij, h, h'⟩ <;>
                first
                | exact hij rfl
                | linarith)
        · have hc : f.corners = [f.a, f.b, f.c, f.d] := by unfold Face.corners Face.isTri; simp [ht, Face.toList]
          rw [hc] at hnd
          simp only [List.nodup_cons, List.mem_cons, List.not_mem_nil, or_false, not_or, not_false_eq_true, List.nodup_nil,
            and_true] at hnd
          obtain ⟨⟨n1, n2, n3⟩, ⟨n4, n5⟩, n6⟩ := hnd
          have hx := hq ht
          rw [if_neg ht] at m1 m2
          simp only [List.mem_cons, List.not_mem_nil, or_false] at m1 m2
          simp only [Face.toList, List.mem_cons, List.not_mem_nil, or_false] at hu
          have opp : ∀ {x k y w : ℕ}, (∀ i, i = f.a ∨ i = f.b ∨ i = f.c ∨ i = f.d → i = x ∨ i = k ∨ i = y ∨ i = w) →
              p.dist (V x) < 0 → p.dist (V k) = 0 → p.dist (V y) < 0 → 0 ≤ p.dist (V w) := by
            intro x k y w hall dx dk dy
            rcases hu with ⟨i, hi, h⟩ | ⟨i, hi, j, hj, hij, h, h'⟩
            · rcases hall i hi with rfl | rfl | rfl | rfl <;> linarith
            · rcases hall i hi with rfl | rfl | rfl | rfl <;> rcases hall j hj with rfl | rfl | rfl | rfl <;>
                first
                | exact absurd rfl hij
                | linarith
          have o1 := opp (x := f.d) (k := f.a) (y := f.b) (w := f.c) (by intro i h; rcases h with h | h | h | h <;> simp [h])
          have o2 := opp (x := f.a) (k := f.b) (y := f.c) (w := f.d) (by intro i h; rcases h with h | h | h | h <;> simp [h])
          have o3 := opp (x := f.b) (k := f.c) (y := f.d) (w := f.a) (by intro i h; rcases h with h | h | h | h <;> simp [h])
          have o4 := opp (x := f.c) (k := f.d) (y := f.a) (w := f.b) (by intro i h; rcases h with h | h | h | h <;> simp [h])
          clear opp hu hq
          rcases m1 with rfl | rfl | rfl | rfl
          · rcases m2 with rfl | rfl | rfl | rfl
            · exact n1 hee
            · exact n2 hee
            · exact n3 hee
            · exact opposite_below hx h0.ge (o1 c2 h0 c1) c1 c2
          · rcases m2 with rfl | rfl | rfl | rfl
            · exact opposite_below hx.rot h0.ge (o2 c2 h0 c1) c1 c2
            · exact n4 hee
            · exact n5 hee
            · exact n1 hee.symm
          · rcases m2 with rfl | rfl | rfl | rfl
            · exact n4 hee.symm
            · exact opposite_below hx.rot.rot h0.ge (o3 c2 h0 c1) c1 c2
            · exact n6 hee
            · exact n2 hee.symm
          · rcases m2 with rfl | rfl | rfl | rfl
            · exact n5 hee.symm
            · exact n6 hee.symm
            · exact opposite_below hx.rot.rot.rot h0.ge (o4 c2 h0 c1) c1 c2
            · exact n3 hee.symm

/-- **C45** (partial: strictly convex faces, each vertex on the plane or farther from it than the tolerance, distinct points
apart, no two edges of the section from the same point). A watertight mesh which may have vertices on the plane is cut along
closed polygons only, and the clipper returns as soon as a face has a corner below the plane and a corner on it or above. -/
theorem C45_on_plane_partial (srt : (ℕ → K) → List ℕ → List ℕ) (hsrt : IsArgsort srt) (p : Plane K) (tol : K)
    (htol : 0 ≤ tol) (m : Mesh K) (hwf : m.WF) (hcl : m.ClosedOriented) (hcv : m.StrictlyConvexFaces)
    (hpos : ∀ f ∈ m.faces, ∀ i ∈ f.toList, p.Clear tol (m.vert i)) (hsep : m.WellSeparated p)
    (hone : ((m.lowerSectionEdges p).map Prod.fst).Nodup) :
    (∀ b c, clip srt p tol b m = .ok c → c.openLines = []) ∧
    ((∃ f ∈ m.faces, (∃ i ∈ f.toList, p.dist (m.vert i) < 0) ∧ ∃ i ∈ f.toList, 0 ≤ p.dist (m.vert i)) →
      ∀ b, ∃ c, clip srt p tol b m = .ok c) := by
  have hopen : ∀ b c, clip srt p tol b m = .ok c → c.openLines = [] := fun b c hc =>
    (C75_polygons_on_plane_partial srt hsrt p tol htol b m hwf hcl hcv hpos hsep hone c hc).1
  refine ⟨hopen, ?_⟩
  rintro ⟨f, hf, ⟨i, hi, hdi⟩, j, hj, hdj⟩
  have hvm : ∀ k ∈ f.toList, m.vert k ∈ m.vertices := by
    intro k hk
    have : k < m.vertices.length := hwf f hf k hk
    simp [Mesh.vert, List.getD_eq_getElem?_getD, this]
  have hfalse : ∃ c, clip srt p tol false m = .ok c := by
    cases hb : clip srt p tol false m with
    | ok c => exact ⟨c, rfl⟩
    | error e =>
      exfalso
      rcases C42_known_cases_partial srt hsrt p tol htol false m hwf
        (fun f hf i hi => clear_notAt (hpos f hf i (Face.corners_sub f i hi)))
        (fun f hf ht => not_three_on htol (hpos f hf) ht (by have := hcv f hf; rwa [if_neg ht] at this)) e hb with
        ⟨_, h⟩ | ⟨_, h⟩ | ⟨_, h⟩ | ⟨_, h⟩
      · linarith [h _ (hvm i hi)]
      · linarith [h _ (hvm j hj)]
      · cases h
      · rcases h f hf with h | h
        · linarith [h _ (toList_corners f j hj)]
        · have h1 := h _ (toList_corners f i hi)
          rcases hpos f hf i hi with h2 | ⟨h2, _⟩
          · rw [abs_of_neg hdi] at h2; linarith
          · linarith
  obtain ⟨c, hc⟩ := hfalse
  intro b
  cases b with
  | false => exact ⟨c, hc⟩
  | true =>
    refine ⟨c, ?_⟩
    have ho := hopen _ _ hc
    unfold clip at hc ⊢
    cases h1 : vertexDists p tol m with
    | error e => simp [h1] at hc
    | ok d =>
      simp only [h1] at hc ⊢
      cases h2 : partition tol d m with
      | error e => simp [h2] at hc
      | ok part =>
        simp only [h2] at hc ⊢
        cases h3 : clipCrown srt p tol part.crown part.crownDists with
        | error e => simp [h3] at hc
        | ok t =>
          obtain ⟨cm, direct, inv⟩ := t
          simp only [h3, Bool.false_and, Bool.false_eq_true, if_false] at hc ⊢
          cases h4 : Mesh.add srt part.lower cm with
          | error e => simp [h4] at hc
          | ok w =>
            simp only [h4, Except.ok.injEq] at hc ⊢
            subst hc
            simp only at ho
            simp [ho]

/-- The octahedron (`octa_meets_C75`) has a face with a corner below the plane and two corners on it. -/
example : ∃ f ∈ octaMesh.faces, (∃ i ∈ f.toList, (⟨⟨0, 0, 1⟩, 0⟩ : Plane ℚ).dist (octaMesh.vert i) < 0) ∧
    ∃ i ∈ f.toList, 0 ≤ (⟨⟨0, 0, 1⟩, 0⟩ : Plane ℚ).dist (octaMesh.vert i) := by decide +kernel

end Clipper
end MM
