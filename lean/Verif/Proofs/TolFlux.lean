import Verif.Proofs.ClipTol
import Verif.Props.WettedArea
import Verif.Props.ReturnsBand

/-!
# Vertical fluxes through a clipped mesh with corners within the tolerance of the free surface
-/

namespace MM

open Clipper

set_option linter.unusedVariables false

/-! ## Bounds of integrals -/

lemma refInt_abs_le {f : V3 ℝ → ℝ} {p q r : V3 ℝ} {C : ℝ}
    (h : ∀ u v : ℝ, 0 ≤ u → 0 ≤ v → u + v ≤ 1 → |f (p + u • (q - p) + v • (r - p))| ≤ C) : |refInt f p q r| ≤ C * (1 / 2) := by
  unfold refInt
  have inner : ∀ u ∈ Set.Ioc (0 : ℝ) 1, ‖∫ v in (0 : ℝ)..(1 - u), f (p + u • (q - p) + v • (r - p))‖ ≤ C * (1 - u) := by
    intro u hu
    have := intervalIntegral.norm_integral_le_of_norm_le_const (a := 0) (b := 1 - u) (C := C)
      (f := fun v => f (p + u • (q - p) + v • (r - p))) (by
        intro v hv
        rw [Set.uIoc_of_le (by linarith [hu.2])] at hv
        exact h u v hu.1.le hv.1.le (by linarith [hv.2]))
    rwa [sub_zero, abs_of_nonneg (by linarith [hu.2])] at this
  have := intervalIntegral.norm_integral_le_of_norm_le zero_le_one (Filter.Eventually.of_forall inner)
    (Continuous.intervalIntegrable (μ := MeasureTheory.volume) (by fun_prop) _ _)
  rw [Real.norm_eq_abs] at this
  refine this.trans (le_of_eq ?_)
  rw [intervalIntegral.integral_const_mul, intervalIntegral.integral_sub (Continuous.intervalIntegrable (by fun_prop) _ _)
    (Continuous.intervalIntegrable (by fun_prop) _ _), integral_id, intervalIntegral.integral_const]
  norm_num

/-- A point of a triangle whose corners are under a level is under this level. -/
lemma z_ref_le {a b c : V3 ℝ} {t : ℝ} (ha : a.z ≤ t) (hb : b.z ≤ t) (hc : c.z ≤ t) {u v : ℝ} (hu : 0 ≤ u) (hv : 0 ≤ v)
    (huv : u + v ≤ 1) : (a + u • (b - a) + v • (c - a)).z ≤ t := by
  simp only [V3.add_z, V3.smul_z, V3.sub_z]
  nlinarith [mul_nonneg hu (sub_nonneg.2 hb), mul_nonneg hv (sub_nonneg.2 hc),
    mul_nonneg (by linarith : 0 ≤ 1 - u - v) (sub_nonneg.2 ha)]

/-- A sum over the triangles of a mesh, when the term of each triangle is at most a constant times its area. -/
lemma surfaceSum_area_le (m : Mesh ℝ) (C : ℝ) (T : V3 ℝ → V3 ℝ → V3 ℝ → ℝ)
    (h : ∀ f ∈ m.faces, ∀ i ∈ f.toList, ∀ j ∈ f.toList, ∀ k ∈ f.toList,
      |T (m.vert i) (m.vert j) (m.vert k)| ≤ C * triangleIntegral (fun _ => 1) (m.vert i) (m.vert j) (m.vert k)) :
    |m.surfaceSum T| ≤ C * m.totalArea := by
  rw [shell_area, Mesh.shellIntegral, Mesh.surfaceSum, Mesh.surfaceSum]
  have h' : ∀ f ∈ m.faces, |m.faceSum T f| ≤ C * m.faceSum (triangleIntegral (fun _ => 1)) f := by
    intro f hf
    have ma : f.a ∈ f.toList := by simp [Face.toList]
    have mb : f.b ∈ f.toList := by simp [Face.toList]
    have mc : f.c ∈ f.toList := by simp [Face.toList]
    have md : f.d ∈ f.toList := by simp [Face.toList]
    unfold Mesh.faceSum
    split_ifs
    · exact h f hf _ ma _ mb _ mc
    · rw [mul_add]
      exact le_trans (abs_add_le _ _) (add_le_add (h f hf _ ma _ mb _ mc) (h f hf _ ma _ mc _ md))
  generalize m.faces = L at h'
  induction L with
  | nil => simp
  | cons f L ih =>
    simp only [List.map_cons, List.sum_cons, mul_add]
    exact le_trans (abs_add_le _ _) (add_le_add (h' f (by simp)) (ih (fun g hg => h' g (by simp [hg]))))

/-- The projection of a triangle on a plane is at most its area. -/
lemma areaVec_dot_le {p q r k : V3 ℝ} (hk : k.normSq ≤ 1) {x C : ℝ} (hC : 0 ≤ C) (hx : |x| ≤ C * (1 / 2)) :
    |(areaVec p q r).dot k * x| ≤ C * triangleIntegral (fun _ => 1) p q r := by
  rw [triangleIntegral_refInt, Hydro.refInt_one, abs_mul]
  have : |(areaVec p q r).dot k| ≤ √(areaVec p q r).normSq := by
    apply Real.abs_le_sqrt
    set n := areaVec p q r
    simp only [V3.normSq, V3.dot] at hk ⊢
    nlinarith [sq_nonneg (n.x * k.y - n.y * k.x), sq_nonneg (n.y * k.z - n.z * k.y), sq_nonneg (n.z * k.x - n.x * k.z),
      mul_nonneg (add_nonneg (add_nonneg (mul_self_nonneg n.x) (mul_self_nonneg n.y)) (mul_self_nonneg n.z))
        (sub_nonneg.2 hk)]
  refine (mul_le_mul this hx (abs_nonneg _) ((abs_nonneg _).trans this)).trans (le_of_eq ?_)
  ring

/-! ## Flux of the depth -/

/-- Flux of `g k` through a triangle. -/
noncomputable def kFlux (k : V3 ℝ) (g : V3 ℝ → ℝ) (a b c : V3 ℝ) : ℝ := (areaVec a b c).dot k * refInt g a b c

lemma refInt_sub {f g : V3 ℝ → ℝ} (hf : PlaneInt f) (hg : PlaneInt g) (a b c : V3 ℝ) :
    refInt (fun X => f X - g X) a b c = refInt f a b c - refInt g a b c := by
  have hd : PlaneInt (fun X => f X - g X) := by
    intro x y z
    obtain ⟨h1, C, hC⟩ := hf x y z
    obtain ⟨h2, D, hD⟩ := hg x y z
    refine ⟨h1.sub h2, C + D, fun u v a b c d => ?_⟩
    exact le_trans (abs_sub _ _) (add_le_add (hC u v a b c d) (hD u v a b c d))
  have := refInt_add hd hg a b c
  simp only [sub_add_cancel] at this
  linarith

lemma surfaceSum_sub (m : Mesh ℝ) (S T : V3 ℝ → V3 ℝ → V3 ℝ → ℝ) :
    m.surfaceSum S - m.surfaceSum T = m.surfaceSum (fun a b c => S a b c - T a b c) := by
  unfold Mesh.surfaceSum
  generalize m.faces = L
  induction L with
  | nil => simp
  | cons f L ih =>
    simp only [List.map_cons, List.sum_cons]
    rw [← ih]
    have : m.faceSum (fun a b c => S a b c - T a b c) f = m.faceSum S f - m.faceSum T f := by
      unfold Mesh.faceSum
      split_ifs <;> ring
    rw [this]
    ring

/-- A set of points that contains the segments between its points contains the triangles between them. -/
lemma convex_tri {P : V3 ℝ → Prop} (hP : ∀ a b : V3 ℝ, ∀ t : ℝ, P a → P b → 0 ≤ t → t ≤ 1 → P (a + t • (b - a))) {a b c : V3 ℝ}
    (ha : P a) (hb : P b) (hc : P c) {u v : ℝ} (hu : 0 ≤ u) (hv : 0 ≤ v) (huv : u + v ≤ 1) :
    P (a + u • (b - a) + v • (c - a)) := by
  by_cases h0 : u + v = 0
  · have e1 : u = 0 := by linarith
    have e2 : v = 0 := by linarith
    rw [e1, e2, zero_smul, zero_smul, add_zero, add_zero]
    exact ha
  · have hpos : 0 < u + v := lt_of_le_of_ne (by linarith) (Ne.symm h0)
    have := hP a _ (u + v) ha (hP b c (v / (u + v)) hb hc (by positivity) (by rw [div_le_one hpos]; linarith)) hpos.le huv
    have e : a + (u + v) • (b + (v / (u + v)) • (c - b) - a) = a + u • (b - a) + v • (c - a) := by
      ext <;> simp only [V3.add_x, V3.add_y, V3.add_z, V3.smul_x, V3.smul_y, V3.smul_z, V3.sub_x, V3.sub_y, V3.sub_z] <;>
        field_simp <;> ring
    rwa [e] at this

section
variable {K : Type} [Field K] [LinearOrder K] [IsStrictOrderedRing K]

/-- The point where a segment crosses a plane is on the segment. -/
lemma IsCut.between {p : Plane K} {a b x : V3 K} (h : IsCut p a b x) : ∃ t : K, 0 ≤ t ∧ t ≤ 1 ∧ x = a + t • (b - a) := by
  obtain ⟨hm, he⟩ := h
  have hne : p.dist a - p.dist b ≠ 0 := by
    intro h0
    have : p.dist a = p.dist b := by linarith
    rw [this] at hm
    nlinarith [mul_self_nonneg (p.dist b)]
  refine ⟨p.dist a / (p.dist a - p.dist b), ?_, ?_, ?_⟩
  · rcases mul_neg_iff.1 hm with ⟨h1, h2⟩ | ⟨h1, h2⟩
    · exact div_nonneg h1.le (by linarith)
    · exact div_nonneg_of_nonpos h1.le (by linarith)
  · rcases mul_neg_iff.1 hm with ⟨h1, h2⟩ | ⟨h1, h2⟩
    · rw [div_le_one (by linarith)]; linarith
    · rw [div_le_one_of_neg (by linarith)]; linarith
  · have hx := congrArg V3.x he
    have hy := congrArg V3.y he
    have hz := congrArg V3.z he
    simp only [V3.smul_x, V3.smul_y, V3.smul_z, V3.sub_x, V3.sub_y, V3.sub_z] at hx hy hz
    ext <;> simp only [V3.add_x, V3.add_y, V3.add_z, V3.smul_x, V3.smul_y, V3.smul_z, V3.sub_x, V3.sub_y, V3.sub_z] <;>
      rw [← mul_right_inj' hne] <;> field_simp
    · linear_combination hx
    · linear_combination hy
    · linear_combination hz

/-- The pieces of a face are in any convex set that contains its corners. -/
lemma planned_hull {p : Plane K} {tol : K} {V W : ℕ → V3 K} {f : Face} {gs : List Face} {P : V3 K → Prop}
    (hP : ∀ a b : V3 K, ∀ t : K, P a → P b → 0 ≤ t → t ≤ 1 → P (a + t • (b - a))) (hV : ∀ i ∈ f.toList, P (V i))
    (h : Planned p tol V W f gs) : ∀ g ∈ gs, ∀ i ∈ g.toList, P (W i) := by
  obtain ⟨q, N, h1, h2, h3⟩ := h
  have hrange := PlanRes.check_ok (table_range _ (cornerCls_mem p tol V f)) h1
  simp only [Plan.inRange, Bool.and_eq_true, List.all_eq_true, cornerCls_length] at hrange
  have hcor : ∀ k, k < f.corners.length → P (cornerPt V f k) := by
    intro k hk
    have : cornerPt V f k = V f.corners[k] := by
      unfold cornerPt
      simp [List.getD_eq_getElem?_getD, List.getElem?_eq_getElem hk]
    rw [this]
    exact hV _ (Face.corners_sub f _ (List.getElem_mem hk))
  have hpt : ∀ r, Ref.inRange f.corners.length q.cuts.length r = true → P (pt (cornerPt V f) N r) := by
    intro r hr
    cases r with
    | old k =>
      simp only [Ref.inRange, decide_eq_true_eq] at hr
      exact hcor k hr
    | new j =>
      simp only [Ref.inRange, decide_eq_true_eq] at hr
      have hcut : IsCut p _ _ _ := h2 j _ (List.getElem?_eq_getElem hr)
      obtain ⟨t, t0, t1, e⟩ := hcut.between
      show P (N j)
      rw [e]
      have hc := hrange.1.2 _ (List.getElem_mem hr)
      simp only [decide_eq_true_eq] at hc
      exact hP _ _ t (hcor _ hc.1) (hcor _ hc.2) t0 t1
  intro g hg i hi
  obtain ⟨j, hj, rfl⟩ := List.mem_iff_getElem.1 hg
  rw [List.forall₂_iff_get] at h3
  have hj' : j < q.faces.length := by rw [h3.1]; exact hj
  obtain ⟨a, b, c, d, hl, wa, wb, wc, wd, had⟩ := h3.2 j hj' hj
  simp only [List.get_eq_getElem] at hl wa wb wc wd
  have hmem : [a, b, c, d] ∈ q.faces := by rw [← hl]; exact List.getElem_mem _
  have hin := hrange.1.1 _ hmem
  simp only [Face.toList, List.mem_cons, List.not_mem_nil, or_false] at hi
  rcases hi with rfl | rfl | rfl | rfl
  · rw [wa]; exact hpt a (hin a (by simp))
  · rw [wb]; exact hpt b (hin b (by simp))
  · rw [wc]; exact hpt c (hin c (by simp))
  · rw [wd]; exact hpt d (hin d (by simp))

end

section
variable {srt : (ℕ → ℝ) → List ℕ → List ℕ} (hsrt : IsArgsort srt) {tol : ℝ} (htol : 0 ≤ tol) {b : Bool}
  {m : Mesh ℝ} (hwf : m.WF) (hpos : ∀ f ∈ m.faces, ∀ i ∈ f.toList, |waterplane.dist (m.vert i)| ≠ tol)
  (hsep : m.TolSeparated waterplane tol) (hcv : m.StrictlyConvexFaces) {c : Clipped ℝ}
  (hc : clip srt waterplane tol b m = .ok c)
include hsrt htol hwf hpos hsep hcv hc

/-- The clipped mesh is in any convex set that contains the corners of the faces of the mesh. -/
lemma clip_hull {P : V3 ℝ → Prop} (hP : ∀ a b : V3 ℝ, ∀ t : ℝ, P a → P b → 0 ≤ t → t ≤ 1 → P (a + t • (b - a)))
    (hV : ∀ f ∈ m.faces, ∀ i ∈ f.toList, P (m.vert i)) : ∀ g ∈ c.clipped.faces, ∀ i ∈ g.toList, P (c.clipped.vert i) := by
  obtain ⟨exact, parts, w1, w2, hg, hperm, hfaces, hpl, _, htri⟩ :=
    clip_planned_tol hsrt htol hwf hpos (fun f hf => .inr (corners_nodup (hcv f hf))) hsep hc
  have h0 : ∀ x ∈ exact.faces.map (fun f => (exact.vert f.a, exact.vert f.b, exact.vert f.c, exact.vert f.d)),
      P x.1 ∧ P x.2.1 ∧ P x.2.2.1 ∧ P x.2.2.2 := by
    intro x hx
    obtain ⟨g, hgm, rfl⟩ := List.mem_map.1 hx
    rw [hfaces, List.mem_flatMap] at hgm
    obtain ⟨t, ht, hgt⟩ := hgm
    have hf : t.1 ∈ m.faces := hperm.mem_iff.1 (List.mem_map_of_mem ht)
    have := planned_hull hP (hV _ hf) (hpl t ht) g hgt
    exact ⟨this _ (by simp [Face.toList]), this _ (by simp [Face.toList]), this _ (by simp [Face.toList]),
      this _ (by simp [Face.toList])⟩
  rw [← geometry_congr (fun u v w t => (u, v, w, t)) hg] at h0
  intro g hgm i hi
  obtain ⟨k1, k2, k3, k4⟩ := h0 _ (List.mem_map_of_mem hgm)
  simp only [Face.toList, List.mem_cons, List.not_mem_nil, or_false] at hi
  rcases hi with rfl | rfl | rfl | rfl
  · exact k1
  · exact k2
  · exact k3
  · exact k4

/-- The vertical flux of a function, small in the slab, through the clipped mesh is close to the flux through the part of the mesh
under the free surface. -/
lemma flux_near (hfl : m.NoSlabSide waterplane tol) {G : V3 ℝ → ℝ} (hG : Quadratic G) {P : V3 ℝ → Prop}
    (hP : ∀ a b : V3 ℝ, ∀ t : ℝ, P a → P b → 0 ≤ t → t ≤ 1 → P (a + t • (b - a)))
    (hV : ∀ f ∈ m.faces, ∀ i ∈ f.toList, P (m.vert i)) {R : ℝ} (hR : 0 ≤ R)
    (hb : ∀ X, P X → |X.z| ≤ tol → |G X| ≤ tol * R) :
    |c.clipped.surfaceSum (kFlux ⟨0, 0, 1⟩ G) - m.surfaceSum (kFlux ⟨0, 0, 1⟩ (waterplane.below G))| ≤
      tol * R * (c.clipped.totalArea + m.totalArea) := by
  have hq := strictlyConvex_cross hcv
  have hVc := clip_hull hsrt htol hwf hpos hsep hcv hc hP hV
  obtain ⟨hcont, hadd⟩ := quadratic_flux hG ⟨0, 0, 1⟩
  set q := waterplane.lowered tol with hqd
  have hk : (⟨0, 0, 1⟩ : V3 ℝ).normSq ≤ 1 := by simp [V3.normSq, V3.dot]
  have hR' : 0 ≤ tol * R := mul_nonneg htol hR
  have hlow : ∀ X : V3 ℝ, q.below G X = if X.z < -tol then G X else 0 := by
    intro X
    rw [below_dist, lowered_dist, waterplane_dist]
    congr 1
    rw [eq_iff_iff]
    constructor <;> intro h <;> linarith
  have hlow0 : ∀ X : V3 ℝ, waterplane.below G X = if X.z < 0 then G X else 0 := by
    intro X
    rw [below_dist, waterplane_dist]
  have h1 : c.clipped.surfaceSum (kFlux ⟨0, 0, 1⟩ (q.below G)) = m.surfaceSum (kFlux ⟨0, 0, 1⟩ (q.below G)) := by
    rw [surfaceSum_halves c.clipped (T := kFlux ⟨0, 0, 1⟩ (q.below G))
        (fun p q => by simp [kFlux, areaVec, V3.cross, V3.dot])]
    exact clip_lowered hsrt htol hwf hpos hq hsep hcv hc hfl (below_cutsOff q (areaVec_areaLike ⟨0, 0, 1⟩) hcont) hadd
  have h2 : |c.clipped.surfaceSum (kFlux ⟨0, 0, 1⟩ G) - c.clipped.surfaceSum (kFlux ⟨0, 0, 1⟩ (q.below G))| ≤
      tol * R * c.clipped.totalArea := by
    rw [surfaceSum_sub]
    apply surfaceSum_area_le
    intro f hf i hi j hj k hk'
    have hle := clip_le hsrt htol hwf hpos hq hsep hcv hc f hf
    simp only [waterplane_dist] at hle
    simp only [kFlux, ← mul_sub]
    rw [← refInt_sub hcont.int (planeInt_below q hcont)]
    refine areaVec_dot_le hk hR' (refInt_abs_le ?_)
    intro u v hu hv huv
    have hz := z_ref_le (hle i hi) (hle j hj) (hle k hk') hu hv huv
    rw [hlow]
    split_ifs with h
    · simpa using hR'
    · rw [sub_zero]
      exact hb _ (convex_tri hP (hVc f hf i hi) (hVc f hf j hj) (hVc f hf k hk') hu hv huv) (abs_le.2 ⟨not_lt.1 h, hz⟩)
  have h3 : |m.surfaceSum (kFlux ⟨0, 0, 1⟩ (waterplane.below G)) - m.surfaceSum (kFlux ⟨0, 0, 1⟩ (q.below G))| ≤
      tol * R * m.totalArea := by
    rw [surfaceSum_sub]
    apply surfaceSum_area_le
    intro f hf i hi j hj k hk'
    simp only [kFlux, ← mul_sub]
    rw [← refInt_sub (planeInt_below _ hcont) (planeInt_below q hcont)]
    refine areaVec_dot_le hk hR' (refInt_abs_le ?_)
    intro u v hu hv huv
    rw [hlow, hlow0]
    split_ifs with h h'
    · simpa using hR'
    · rw [sub_zero]
      exact hb _ (convex_tri hP (hV f hf i hi) (hV f hf j hj) (hV f hf k hk') hu hv huv) (abs_le.2 ⟨not_lt.1 h', by linarith⟩)
    · exact absurd ‹_› (by linarith)
    · simpa using hR'
  rw [h1] at h2
  rw [abs_le] at *
  constructor <;> linarith [h2.1, h2.2, h3.1, h3.2]

end

/-- Two sums over the triangles that differ on each triangle by terms on its sides. -/
lemma flux_edges (m : Mesh ℝ) {T S : V3 ℝ → V3 ℝ → V3 ℝ → ℝ} {E : V3 ℝ → V3 ℝ → ℝ} (anti : ∀ x y, E x y = -E y x)
    (key : ∀ a b c, T a b c = S a b c - (E a b + E b c + E c a)) :
    m.surfaceSum T = m.surfaceSum S - (m.pointEdges.map (fun e => E e.1 e.2)).sum := by
  have s0 : (m.pointEdges.map (fun e => E e.1 e.2)).sum = (m.faces.map (edgeSum E m.vert)).sum := by
    unfold Mesh.pointEdges Mesh.directedEdges
    rw [List.map_map, List.map_flatMap, sum_flatMap']
    congr 1
    apply List.map_congr_left
    intro f _
    rw [edgeSum_directed anti]; rfl
  rw [s0]
  unfold Mesh.surfaceSum
  generalize m.faces = L
  induction L with
  | nil => simp
  | cons f L ih =>
    simp only [List.map_cons, List.sum_cons] at ih ⊢
    have hface : m.faceSum T f = m.faceSum S f - edgeSum E m.vert f := by
      unfold Mesh.faceSum edgeSum
      split_ifs with hd
      · have z : E (m.vert f.d) (m.vert f.d) = 0 := by have := anti (m.vert f.d) (m.vert f.d); linarith
        rw [key, ← hd, hd, z]
        ring
      · have k1 := key (m.vert f.a) (m.vert f.b) (m.vert f.c)
        have k2 := key (m.vert f.a) (m.vert f.c) (m.vert f.d)
        have k3 := anti (m.vert f.c) (m.vert f.a)
        linarith
    linarith

/-! ## Integrals over the immersed part from vertical fluxes -/

lemma below_under {G : V3 ℝ → ℝ} (h0 : ∀ X : V3 ℝ, X.z = 0 → G X = 0) {a b c : V3 ℝ} (ha : a.z ≤ 0) (hb : b.z ≤ 0) (hc : c.z ≤ 0) :
    refInt (waterplane.below G) a b c = refInt G a b c := by
  apply refInt_congr
  intro u v hu hv huv
  have hz := z_ref_le ha hb hc hu hv huv
  rw [below_dist, waterplane_dist]
  split_ifs with h
  · rfl
  · exact (h0 _ (le_antisymm hz (not_lt.1 h))).symm

lemma wetFlux_anti {G : V3 ℝ → ℝ} (hG : Quadratic G) (o x y : V3 ℝ) : kFlux ⟨0, 0, 1⟩ (waterplane.below G) o x y =
    -kFlux ⟨0, 0, 1⟩ (waterplane.below G) o y x := by
  unfold kFlux
  rw [refInt_swap23 (planeInt_below _ (quadratic_flux hG 0).1) o x y]
  simp only [areaVec, V3.dot, V3.cross, V3.sub_x, V3.sub_y, V3.sub_z]
  ring

/-- Divergence theorem on the part under the free surface of the tetrahedron that joins a point of the free surface to a
triangle. -/
lemma wet_tet {g G : V3 ℝ → ℝ} (hg : Quadratic g) (hG : Quadratic G) (h0 : ∀ X : V3 ℝ, X.z = 0 → G X = 0) {o : V3 ℝ} (ho : o.z = 0)
    (hdiv : ∀ a b c, tetIntegral g o a b c = kFlux ⟨0, 0, 1⟩ G a b c -
      (kFlux ⟨0, 0, 1⟩ G o a b + kFlux ⟨0, 0, 1⟩ G o b c + kFlux ⟨0, 0, 1⟩ G o c a))
    {n A : V3 ℝ} (hn : n ≠ 0) {a b c : V3 ℝ} (ha : InPlane n A a) (hb : InPlane n A b) (hc : InPlane n A c) :
    tetIntegral (waterplane.below g) o a b c = kFlux ⟨0, 0, 1⟩ (waterplane.below G) a b c -
      (kFlux ⟨0, 0, 1⟩ (waterplane.below G) o a b + kFlux ⟨0, 0, 1⟩ (waterplane.below G) o b c +
        kFlux ⟨0, 0, 1⟩ (waterplane.below G) o c a) := by
  set kf := kFlux ⟨0, 0, 1⟩ (waterplane.below G) with hkf
  have hanti : ∀ o x y, kf o x y = -kf o y x := wetFlux_anti hG
  obtain ⟨⟨g0, g1, g2, hr⟩, hadd⟩ := quadratic_radial hg o
  have ho' : waterplane.dist o = 0 := by rw [waterplane_dist, ho]
  have hJ := below_cutsOff waterplane (coneDet_areaLike o) (planeCont_radInt (g0 := g0) hr.c1 hr.c2)
  have e1 : (fun a b c => coneDet o a b c * refInt (waterplane.below (radInt g0 g1 g2)) a b c) =
      tetIntegral (waterplane.below g) o := by
    funext a b c; rw [tet_radial waterplane hr (half_inv waterplane ho')]
  have e2 : (fun a b c => coneDet o a b c * refInt (radInt g0 g1 g2) a b c) = tetIntegral g o := by
    funext a b c; rw [tet_radial_whole hr]
  rw [e1, e2] at hJ
  have hF := below_cutsOff waterplane (areaVec_areaLike ⟨0, 0, 1⟩) (quadratic_flux hG ⟨0, 0, 1⟩).1
  have hcyc : ∀ a b c, kf a b c = kf b c a := hF.cycle
  have hsplit : ∀ a b c, ∀ t : ℝ, 0 ≤ t → t ≤ 1 → kf a b c = kf a b (a + t • (c - a)) + kf (a + t • (c - a)) b c := hF.split
  have habove : ∀ a b c, 0 ≤ waterplane.dist a → 0 ≤ waterplane.dist b → 0 ≤ waterplane.dist c → kf a b c = 0 := hF.above
  have hbelow : ∀ a b c, waterplane.dist a ≤ 0 → waterplane.dist b ≤ 0 → waterplane.dist c ≤ 0 →
      kf a b c = kFlux ⟨0, 0, 1⟩ G a b c := by
    intro a b c ha hb hc
    rw [waterplane_dist] at ha hb hc
    rw [hkf, kFlux, below_under h0 ha hb hc, kFlux]
  have hJ2 : CutsOff waterplane (fun a b c => kf a b c - (kf o a b + kf o b c + kf o c a)) (tetIntegral g o) := by
    refine ⟨?_, ?_, ?_, ?_⟩
    · intro a b c
      show kf a b c - _ = kf b c a - _
      rw [hcyc a b c]; ring
    · intro a b c t t0 t1
      show kf a b c - _ = kf a b _ - _ + (kf _ b c - _)
      rw [hsplit a b c t t0 t1]
      have k := hsplit a o c t t0 t1
      set x := a + t • (c - a)
      rw [hcyc a o c, hcyc a o x, hcyc x o c] at k
      have k2 := hanti o b x
      linarith
    · intro a b c da db dc
      show kf a b c - _ = 0
      rw [habove _ _ _ da db dc, habove _ _ _ ho'.ge da db, habove _ _ _ ho'.ge db dc, habove _ _ _ ho'.ge dc da]
      ring
    · intro a b c da db dc _
      show kf a b c - _ = _
      rw [hbelow _ _ _ da db dc, hbelow _ _ _ ho'.le da db, hbelow _ _ _ ho'.le db dc, hbelow _ _ _ ho'.le dc da, hdiv]
  by_cases hoff : waterplane.dist a = 0 ∧ waterplane.dist b = 0 ∧ waterplane.dist c = 0
  · rw [hJ.above _ _ _ hoff.1.ge hoff.2.1.ge hoff.2.2.ge]
    exact (hJ2.above _ _ _ hoff.1.ge hoff.2.1.ge hoff.2.2.ge).symm
  · have : ∃ B, InPlane n A B ∧ waterplane.dist B ≠ 0 := by
      by_contra hno
      push Not at hno
      exact hoff ⟨hno a ha, hno b hb, hno c hc⟩
    obtain ⟨B, hB, hB0⟩ := this
    have re : ∀ X, InPlane n A X → InPlane n B X := by
      intro X hX
      simp only [InPlane, V3.dot, V3.sub_x, V3.sub_y, V3.sub_z] at *
      linear_combination hX - hB
    obtain ⟨o', ho1, hcol⟩ := exists_apex waterplane (n := n) (A := B) hn hB0
    rw [tri_below hJ hadd hn ho1 hcol (re _ ha) (re _ hb) (re _ hc)]
    exact (tri_below hJ2 hadd hn ho1 hcol (re _ ha) (re _ hb) (re _ hc)).symm

/-- The integral over the part of a watertight mesh under the free surface is a vertical flux through its part under the
free surface. -/
lemma wet_solid_flux (m : Mesh ℝ) (hcl : m.ClosedOriented) (hcv : m.StrictlyConvexFaces) {g G : V3 ℝ → ℝ} (hg : Quadratic g)
    (hG : Quadratic G) (h0 : ∀ X : V3 ℝ, X.z = 0 → G X = 0) {o : V3 ℝ} (ho : o.z = 0)
    (hdiv : ∀ a b c, tetIntegral g o a b c = kFlux ⟨0, 0, 1⟩ G a b c -
      (kFlux ⟨0, 0, 1⟩ G o a b + kFlux ⟨0, 0, 1⟩ G o b c + kFlux ⟨0, 0, 1⟩ G o c a)) :
    m.solidIntegral o (waterplane.below g) = m.surfaceSum (kFlux ⟨0, 0, 1⟩ (waterplane.below G)) := by
  set kf := kFlux ⟨0, 0, 1⟩ (waterplane.below G) with hkf
  have hanti : ∀ o x y, kf o x y = -kf o y x := wetFlux_anti hG
  have z : (m.faces.map (edgeSum (kf o) m.vert)).sum = 0 := by
    have := closed_sum hcl (fun i j => kf o (m.vert i) (m.vert j)) (fun i j => hanti o _ _)
    unfold Mesh.directedEdges at this
    rw [List.map_flatMap, sum_flatMap'] at this
    rw [← this]
    congr 1
    apply List.map_congr_left
    intro f _
    rw [edgeSum_directed (hanti o)]
  have hface : ∀ f ∈ m.faces, m.faceSum (tetIntegral (waterplane.below g) o) f =
      m.faceSum kf f - edgeSum (kf o) m.vert f := by
    intro f hf
    obtain ⟨n, hn, hP⟩ := face_plane (hcv f hf)
    have ha := hP f.a (by simp [Face.toList])
    have hb := hP f.b (by simp [Face.toList])
    have hc := hP f.c (by simp [Face.toList])
    have hd := hP f.d (by simp [Face.toList])
    unfold Mesh.faceSum edgeSum
    split_ifs with hd'
    · have z : kf o (m.vert f.d) (m.vert f.d) = 0 := by have := hanti o (m.vert f.d) (m.vert f.d); linarith
      rw [wet_tet hg hG h0 ho hdiv hn ha hb hc, ← hd', hd', z]
      ring
    · have k3 := hanti o (m.vert f.c) (m.vert f.a)
      rw [wet_tet hg hG h0 ho hdiv hn ha hb hc, wet_tet hg hG h0 ho hdiv hn ha hc hd]
      linarith
  unfold Mesh.solidIntegral Mesh.surfaceSum
  rw [List.map_congr_left hface]
  have : ∀ L : List Face, (L.map (fun f => m.faceSum kf f - edgeSum (kf o) m.vert f)).sum =
      (L.map (m.faceSum kf)).sum - (L.map (edgeSum (kf o) m.vert)).sum := by
    intro L
    induction L with
    | nil => simp
    | cons f L ih => simp only [List.map_cons, List.sum_cons, ih]; ring
  rw [this, z, sub_zero]

/-- The ends of the edges of the section are in any convex set that contains the corners of the faces. -/
lemma tolSection_hull {p : Plane ℝ} {tol : ℝ} (htol : 0 ≤ tol) {m : Mesh ℝ} {P : V3 ℝ → Prop}
    (hP : ∀ a b : V3 ℝ, ∀ t : ℝ, P a → P b → 0 ≤ t → t ≤ 1 → P (a + t • (b - a)))
    (hV : ∀ f ∈ m.faces, ∀ i ∈ f.toList, P (m.vert i)) {e : V3 ℝ × V3 ℝ} (he : e ∈ m.tolSectionEdges p tol) : P e.1 ∧ P e.2 := by
  obtain ⟨f, hf, hfe⟩ := List.mem_filterMap.1 he
  unfold Face.tolSectionEdge at hfe
  have hcut : ∀ i ∈ f.toList, ∀ j ∈ f.toList, p.dist (m.vert j) < -tol → P (p.tolCutPt tol (m.vert i) (m.vert j)) := by
    intro i hi j hj hd
    unfold Plane.tolCutPt
    split_ifs with h
    · have hm : p.dist (m.vert i) * p.dist (m.vert j) < 0 := mul_neg_of_pos_of_neg (by linarith) (by linarith)
      have hic : IsCut p (m.vert i) (m.vert j) (p.cutPt (m.vert i) (m.vert j)) := by
        refine ⟨hm, ?_⟩
        unfold Plane.cutPt
        rw [smul_smul, mul_inv_cancel₀ (by linarith : p.dist (m.vert i) - p.dist (m.vert j) > 0).ne', one_smul]
      obtain ⟨t, t0, t1, e⟩ := hic.between
      rw [e]
      exact hP _ _ t (hV f hf i hi) (hV f hf j hj) t0 t1
    · exact hV f hf i hi
  split at hfe
  · rename_i a a' h1 h2
    have m1 := edges_mem_toList (List.mem_of_find?_eq_some h1)
    have m2 := edges_mem_toList (List.mem_of_find?_eq_some h2)
    have p1 := List.find?_some h1
    have p2 := List.find?_some h2
    simp only [Bool.and_eq_true, decide_eq_true_eq] at p1 p2
    split_ifs at hfe
    simp only [Option.some.injEq] at hfe
    subst hfe
    exact ⟨hcut _ m1.1 _ m1.2 p1.2, hcut _ m2.2 _ m2.1 p2.1⟩
  · simp at hfe

/-- A sum over the triangles of the clipped mesh against the integral over the part of the mesh under the free surface. -/
theorem clip_solid_near {srt : (ℕ → ℝ) → List ℕ → List ℕ} (hsrt : IsArgsort srt) {tol : ℝ} (htol : 0 ≤ tol) {b : Bool}
    {m : Mesh ℝ} (hwf : m.WF) (hcl : m.ClosedOriented)
    (hpos : ∀ f ∈ m.faces, ∀ i ∈ f.toList, |waterplane.dist (m.vert i)| ≠ tol)
    (hsep : m.TolSeparated waterplane tol) (hcv : m.StrictlyConvexFaces) (hfl : m.NoSlabSide waterplane tol) {c : Clipped ℝ}
    (hc : clip srt waterplane tol b m = .ok c) {o : V3 ℝ} (ho : o.z = 0) {g G : V3 ℝ → ℝ} (hg : Quadratic g)
    (hG : Quadratic G) (h0 : ∀ X : V3 ℝ, X.z = 0 → G X = 0)
    (hdiv : ∀ a b c, tetIntegral g o a b c = kFlux ⟨0, 0, 1⟩ G a b c -
      (kFlux ⟨0, 0, 1⟩ G o a b + kFlux ⟨0, 0, 1⟩ G o b c + kFlux ⟨0, 0, 1⟩ G o c a))
    {T : V3 ℝ → V3 ℝ → V3 ℝ → ℝ} {E : V3 ℝ → V3 ℝ → ℝ} (anti : ∀ x y, E x y = -E y x)
    (key : ∀ a b c, T a b c = kFlux ⟨0, 0, 1⟩ G a b c - (E a b + E b c + E c a))
    {P : V3 ℝ → Prop} (hP : ∀ a b : V3 ℝ, ∀ t : ℝ, P a → P b → 0 ≤ t → t ≤ 1 → P (a + t • (b - a)))
    (hV : ∀ f ∈ m.faces, ∀ i ∈ f.toList, P (m.vert i)) {R : ℝ} (hR : 0 ≤ R)
    (hb : ∀ X, P X → |X.z| ≤ tol → |G X| ≤ tol * R) {D : V3 ℝ → V3 ℝ → ℝ}
    (hE : ∀ x y, P x → P y → |x.z| ≤ tol → |y.z| ≤ tol → |E x y| ≤ tol * D x y) :
    |c.clipped.surfaceSum T - m.solidIntegral o (waterplane.below g)| ≤
      tol * (R * (c.clipped.totalArea + m.totalArea) + ((m.tolSectionEdges waterplane tol).map (fun e => D e.1 e.2)).sum) := by
  have hq := strictlyConvex_cross hcv
  have hcl' := clip_closed_tol hsrt htol hwf hcl hpos hq hsep (fun f hf => corners_nodup (hcv f hf)) hfl hc anti
  have hnear := flux_near hsrt htol hwf hpos hsep hcv hc hfl hG hP hV hR hb
  rw [flux_edges _ anti key, wet_solid_flux m hcl hcv hg hG h0 ho hdiv]
  have hsum : ∀ L : List (V3 ℝ × V3 ℝ), (∀ e ∈ L, |E e.1 e.2| ≤ tol * D e.1 e.2) →
      |(L.map (fun e => E e.1 e.2)).sum| ≤ tol * (L.map (fun e => D e.1 e.2)).sum := by
    intro L hL
    induction L with
    | nil => simp
    | cons e L ih =>
      simp only [List.map_cons, List.sum_cons]
      have ih' := ih (fun e he => hL e (List.mem_cons_of_mem _ he))
      have he := hL e List.mem_cons_self
      have := abs_add_le (E e.1 e.2) ((L.map (fun e => E e.1 e.2)).sum)
      linarith
  have hb' := hsum (m.tolSectionEdges waterplane tol) (by
    intro e he
    have hh := tolSection_hull htol hP hV he
    obtain ⟨f, _, hf⟩ := List.mem_filterMap.1 he
    have := tolSectionEdge_ge htol hf
    simp only [waterplane_dist] at this
    exact hE _ _ hh.1 hh.2 (abs_le.2 this.1) (abs_le.2 this.2))
  rw [abs_le] at hnear hb' ⊢
  constructor <;> linarith

end MM
