import Verif.Props.ClipperFl
import Verif.Props.ClipBody
import Verif.Spec.ConeVolume

/-!
# Waterlines and volume of a mesh clipped in floating point (C122)
-/

namespace MM
namespace Clipper

variable {K : Type*} [Field K] [LinearOrder K] [IsStrictOrderedRing K]

lemma clear_ne {u g tol : K} (hu : 0 ≤ u) (hg : 0 ≤ g) (htol0 : 0 < tol) {p : Plane K} {m : Mesh K} (hwf : m.WF)
    (hclear : ∀ v ∈ m.vertices,
      g * absDot v p.normal + u * (|p.dist v| + g * absDot v p.normal) < |p.dist v - tol| ∧
      g * absDot v p.normal + u * (|p.dist v| + g * absDot v p.normal) < |p.dist v + tol|) :
    ∀ f ∈ m.faces, ∀ i ∈ f.toList, |p.dist (m.vert i)| ≠ tol := by
  intro f hf i hi heq
  have hi' : i < m.vertices.length := hwf f hf i hi
  have hm : m.vert i ∈ m.vertices := by simp [Mesh.vert, List.getD_eq_getElem?_getD, hi']
  have hz : 0 ≤ g * absDot (m.vert i) p.normal + u * (|p.dist (m.vert i)| + g * absDot (m.vert i) p.normal) := by
    have := absDot_nonneg (m.vert i) p.normal
    positivity
  obtain ⟨h1, h2⟩ := hclear _ hm
  rcases (abs_eq htol0.le).1 heq with h | h
  · rw [h, sub_self, abs_zero] at h1
    rw [h] at hz
    exact absurd h1 (not_lt.2 hz)
  · rw [h, neg_add_cancel, abs_zero] at h2
    rw [h] at hz
    exact absurd h2 (not_lt.2 hz)

/-- **C122.** In floating point, a closed and oriented mesh with a face to cut is clipped without error, and its waterlines
are closed, under the conditions of C121 and those which are needed in exact arithmetic (C45). -/
theorem C122_watertight (u g : K) (hu : 0 ≤ u) (hu1 : u < 1) (rnd : K → K) (hr : IsRounding u rnd) (hone : rnd 1 = 1)
    (hidem : ∀ a ∈ [1 / 100000, 1 / 100000000], rnd (rnd a) = rnd a) (dot dot' : V3 K → V3 K → K) (hd : IsDot g dot) (hd' : IsDot g dot') (hg : 0 ≤ g)
    (srt srt' : (ℕ → K) → List ℕ → List ℕ) (hsrt : IsArgsort srt) (hsrt' : IsArgsort srt') (p : Plane K) (tol B R e : K)
    (htol0 : 0 < tol) (htol : 2 * g * (1 + u) * B ≤ tol) (b : Bool) (m : Mesh K) (hwf : m.WF)
    (hclear : ∀ v ∈ m.vertices,
      g * absDot v p.normal + u * (|p.dist v| + g * absDot v p.normal) < |p.dist v - tol| ∧
      g * absDot v p.normal + u * (|p.dist v| + g * absDot v p.normal) < |p.dist v + tol|)
    (hB : ∀ v ∈ m.vertices, absDot v p.normal + |p.c| ≤ B) (hR : ∀ v ∈ m.vertices, ∀ k, |v.coord k| ≤ R)
    (he0 : 0 ≤ e) (he : (g + ((1 + u) ^ 2 / (1 - u) - 1) * (1 + 3 * g)) * B / tol * R + ((1 + u) ^ 3 - 1) * R ≤ e)
    (hsep : m.TolSeparated p tol)
    (hgap : ∀ X Y, m.TolClipPoint p tol X → m.TolClipPoint p tol Y → ∀ a ∈ [1 / 100000, 1 / 100000000], ∀ k,
      |X.coord k - Y.coord k| + 2 * e ≤ (1 - u) * a ∨ (1 + u) / (1 - u) * a + 2 * e < |X.coord k - Y.coord k|)
    (hcl : m.ClosedOriented) (hq : QuadsCross m) (hnd : ∀ f ∈ m.faces, f.corners.Nodup) (hfl : m.NoSlabSide p tol)
    (hsec : ((m.tolSectionEdges p tol).map Prod.fst).Nodup)
    (h3 : ∀ f ∈ m.faces, f.a ≠ f.d → (f.corners.filter (fun i => |p.dist (m.vert i)| < tol)).length ≠ 3)
    (hcross : ∃ f ∈ m.faces, (∃ i ∈ f.toList, p.dist (m.vert i) < -tol) ∧ ∃ i ∈ f.toList, -tol ≤ p.dist (m.vert i)) :
    ∃ c', clipFl rnd dot dot' srt' p tol b m = .ok c' ∧ c'.openLines = [] := by
  obtain ⟨h1, h2⟩ := C45_in_slab_partial srt hsrt p tol htol0.le m hwf hcl hq hnd hfl (clear_ne hu hg htol0 hwf hclear) hsep
    hsec h3
  obtain ⟨c, hc⟩ := h2 hcross b
  obtain ⟨c', hc', hs⟩ := (C121_same_connectivity u g hu hu1 rnd hr hone hidem dot dot' hd hd' hg srt srt' hsrt hsrt' p tol B R e htol0 htol b m hwf hclear
    hB hR he0 he hsep hgap).2 c hc
  exact ⟨c', hc', hs.opened.trans (h1 b c hc)⟩

lemma cutPt_coord_le {p : Plane K} {tol R : K} (htol : 0 ≤ tol) {a b : V3 K}
    (hs : (tol < p.dist a ∧ p.dist b < -tol) ∨ (p.dist a < -tol ∧ tol < p.dist b)) (ha : ∀ k, |a.coord k| ≤ R)
    (hb : ∀ k, |b.coord k| ≤ R) (k : Fin 3) : |(p.cutPt a b).coord k| ≤ R := by
  have hD : p.dist a - p.dist b ≠ 0 := by
    rcases hs with ⟨h1, h2⟩ | ⟨h1, h2⟩
    · exact (by linarith : 0 < p.dist a - p.dist b).ne'
    · exact (by linarith : p.dist a - p.dist b < 0).ne
  set τ := p.dist a / (p.dist a - p.dist b) with hτ
  have t0 : 0 ≤ τ ∧ τ ≤ 1 := by
    rcases hs with ⟨h1, h2⟩ | ⟨h1, h2⟩
    · have : 0 < p.dist a - p.dist b := by linarith
      exact ⟨div_nonneg (by linarith) this.le, (div_le_one this).2 (by linarith)⟩
    · have : p.dist a - p.dist b < 0 := by linarith
      exact ⟨div_nonneg_of_nonpos (by linarith) this.le, (div_le_one_of_neg this).2 (by linarith)⟩
  have key : ∀ α β : K, |α| ≤ R → |β| ≤ R →
      |(p.dist a - p.dist b)⁻¹ * (p.dist a * β - p.dist b * α)| ≤ R := by
    intro α β h1 h2
    have e1 : (p.dist a - p.dist b)⁻¹ * (p.dist a * β - p.dist b * α) = (1 - τ) * α + τ * β := by
      rw [hτ]; field_simp; ring
    rw [e1]
    have k1 := mul_le_mul_of_nonneg_left h1 (sub_nonneg.2 t0.2)
    have k2 := mul_le_mul_of_nonneg_left h2 t0.1
    refine (abs_add_le _ _).trans ?_
    rw [abs_mul, abs_mul, abs_of_nonneg t0.1, abs_of_nonneg (sub_nonneg.2 t0.2)]
    linarith
  fin_cases k
  · exact key _ _ (ha 0) (hb 0)
  · exact key _ _ (ha 1) (hb 1)
  · exact key _ _ (ha 2) (hb 2)

/-! ## Volume -/

/-- For real coordinates, `coneVolume` is the signed volume of the other properties. -/
lemma coneVolume_real (m : Mesh ℝ) : m.coneVolume = m.signedVolume := rfl

lemma coneVol_near {R e : K} (he : 0 ≤ e) {p q r p' q' r' : V3 K} (hp : ∀ k, |p.coord k| ≤ R) (hq : ∀ k, |q.coord k| ≤ R)
    (hr : ∀ k, |r.coord k| ≤ R) (cp : V3.Close e p p') (cq : V3.Close e q q') (cr : V3.Close e r r') :
    |coneVol p q r - coneVol p' q' r'| ≤ 3 * (R + e) ^ 2 * e := by
  have R0 : 0 ≤ R := (abs_nonneg _).trans (hp 0)
  have mono : ∀ a b c a' b' c' : K, |a| ≤ R → |b| ≤ R → |c| ≤ R → |a - a'| ≤ e → |b - b'| ≤ e → |c - c'| ≤ e →
      |a * (b * c) - a' * (b' * c')| ≤ 3 * (R + e) ^ 2 * e := by
    intro a b c a' b' c' h1 h2 h3 k1 k2 k3
    have n1 : |a'| ≤ R + e := by
      have := abs_sub_abs_le_abs_sub a' a
      rw [abs_sub_comm a' a] at this
      linarith
    have n2 : |b'| ≤ R + e := by
      have := abs_sub_abs_le_abs_sub b' b
      rw [abs_sub_comm b' b] at this
      linarith
    have h2' : |b| ≤ R + e := by linarith
    have h3' : |c| ≤ R + e := by linarith
    have e1 : a * (b * c) - a' * (b' * c') = (a - a') * (b * c) + a' * ((b - b') * c) + a' * (b' * (c - c')) := by ring
    have s0 : 0 ≤ R + e := by linarith
    have m1 : |(a - a') * (b * c)| ≤ e * ((R + e) * (R + e)) := by
      rw [abs_mul, abs_mul]
      exact mul_le_mul k1 (mul_le_mul h2' h3' (abs_nonneg _) s0) (by positivity) he
    have m2 : |a' * ((b - b') * c)| ≤ (R + e) * (e * (R + e)) := by
      rw [abs_mul, abs_mul]
      exact mul_le_mul n1 (mul_le_mul k2 h3' (abs_nonneg _) he) (by positivity) s0
    have m3 : |a' * (b' * (c - c'))| ≤ (R + e) * ((R + e) * e) := by
      rw [abs_mul, abs_mul]
      exact mul_le_mul n1 (mul_le_mul n2 k3 (abs_nonneg _) s0) (by positivity) s0
    rw [e1]
    refine (abs_add_le _ _).trans ((add_le_add ((abs_add_le _ _).trans (add_le_add m1 m2)) m3).trans (le_of_eq ?_))
    ring
  have t1 := mono _ _ _ _ _ _ (hp 0) (hq 1) (hr 2) cp.1 cq.2.1 cr.2.2
  have t2 := mono _ _ _ _ _ _ (hp 0) (hq 2) (hr 1) cp.1 cq.2.2 cr.2.1
  have t3 := mono _ _ _ _ _ _ (hp 1) (hq 2) (hr 0) cp.2.1 cq.2.2 cr.1
  have t4 := mono _ _ _ _ _ _ (hp 1) (hq 0) (hr 2) cp.2.1 cq.1 cr.2.2
  have t5 := mono _ _ _ _ _ _ (hp 2) (hq 0) (hr 1) cp.2.2 cq.1 cr.2.1
  have t6 := mono _ _ _ _ _ _ (hp 2) (hq 1) (hr 0) cp.2.2 cq.2.1 cr.1
  simp only [V3.coord_zero, V3.coord_one, V3.coord_two, abs_le] at t1 t2 t3 t4 t5 t6
  rw [abs_le]
  simp only [coneVol, V3.dot, V3.cross]
  constructor <;> linarith [t1.1, t1.2, t2.1, t2.2, t3.1, t3.2, t4.1, t4.2, t5.1, t5.2, t6.1, t6.2]

lemma vert_near {R e : K} (hR : 0 ≤ R) (he : 0 ≤ e) {m m' : Mesh K} (hv : List.Forall₂ (V3.Close e) m.vertices m'.vertices)
    (hb : ∀ v ∈ m.vertices, ∀ k, |v.coord k| ≤ R) (i : ℕ) :
    (∀ k, |(m.vert i).coord k| ≤ R) ∧ V3.Close e (m.vert i) (m'.vert i) := by
  unfold Mesh.vert
  by_cases hi : i < m.vertices.length
  · have hi' : i < m'.vertices.length := hv.length_eq ▸ hi
    simp only [List.getD_eq_getElem?_getD, List.getElem?_eq_getElem hi, List.getElem?_eq_getElem hi', Option.getD_some]
    exact ⟨hb _ (List.getElem_mem hi), (List.forall₂_iff_get.1 hv).2 i hi hi'⟩
  · have hi' : ¬ i < m'.vertices.length := hv.length_eq ▸ hi
    simp only [List.getD_eq_getElem?_getD, List.getElem?_eq_none (not_lt.1 hi), List.getElem?_eq_none (not_lt.1 hi'),
      Option.getD_none]
    refine ⟨fun k => ?_, close_refl he _⟩
    fin_cases k <;> simpa [V3.coord] using hR

lemma coneVolume_near {R e : K} (hR : 0 ≤ R) (he : 0 ≤ e) {m m' : Mesh K} (hf : m'.faces = m.faces)
    (hv : List.Forall₂ (V3.Close e) m.vertices m'.vertices) (hb : ∀ v ∈ m.vertices, ∀ k, |v.coord k| ≤ R) :
    |m.coneVolume - m'.coneVolume| ≤ m.nf * (6 * (R + e) ^ 2 * e) := by
  have hface : ∀ f, |m.faceConeVolume f - m'.faceConeVolume f| ≤ 6 * (R + e) ^ 2 * e := by
    intro f
    have n := vert_near hR he hv hb
    have t1 := coneVol_near he (n f.a).1 (n f.b).1 (n f.c).1 (n f.a).2 (n f.b).2 (n f.c).2
    have t2 := coneVol_near he (n f.a).1 (n f.c).1 (n f.d).1 (n f.a).2 (n f.c).2 (n f.d).2
    have h0 : 0 ≤ 3 * (R + e) ^ 2 * e := by positivity
    unfold Mesh.faceConeVolume
    split_ifs
    · linarith
    · rw [add_sub_add_comm]
      refine (abs_add_le _ _).trans ?_
      linarith
  unfold Mesh.coneVolume Mesh.nf
  rw [hf]
  induction m.faces with
  | nil => simp
  | cons f fs ih =>
    simp only [List.map_cons, List.sum_cons, List.length_cons, Nat.cast_add, Nat.cast_one]
    rw [add_sub_add_comm]
    refine (abs_add_le _ _).trans ?_
    linarith [hface f]

/-- **C122.** Under the conditions of C121, the volume between the origin and the mesh clipped in floating point (the volume
of the immersed body when the origin is in the plane and the mesh is closed) differs from that of the mesh clipped exactly
by at most `6 (R + e)² e` for each face. -/
theorem C122_volume (u g : K) (hu : 0 ≤ u) (hu1 : u < 1) (rnd : K → K) (hr : IsRounding u rnd) (hone : rnd 1 = 1)
    (hidem : ∀ a ∈ [1 / 100000, 1 / 100000000], rnd (rnd a) = rnd a) (dot dot' : V3 K → V3 K → K) (hd : IsDot g dot) (hd' : IsDot g dot') (hg : 0 ≤ g)
    (srt srt' : (ℕ → K) → List ℕ → List ℕ) (hsrt : IsArgsort srt) (hsrt' : IsArgsort srt') (p : Plane K) (tol B R e : K)
    (htol0 : 0 < tol) (htol : 2 * g * (1 + u) * B ≤ tol) (b : Bool) (m : Mesh K) (hwf : m.WF)
    (hclear : ∀ v ∈ m.vertices,
      g * absDot v p.normal + u * (|p.dist v| + g * absDot v p.normal) < |p.dist v - tol| ∧
      g * absDot v p.normal + u * (|p.dist v| + g * absDot v p.normal) < |p.dist v + tol|)
    (hB : ∀ v ∈ m.vertices, absDot v p.normal + |p.c| ≤ B) (hR : ∀ v ∈ m.vertices, ∀ k, |v.coord k| ≤ R)
    (he0 : 0 ≤ e) (he : (g + ((1 + u) ^ 2 / (1 - u) - 1) * (1 + 3 * g)) * B / tol * R + ((1 + u) ^ 3 - 1) * R ≤ e)
    (hsep : m.TolSeparated p tol)
    (hgap : ∀ X Y, m.TolClipPoint p tol X → m.TolClipPoint p tol Y → ∀ a ∈ [1 / 100000, 1 / 100000000], ∀ k,
      |X.coord k - Y.coord k| + 2 * e ≤ (1 - u) * a ∨ (1 + u) / (1 - u) * a + 2 * e < |X.coord k - Y.coord k|)
    (hR0 : 0 ≤ R) (c : Clipped K) (hc : clip srt p tol b m = .ok c) :
    ∃ c', clipFl rnd dot dot' srt' p tol b m = .ok c' ∧
      |c.clipped.coneVolume - c'.clipped.coneVolume| ≤ c.clipped.nf * (6 * (R + e) ^ 2 * e) := by
  rcases clipFl_sim u g hu hu1 rnd hr hone hidem dot dot' hd hd' hg srt srt' hsrt hsrt' p tol B R e htol0 htol b m hwf hclear
    hB hR he0 he hsep hgap with ⟨er, h1, h2⟩ | ⟨c1, c', h1, h2, h3, h4⟩
  · rw [h1] at hc
    cases hc
  · rw [h1] at hc
    cases hc
    have hb : ∀ v ∈ c.clipped.vertices, ∀ k, |v.coord k| ≤ R := by
      intro v hv
      rcases h4 v hv with h | ⟨x, hx, hs, rfl⟩
      · exact hR v h
      · obtain ⟨f, hf, hxf⟩ := List.mem_flatMap.1 hx
        have hm : ∀ i ∈ f.toList, m.vert i ∈ m.vertices := by
          intro i hi
          have hi' : i < m.vertices.length := hwf f hf i hi
          simp [Mesh.vert, List.getD_eq_getElem?_getD, hi']
        exact cutPt_coord_le htol0.le hs (hR _ (hm _ (edges_mem_toList hxf).1)) (hR _ (hm _ (edges_mem_toList hxf).2))
    exact ⟨c', h2, coneVolume_near hR0 he0 h3.faces h3.verts hb⟩

/-- The further hypotheses of C122 are met by `flOcta` (see `flOcta_meets_C121`). The two volumes are different. -/
theorem flOcta_meets_C122 :
    flOcta.ClosedOriented ∧ QuadsCross flOcta ∧ (∀ f ∈ flOcta.faces, f.corners.Nodup) ∧
      flOcta.NoSlabSide flWater (1 / 1000) ∧ ((flOcta.tolSectionEdges flWater (1 / 1000)).map Prod.fst).Nodup ∧
      (∀ f ∈ flOcta.faces, f.a ≠ f.d →
        (f.corners.filter (fun i => |flWater.dist (flOcta.vert i)| < 1 / 1000)).length ≠ 3) ∧
      (∃ f ∈ flOcta.faces, (∃ i ∈ f.toList, flWater.dist (flOcta.vert i) < -(1 / 1000)) ∧
        ∃ i ∈ f.toList, -(1 / 1000) ≤ flWater.dist (flOcta.vert i)) ∧
      (match clipFl (roundBits 53) (dotFma (roundBits 53)) (dotFl (roundBits 53)) insArgsort flWater (1 / 1000) true flOcta,
          clip insArgsort flWater (1 / 1000) true flOcta with
        | .ok c', .ok c => decide (c'.clipped.coneVolume ≠ c.clipped.coneVolume)
        | _, _ => false) = true := by
  refine ⟨closedOriented_of_manifold (by decide +kernel) (by decide +kernel), ?_, by decide +kernel, ?_, by decide +kernel,
    by decide +kernel, by decide +kernel, by decide +kernel⟩
  · intro f hf h
    exact absurd ((by decide +kernel : ∀ f ∈ flOcta.faces, f.a = f.d) f hf) h
  · have h : ∀ f ∈ flOcta.faces, ∀ e ∈ f.directedEdges, |flWater.dist (flOcta.vert e.1)| < 1 / 1000 →
        |flWater.dist (flOcta.vert e.2)| < 1 / 1000 →
        (∀ i ∈ f.toList, flWater.dist (flOcta.vert i) ≤ 1 / 1000) ∨
          (∀ i ∈ f.toList, -(1 / 1000) ≤ flWater.dist (flOcta.vert i)) := by decide +kernel
    exact h

end Clipper
end MM
