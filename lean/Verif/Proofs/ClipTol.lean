import Verif.Proofs.ClipBand

/-!
# Additive quantities and clipping, with corners within the tolerance

The pieces of a face cover its part under the slab: a quantity which is zero above the lower side of the slab has on the pieces
the value that it has on the face.
-/

namespace MM
namespace Clipper

set_option linter.unusedSectionVars false
set_option linter.unusedSimpArgs false
set_option linter.unusedVariables false

variable {K : Type*} [Field K] [LinearOrder K] [IsStrictOrderedRing K]

/-- The lower side of the slab of half-width `tol` around a plane. -/
def _root_.MM.Plane.lowered (p : Plane K) (tol : K) : Plane K := ⟨p.normal, p.c - tol⟩

lemma lowered_dist (p : Plane K) (tol : K) (X : V3 K) : (p.lowered tol).dist X = p.dist X + tol := by
  simp only [Plane.dist, Plane.lowered]; ring

theorem table_notAbove : ∀ c ∈ lists3 ++ lists4, c.any Cls.isBad = false → altern c = false →
    (plan c).check (fun q => q.noA c) = true := by decide +kernel

/-- The corners of the pieces are not above the slab. -/
lemma planned_le {p : Plane K} {tol : K} (htol : 0 ≤ tol) {V W : ℕ → V3 K} {f : Face} {gs : List Face}
    (hpos : ∀ i ∈ f.toList, |p.dist (V i)| ≠ tol) (halt : altern (cornerCls p tol V f) = false)
    (h : Planned p tol V W f gs) : ∀ g ∈ gs, ∀ i ∈ g.toList, p.dist (W i) ≤ tol := by
  obtain ⟨q, N, h1, h2, h3⟩ := h
  have hrange := PlanRes.check_ok (table_range _ (cornerCls_mem p tol V f)) h1
  simp only [Plan.inRange, Bool.and_eq_true, List.all_eq_true, cornerCls_length] at hrange
  have hbad : (cornerCls p tol V f).any Cls.isBad = false := by
    rw [cornerCls, List.any_map, List.any_eq_false]
    intro i hi
    simp [(notAt_cls htol (hpos i (Face.corners_sub f i hi))).1]
  have hno := PlanRes.check_ok (table_notAbove _ (cornerCls_mem p tol V f) hbad halt) h1
  simp only [Plan.noA, List.all_eq_true] at hno
  have hpt : ∀ r, Ref.inRange f.corners.length q.cuts.length r = true → Ref.okOld (cornerCls p tol V f) r = true →
      p.dist (pt (cornerPt V f) N r) ≤ tol := by
    intro r hr ho
    cases r with
    | old k =>
      simp only [Ref.inRange, decide_eq_true_eq] at hr
      have e : (cornerCls p tol V f).getD k .A = classOf tol (p.dist (cornerPt V f k)) := by
        unfold cornerCls cornerPt
        simp [List.getD_eq_getElem?_getD, List.getElem?_map, List.getElem?_eq_getElem hr]
      show p.dist (cornerPt V f k) ≤ tol
      by_contra hh
      simp only [Ref.okOld, Bool.and_eq_true, Bool.not_eq_true'] at ho
      rw [e] at ho
      have := isA_iff.2 (not_le.1 hh)
      rw [this] at ho
      exact absurd ho.2 (by simp)
    | new j =>
      simp only [Ref.inRange, decide_eq_true_eq] at hr
      have hcut : IsCut p _ _ _ := h2 j _ (List.getElem?_eq_getElem hr)
      show p.dist (N j) ≤ tol
      rw [hcut.dist]
      exact htol
  intro g hg i hi
  obtain ⟨j, hj, rfl⟩ := List.mem_iff_getElem.1 hg
  rw [List.forall₂_iff_get] at h3
  have hj' : j < q.faces.length := by rw [h3.1]; exact hj
  obtain ⟨a, b, c, d, hl, wa, wb, wc, wd, had⟩ := h3.2 j hj' hj
  simp only [List.get_eq_getElem] at hl wa wb wc wd
  have hmem : [a, b, c, d] ∈ q.faces := by rw [← hl]; exact List.getElem_mem _
  have hin := hrange.1.1 _ hmem
  have hok := hno _ hmem
  simp only [Face.toList, List.mem_cons, List.not_mem_nil, or_false] at hi
  rcases hi with rfl | rfl | rfl | rfl
  · rw [wa]; exact hpt a (hin a (by simp)) (hok a (by simp))
  · rw [wb]; exact hpt b (hin b (by simp)) (hok b (by simp))
  · rw [wc]; exact hpt c (hin c (by simp)) (hok c (by simp))
  · rw [wd]; exact hpt d (hin d (by simp)) (hok d (by simp))

/-- The point where a segment crosses a plane does not change when its end is moved along it. -/
lemma cutPt_trunc {q : Plane K} {a b : V3 K} {t : K} (ht : t ≠ 0) (h : q.dist a ≠ q.dist b) :
    q.cutPt a (a + t • (b - a)) = q.cutPt a b := by
  have e : q.dist (a + t • (b - a)) = q.dist a + t * (q.dist b - q.dist a) := by
    simp only [Plane.dist, V3.dot, V3.add_x, V3.add_y, V3.add_z, V3.smul_x, V3.smul_y, V3.smul_z, V3.sub_x, V3.sub_y, V3.sub_z]
    ring
  have h' : q.dist b - q.dist a ≠ 0 := sub_ne_zero.2 h.symm
  have hne : q.dist a ≠ q.dist (a + t • (b - a)) := by
    rw [e]
    intro hh
    have : t * (q.dist b - q.dist a) = 0 := by linarith
    rcases mul_eq_zero.1 this with h1 | h1
    · exact ht h1
    · exact h' h1
  rw [cutPt_param hne, cutPt_param h, e]
  have e2 : (a + t • (b - a)) - a = t • (b - a) := by ext <;> simp
  rw [e2, smul_smul]
  congr 2
  have h'' : q.dist a - q.dist b ≠ 0 := sub_ne_zero.2 h
  rw [show q.dist a - (q.dist a + t * (q.dist b - q.dist a)) = t * (q.dist a - q.dist b) by ring]
  field_simp

/-- The part below the slab of an edge has the value of the edge, for a quantity that is zero above the lower side of the
slab. -/
lemma belowTol_lowered {p : Plane K} {tol : K} (htol : 0 ≤ tol) {φ : V3 K → V3 K → K} (hφ : ∀ x y, φ x y = -φ y x) (a b : V3 K) :
    belowTol p tol (belowEdge (p.lowered tol) φ) a b = belowEdge (p.lowered tol) φ a b := by
  have key : ∀ a b, p.dist a < -tol → ¬ p.dist b < -tol →
      belowEdge (p.lowered tol) φ a (p.tolCutPt tol b a) = belowEdge (p.lowered tol) φ a b := by
    intro a b ha hb
    unfold Plane.tolCutPt
    split_ifs with h
    · have hne : p.dist a ≠ p.dist b := by linarith
      have hX : p.dist (p.cutPt b a) = 0 := cutPt_dist hne.symm
      have hda : (p.lowered tol).dist a < 0 := by rw [lowered_dist]; linarith
      have hdb : ¬ (p.lowered tol).dist b < 0 := by rw [lowered_dist]; linarith
      have hdX : ¬ (p.lowered tol).dist (p.cutPt b a) < 0 := by rw [lowered_dist, hX]; linarith
      unfold belowEdge
      rw [if_pos hda, if_neg hdX, if_pos hda, if_neg hdb]
      congr 1
      rw [cutPt_symm p b a, cutPt_param hne]
      refine cutPt_trunc ?_ (by rw [lowered_dist, lowered_dist]; intro hh; exact hne (by linarith))
      exact (div_pos_of_neg_of_neg (by linarith) (by linarith)).ne'
    · rfl
  unfold belowTol
  split_ifs with h1 h2 h2
  · rfl
  · exact key a b h1 h2
  · rw [belowEdge_anti hφ, key b a h2 h1, ← belowEdge_anti hφ]
  · symm
    exact belowEdge_nonneg φ (by rw [lowered_dist]; linarith) (by rw [lowered_dist]; linarith)

/-- The ends of the side along the plane are not below the slab. -/
lemma tolSectionEdge_ge {p : Plane K} {tol : K} (htol : 0 ≤ tol) {V : ℕ → V3 K} {f : Face} {e : V3 K × V3 K}
    (h : f.tolSectionEdge p tol V = some e) : (-tol ≤ p.dist e.1 ∧ p.dist e.1 ≤ tol) ∧ (-tol ≤ p.dist e.2 ∧ p.dist e.2 ≤ tol) := by
  have key : ∀ a b, -tol ≤ p.dist a → p.dist b < -tol → -tol ≤ p.dist (p.tolCutPt tol a b) ∧ p.dist (p.tolCutPt tol a b) ≤ tol := by
    intro a b ha hb
    unfold Plane.tolCutPt
    split_ifs with h
    · rw [cutPt_dist (by linarith)]
      exact ⟨by linarith, htol⟩
    · exact ⟨ha, not_lt.1 h⟩
  unfold Face.tolSectionEdge at h
  split at h
  · rename_i e1 e2 h1 h2
    split_ifs at h
    simp only [Option.some.injEq] at h
    subst h
    have k1 := List.find?_some h1
    have k2 := List.find?_some h2
    simp only [Bool.and_eq_true, decide_eq_true_eq] at k1 k2
    exact ⟨key _ _ k1.1 k1.2, key _ _ k2.2 k2.1⟩
  · simp at h

/-- The pieces of a face have together the value of the face, for a quantity that is zero above the lower side of the slab. -/
lemma planned_lowered {p : Plane K} {tol : K} (htol : 0 ≤ tol) {V W : ℕ → V3 K} {f : Face} {gs : List Face}
    (hpos : ∀ i ∈ f.toList, |p.dist (V i)| ≠ tol) (halt : altern (cornerCls p tol V f) = false)
    (hflat : flatOn (cornerCls p tol V f) = false)
    (hf : if f.a = f.d then areaVec (V f.a) (V f.b) (V f.c) ≠ 0
      else StrictlyConvexQuad (V f.a) (V f.b) (V f.c) (V f.d)) (h : Planned p tol V W f gs)
    {J Φ : V3 K → V3 K → V3 K → K} (hJ : CutsOff (p.lowered tol) J Φ) (hΦ : PlaneAdditive Φ) :
    (gs.map (fun g => J (W g.a) (W g.b) (W g.c) + J (W g.a) (W g.c) (W g.d))).sum =
      (if f.a = f.d then J (V f.a) (V f.b) (V f.c) else J (V f.a) (V f.b) (V f.c) + J (V f.a) (V f.c) (V f.d)) := by
  obtain ⟨n, hn, hP0⟩ := face_plane hf
  have hma : f.a ∈ f.toList := by simp [Face.toList]
  have hP : ∀ i ∈ f.toList, InPlane n (V f.a) (V i) := by
    intro i hi
    have h1 := hP0 i hi
    have h2 := hP0 f.a hma
    simp only [InPlane, V3.dot, V3.sub_x, V3.sub_y, V3.sub_z] at *
    linear_combination h1 - h2
  have hA : (p.lowered tol).dist (V f.a) ≠ 0 := by
    rw [lowered_dist]
    intro h0
    apply hpos f.a hma
    rw [show p.dist (V f.a) = -tol by linarith, abs_neg, abs_of_nonneg htol]
  obtain ⟨o, ho, hcol⟩ := exists_apex (p.lowered tol) (n := n) (A := V f.a) hn hA
  have hanti : ∀ x y, belowEdge (p.lowered tol) (Φ o) x y = -belowEdge (p.lowered tol) (Φ o) y x := belowEdge_anti (hΦ.anti o)
  have e1 : gs.map (fun g => J (W g.a) (W g.b) (W g.c) + J (W g.a) (W g.c) (W g.d)) =
      gs.map (edgeSum (belowEdge (p.lowered tol) (Φ o)) W) := by
    apply List.map_congr_left
    intro g hg
    have hP := planned_inPlane hP h g hg
    have ma := hP g.a (by simp [Face.toList])
    have mb := hP g.b (by simp [Face.toList])
    have mc := hP g.c (by simp [Face.toList])
    have md := hP g.d (by simp [Face.toList])
    rw [tri_below hJ hΦ hn ho hcol ma mb mc, tri_below hJ hΦ hn ho hcol ma mc md, edgeSum, hanti (W g.c) (W g.a)]
    ring
  rw [e1, planned_chain_tol htol hpos halt hflat (corners_nodup hf) h hanti, face_below hJ hΦ hn ho hcol hP]
  have e2 : tolSum p tol (belowEdge (p.lowered tol) (Φ o)) V f = 0 := by
    unfold tolSum
    split
    · rename_i e he
      obtain ⟨k1, k2⟩ := tolSectionEdge_ge htol he
      exact belowEdge_nonneg _ (by rw [lowered_dist]; linarith [k2.1]) (by rw [lowered_dist]; linarith [k1.1])
    · rfl
  rw [e2, add_zero]
  congr 1
  apply List.map_congr_left
  intro e _
  exact belowTol_lowered htol (hΦ.anti o) _ _

section
variable {srt : (ℕ → K) → List ℕ → List ℕ} (hsrt : IsArgsort srt) {p : Plane K} {tol : K} (htol : 0 ≤ tol) {b : Bool}
  {m : Mesh K} (hwf : m.WF) (hpos : ∀ f ∈ m.faces, ∀ i ∈ f.toList, |p.dist (m.vert i)| ≠ tol) (hq : QuadsCross m)
  (hsep : m.TolSeparated p tol) (hcv : m.StrictlyConvexFaces) {c : Clipped K} (hc : clip srt p tol b m = .ok c)
include hsrt htol hwf hpos hq hsep hcv hc

/-- The value on the clipped mesh of an additive quantity that is zero above the lower side of the slab. -/
theorem clip_lowered (hfl : m.NoSlabSide p tol) {J Φ : V3 K → V3 K → V3 K → K} (hJ : CutsOff (p.lowered tol) J Φ) (hΦ : PlaneAdditive Φ) :
    (c.clipped.faces.map (fun g => J (c.clipped.vert g.a) (c.clipped.vert g.b) (c.clipped.vert g.c) +
      J (c.clipped.vert g.a) (c.clipped.vert g.c) (c.clipped.vert g.d))).sum =
    (m.faces.map (fun f => if f.a = f.d then J (m.vert f.a) (m.vert f.b) (m.vert f.c)
      else J (m.vert f.a) (m.vert f.b) (m.vert f.c) + J (m.vert f.a) (m.vert f.c) (m.vert f.d))).sum := by
  obtain ⟨exact, parts, w1, w2, hg, hperm, hfaces, hpl, _, htri⟩ :=
    clip_planned_tol hsrt htol hwf hpos (fun f hf => .inr (corners_nodup (hcv f hf))) hsep hc
  rw [geometry_congr (fun u v w t => J u v w + J u w t) hg, hfaces, List.map_flatMap, sum_flatMap',
    ← (hperm.map _).sum_eq, List.map_map]
  congr 1
  apply List.map_congr_left
  intro t ht
  have hf : t.1 ∈ m.faces := hperm.mem_iff.1 (List.mem_map_of_mem ht)
  exact planned_lowered htol (hpos _ hf) (cls_not_altern htol hwf hq hf) (slab_flatOn htol (hfl _ hf)) (hcv _ hf) (hpl t ht) hJ hΦ

/-- The corners of the clipped mesh are not above the slab. -/
theorem clip_le : ∀ g ∈ c.clipped.faces, ∀ i ∈ g.toList, p.dist (c.clipped.vert i) ≤ tol := by
  obtain ⟨exact, parts, w1, w2, hg, hperm, hfaces, hpl, _, htri⟩ :=
    clip_planned_tol hsrt htol hwf hpos (fun f hf => .inr (corners_nodup (hcv f hf))) hsep hc
  have h0 : ∀ x ∈ exact.faces.map (fun f => (exact.vert f.a, exact.vert f.b, exact.vert f.c, exact.vert f.d)),
      p.dist x.1 ≤ tol ∧ p.dist x.2.1 ≤ tol ∧ p.dist x.2.2.1 ≤ tol ∧ p.dist x.2.2.2 ≤ tol := by
    intro x hx
    obtain ⟨g, hgm, rfl⟩ := List.mem_map.1 hx
    rw [hfaces, List.mem_flatMap] at hgm
    obtain ⟨t, ht, hgt⟩ := hgm
    have hf : t.1 ∈ m.faces := hperm.mem_iff.1 (List.mem_map_of_mem ht)
    have := planned_le htol (hpos _ hf) (cls_not_altern htol hwf hq hf) (hpl t ht) g hgt
    exact ⟨this _ (by simp [Face.toList]), this _ (by simp [Face.toList]), this _ (by simp [Face.toList]),
      this _ (by simp [Face.toList])⟩
  rw [← geometry_congr (fun u v w t => (u, v, w, t)) hg] at h0
  intro g hgm i hi
  obtain ⟨k1, k2, k3, k4⟩ := h0 _ (List.mem_map_of_mem hgm)
  simp only [Face.toList, List.mem_cons, List.not_mem_nil, or_false] at hi
  rcases hi with rfl | rfl | rfl | rfl
  · exact k1
  · exact k2
  · exact k3
  · exact k4

/-- Clipping a mesh with strictly convex faces gives a mesh with strictly convex faces, corners within the tolerance
allowed. -/
theorem clip_convex_tol : c.clipped.StrictlyConvexFaces := by
  obtain ⟨exact, parts, w1, w2, hg, hperm, hfaces, hpl, _, htri⟩ :=
    clip_planned_tol hsrt htol hwf hpos (fun f hf => .inr (corners_nodup (hcv f hf))) hsep hc
  have hex : exact.StrictlyConvexFaces := by
    intro g hg
    rw [hfaces, List.mem_flatMap] at hg
    obtain ⟨t, ht, hgt⟩ := hg
    have hf : t.1 ∈ m.faces := hperm.mem_iff.1 (List.mem_map_of_mem ht)
    exact planned_convex htol (hpos _ hf) (cls_not_altern htol hwf hq hf) (hcv _ hf) (hpl t ht) g hgt
  intro g' hg'
  obtain ⟨i, hi, rfl⟩ := List.mem_iff_getElem.1 hg'
  unfold SameTri at htri
  rw [List.forall₂_iff_get] at htri
  have hi' : i < exact.faces.length := by rw [htri.1]; exact hi
  have h1 := htri.2 i hi' hi
  simp only [List.get_eq_getElem] at h1
  have h2 := hex _ (List.getElem_mem hi')
  have h3 : (exact.faces[i]).toList.map (exact.vertices[·]?) = (c.clipped.faces[i]).toList.map (c.clipped.vertices[·]?) := by
    have := congrArg (fun l => l[i]?) hg
    simp only [Mesh.geometry, List.getElem?_map, List.getElem?_eq_getElem hi, List.getElem?_eq_getElem hi', Option.map_some,
      Option.some.injEq] at this
    exact this.symm
  obtain ⟨va, vb, vc, vd⟩ := vert_geometry (w1 _ (List.getElem_mem hi')) (w2 _ (List.getElem_mem hi)) h3
  rw [va, vb, vc, vd] at h2
  by_cases ht : (exact.faces[i]).a = (exact.faces[i]).d
  · rw [if_pos ht] at h2
    rw [if_pos (h1 ht)]
    exact h2
  · rw [if_neg ht] at h2
    have hne : (c.clipped.faces[i]).a ≠ (c.clipped.faces[i]).d := by
      intro hh
      obtain ⟨n, α, β, γ, δ, h1, h2, h3, h4, hn, e1, e2, e3, e4⟩ := h2
      rw [hh] at e3
      have : areaVec (c.clipped.vert c.clipped.faces[i].d) (c.clipped.vert c.clipped.faces[i].b)
        (c.clipped.vert c.clipped.faces[i].d) = 0 := area_eq_zero (by simp)
      rw [this] at e3
      exact smul_ne_zero' h3 hn e3.symm
    rw [if_neg hne]
    exact h2

end

end Clipper
end MM
