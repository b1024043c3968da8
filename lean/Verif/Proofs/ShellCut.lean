import Verif.Proofs.ConeCut
import Verif.Proofs.ClipConvex

/-!
# Integrals over the part of a surface under a plane
-/

namespace MM
namespace Clipper

open MeasureTheory Set

set_option linter.unusedSectionVars false
set_option linter.unusedSimpArgs false
set_option linter.unusedVariables false

lemma areaVec_areaLike (k : V3 ℝ) : AreaLike (fun a b c => (areaVec a b c).dot k) where
  cycle a b c := by simp only [areaVec, V3.dot, V3.cross, V3.sub_x, V3.sub_y, V3.sub_z]; ring
  left a b c t := by
    simp only [areaVec, V3.dot, V3.cross, V3.sub_x, V3.sub_y, V3.sub_z, V3.add_x, V3.add_y, V3.add_z, V3.smul_x,
      V3.smul_y, V3.smul_z]
    ring
  right a b c t := by
    simp only [areaVec, V3.dot, V3.cross, V3.sub_x, V3.sub_y, V3.sub_z, V3.add_x, V3.add_y, V3.add_z, V3.smul_x,
      V3.smul_y, V3.smul_z]
    ring

/-- A polynomial of degree at most two is continuous, and its flux through triangles is additive. -/
lemma quadratic_flux {g : V3 ℝ → ℝ} (hg : Quadratic g) (k : V3 ℝ) :
    PlaneCont g ∧ PlaneAdditive (fun a b c => (areaVec a b c).dot k * refInt g a b c) := by
  obtain ⟨L, hL⟩ := hg
  rw [show g = fun X => (L.map (fun t => aff t.1 X * aff t.2 X)).sum from funext hL]
  clear hL
  induction L with
  | nil =>
    have e : (fun X : V3 ℝ => (([] : List ((ℝ × V3 ℝ) × (ℝ × V3 ℝ))).map (fun t => aff t.1 X * aff t.2 X)).sum) =
        fun _ => (0 : ℝ) := by
      funext X; simp
    rw [e]
    refine ⟨planeCont_const 0, ?_⟩
    have z : ∀ a b c, refInt (fun _ => 0) a b c = 0 := by
      intro a b c; simp [refInt]
    simp only [z, mul_zero]
    exact ⟨fun _ _ _ => by simp, fun _ _ _ _ => rfl, fun _ _ _ _ _ => by simp⟩
  | cons t L ih =>
    obtain ⟨h, ha⟩ := ih
    have e : (fun X => ((t :: L).map (fun t => aff t.1 X * aff t.2 X)).sum) = fun X => aff t.1 X * aff t.2 X +
        (L.map (fun t => aff t.1 X * aff t.2 X)).sum := by
      funext X; simp
    rw [e]
    refine ⟨(planeCont_mul t.1 t.2).add' h, ?_⟩
    have z : (fun a b c => (areaVec a b c).dot k *
          refInt (fun X => aff t.1 X * aff t.2 X + (L.map (fun t => aff t.1 X * aff t.2 X)).sum) a b c) =
        fun a b c => affFlux k t.1 t.2 a b c +
          (areaVec a b c).dot k * refInt (fun X => (L.map (fun t => aff t.1 X * aff t.2 X)).sum) a b c := by
      funext a b c
      rw [refInt_add (planeCont_mul t.1 t.2).int h.int, refInt_aff, mul_add]
      rfl
    rw [z]
    exact (affFlux_additive k t.1 t.2).add ha

lemma triangleIntegral_refInt (g : V3 ℝ → ℝ) (p q r : V3 ℝ) :
    triangleIntegral g p q r = Real.sqrt (areaVec p q r).normSq * refInt g p q r := rfl

/-- For a triangle oriented as `n`, the area is the projection on the unit vector along `n`. -/
lemma area_along {n : V3 ℝ} (hn : n ≠ 0) {a b c : V3 ℝ} {s : ℝ} (hs : 0 ≤ s) (h : areaVec a b c = s • n) :
    Real.sqrt (areaVec a b c).normSq = (areaVec a b c).dot ((Real.sqrt n.normSq)⁻¹ • n) := by
  have hp : 0 < n.normSq := by
    have h0 : n.normSq ≠ 0 := by
      intro h0
      apply hn
      simp only [V3.normSq, V3.dot] at h0
      have hx := mul_self_nonneg n.x
      have hy := mul_self_nonneg n.y
      have hz := mul_self_nonneg n.z
      ext
      · exact mul_self_eq_zero.1 (by linarith)
      · exact mul_self_eq_zero.1 (by linarith)
      · exact mul_self_eq_zero.1 (by linarith)
    have h1 : 0 ≤ n.normSq := by
      simp only [V3.normSq, V3.dot]
      have hx := mul_self_nonneg n.x
      have hy := mul_self_nonneg n.y
      have hz := mul_self_nonneg n.z
      linarith
    exact lt_of_le_of_ne h1 (Ne.symm h0)
  have e1 : (areaVec a b c).normSq = s ^ 2 * n.normSq := by
    rw [h]; simp only [V3.normSq, V3.dot, V3.smul_x, V3.smul_y, V3.smul_z]; ring
  have e2 : (areaVec a b c).dot ((Real.sqrt n.normSq)⁻¹ • n) = s * ((Real.sqrt n.normSq)⁻¹ * n.normSq) := by
    rw [h]; simp only [V3.normSq, V3.dot, V3.smul_x, V3.smul_y, V3.smul_z]; ring
  rw [e1, e2, Real.sqrt_mul (sq_nonneg s), Real.sqrt_sq hs]
  congr 1
  have h3 : 0 < Real.sqrt n.normSq := Real.sqrt_pos.2 hp
  field_simp
  exact Real.sq_sqrt hp.le

lemma triangleIntegral_along {n : V3 ℝ} (hn : n ≠ 0) (g : V3 ℝ → ℝ) {a b c : V3 ℝ} {s : ℝ} (hs : 0 ≤ s)
    (h : areaVec a b c = s • n) :
    triangleIntegral g a b c = (areaVec a b c).dot ((Real.sqrt n.normSq)⁻¹ • n) * refInt g a b c := by
  rw [triangleIntegral_refInt, area_along hn hs h]

lemma triangleIntegral_degenerate (g : V3 ℝ → ℝ) {a b c : V3 ℝ} (h : areaVec a b c = 0) : triangleIntegral g a b c = 0 := by
  rw [triangleIntegral_refInt, h]
  simp [V3.normSq, V3.dot]

/-- The integral over the clipped mesh is the integral over the part of the mesh under the plane. -/
theorem shell_below {srt : (ℕ → ℝ) → List ℕ → List ℕ} (hsrt : IsArgsort srt) {p : Plane ℝ} {tol : ℝ}
    (htol : 0 ≤ tol) {b : Bool} {m : Mesh ℝ} (hwf : m.WF)
    (hpos : ∀ f ∈ m.faces, ∀ i ∈ f.toList, p.Clear tol (m.vert i)) (hq : QuadsCross m) (hsep : m.WellSeparated p)
    (hcv : m.StrictlyConvexFaces) {c : Clipped ℝ} (hc : clip srt p tol b m = .ok c) {g : V3 ℝ → ℝ} (hg : Quadratic g) :
    c.clipped.shellIntegral g = m.shellIntegral (p.below g) := by
  obtain ⟨exact, parts, w1, w2, hgeo, hperm, hfaces, hpl, _, htri⟩ := clip_planned_notAt hsrt htol hwf
    (fun f hf i hi => clear_notAt (hpos f hf i hi)) (fun f hf => .inr (corners_nodup (hcv f hf))) hsep hc
  unfold Mesh.shellIntegral
  have hdeg : ∀ x y, triangleIntegral g x y x = 0 := fun x y =>
    triangleIntegral_degenerate g (by ext <;> simp [areaVec, V3.cross])
  rw [surfaceSum_halves c.clipped hdeg,
    geometry_congr (fun u v w t => triangleIntegral g u v w + triangleIntegral g u w t) hgeo, hfaces, List.map_flatMap,
    sum_flatMap']
  unfold Mesh.surfaceSum
  rw [← (hperm.map _).sum_eq, List.map_map]
  congr 1
  apply List.map_congr_left
  intro t ht
  have hf : t.1 ∈ m.faces := hperm.mem_iff.1 (List.mem_map_of_mem ht)
  have halt := cls_not_altern (p := p) htol hwf hq hf
  obtain ⟨n, hn, hor⟩ := face_oriented (hcv _ hf)
  have hor' := planned_oriented htol (fun i hi => clear_notAt (hpos _ hf i hi)) halt hor (hpl t ht)
  set k := (Real.sqrt n.normSq)⁻¹ • n with hk
  obtain ⟨hcont, hadd⟩ := quadratic_flux hg k
  have key := planned_additive htol (hpos _ hf) halt (hq _ hf) (hcv _ hf) (hpl t ht)
    (below_cutsOff p (areaVec_areaLike k) hcont) hadd
  have e1 : t.2.map (fun f => triangleIntegral g (exact.vert f.a) (exact.vert f.b) (exact.vert f.c) +
      triangleIntegral g (exact.vert f.a) (exact.vert f.c) (exact.vert f.d)) =
      t.2.map (fun f => (areaVec (exact.vert f.a) (exact.vert f.b) (exact.vert f.c)).dot k *
        refInt g (exact.vert f.a) (exact.vert f.b) (exact.vert f.c) +
        (areaVec (exact.vert f.a) (exact.vert f.c) (exact.vert f.d)).dot k *
        refInt g (exact.vert f.a) (exact.vert f.c) (exact.vert f.d)) := by
    apply List.map_congr_left
    intro f' hf'
    have := hor' f' hf'
    split_ifs at this with h
    · obtain ⟨α, h1, e⟩ := this
      rw [triangleIntegral_along hn g h1.le e, ← h, hdeg]
      have z : areaVec (exact.vert f'.a) (exact.vert f'.c) (exact.vert f'.a) = 0 := by ext <;> simp [areaVec, V3.cross]
      have z0 : (0 : V3 ℝ).dot k = 0 := by simp [V3.dot]
      rw [z, z0, zero_mul]
    · obtain ⟨α, β, _, _, h1, h2, _, _, e1, e2, _, _⟩ := this
      rw [triangleIntegral_along hn g h1.le e1, triangleIntegral_along hn g h2.le e2]
  simp only [Function.comp]
  rw [e1, key]
  unfold Mesh.faceSum
  have hcor := hor
  by_cases ht' : t.1.a = t.1.d
  · rw [if_pos ht', if_pos ht']
    have hcs : t.1.corners = [t.1.a, t.1.b, t.1.c] := by unfold Face.corners Face.isTri; simp [ht', Face.toList]
    obtain ⟨s, hs, e⟩ := hor 0 1 2 (by norm_num) (by norm_num) (by rw [hcs]; simp)
    have e' : areaVec (m.vert t.1.a) (m.vert t.1.b) (m.vert t.1.c) = s • n := by simpa [cornerPt, hcs] using e
    rw [triangleIntegral_along hn _ hs.le e']
  · rw [if_neg ht', if_neg ht']
    have hcs : t.1.corners = [t.1.a, t.1.b, t.1.c, t.1.d] := by unfold Face.corners Face.isTri; simp [ht', Face.toList]
    obtain ⟨s, hs, e⟩ := hor 0 1 2 (by norm_num) (by norm_num) (by rw [hcs]; simp)
    obtain ⟨s2, hs2, e2⟩ := hor 0 2 3 (by norm_num) (by norm_num) (by rw [hcs]; simp)
    have e' : areaVec (m.vert t.1.a) (m.vert t.1.b) (m.vert t.1.c) = s • n := by simpa [cornerPt, hcs] using e
    have e2' : areaVec (m.vert t.1.a) (m.vert t.1.c) (m.vert t.1.d) = s2 • n := by simpa [cornerPt, hcs] using e2
    rw [triangleIntegral_along hn _ hs.le e', triangleIntegral_along hn _ hs2.le e2']

end Clipper
end MM
