import Verif.Proofs.RefInt
import Verif.Proofs.ClipAdditive
import Verif.Props.Inertia

/-!
# Integrals over the part of a surface under `z = 0`
-/

namespace MM
namespace Clipper

set_option linter.unusedSectionVars false
set_option linter.unusedSimpArgs false
set_option linter.unusedVariables false

/-- The plane `z = 0`. -/
def waterplane : Plane ℝ := ⟨⟨0, 0, 1⟩, 0⟩

lemma waterplane_dist (X : V3 ℝ) : waterplane.dist X = X.z := by simp [waterplane, Plane.dist, V3.dot]

/-- An affine function. -/
def aff (l : ℝ × V3 ℝ) (X : V3 ℝ) : ℝ := l.1 + l.2.dot X

/-- Integral over the reference triangle of `z` times an affine function. -/
noncomputable def zPoly (l : ℝ × V3 ℝ) (p q r : V3 ℝ) : ℝ :=
  ((p.z + q.z + r.z) * (aff l p + aff l q + aff l r) + (p.z * aff l p + q.z * aff l q + r.z * aff l r)) / 24

/-- Flux of `z L k` through a triangle. -/
noncomputable def zFlux (k : V3 ℝ) (l : ℝ × V3 ℝ) (p q r : V3 ℝ) : ℝ := (areaVec p q r).dot k * zPoly l p q r

/-- Flux of `min(z, 0) L k` through a triangle. -/
noncomputable def wetFlux (k : V3 ℝ) (l : ℝ × V3 ℝ) (p q r : V3 ℝ) : ℝ :=
  (areaVec p q r).dot k * refInt (fun X => min X.z 0 * aff l X) p q r

lemma zFlux_additive (k : V3 ℝ) (l : ℝ × V3 ℝ) : PlaneAdditive (zFlux k l) where
  anti o p q := by
    simp only [zFlux, zPoly, aff, areaVec, V3.dot, V3.cross, V3.sub_x, V3.sub_y, V3.sub_z]; ring
  degenerate o p q h := by simp [zFlux, h, V3.dot]
  fan o p q r h := by
    simp only [zFlux, zPoly, aff, areaVec, V3.dot, V3.cross, V3.sub_x, V3.sub_y, V3.sub_z] at *
    linear_combination (((k.x * l.2.x + k.y * l.2.y + k.z * l.2.z) * (o.z + p.z + q.z + r.z) +
      k.z * (4 * l.1 + l.2.x * (o.x + p.x + q.x + r.x) + l.2.y * (o.y + p.y + q.y + r.y) +
        l.2.z * (o.z + p.z + q.z + r.z))) / 24) * h

lemma refInt_congr {f g : V3 ℝ → ℝ} {p q r : V3 ℝ}
    (h : ∀ u v : ℝ, 0 ≤ u → 0 ≤ v → u + v ≤ 1 → f (p + u • (q - p) + v • (r - p)) = g (p + u • (q - p) + v • (r - p))) :
    refInt f p q r = refInt g p q r := by
  unfold refInt
  apply intervalIntegral.integral_congr
  intro u hu
  rw [Set.uIcc_of_le zero_le_one] at hu
  apply intervalIntegral.integral_congr
  intro v hv
  rw [Set.uIcc_of_le (by linarith [hu.2])] at hv
  exact h u v hu.1 hv.1 (by linarith [hv.2])

lemma refInt_const_mul (a : ℝ) (f : V3 ℝ → ℝ) (p q r : V3 ℝ) : refInt (fun X => a * f X) p q r = a * refInt f p q r := by
  unfold refInt
  rw [← intervalIntegral.integral_const_mul]
  congr 1
  funext u
  rw [← intervalIntegral.integral_const_mul]

lemma refInt_z (l : ℝ × V3 ℝ) (p q r : V3 ℝ) : refInt (fun X => X.z * aff l X) p q r = zPoly l p q r := by
  have h : ∀ u v : ℝ, (p + u • (q - p) + v • (r - p)).z * aff l (p + u • (q - p) + v • (r - p)) =
      ((p.z + u * (q.z - p.z) + v * (r.z - p.z)) *
        (aff l p + u * (aff l q - aff l p) + v * (aff l r - aff l p)) * (1 + u * (1 - 1) + v * (1 - 1))) := by
    intro u v
    simp only [aff, V3.dot, V3.add_x, V3.add_y, V3.add_z, V3.smul_x, V3.smul_y, V3.smul_z, V3.sub_x, V3.sub_y, V3.sub_z]
    ring
  unfold refInt
  simp only [h]
  rw [triangle_affine3]
  unfold zPoly
  ring

lemma planeCont_wet (l : ℝ × V3 ℝ) : PlaneCont (fun X => min X.z 0 * aff l X) := by
  intro p q r
  simp only [aff, V3.dot, V3.add_x, V3.add_y, V3.add_z, V3.smul_x, V3.smul_y, V3.smul_z]
  fun_prop

lemma wetFlux_cutsOff (k : V3 ℝ) (l : ℝ × V3 ℝ) : CutsOff waterplane (wetFlux k l) (zFlux k l) where
  cycle a b c := by
    have : areaVec a b c = areaVec b c a := by ext <;> simp [areaVec, V3.cross] <;> ring
    rw [wetFlux, wetFlux, this, refInt_cycle (planeCont_wet l).int]
  split a b c t t0 t1 := by
    have h1 : areaVec a b (a + t • (c - a)) = t • areaVec a b c := by ext <;> simp [areaVec, V3.cross] <;> ring
    have h2 : areaVec (a + t • (c - a)) b c = (1 - t) • areaVec a b c := by ext <;> simp [areaVec, V3.cross] <;> ring
    rw [wetFlux, wetFlux, wetFlux, h1, h2, refInt_split (planeCont_wet l).int a b c t0 t1]
    simp only [V3.dot, V3.smul_x, V3.smul_y, V3.smul_z]; ring
  above a b c ha hb hc := by
    rw [waterplane_dist] at ha hb hc
    rw [wetFlux, refInt_congr (g := fun _ => 0 * 0)]
    · rw [refInt_const_mul]; ring
    · intro u v hu hv huv
      have : 0 ≤ (a + u • (b - a) + v • (c - a)).z := by
        have e : (a + u • (b - a) + v • (c - a)).z = (1 - u - v) * a.z + u * b.z + v * c.z := by simp; ring
        rw [e]
        have := mul_nonneg (by linarith : 0 ≤ 1 - u - v) ha
        have := mul_nonneg hu hb
        have := mul_nonneg hv hc
        linarith
      simp only [min_eq_right this, zero_mul]
  below a b c ha hb hc _ := by
    rw [waterplane_dist] at ha hb hc
    rw [wetFlux, zFlux, ← refInt_z, refInt_congr]
    intro u v hu hv huv
    have : (a + u • (b - a) + v • (c - a)).z ≤ 0 := by
      have e : (a + u • (b - a) + v • (c - a)).z = (1 - u - v) * a.z + u * b.z + v * c.z := by simp; ring
      rw [e]
      have := mul_nonneg (by linarith : 0 ≤ 1 - u - v) (neg_nonneg.2 ha)
      have := mul_nonneg hu (neg_nonneg.2 hb)
      have := mul_nonneg hv (neg_nonneg.2 hc)
      linarith
    simp only [min_eq_left this]

/-- A quantity attached to triangles, zero for degenerate ones, summed over a mesh. -/
lemma surfaceSum_halves (m : Mesh ℝ) {T : V3 ℝ → V3 ℝ → V3 ℝ → ℝ} (hT : ∀ p q, T p q p = 0) :
    m.surfaceSum T = (m.faces.map (fun g => T (m.vert g.a) (m.vert g.b) (m.vert g.c) +
      T (m.vert g.a) (m.vert g.c) (m.vert g.d))).sum := by
  unfold Mesh.surfaceSum
  congr 1
  apply List.map_congr_left
  intro f _
  unfold Mesh.faceSum
  split_ifs with h
  · rw [← h, hT, add_zero]
  · rfl

section wet
variable {srt : (ℕ → ℝ) → List ℕ → List ℕ} (hsrt : IsArgsort srt) {tol : ℝ} (htol : 0 ≤ tol) {b : Bool} {m : Mesh ℝ}
  (hwf : m.WF) (hpos : ∀ f ∈ m.faces, ∀ i ∈ f.toList, waterplane.Clear tol (m.vert i))
  (hsep : m.WellSeparated waterplane) (hcv : m.StrictlyConvexFaces) {c : Clipped ℝ} (hc : clip srt waterplane tol b m = .ok c)
include hsrt htol hwf hpos hsep hcv hc

/-- The flux through the part of the surface under `z = 0` is the flux through the clipped mesh. -/
lemma wetFlux_clip (hq : QuadsCross m) (k : V3 ℝ) (l : ℝ × V3 ℝ) :
    m.surfaceSum (wetFlux k l) = c.clipped.surfaceSum (zFlux k l) := by
  rw [surfaceSum_halves c.clipped (T := zFlux k l) (fun p q => by simp [zFlux, areaVec, V3.cross, V3.dot]),
    clip_additive hsrt htol hwf hpos hq hsep hcv hc (wetFlux_cutsOff k l) (zFlux_additive k l)]
  rfl

/-- A field without divergence and tangent to `z = 0` has no flux through the clipped mesh of a closed surface. -/
lemma wet_flux_zero (hq : QuadsCross m) (hcl : m.ClosedOriented) (Ψ : V3 ℝ → V3 ℝ → V3 ℝ → ℝ)
    (hanti : ∀ p q, Ψ 0 p q = -Ψ 0 q p) (hfan : ∀ p q r, Ψ p q r = Ψ 0 p q + Ψ 0 q r + Ψ 0 r p)
    (hlid : ∀ p q, p.z = 0 → q.z = 0 → Ψ 0 p q = 0) : c.clipped.surfaceSum Ψ = 0 := by
  have h1 := clip_closed_clear hsrt htol hwf hcl hpos hq hsep hcv hc hanti (fun x y hx hy =>
    hlid x y (by rw [← waterplane_dist]; exact hx) (by rw [← waterplane_dist]; exact hy))
  rw [← h1]
  unfold Mesh.surfaceSum Mesh.pointEdges Mesh.directedEdges
  rw [List.map_map, List.map_flatMap, sum_flatMap']
  congr 1
  apply List.map_congr_left
  intro f _
  unfold Mesh.faceSum Face.directedEdges
  split_ifs
  · rw [hfan]; simp [Function.comp]; ring
  · rw [hfan, hfan (c.clipped.vert f.a) (c.clipped.vert f.c)]
    simp only [Function.comp, List.map_cons, List.map_nil, List.sum_cons, List.sum_nil]
    rw [hanti (c.clipped.vert f.c) (c.clipped.vert f.a)]; ring

end wet

lemma StrictlyConvexFaces.flat {m : Mesh ℝ} (h : m.StrictlyConvexFaces) : m.FlatFaces := by
  intro f hf
  have := h f hf
  by_cases ht : f.a = f.d
  · rw [if_pos ht] at this ⊢; exact this
  · rw [if_neg ht] at this ⊢
    obtain ⟨n, α, β, γ, δ, h1, h2, h3, h4, hn, e1, e2, e3, e4⟩ := this
    exact ⟨n, α, β, h1.le, h2.le, by linarith, hn, e1, e2⟩

end Clipper
end MM
