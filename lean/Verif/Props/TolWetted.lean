import Verif.Proofs.TolArea
import Verif.Props.TolVolume

/-!
# C125: the clipped surface and the wetted surface area, with corners within the tolerance of the plane
-/

namespace MM

open Clipper

set_option linter.unusedVariables false

/-- **C125**: with corners at any distance of the plane but the tolerance, the clipped mesh covers the part of the surface that is
under the slab of the tolerance and nothing above the slab: the integral over it of any nonnegative polynomial of degree at most two
is at least that over the part of the input under the slab, and at most that over the part not above the slab; so is its area.
Partial: no face has a side in the slab and corners on both sides of it, and the points that clipping deals with are farther apart
than the tolerance of merging. -/
theorem C125_surface_in_slab_partial (srt : (ℕ → ℝ) → List ℕ → List ℕ) (hsrt : IsArgsort srt) (p : Plane ℝ) (tol : ℝ)
    (htol : 0 ≤ tol) (b : Bool) (m : Mesh ℝ) (hwf : m.WF) (hcv : m.StrictlyConvexFaces)
    (hpos : ∀ f ∈ m.faces, ∀ i ∈ f.toList, |p.dist (m.vert i)| ≠ tol) (hsep : m.TolSeparated p tol)
    (hfl : m.NoSlabSide p tol) (c : Clipped ℝ) (hc : clip srt p tol b m = .ok c) :
    (∀ g, Quadratic g → (∀ X, 0 ≤ g X) →
      m.shellIntegral (fun X => if p.dist X < -tol then g X else 0) ≤ c.clipped.shellIntegral g ∧
      c.clipped.shellIntegral g ≤ m.shellIntegral (fun X => if p.dist X ≤ tol then g X else 0)) ∧
    m.shellIntegral (fun X => if p.dist X < -tol then 1 else 0) ≤ c.clipped.totalArea ∧
    c.clipped.totalArea ≤ m.shellIntegral (fun X => if p.dist X ≤ tol then 1 else 0) := by
  have key : ∀ g, Quadratic g → (∀ X, 0 ≤ g X) →
      m.shellIntegral (fun X => if p.dist X < -tol then g X else 0) ≤ c.clipped.shellIntegral g ∧
      c.clipped.shellIntegral g ≤ m.shellIntegral (fun X => if p.dist X ≤ tol then g X else 0) :=
    fun g hg hg0 => shell_between hsrt htol hwf hpos hsep hcv hfl hc hg hg0
  refine ⟨key, ?_⟩
  rw [shell_area]
  exact key _ quadratic_one (fun _ => zero_le_one)

namespace Hydro

/-- **C125**: for a hull with corners at any height (but exactly at the tolerance of the clipper), watertight or not, the wetted
surface area returned by `compute_hydrostatics` is at least the area of the part of the hull deeper than the tolerance, at most the
area of the part not higher than the tolerance. Hence it is the area of the part of the hull under the free surface but for an
error of at most the area of the hull in the slab. Partial: as above. -/
theorem C125_wetted_area_in_slab_partial (srt : (ℕ → ℝ) → List ℕ → List ℕ) (hsrt : IsArgsort srt) (m : Mesh ℝ) (cog : V3 ℝ)
    (rho grav : ℝ) (rot : M3 ℝ) (z : ℝ) (atCog : Bool) (lpp : Option ℝ) (ap : Bool) (h : HsData)
    (hwf : (workingMesh m rot z).WF) (hcv : (workingMesh m rot z).StrictlyConvexFaces)
    (hpos : ∀ f ∈ (workingMesh m rot z).faces, ∀ i ∈ f.toList, |((workingMesh m rot z).vert i).z| ≠ 1 / 1000)
    (hsep : (workingMesh m rot z).TolSeparated ⟨⟨0, 0, 1⟩, 0⟩ (1 / 1000))
    (hfl : (workingMesh m rot z).NoSlabSide ⟨⟨0, 0, 1⟩, 0⟩ (1 / 1000))
    (hh : compute srt m cog rho grav rot z atCog lpp ap = .ok h) :
    (workingMesh m rot z).shellIntegral (fun X => if X.z < -(1 / 1000) then 1 else 0) ≤ h.wetSurfaceArea ∧
    h.wetSurfaceArea ≤ (workingMesh m rot z).shellIntegral (fun X => if X.z ≤ 1 / 1000 then 1 else 0) ∧
    |h.wetSurfaceArea - (workingMesh m rot z).shellIntegral (fun X => if X.z < 0 then 1 else 0)| ≤
      (workingMesh m rot z).shellIntegral (fun X => if |X.z| ≤ 1 / 1000 then 1 else 0) := by
  obtain ⟨c, hc, hne, rfl⟩ := compute_ok hh
  have key := (C125_surface_in_slab_partial srt hsrt waterplane (1 / 1000) (by norm_num) true _ hwf hcv
    (fun f hf i hi => by rw [waterplane_dist]; exact hpos f hf i hi) hsep hfl c hc).2
  simp only [waterplane_dist] at key
  have hw : (ofClipped m cog rho grav rot z atCog lpp ap c).wetSurfaceArea = c.clipped.totalArea := rfl
  rw [hw]
  refine ⟨key.1, key.2, ?_⟩
  set M := workingMesh m rot z
  -- the integrals of the indicators of half spaces
  have hone : PlaneCont (fun _ : V3 ℝ => (1 : ℝ)) := planeCont_const 1
  have hint : ∀ {P : V3 ℝ → Prop} [DecidablePred P] (q : Plane ℝ), (∀ X, P X ↔ q.dist X < 0) →
      PlaneInt (fun X => if P X then (1 : ℝ) else 0) := by
    intro P _ q hq
    have e : (fun X => if P X then (1 : ℝ) else 0) = q.below (fun _ => 1) := by
      funext X
      rw [below_dist]
      simp only [hq X]
    rw [e]
    exact planeInt_below q hone
  have i1 : PlaneInt (fun X : V3 ℝ => if X.z < -(1 / 1000) then (1 : ℝ) else 0) :=
    hint (waterplane.lowered (1 / 1000)) (fun X => by
      rw [lowered_dist, waterplane_dist]; constructor <;> intro h <;> linarith)
  have i2 : PlaneInt (fun X : V3 ℝ => if X.z < 0 then (1 : ℝ) else 0) := hint waterplane (fun X => by rw [waterplane_dist])
  have i3' : PlaneInt (fun X : V3 ℝ => if 1 / 1000 < X.z then (1 : ℝ) else 0) :=
    hint (waterplane.reversed.lowered (1 / 1000)) (fun X => by
      rw [lowered_dist, reversed_dist, waterplane_dist]; constructor <;> intro h <;> linarith)
  have hsub : ∀ {u v : V3 ℝ → ℝ}, PlaneInt u → PlaneInt v → PlaneInt (fun X => u X - v X) := by
    intro u v hu hv x y z
    obtain ⟨h1, C, hC⟩ := hu x y z
    obtain ⟨h2, D, hD⟩ := hv x y z
    exact ⟨h1.sub h2, C + D, fun s t a b c d => le_trans (abs_sub _ _) (add_le_add (hC s t a b c d) (hD s t a b c d))⟩
  have i3 : PlaneInt (fun X : V3 ℝ => if X.z ≤ 1 / 1000 then (1 : ℝ) else 0) := by
    have e : (fun X : V3 ℝ => if X.z ≤ 1 / 1000 then (1 : ℝ) else 0) =
        fun X => (fun _ => 1) X - (fun X : V3 ℝ => if 1 / 1000 < X.z then (1 : ℝ) else 0) X := by
      funext X
      by_cases hX : X.z ≤ 1 / 1000
      · simp only [if_pos hX, if_neg (not_lt.2 hX), sub_zero]
      · simp only [if_neg hX, if_pos (not_le.1 hX), sub_self]
    rw [e]
    exact hsub hone.int i3'
  have hdiff : ∀ {u v w : V3 ℝ → ℝ}, PlaneInt u → PlaneInt v → (∀ X, u X - v X ≤ w X) → PlaneInt w →
      M.shellIntegral u - M.shellIntegral v ≤ M.shellIntegral w := by
    intro u v w hu hv hw hwi
    have tri : ∀ a b c, triangleIntegral u a b c - triangleIntegral v a b c ≤ triangleIntegral w a b c := by
      intro a b c
      simp only [triangleIntegral_refInt]
      rw [← mul_sub, ← refInt_sub hu hv]
      apply mul_le_mul_of_nonneg_left _ (Real.sqrt_nonneg _)
      have e := refInt_sub hwi (hsub hu hv) a b c
      have : 0 ≤ refInt (fun X => w X - (fun X => u X - v X) X) a b c :=
        refInt_nonneg (fun s t _ _ _ => by simpa using hw _)
      rw [e] at this
      linarith
    unfold Mesh.shellIntegral
    rw [surfaceSum_sub]
    unfold Mesh.surfaceSum
    apply List.sum_le_sum
    intro f _
    unfold Mesh.faceSum
    split_ifs
    · exact tri _ _ _
    · exact add_le_add (tri _ _ _) (tri _ _ _)
  have i4 : PlaneInt (fun X : V3 ℝ => if |X.z| ≤ 1 / 1000 then (1 : ℝ) else 0) := by
    have e : (fun X : V3 ℝ => if |X.z| ≤ 1 / 1000 then (1 : ℝ) else 0) =
        fun X => (fun X : V3 ℝ => if X.z ≤ 1 / 1000 then (1 : ℝ) else 0) X -
          (fun X : V3 ℝ => if X.z < -(1 / 1000) then (1 : ℝ) else 0) X := by
      funext X
      simp only [abs_le]
      by_cases h1 : X.z < -(1 / 1000)
      · rw [if_neg (by intro h; linarith [h.1]), if_pos (by linarith), if_pos h1, sub_self]
      · by_cases h2 : X.z ≤ 1 / 1000
        · rw [if_pos ⟨not_lt.1 h1, h2⟩, if_pos h2, if_neg h1, sub_zero]
        · rw [if_neg (by intro h; exact h2 h.2), if_neg h2, if_neg h1, sub_zero]
    rw [e]
    exact hsub i3 i1
  have d1 := hdiff i3 i2 (w := fun X => if |X.z| ≤ 1 / 1000 then 1 else 0) (fun X => by
    simp only [abs_le]
    split_ifs <;> first | (norm_num; done) | (exfalso; simp only [not_and_or, not_le, not_lt] at *; rcases ‹_ ∨ _› with h | h <;> linarith)) i4
  have d2 := hdiff i2 i1 (w := fun X => if |X.z| ≤ 1 / 1000 then 1 else 0) (fun X => by
    simp only [abs_le]
    split_ifs <;> first | (norm_num; done) | (exfalso; simp only [not_and_or, not_le, not_lt] at *; rcases ‹_ ∨ _› with h | h <;> linarith)) i4
  rw [abs_le]
  constructor <;> linarith [key.1, key.2]

/-- The hypotheses of C125 are met by `slabOcta`, which has corners in the slab of the tolerance but not on the free surface. -/
theorem slabOcta_wetted_area (cog : V3 ℝ) (grav : ℝ) :
    ∃ h, compute insArgsort slabOcta.real cog 1000 grav M3.one 0 false none false = .ok h ∧
    |h.wetSurfaceArea - (workingMesh slabOcta.real M3.one 0).shellIntegral (fun X => if X.z < 0 then 1 else 0)| ≤
      (workingMesh slabOcta.real M3.one 0).shellIntegral (fun X => if |X.z| ≤ 1 / 1000 then 1 else 0) := by
  obtain ⟨h1, _, h3, h4, h5, h6, _, h, hh⟩ := slabOcta_meets_C123 cog grav
  exact ⟨h, hh, (C125_wetted_area_in_slab_partial insArgsort insArgsort_isArgsort _ _ _ _ _ _ _ _ _ h h1 h3 h5 h6 h4 hh).2.2⟩

end Hydro
end MM
