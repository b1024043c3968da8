import Verif.Model.Hydrostatics
import Verif.Spec.Hydrostatics
import Verif.Proofs.Integrals
import Verif.Proofs.Connectivity
import Verif.Props.ClipLines

/-!
# Waterplane moments and hydrostatic stiffness (C46, C47)
-/

namespace MM
namespace Hydro

set_option linter.unusedSectionVars false
set_option linter.unusedSimpArgs false

/-! ## Sums over the sides of closed polygons -/

section
variable {α : Type*} {M : Type*} [AddCommGroup M]

lemma chain_telescope (F : α → M) : ∀ (a : α) (l : List α),
    ((chainPairs (a :: l)).map (fun e => F e.2 - F e.1)).sum = F ((a :: l).getLast (by simp)) - F a := by
  intro a l
  induction l generalizing a with
  | nil => simp [chainPairs]
  | cons b l ih =>
    rw [chainPairs_cons_cons, List.map_cons, List.sum_cons, ih b, List.getLast_cons (List.cons_ne_nil b l)]
    abel

lemma closed_sum_eq {f g : α → α → M} {F : α → M} {l : List α} (hl : ClosedPolygon l)
    (h : ∀ a b, f a b = g a b + (F b - F a)) :
    ((chainPairs l).map (fun e => f e.1 e.2)).sum = ((chainPairs l).map (fun e => g e.1 e.2)).sum := by
  obtain ⟨hne, hcl⟩ := hl
  cases l with
  | nil => exact absurd rfl hne
  | cons a l =>
    have hlast : (a :: l).getLast (by simp) = a := by
      rw [List.head?_cons, List.getLast?_eq_some_getLast (by simp), Option.some.injEq] at hcl
      exact hcl.symm
    have : ((chainPairs (a :: l)).map (fun e => f e.1 e.2)).sum =
        ((chainPairs (a :: l)).map (fun e => g e.1 e.2)).sum + ((chainPairs (a :: l)).map (fun e => F e.2 - F e.1)).sum := by
      rw [← List.sum_map_add]
      congr 1
      exact List.map_congr_left (fun e _ => h e.1 e.2)
    rw [this, chain_telescope, hlast, sub_self, add_zero]
end

section
variable {K : Type*} [Field K]

/-- The contributions of a side. -/
def side (a b : K × K) : Sigmas K := Sigmas.step ⟨0, 0, 0, 0, 0, 0⟩ a b

def Sigmas.plus (s t : Sigmas K) : Sigmas K :=
  ⟨s.s0 + t.s0, s.s1 + t.s1, s.s2 + t.s2, s.s3 + t.s3, s.s4 + t.s4, s.s5 + t.s5⟩

lemma step_eq (s : Sigmas K) (a b : K × K) : s.step a b = s.plus (side a b) := by
  simp [Sigmas.step, Sigmas.plus, side]

lemma poly_eq (s : Sigmas K) (l : List (K × K)) (c : Sigmas K → K)
    (hc : ∀ s t : Sigmas K, c (s.plus t) = c s + c t) :
    c (s.poly l) = c s + ((chainPairs l).map (fun e => c (side e.1 e.2))).sum := by
  induction l generalizing s with
  | nil => simp [Sigmas.poly, chainPairs]
  | cons a l ih =>
    cases l with
    | nil => simp [Sigmas.poly, chainPairs]
    | cons b l =>
      rw [Sigmas.poly, ih, chainPairs_cons_cons, List.map_cons, List.sum_cons, step_eq, hc, add_assoc]

lemma polys_eq (ls : List (List (K × K))) (s : Sigmas K) (c : Sigmas K → K)
    (hc : ∀ s t : Sigmas K, c (s.plus t) = c s + c t) :
    c (ls.foldl Sigmas.poly s) = c s + (ls.map (fun l => ((chainPairs l).map (fun e => c (side e.1 e.2))).sum)).sum := by
  induction ls generalizing s with
  | nil => simp
  | cons l ls ih => rw [List.foldl_cons, ih, poly_eq _ _ _ hc, List.map_cons, List.sum_cons, add_assoc]

end

/-! ## Moments of a triangle -/

lemma planeTri_one (o p q : ℝ × ℝ) : planeTriIntegral (fun _ _ => 1) o p q =
    ((p.1 - o.1) * (q.2 - o.2) - (q.1 - o.1) * (p.2 - o.2)) / 2 := by
  unfold planeTriIntegral
  rw [triangle_cubic 1 0 0 0 0 0 0 0 0 0 (fun u v => by ring)]
  ring

lemma planeTri_x (o p q : ℝ × ℝ) : planeTriIntegral (fun x _ => x) o p q =
    ((p.1 - o.1) * (q.2 - o.2) - (q.1 - o.1) * (p.2 - o.2)) * (o.1 + p.1 + q.1) / 6 := by
  unfold planeTriIntegral
  rw [triangle_cubic o.1 (p.1 - o.1) (q.1 - o.1) 0 0 0 0 0 0 0 (fun u v => by ring)]
  ring

lemma planeTri_y (o p q : ℝ × ℝ) : planeTriIntegral (fun _ y => y) o p q =
    ((p.1 - o.1) * (q.2 - o.2) - (q.1 - o.1) * (p.2 - o.2)) * (o.2 + p.2 + q.2) / 6 := by
  unfold planeTriIntegral
  rw [triangle_cubic o.2 (p.2 - o.2) (q.2 - o.2) 0 0 0 0 0 0 0 (fun u v => by ring)]
  ring

lemma planeTri_prod (a b c a' b' c' : ℝ) (J : ℝ) :
    J * ∫ u in (0 : ℝ)..1, ∫ v in (0 : ℝ)..(1 - u), (a + u * b + v * c) * (a' + u * b' + v * c') =
    J * (a * a' / 2 + (a * b' + b * a' + a * c' + c * a') / 6 + (b * b' + c * c') / 12 + (b * c' + c * b') / 24) := by
  rw [triangle_cubic (a * a') (a * b' + b * a') (a * c' + c * a') (b * b') (b * c' + c * b') (c * c') 0 0 0 0
    (fun u v => by ring)]
  ring

/-! ## C46 -/

/-- **C46 (what holds).** The line sums for the area, the first moments and the second moments about the axes are the
integrals of `1`, `x`, `y`, `x²`, `y²` over the polygons, whatever their number of vertices (and whatever the point
from which the polygons are triangulated). Missing: the sum for `xy` (`C46_fails`). -/
theorem C46_waterplane_moments_partial (polys : List (List (ℝ × ℝ))) (h : ∀ l ∈ polys, ClosedPolygon l) (o : ℝ × ℝ) :
    (sigmas polys).s0 = polygonsIntegral (fun _ _ => 1) o polys ∧
    (sigmas polys).s1 = polygonsIntegral (fun x _ => x) o polys ∧
    (sigmas polys).s2 = polygonsIntegral (fun _ y => y) o polys ∧
    (sigmas polys).s4 = polygonsIntegral (fun x _ => x * x) o polys ∧
    (sigmas polys).s5 = polygonsIntegral (fun _ y => y * y) o polys := by
  have key : ∀ (c : Sigmas ℝ → ℝ) (k : ℝ) (g : ℝ → ℝ → ℝ), (∀ s t : Sigmas ℝ, c (s.plus t) = c s + c t) →
      c ⟨0, 0, 0, 0, 0, 0⟩ = 0 →
      (∀ a b, planeTriIntegral g o a b = c (side a b) / k + (-c (side o b) / k - -c (side o a) / k)) →
      c (polys.foldl Sigmas.poly ⟨0, 0, 0, 0, 0, 0⟩) / k = polygonsIntegral g o polys := by
    intro c k g hc h0 hg
    rw [polys_eq _ _ c hc, h0, zero_add, polygonsIntegral, div_eq_mul_inv, ← List.sum_map_mul_right]
    congr 1
    refine List.map_congr_left (fun l hl => ?_)
    rw [polygonIntegral, closed_sum_eq (h l hl) hg, ← List.sum_map_mul_right]
    rfl
  refine ⟨?_, ?_, ?_, ?_, ?_⟩
  · refine key Sigmas.s0 2 _ (fun _ _ => rfl) rfl (fun a b => ?_)
    rw [planeTri_one]; simp only [side, Sigmas.step]; ring
  · refine key Sigmas.s1 6 _ (fun _ _ => rfl) rfl (fun a b => ?_)
    rw [planeTri_x]; simp only [side, Sigmas.step]; ring
  · refine key Sigmas.s2 (-6) _ (fun _ _ => rfl) rfl (fun a b => ?_)
    rw [planeTri_y]; simp only [side, Sigmas.step]; ring
  · refine key Sigmas.s4 12 _ (fun _ _ => rfl) rfl (fun a b => ?_)
    rw [planeTriIntegral, planeTri_prod]; simp only [side, Sigmas.step]; ring
  · refine key Sigmas.s5 (-12) _ (fun _ _ => rfl) rfl (fun a b => ?_)
    rw [planeTriIntegral, planeTri_prod]; simp only [side, Sigmas.step]; ring

/-- **C46 (violation).** On the unit square the sum for `xy` is `5/24`; the integral is `1/4`. -/
theorem C46_fails : let square : List (ℝ × ℝ) := [(0, 0), (1, 0), (1, 1), (0, 1), (0, 0)]
    ClosedPolygon square ∧ (sigmas [square]).s3 = 5 / 24 ∧
    polygonsIntegral (fun x y => x * y) (0, 0) [square] = 1 / 4 := by
  refine ⟨⟨by simp, by simp⟩, ?_, ?_⟩
  · simp only [sigmas, List.foldl_cons, List.foldl_nil, Sigmas.poly, Sigmas.step, Sigmas.scale]; norm_num
  · simp only [polygonsIntegral, polygonIntegral, chainPairs, List.zip, List.zipWith, List.tail_cons, List.map_cons,
      List.map_nil, List.sum_cons, List.sum_nil, planeTriIntegral, planeTri_prod]
    norm_num

/-- A closed polygon that is not convex. -/
example : ClosedPolygon [((0 : ℝ), (0 : ℝ)), (2, 0), (2, 2), (1, 1), (0, 2), (0, 0)] := ⟨by simp, by simp⟩

/-! ## C47 -/

section
open Clipper
variable {K : Type*} [Field K] [LinearOrder K] [IsStrictOrderedRing K]

lemma clipCrown_keys {srt : (ℕ → K) → List ℕ → List ℕ} {p : Plane K} {tol : K} {crown : Mesh K} {d : List K} {cm : Mesh K}
    {direct inv : List (ℕ × ℕ)} (h : clipCrown srt p tol crown d = .ok (cm, direct, inv)) : (direct.map Prod.fst).Nodup := by
  unfold clipCrown at h
  split at h
  · simp at h
  split at h
  · simp at h
  split at h
  · simp at h
  simp only [Except.ok.injEq, Prod.mk.injEq] at h
  rw [← h.2.1, remap]
  exact foldl_dictSet_keys _ _ (by simp)

/-- The polygons of any run of the clipper are closed. -/
lemma closedPolygons_closed {srt : (ℕ → K) → List ℕ → List ℕ} {p : Plane K} {tol : K} {b : Bool} {m : Mesh K}
    {c : Clipped K} (h : clip srt p tol b m = .ok c) : ∀ l ∈ c.closedPolygons, ClosedPolygon l := by
  obtain ⟨part, cm, direct, inv, _, hcc, _, _, _, _, _, hlines, _⟩ := clip_ok h
  have hcl : c.closedPolygons = (extractLines inv direct.length direct).1 := congrArg Prod.fst hlines
  intro l hl
  rw [hcl] at hl
  obtain ⟨h1, h2⟩ := (extractLines_shape inv direct.length direct (clipCrown_keys hcc)).1 l hl
  exact ⟨by rintro rfl; simp at h1, h2⟩

end

lemma ClosedPolygon.map {α β : Type*} {l : List α} (f : α → β) (h : ClosedPolygon l) : ClosedPolygon (l.map f) :=
  ⟨by simpa using h.1, by rw [List.head?_map, List.getLast?_map, h.2]⟩

lemma chainPairs_map {α β : Type*} (f : α → β) (l : List α) :
    chainPairs (l.map f) = (chainPairs l).map (fun e => (f e.1, f e.2)) := by
  induction l with
  | nil => simp [chainPairs]
  | cons a l ih =>
    cases l with
    | nil => simp [chainPairs]
    | cons b l =>
      simp only [List.map_cons, chainPairs_cons_cons] at ih ⊢
      rw [ih]

/-- The waterline: the polygons of the clipper in the horizontal plane. -/
noncomputable def waterline (c : Clipper.Clipped ℝ) : List (List (ℝ × ℝ)) :=
  c.closedPolygons.map (fun l => l.map (fun i => ((c.clippedCrown.vert i).x, (c.clippedCrown.vert i).y)))

lemma polyVerts_eq (c : Clipper.Clipped ℝ) (atCog : Bool) (b : V3 ℝ) :
    polyVerts c.clippedCrown c.closedPolygons atCog b = (waterline c).map (fun l => l.map (fun q =>
      (q.1 - (if atCog then b.x else 0), q.2 - (if atCog then b.y else 0)))) := by
  simp only [polyVerts, waterline, List.map_map]
  refine List.map_congr_left (fun l _ => ?_)
  simp only [Function.comp, List.map_map]
  refine List.map_congr_left (fun i _ => ?_)
  cases atCog <;> simp

lemma planeTri_shift (g : ℝ → ℝ → ℝ) (a b : ℝ) (o p q : ℝ × ℝ) :
    planeTriIntegral g (o.1 - a, o.2 - b) (p.1 - a, p.2 - b) (q.1 - a, q.2 - b) =
    planeTriIntegral (fun x y => g (x - a) (y - b)) o p q := by
  unfold planeTriIntegral
  congr 1
  · ring
  · congr 1; funext u; congr 1; funext v; congr 1 <;> ring

lemma polygonsIntegral_shift (g : ℝ → ℝ → ℝ) (a b : ℝ) (o : ℝ × ℝ) (ls : List (List (ℝ × ℝ))) :
    polygonsIntegral g (o.1 - a, o.2 - b) (ls.map (fun l => l.map (fun q => (q.1 - a, q.2 - b)))) =
    polygonsIntegral (fun x y => g (x - a) (y - b)) o ls := by
  simp only [polygonsIntegral, List.map_map]
  congr 1
  refine List.map_congr_left (fun l _ => ?_)
  simp only [Function.comp, polygonIntegral, chainPairs_map, List.map_map]
  congr 1
  refine List.map_congr_left (fun e _ => ?_)
  exact planeTri_shift g a b o e.1 e.2

lemma sum_map_sub' {α : Type*} (l : List α) (f g : α → ℝ) (k : ℝ) :
    (l.map (fun a => f a - k * g a)).sum = (l.map f).sum - k * (l.map g).sum := by
  induction l with
  | nil => simp
  | cons a l ih => simp only [List.map_cons, List.sum_cons, ih]; ring

lemma polygonsIntegral_x_sub (a : ℝ) (o : ℝ × ℝ) (ls : List (List (ℝ × ℝ))) :
    polygonsIntegral (fun x _ => x - a) o ls =
      polygonsIntegral (fun x _ => x) o ls - a * polygonsIntegral (fun _ _ => 1) o ls := by
  simp only [polygonsIntegral]
  rw [← sum_map_sub']
  congr 1
  refine List.map_congr_left (fun l _ => ?_)
  simp only [polygonIntegral]
  rw [← sum_map_sub']
  congr 1
  refine List.map_congr_left (fun e _ => ?_)
  rw [planeTri_x, planeTri_one, planeTriIntegral,
    triangle_cubic (o.1 - a) (e.1.1 - o.1) (e.2.1 - o.1) 0 0 0 0 0 0 0 (fun u v => by ring)]
  ring

lemma polygonsIntegral_y_sub (a : ℝ) (o : ℝ × ℝ) (ls : List (List (ℝ × ℝ))) :
    polygonsIntegral (fun _ y => y - a) o ls =
      polygonsIntegral (fun _ y => y) o ls - a * polygonsIntegral (fun _ _ => 1) o ls := by
  simp only [polygonsIntegral]
  rw [← sum_map_sub']
  congr 1
  refine List.map_congr_left (fun l _ => ?_)
  simp only [polygonIntegral]
  rw [← sum_map_sub']
  congr 1
  refine List.map_congr_left (fun e _ => ?_)
  rw [planeTri_y, planeTri_one, planeTriIntegral,
    triangle_cubic (o.2 - a) (e.1.2 - o.2) (e.2.2 - o.2) 0 0 0 0 0 0 0 (fun u v => by ring)]
  ring

/-- The sums computed on the polygons expressed in the chosen frame are integrals over the waterline. -/
lemma sigmas_waterline {c : Clipper.Clipped ℝ} (hc : ∀ l ∈ c.closedPolygons, ClosedPolygon l) (atCog : Bool) (b : V3 ℝ)
    (o : ℝ × ℝ) : let r : ℝ × ℝ := (if atCog then b.x else 0, if atCog then b.y else 0)
    let s := sigmas (polyVerts c.clippedCrown c.closedPolygons atCog b)
    s.s0 = polygonsIntegral (fun _ _ => 1) o (waterline c) ∧
    s.s1 = polygonsIntegral (fun x _ => x - r.1) o (waterline c) ∧
    s.s2 = polygonsIntegral (fun _ y => y - r.2) o (waterline c) ∧
    s.s4 = polygonsIntegral (fun x _ => (x - r.1) * (x - r.1)) o (waterline c) ∧
    s.s5 = polygonsIntegral (fun _ y => (y - r.2) * (y - r.2)) o (waterline c) := by
  intro r s
  have hcl : ∀ l ∈ polyVerts c.clippedCrown c.closedPolygons atCog b, ClosedPolygon l := by
    intro l hl
    obtain ⟨l', hl', rfl⟩ := List.mem_map.1 hl
    exact ClosedPolygon.map _ (hc l' hl')
  obtain ⟨h0, h1, h2, h4, h5⟩ := C46_waterplane_moments_partial _ hcl (o.1 - r.1, o.2 - r.2)
  rw [polyVerts_eq] at h0 h1 h2 h4 h5
  simp only [s]
  rw [polyVerts_eq]
  exact ⟨h0.trans (polygonsIntegral_shift _ _ _ _ _), h1.trans (polygonsIntegral_shift _ _ _ _ _),
    h2.trans (polygonsIntegral_shift _ _ _ _ _), h4.trans (polygonsIntegral_shift _ _ _ _ _),
    h5.trans (polygonsIntegral_shift _ _ _ _ _)⟩

lemma compute_ok {srt : (ℕ → ℝ) → List ℕ → List ℕ} {m : Mesh ℝ} {cog : V3 ℝ} {rho grav : ℝ} {rot : M3 ℝ} {z : ℝ}
    {atCog : Bool} {lpp : Option ℝ} {ap : Bool} {h : HsData}
    (hh : compute srt m cog rho grav rot z atCog lpp ap = .ok h) :
    ∃ c, Clipper.clip srt ⟨⟨0, 0, 1⟩, 0⟩ (1 / 1000) true (workingMesh m rot z) = .ok c ∧ c.closedPolygons ≠ [] ∧
      h = ofClipped m cog rho grav rot z atCog lpp ap c := by
  unfold compute at hh
  split at hh
  · simp at hh
  · rename_i c hc
    split at hh
    · simp at hh
    · rename_i hne
      simp only [Except.ok.injEq] at hh
      exact ⟨c, hc, hne, hh.symm⟩

/-- **C47 (heave, flotation centre, symmetry).** Whatever the hull, its position, the density and the reference point
option: the stiffness matrix is symmetric; the waterplane area is the integral of 1 over the closed intersection polygons
of the clipper; the heave coefficient is `ρ g` times it (coefficients below `1e-4` are zeroed); the flotation centre is
the centroid of the waterplane, brought back in the frame of the input mesh. The other coefficients are also the integrals
they must be about the reference point, except the roll-pitch coupling (`C46_fails`). -/
theorem C47_stiffness (srt : (ℕ → ℝ) → List ℕ → List ℕ) (m : Mesh ℝ) (cog : V3 ℝ) (rho grav : ℝ) (rot : M3 ℝ) (z : ℝ)
    (atCog : Bool) (lpp : Option ℝ) (ap : Bool) (h : HsData)
    (hh : compute srt m cog rho grav rot z atCog lpp ap = .ok h) :
    h.stiffness.transpose = h.stiffness ∧
    ∃ c, Clipper.clip srt ⟨⟨0, 0, 1⟩, 0⟩ (1 / 1000) true (workingMesh m rot z) = .ok c ∧
      waterline c ≠ [] ∧ (∀ l ∈ waterline c, ClosedPolygon l) ∧
      ∀ o : ℝ × ℝ, let A := polygonsIntegral (fun _ _ => 1) o (waterline c)
        let B := (c.clipped.evalPlain rho).cog
        let xr := if atCog then B.x else 0
        let yr := if atCog then B.y else 0
        h.waterplaneArea = A ∧
        h.stiffness.r0.x = zeroTiny (rho * grav * A) ∧
        h.stiffness.r0.y = zeroTiny (rho * grav * polygonsIntegral (fun _ y => y - yr) o (waterline c)) ∧
        h.stiffness.r0.z = zeroTiny (-(rho * grav * polygonsIntegral (fun x _ => x - xr) o (waterline c))) ∧
        (h.dispVolume ≠ 0 →
          h.stiffness.r1.y = zeroTiny (rho * grav * (polygonsIntegral (fun _ y => (y - yr) * (y - yr)) o (waterline c) -
            h.dispVolume * ((workingPoint cog rot z).z - B.z))) ∧
          h.stiffness.r2.z = zeroTiny (rho * grav * (polygonsIntegral (fun x _ => (x - xr) * (x - xr)) o (waterline c) -
            h.dispVolume * ((workingPoint cog rot z).z - B.z)))) ∧
        (rho * grav ≠ 0 → A ≠ 0 → h.waterplaneCenter = rot.transpose.mulVec
          ⟨polygonsIntegral (fun x _ => x) o (waterline c) / A,
           polygonsIntegral (fun _ y => y) o (waterline c) / A, -z⟩) := by
  obtain ⟨c, hc, hne, rfl⟩ := compute_ok hh
  have hcl := closedPolygons_closed hc
  refine ⟨rfl, c, hc, by simpa [waterline] using hne, ?_, ?_⟩
  · intro l hl
    obtain ⟨l', hl', rfl⟩ := List.mem_map.1 hl
    exact ClosedPolygon.map _ (hcl l' hl')
  · intro o A B xr yr
    obtain ⟨h0, h1, h2, h4, h5⟩ := sigmas_waterline hcl atCog B o
    change (sigmas (polyVerts c.clippedCrown c.closedPolygons atCog B)).s0 = A at h0
    refine ⟨h0, ?_, ?_, ?_, ?_, ?_⟩
    · simp only [ofClipped]; rw [← h0]
    · simp only [ofClipped]; rw [← h2]
    · simp only [ofClipped]; rw [← h1, neg_mul]
    · intro hv
      have hv' : (c.clipped.evalPlain rho).mass / rho ≠ 0 := hv
      refine ⟨?_, ?_⟩
      · simp only [ofClipped]; rw [← h5]; congr 1
        change _ * _ * (_ / _ - _) = _
        rw [mul_assoc, mul_sub, mul_div_cancel₀ _ hv']
      · simp only [ofClipped]; rw [← h4]; congr 1
        change _ * _ * (_ / _ - _) = _
        rw [mul_assoc, mul_sub, mul_div_cancel₀ _ hv']
    · intro hr hA
      obtain ⟨hr1, hr2⟩ := mul_ne_zero_iff.1 hr
      have e1 : (if atCog then -(-(rho * grav) * (sigmas (polyVerts c.clippedCrown c.closedPolygons atCog B)).s1) /
          (rho * grav * (sigmas (polyVerts c.clippedCrown c.closedPolygons atCog B)).s0) + B.x else
          -(-(rho * grav) * (sigmas (polyVerts c.clippedCrown c.closedPolygons atCog B)).s1) /
          (rho * grav * (sigmas (polyVerts c.clippedCrown c.closedPolygons atCog B)).s0)) =
          polygonsIntegral (fun x _ => x) o (waterline c) / A := by
        rw [h1, h0, polygonsIntegral_x_sub]
        change (if atCog then -(-(rho * grav) * (_ - (if atCog then B.x else 0) * A)) / _ + _ else
          -(-(rho * grav) * (_ - (if atCog then B.x else 0) * A)) / _) = _
        cases atCog
        · simp only [Bool.false_eq_true, if_false, zero_mul, sub_zero]; field_simp
        · simp only [if_true]; field_simp; ring
      have e2 : (if atCog then (rho * grav * (sigmas (polyVerts c.clippedCrown c.closedPolygons atCog B)).s2) /
          (rho * grav * (sigmas (polyVerts c.clippedCrown c.closedPolygons atCog B)).s0) + B.y else
          (rho * grav * (sigmas (polyVerts c.clippedCrown c.closedPolygons atCog B)).s2) /
          (rho * grav * (sigmas (polyVerts c.clippedCrown c.closedPolygons atCog B)).s0)) =
          polygonsIntegral (fun _ y => y) o (waterline c) / A := by
        rw [h2, h0, polygonsIntegral_y_sub]
        change (if atCog then ((rho * grav) * (_ - (if atCog then B.y else 0) * A)) / _ + _ else
          ((rho * grav) * (_ - (if atCog then B.y else 0) * A)) / _) = _
        cases atCog
        · simp only [Bool.false_eq_true, if_false, zero_mul, sub_zero]; field_simp
        · simp only [if_true]; field_simp; ring
      rw [← e1, ← e2]
      rfl

end Hydro
end MM
