import Verif.Proofs.ShellCut
import Verif.Props.Halves
import Verif.Props.Stiffness

/-!
# C93: clipping keeps the area under the plane; the wetted surface area
-/

namespace MM

open Clipper

set_option linter.unusedVariables false

lemma quadratic_one : Quadratic (fun _ => 1) := ⟨[((1, 0), (1, 0))], fun X => by simp [V3.dot]⟩

section
variable (srt : (ℕ → ℝ) → List ℕ → List ℕ) (hsrt : IsArgsort srt) (p : Plane ℝ) (tol : ℝ) (htol : 0 ≤ tol) (b : Bool)
  (m : Mesh ℝ) (hwf : m.WF) (hcv : m.StrictlyConvexFaces)
  (hpos : ∀ f ∈ m.faces, ∀ i ∈ f.toList, p.Clear tol (m.vert i)) (hsep : m.WellSeparated p)
include hsrt htol hwf hcv hpos hsep

/-- **C93** (each vertex on the plane or farther than the tolerance): the clipped mesh covers the part of the surface that is under the plane, and nothing else:
the integral over it of any polynomial of degree at most two is the integral over the input of the polynomial restricted to
the points under the plane; its area is the area of the part of the input under the plane. -/
theorem C93_surface_below_partial (c : Clipped ℝ) (hc : clip srt p tol b m = .ok c) :
    (∀ g, Quadratic g → c.clipped.shellIntegral g = m.shellIntegral (p.below g)) ∧
    c.clipped.totalArea = m.shellIntegral (fun X => if X.dot p.normal < p.c then 1 else 0) := by
  have key : ∀ g, Quadratic g → c.clipped.shellIntegral g = m.shellIntegral (p.below g) := fun g hg =>
    shell_below hsrt htol hwf hpos (strictlyConvex_cross hcv) hsep hcv hc hg
  refine ⟨key, ?_⟩
  rw [shell_area, key _ quadratic_one]
  rfl

/-- **C93** (each vertex on the plane or farther than the tolerance): likewise for the integrals of a polynomial times the unit normal. -/
theorem C93_normals_below_partial (c : Clipped ℝ) (hc : clip srt p tol b m = .ok c) (g : V3 ℝ → ℝ) (hg : Quadratic g) :
    c.clipped.normalIntegral g = m.normalIntegral (p.below g) := by
  have key : ∀ k : V3 ℝ, c.clipped.surfaceSum (fun u v w => (areaVec u v w).dot k * refInt g u v w) =
      m.surfaceSum (fun u v w => (areaVec u v w).dot k * refInt (p.below g) u v w) := by
    intro k
    obtain ⟨hcont, hadd⟩ := quadratic_flux hg k
    rw [surfaceSum_halves c.clipped (T := fun u v w => (areaVec u v w).dot k * refInt g u v w)
        (fun p q => by simp [areaVec, V3.cross, V3.dot]),
      clip_additive hsrt htol hwf hpos (strictlyConvex_cross hcv) hsep hcv hc
        (below_cutsOff p (areaVec_areaLike k) hcont) hadd]
    rfl
  have kx := key ⟨1, 0, 0⟩
  have ky := key ⟨0, 1, 0⟩
  have kz := key ⟨0, 0, 1⟩
  simp only [V3.dot, mul_one, mul_zero, add_zero, zero_add] at kx ky kz
  unfold Mesh.normalIntegral
  rw [kx, ky, kz]

omit hsrt htol hwf hpos hsep in
/-- A face that is not in the plane has no triangle in the plane. -/
lemma face_not_within {f : Face} (hf : f ∈ m.faces) (hnw : ∃ i ∈ f.toList, p.dist (m.vert i) ≠ 0) :
    ¬ (p.dist (m.vert f.a) = 0 ∧ p.dist (m.vert f.b) = 0 ∧ p.dist (m.vert f.c) = 0) ∧
    (f.a ≠ f.d → ¬ (p.dist (m.vert f.a) = 0 ∧ p.dist (m.vert f.c) = 0 ∧ p.dist (m.vert f.d) = 0)) := by
  obtain ⟨i, hi, h0⟩ := hnw
  have hc := hcv f hf
  by_cases ht : f.a = f.d
  · refine ⟨?_, fun h => absurd ht h⟩
    rintro ⟨ha, hb, hc⟩
    simp only [Face.toList, List.mem_cons, List.not_mem_nil, or_false] at hi
    rcases hi with rfl | rfl | rfl | rfl
    · exact h0 ha
    · exact h0 hb
    · exact h0 hc
    · rw [← ht] at h0; exact h0 ha
  · rw [if_neg ht] at hc
    obtain ⟨n, α, β, γ, δ, h1, h2, h3, h4, hn, e1, e2, e3, e4⟩ := hc
    have four : ∀ {a b c d : V3 ℝ} {s t : ℝ}, 0 < s → areaVec a b c = s • n → areaVec a c d = t • n →
        p.dist a = 0 → p.dist b = 0 → p.dist c = 0 → p.dist d = 0 := by
      intro a b c d s t hs e e' ha hb hc
      have hv : areaVec a b c ≠ 0 := by rw [e]; exact smul_ne_zero' hs hn
      have ex : s * (areaVec a c d).x = t * (areaVec a b c).x := by rw [e, e']; simp; ring
      have ey : s * (areaVec a c d).y = t * (areaVec a b c).y := by rw [e, e']; simp; ring
      have ez : s * (areaVec a c d).z = t * (areaVec a b c).z := by rw [e, e']; simp; ring
      by_contra hd
      apply hv
      clear e e' e1 e2 e3 e4 hv
      unfold Plane.dist V3.dot at ha hb hc hd
      have hs' : s * (d.x * p.normal.x + d.y * p.normal.y + d.z * p.normal.z - p.c) ≠ 0 := mul_ne_zero hs.ne' hd
      simp only [areaVec, V3.cross, V3.sub_x, V3.sub_y, V3.sub_z] at ex ey ez ⊢
      have vx : c.x - a.x = 0 := by
        apply (mul_eq_zero.1 _).resolve_left hs'
        linear_combination (s * (d.x - a.x) + t * (b.x - a.x)) * (hc - ha) + p.normal.y * ez - p.normal.z * ey -
          t * (c.x - a.x) * (hb - ha) + s * (c.x - a.x) * ha
      have vy : c.y - a.y = 0 := by
        apply (mul_eq_zero.1 _).resolve_left hs'
        linear_combination (s * (d.y - a.y) + t * (b.y - a.y)) * (hc - ha) + p.normal.z * ex - p.normal.x * ez -
          t * (c.y - a.y) * (hb - ha) + s * (c.y - a.y) * ha
      have vz : c.z - a.z = 0 := by
        apply (mul_eq_zero.1 _).resolve_left hs'
        linear_combination (s * (d.z - a.z) + t * (b.z - a.z)) * (hc - ha) + p.normal.x * ey - p.normal.y * ex -
          t * (c.z - a.z) * (hb - ha) + s * (c.z - a.z) * ha
      rw [vx, vy, vz]
      ext <;> simp
    constructor
    · rintro ⟨ha, hb, hc⟩
      have hd := four h1 e1 e2 ha hb hc
      simp only [Face.toList, List.mem_cons, List.not_mem_nil, or_false] at hi
      rcases hi with rfl | rfl | rfl | rfl
      · exact h0 ha
      · exact h0 hb
      · exact h0 hc
      · exact h0 hd
    · rintro - ⟨ha, hc, hd⟩
      have hb : p.dist (m.vert f.b) = 0 := four (t := -γ) h2 e2
        (by rw [neg_smul, ← e3]; ext <;> simp [areaVec, V3.cross] <;> ring) ha hc hd
      simp only [Face.toList, List.mem_cons, List.not_mem_nil, or_false] at hi
      rcases hi with rfl | rfl | rfl | rfl
      · exact h0 ha
      · exact h0 hb
      · exact h0 hc
      · exact h0 hd

/-- **C93** (each vertex is on the plane or farther than the tolerance): the parts under and above the plane share the
surface: their integrals and their areas add up to those of the input, faces in the plane left out. -/
theorem C93_two_parts_partial (c c' : Clipped ℝ) (hc : clip srt p tol b m = .ok c)
    (hc' : clip srt p.reversed tol b m = .ok c') :
    (∀ g, Quadratic g →
      c.clipped.shellIntegral g + c'.clipped.shellIntegral g + m.shellIntegral (p.within g) = m.shellIntegral g) ∧
    c.clipped.totalArea + c'.clipped.totalArea + m.shellIntegral (p.within fun _ => 1) = m.totalArea ∧
    ((∀ f ∈ m.faces, ∃ i ∈ f.toList, p.dist (m.vert i) ≠ 0) → ∀ g, Quadratic g → m.shellIntegral (p.within g) = 0) := by
  have key : ∀ g, Quadratic g →
      c.clipped.shellIntegral g + c'.clipped.shellIntegral g + m.shellIntegral (p.within g) = m.shellIntegral g := by
    intro g hg
    rw [(C93_surface_below_partial srt hsrt p tol htol b m hwf hcv hpos hsep c hc).1 g hg,
      (C93_surface_below_partial srt hsrt p.reversed tol htol b m hwf hcv
        (fun f hf i hi => reversed_clear (hpos f hf i hi)) (reversed_wellSeparated hsep) c' hc').1 g hg]
    have hcont := (quadratic_flux hg 0).1
    have t : ∀ x y z, triangleIntegral (p.below g) x y z + triangleIntegral (p.reversed.below g) x y z +
        triangleIntegral (p.within g) x y z = triangleIntegral g x y z := by
      intro x y z
      simp only [triangleIntegral_refInt]
      rw [← mul_add, ← mul_add, refInt_three p hcont]
    unfold Mesh.shellIntegral Mesh.surfaceSum
    rw [← List.sum_map_add, ← List.sum_map_add]
    congr 1
    apply List.map_congr_left
    intro f hf
    unfold Mesh.faceSum
    split_ifs
    · exact t _ _ _
    · have h1 := t (m.vert f.a) (m.vert f.b) (m.vert f.c)
      have h2 := t (m.vert f.a) (m.vert f.c) (m.vert f.d)
      linarith
  refine ⟨key, by rw [shell_area, shell_area, shell_area, key _ quadratic_one], ?_⟩
  intro hnw g hg
  have hcont := (quadratic_flux hg 0).1
  have t : ∀ x y z, ¬ (p.dist x = 0 ∧ p.dist y = 0 ∧ p.dist z = 0) → triangleIntegral (p.within g) x y z = 0 := by
    intro x y z h
    rw [triangleIntegral_refInt]
    have h1 := refInt_both p hcont h
    have h2 := refInt_three p hcont x y z
    rw [show refInt (p.within g) x y z = 0 by linarith, mul_zero]
  unfold Mesh.shellIntegral Mesh.surfaceSum
  have : ∀ f ∈ m.faces, m.faceSum (triangleIntegral (p.within g)) f = 0 := by
    intro f hf
    obtain ⟨h1, h2⟩ := face_not_within p m hcv hf (hnw f hf)
    unfold Mesh.faceSum
    split_ifs with h
    · exact t _ _ _ h1
    · rw [t _ _ _ h1, t _ _ _ (h2 h), add_zero]
  rw [List.map_congr_left this]
  simp

end

namespace Hydro

/-- **C93** (each vertex on the plane or farther than the tolerance): the wetted surface area returned is the area of the part of the hull that is under the free
surface. The hull need not be watertight. -/
theorem C93_wetted_area_partial (srt : (ℕ → ℝ) → List ℕ → List ℕ) (hsrt : IsArgsort srt) (m : Mesh ℝ) (cog : V3 ℝ)
    (rho grav : ℝ) (rot : M3 ℝ) (z : ℝ) (atCog : Bool) (lpp : Option ℝ) (ap : Bool) (h : HsData)
    (hwf : (workingMesh m rot z).WF) (hcv : (workingMesh m rot z).StrictlyConvexFaces)
    (hpos : ∀ f ∈ (workingMesh m rot z).faces, ∀ i ∈ f.toList, ((workingMesh m rot z).vert i).z = 0 ∨
      1 / 1000 < |((workingMesh m rot z).vert i).z|)
    (hsep : (workingMesh m rot z).WellSeparated ⟨⟨0, 0, 1⟩, 0⟩)
    (hh : compute srt m cog rho grav rot z atCog lpp ap = .ok h) :
    h.wetSurfaceArea = (workingMesh m rot z).shellIntegral (fun X => if X.z < 0 then 1 else 0) := by
  obtain ⟨c, hc, hne, rfl⟩ := compute_ok hh
  have := (C93_surface_below_partial srt hsrt ⟨⟨0, 0, 1⟩, 0⟩ (1 / 1000) (by norm_num) true _ hwf hcv
      (fun f hf i hi => waterplane_clear (hpos f hf i hi)) hsep c hc).2
  show c.clipped.totalArea = _
  rw [this]
  congr 1
  funext X
  simp [V3.dot]

lemma refInt_one (a b c : V3 ℝ) : refInt (fun _ => 1) a b c = 1 / 2 := by
  have := refInt_aff (1, 0) (1, 0) a b c
  simp only [aff, V3.dot, V3.zero_x, V3.zero_y, V3.zero_z, zero_mul, add_zero, mul_one] at this
  rw [this]
  simp [affPoly, aff, V3.dot]
  norm_num

/-- A component of the area vector is at most the area. -/
lemma surfaceSum_abs_le (m : Mesh ℝ) (k : V3 ℝ) (hk : k.normSq ≤ 1) :
    |m.surfaceSum (fun p q r => (areaVec p q r).dot k * (1 / 2))| ≤ m.totalArea := by
  have tri : ∀ p q r : V3 ℝ, |(areaVec p q r).dot k * (1 / 2)| ≤ triangleIntegral (fun _ => 1) p q r := by
    intro p q r
    rw [triangleIntegral_refInt, refInt_one, abs_mul, abs_of_pos (by norm_num : (0 : ℝ) < 1 / 2)]
    apply mul_le_mul_of_nonneg_right _ (by norm_num)
    apply Real.abs_le_sqrt
    set n := areaVec p q r
    simp only [V3.normSq, V3.dot] at hk ⊢
    nlinarith [sq_nonneg (n.x * k.y - n.y * k.x), sq_nonneg (n.y * k.z - n.z * k.y), sq_nonneg (n.z * k.x - n.x * k.z),
      mul_nonneg (add_nonneg (add_nonneg (mul_self_nonneg n.x) (mul_self_nonneg n.y)) (mul_self_nonneg n.z))
        (sub_nonneg.2 hk)]
  rw [shell_area, Mesh.shellIntegral, Mesh.surfaceSum, Mesh.surfaceSum]
  generalize m.faces = L
  induction L with
  | nil => simp
  | cons f L ih =>
    simp only [List.map_cons, List.sum_cons]
    refine le_trans (abs_add_le _ _) (add_le_add ?_ ih)
    unfold Mesh.faceSum
    split_ifs
    · exact tri _ _ _
    · exact le_trans (abs_add_le _ _) (add_le_add (tri _ _ _) (tri _ _ _))

/-- **C94** (each corner on the free surface or farther from it than the tolerance of the clipper): for a watertight hull, the area vector of the part of the hull under the free surface is
vertical, downward, and its length is the waterplane area returned: the wetted surface closes on the waterplane. Hence the
waterplane area is at most the wetted surface area. -/
theorem C94_waterplane_closes_partial (srt : (ℕ → ℝ) → List ℕ → List ℕ) (hsrt : IsArgsort srt) (m : Mesh ℝ) (cog : V3 ℝ)
    (rho grav : ℝ) (rot : M3 ℝ) (z : ℝ) (atCog : Bool) (lpp : Option ℝ) (ap : Bool) (h : HsData)
    (hwf : (workingMesh m rot z).WF) (hcl : (workingMesh m rot z).ClosedOriented)
    (hcv : (workingMesh m rot z).StrictlyConvexFaces)
    (hpos : ∀ f ∈ (workingMesh m rot z).faces, ∀ i ∈ f.toList,
      ((workingMesh m rot z).vert i).z = 0 ∨ 1 / 1000 < |((workingMesh m rot z).vert i).z|)
    (hsep : (workingMesh m rot z).WellSeparated ⟨⟨0, 0, 1⟩, 0⟩)
    (hone : (((workingMesh m rot z).lowerSectionEdges ⟨⟨0, 0, 1⟩, 0⟩).map Prod.fst).Nodup)
    (hh : compute srt m cog rho grav rot z atCog lpp ap = .ok h) :
    (workingMesh m rot z).normalIntegral (fun X => if X.z < 0 then 1 else 0) = ⟨0, 0, -h.waterplaneArea⟩ ∧
    |h.waterplaneArea| ≤ h.wetSurfaceArea := by
  obtain ⟨hsym, c, hc, _, _, hco⟩ := C47_stiffness srt m cog rho grav rot z atCog lpp ap h hh
  obtain ⟨c', hc', hne, rfl⟩ := compute_ok hh
  rw [hc] at hc'
  simp only [Except.ok.injEq] at hc'
  subst hc'
  set M := workingMesh m rot z with hM
  have hq := strictlyConvex_cross hcv
  have htol : (0 : ℝ) ≤ 1 / 1000 := by norm_num
  have hpos' : ∀ f ∈ M.faces, ∀ i ∈ f.toList, waterplane.Clear (1 / 1000) (M.vert i) := fun f hf i hi =>
    waterplane_clear (hpos f hf i hi)
  have hsep' : M.WellSeparated waterplane := hsep
  have hc' : clip srt waterplane (1 / 1000) true M = .ok c := hc
  have hpoly : c.polygonEdges.Perm (M.lowerSectionEdges waterplane) :=
    (C75_polygons_on_plane_partial srt hsrt waterplane (1 / 1000) htol true M hwf hcl hcv hpos' hsep' hone c hc').2
  have lid := wet_lid hsrt htol hwf hcl hpos' hsep' hcv hq hc' hpoly
  have hA := (hco (0, 0)).1
  have ex : c.clipped.surfaceSum (fun p q r => (areaVec p q r).x * (1 / 2)) = 0 := by
    rw [lid _ (fun _ _ => 0)]
    · have z : polygonIntegral (fun _ _ => 0) (0, 0) = fun _ => 0 := by
        funext l; simp [polygonIntegral, planeTriIntegral]
      simp [polygonsIntegral, z]
    · intro p q; simp [areaVec, V3.cross]; ring
    · intro p q r; simp [areaVec, V3.cross]; ring
    · intro p q hp hq; simp [areaVec, V3.cross, hp, hq, planeTriIntegral]
  have ey : c.clipped.surfaceSum (fun p q r => (areaVec p q r).y * (1 / 2)) = 0 := by
    rw [lid _ (fun _ _ => 0)]
    · have z : polygonIntegral (fun _ _ => 0) (0, 0) = fun _ => 0 := by
        funext l; simp [polygonIntegral, planeTriIntegral]
      simp [polygonsIntegral, z]
    · intro p q; simp [areaVec, V3.cross]; ring
    · intro p q r; simp [areaVec, V3.cross]; ring
    · intro p q hp hq; simp [areaVec, V3.cross, hp, hq, planeTriIntegral]
  have ez : c.clipped.surfaceSum (fun p q r => (areaVec p q r).z * (1 / 2)) =
      -polygonsIntegral (fun _ _ => 1) (0, 0) (waterline c) := by
    rw [lid _ (fun _ _ => 1)]
    · intro p q; simp [areaVec, V3.cross]; ring
    · intro p q r; simp [areaVec, V3.cross]; ring
    · intro p q hp hq
      have := planeTri_aff 1 0 0 1 0 0 p q hp hq
      simp only [zero_mul, add_zero, mul_one] at this
      rw [this]
      simp [affFlux, affPoly, aff, areaVec, V3.dot, V3.cross, hp, hq]
      left; norm_num
  have key := C93_normals_below_partial srt hsrt waterplane (1 / 1000) htol true M hwf hcv
    hpos' hsep' c hc' _ quadratic_one
  have e0 : waterplane.below (fun _ => 1) = fun X : V3 ℝ => if X.z < 0 then 1 else 0 := by
    funext X; simp [Plane.below, waterplane, V3.dot]
  rw [e0] at key
  constructor
  · rw [← key, hA]
    unfold Mesh.normalIntegral
    simp only [refInt_one]
    rw [ex, ey, ez]
  · have hb := surfaceSum_abs_le c.clipped ⟨0, 0, 1⟩ (by simp [V3.normSq, V3.dot])
    simp only [V3.dot, mul_one, mul_zero, add_zero, zero_add] at hb
    rw [ez, abs_neg, ← hA] at hb
    exact hb

/-- The half immersed cube meets the hypotheses of C93 and C94 (`halfCube_meets_C80`). -/
theorem halfCube_wetted_area (cog : V3 ℝ) (grav : ℝ) (atCog : Bool) (h : HsData)
    (hh : compute insArgsort halfCube.real cog 1000 grav M3.one 0 atCog = .ok h) :
    (workingMesh halfCube.real M3.one 0).normalIntegral (fun X => if X.z < 0 then 1 else 0) = ⟨0, 0, -h.waterplaneArea⟩ ∧
    h.waterplaneArea ≤ h.wetSurfaceArea := by
  obtain ⟨h1, h2, h3, h4, _, h6, h7, _⟩ := halfCube_meets_C80 cog grav atCog
  obtain ⟨e1, e2⟩ := C94_waterplane_closes_partial insArgsort insArgsort_isArgsort _ _ _ _ _ _ _ _ _ h h1 h2 h3 h4 h6 h7 hh
  exact ⟨e1, le_trans (le_abs_self _) e2⟩

/-- So does the octahedron with four vertices on the free surface (`octa_meets_C80`). -/
theorem octa_wetted_area (cog : V3 ℝ) (grav : ℝ) (atCog : Bool) (h : HsData)
    (hh : compute insArgsort octaMesh.real cog 1000 grav M3.one 0 atCog = .ok h) :
    (workingMesh octaMesh.real M3.one 0).normalIntegral (fun X => if X.z < 0 then 1 else 0) = ⟨0, 0, -h.waterplaneArea⟩ ∧
    h.waterplaneArea ≤ h.wetSurfaceArea := by
  obtain ⟨h1, h2, h3, h4, _, h6, h7, _⟩ := octa_meets_C80 cog grav atCog
  obtain ⟨e1, e2⟩ := C94_waterplane_closes_partial insArgsort insArgsort_isArgsort _ _ _ _ _ _ _ _ _ h h1 h2 h3 h4 h6 h7 hh
  exact ⟨e1, le_trans (le_abs_self _) e2⟩

end Hydro
end MM
