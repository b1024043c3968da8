import Verif.Proofs.ConeCut
import Verif.Props.ImmersedBody
import Verif.Props.CliOutput

/-!
# C92: clipping by a plane gives the part of the solid under the plane; with the reversed plane, the rest
-/

namespace MM

open Clipper

set_option linter.unusedVariables false

lemma reversed_cutPt (p : Plane ℝ) (a b : V3 ℝ) : p.reversed.cutPt a b = p.cutPt a b := by
  unfold Plane.cutPt
  rw [reversed_dist, reversed_dist, show -p.dist a - -p.dist b = -(p.dist a - p.dist b) by ring, inv_neg]
  ext <;> simp <;> ring

lemma reversed_clear {p : Plane ℝ} {tol : ℝ} {v : V3 ℝ} (h : p.Clear tol v) : p.reversed.Clear tol v := by
  unfold Plane.Clear at *
  rw [reversed_dist, abs_neg, neg_eq_zero]
  exact h

/-- Four points of a plane. -/
lemma coneDet_flat {p : Plane ℝ} (hp : p.normal ≠ 0) {o a b c : V3 ℝ} (ho : p.dist o = 0) (ha : p.dist a = 0)
    (hb : p.dist b = 0) (hc : p.dist c = 0) : coneDet o a b c = 0 := by
  by_contra h
  apply hp
  unfold Plane.dist V3.dot at ho ha hb hc
  simp only [coneDet, V3.dot, V3.cross, V3.sub_x, V3.sub_y, V3.sub_z] at h
  have ha := sub_eq_zero.2 (ha.trans ho.symm)
  have hb := sub_eq_zero.2 (hb.trans ho.symm)
  have hc := sub_eq_zero.2 (hc.trans ho.symm)
  ext
  · apply (mul_eq_zero.1 _).resolve_left h
    linear_combination ((b.y - o.y) * (c.z - o.z) - (b.z - o.z) * (c.y - o.y)) * ha +
      ((c.y - o.y) * (a.z - o.z) - (c.z - o.z) * (a.y - o.y)) * hb + ((a.y - o.y) * (b.z - o.z) - (a.z - o.z) * (b.y - o.y)) * hc
  · apply (mul_eq_zero.1 _).resolve_left h
    linear_combination ((b.z - o.z) * (c.x - o.x) - (b.x - o.x) * (c.z - o.z)) * ha +
      ((c.z - o.z) * (a.x - o.x) - (c.x - o.x) * (a.z - o.z)) * hb + ((a.z - o.z) * (b.x - o.x) - (a.x - o.x) * (b.z - o.z)) * hc
  · apply (mul_eq_zero.1 _).resolve_left h
    linear_combination ((b.x - o.x) * (c.y - o.y) - (b.y - o.y) * (c.x - o.x)) * ha +
      ((c.x - o.x) * (a.y - o.y) - (c.y - o.y) * (a.x - o.x)) * hb + ((a.x - o.x) * (b.y - o.y) - (a.y - o.y) * (b.x - o.x)) * hc

lemma reversed_wellSeparated {p : Plane ℝ} {m : Mesh ℝ} (h : m.WellSeparated p) : m.WellSeparated p.reversed := by
  have e : ∀ X, m.ClipPoint p.reversed X → m.ClipPoint p X := by
    rintro X (hX | ⟨e, he, hd, rfl⟩)
    · exact Or.inl hX
    · refine Or.inr ⟨e, he, ?_, reversed_cutPt _ _ _⟩
      rw [reversed_dist, reversed_dist] at hd
      linarith
  intro X Y hX hY
  exact h X Y (e X hX) (e Y hY)

section
variable (srt : (ℕ → ℝ) → List ℕ → List ℕ) (hsrt : IsArgsort srt) (p : Plane ℝ) (tol : ℝ) (htol : 0 ≤ tol) (b : Bool)
  (m : Mesh ℝ) (hwf : m.WF) (hcv : m.StrictlyConvexFaces)
  (hpos : ∀ f ∈ m.faces, ∀ i ∈ f.toList, p.Clear tol (m.vert i)) (hsep : m.WellSeparated p)
include hsrt htol hwf hcv hpos hsep

/-- **C92** (each vertex on the plane or farther than the tolerance): the clipped mesh delimits, with the plane, the part of the solid that is under the plane.
For every point `o` of the plane and every polynomial `g` of degree at most two, the integral of `g` over the signed
tetrahedra joining `o` to the faces of the clipped mesh is the integral, over the signed tetrahedra joining `o` to the faces
of the input, of `g` restricted to the points under the plane. -/
theorem C92_part_below_partial (c : Clipped ℝ) (hc : clip srt p tol b m = .ok c) (o : V3 ℝ) (ho : o.dot p.normal = p.c)
    (g : V3 ℝ → ℝ) (hg : Quadratic g) : c.clipped.solidIntegral o g = m.solidIntegral o (p.below g) := by
  obtain ⟨⟨g0, g1, g2, hr⟩, hadd⟩ := quadratic_radial hg o
  have ho' : p.dist o = 0 := by unfold Plane.dist; linarith
  have hq := strictlyConvex_cross hcv
  have hJ := below_cutsOff p (coneDet_areaLike o) (planeCont_radInt (g0 := g0) hr.c1 hr.c2)
  have e1 : (fun a b c => coneDet o a b c * refInt (p.below (radInt g0 g1 g2)) a b c) = tetIntegral (p.below g) o := by
    funext a b c; rw [tet_radial p hr (half_inv p ho')]
  have e2 : (fun a b c => coneDet o a b c * refInt (radInt g0 g1 g2) a b c) = tetIntegral g o := by
    funext a b c; rw [tet_radial_whole hr]
  rw [e1, e2] at hJ
  have key := clip_additive hsrt htol hwf hpos hq hsep hcv hc hJ hadd
  unfold Mesh.solidIntegral
  rw [surfaceSum_halves c.clipped (fun x y => hadd.degenerate x y x (by ext <;> simp [areaVec, V3.cross])), key]
  rfl

/-- **C92** (each vertex on the plane or farther than the tolerance): the two parts given by a plane and by the reversed plane share the solid: their integrals
add up to those of the whole, whatever the point `o` of the plane. -/
theorem C92_two_parts_partial (hp : p.normal ≠ 0) (c c' : Clipped ℝ) (hc : clip srt p tol b m = .ok c)
    (hc' : clip srt p.reversed tol b m = .ok c') (o : V3 ℝ) (ho : o.dot p.normal = p.c)
    (g : V3 ℝ → ℝ) (hg : Quadratic g) :
    c.clipped.solidIntegral o g + c'.clipped.solidIntegral o g = m.solidIntegral o g := by
  have ho' : p.dist o = 0 := by unfold Plane.dist; linarith
  have ho2 : o.dot p.reversed.normal = p.reversed.c := by
    have := reversed_dist p o
    rw [ho'] at this
    unfold Plane.dist at this
    linarith
  rw [C92_part_below_partial srt hsrt p tol htol b m hwf hcv hpos hsep c hc o ho g hg,
    C92_part_below_partial srt hsrt p.reversed tol htol b m hwf hcv
      (fun f hf i hi => reversed_clear (hpos f hf i hi)) (reversed_wellSeparated hsep) c' hc' o ho2 g hg]
  obtain ⟨⟨g0, g1, g2, hr⟩, -⟩ := quadratic_radial hg o
  have hrev : p.reversed.dist o = 0 := by rw [reversed_dist, ho', neg_zero]
  have t : ∀ x y z, tetIntegral (p.below g) o x y z + tetIntegral (p.reversed.below g) o x y z = tetIntegral g o x y z := by
    intro x y z
    rw [tet_radial p hr (half_inv p ho'), tet_radial _ hr (half_inv _ hrev), tet_radial_whole hr, ← mul_add]
    by_cases h0 : p.dist x = 0 ∧ p.dist y = 0 ∧ p.dist z = 0
    · rw [coneDet_flat hp ho' h0.1 h0.2.1 h0.2.2, zero_mul, zero_mul]
    · rw [refInt_both p (planeCont_radInt hr.c1 hr.c2) h0]
  unfold Mesh.solidIntegral Mesh.surfaceSum
  rw [← List.sum_map_add]
  congr 1
  apply List.map_congr_left
  intro f hf
  unfold Mesh.faceSum
  split_ifs
  · exact t _ _ _
  · have h1 := t (m.vert f.a) (m.vert f.b) (m.vert f.c)
    have h2 := t (m.vert f.a) (m.vert f.c) (m.vert f.d)
    linarith

/-- **C92** (each vertex on the plane or farther than the tolerance): the volume of a watertight mesh is the sum of the volumes of the two parts, each counted from
any point of the plane. -/
theorem C92_volume_partial (hp : p.normal ≠ 0) (hcl : m.ClosedOriented) (c c' : Clipped ℝ) (hc : clip srt p tol b m = .ok c)
    (hc' : clip srt p.reversed tol b m = .ok c') (o : V3 ℝ) (ho : o.dot p.normal = p.c) :
    c.clipped.solidIntegral o (fun _ => 1) + c'.clipped.solidIntegral o (fun _ => 1) = m.volume := by
  rw [C92_two_parts_partial srt hsrt p tol htol b m hwf hcv hpos hsep hp c c' hc hc' o ho _
    ⟨[((1, 0), (1, 0))], fun X => by simp [V3.dot]⟩]
  rw [Mesh.volume, Mesh.volumeWith, normalWeighted_flux m (StrictlyConvexFaces.flat hcv)]
  simp only [flux_x0 m hcl o, flux_y1 m hcl o, flux_z2 m hcl o, Mesh.solidIntegral]
  ring

end

/-! ## The immersed body -/

namespace Hydro

/-- **C85**, in terms of the hull (each vertex on the plane or farther than the tolerance): the displaced volume, the buoyancy centre and the inertia returned are
the integrals over the hull, restricted to the points under the free surface. -/
theorem C85_part_of_hull_partial (srt : (ℕ → ℝ) → List ℕ → List ℕ) (hsrt : IsArgsort srt) (m : Mesh ℝ) (cog : V3 ℝ)
    (rho grav : ℝ) (rot : M3 ℝ) (z : ℝ) (atCog : Bool) (lpp : Option ℝ) (ap : Bool) (h : HsData)
    (hwf : (workingMesh m rot z).WF) (hcl : (workingMesh m rot z).ClosedOriented)
    (hcv : (workingMesh m rot z).StrictlyConvexFaces)
    (hpos : ∀ f ∈ (workingMesh m rot z).faces, ∀ i ∈ f.toList, ((workingMesh m rot z).vert i).z = 0 ∨
      1 / 1000 < |((workingMesh m rot z).vert i).z|)
    (hsep : (workingMesh m rot z).WellSeparated ⟨⟨0, 0, 1⟩, 0⟩) (hrot : rot.IsRotation) (hrho : rho ≠ 0)
    (hh : compute srt m cog rho grav rot z atCog lpp ap = .ok h) (o : V3 ℝ) (ho : o.z = 0) :
    let immersed := fun g => (workingMesh m rot z).solidIntegral o (fun X => if X.z < 0 then g X else 0)
    h.dispVolume = immersed (fun _ => 1) ∧
    (h.dispVolume ≠ 0 → h.dispVolume • workingPoint h.buoyancyCenter rot z =
      ⟨immersed (fun p => p.x), immersed (fun p => p.y), immersed (fun p => p.z)⟩) ∧
    (workingPoint cog rot z = 0 → h.inertia.mat = inertiaMatrix (fun g => rho * immersed g)) := by
  obtain ⟨c, hc, hb⟩ := C85_immersed_body_partial srt hsrt m cog rho grav rot z atCog lpp ap h hwf hcl hcv hpos hsep hrot hrho hh
  obtain ⟨h1, h2, _, h3⟩ := hb o ho
  have key : ∀ g, Quadratic g → c.clipped.solidIntegral o g =
      (workingMesh m rot z).solidIntegral o (fun X => if X.z < 0 then g X else 0) := by
    intro g hg
    rw [C92_part_below_partial srt hsrt ⟨⟨0, 0, 1⟩, 0⟩ (1 / 1000) (by norm_num) true _ hwf hcv
      (fun f hf i hi => waterplane_clear (hpos f hf i hi)) hsep c hc o (by simp [V3.dot, ho]) g hg]
    congr 1
    funext X
    simp [Plane.below, V3.dot]
  intro immersed
  have q : ∀ g, Quadratic g → c.clipped.solidIntegral o g = immersed g := key
  refine ⟨?_, ?_, ?_⟩
  · rw [h1]; exact q _ ⟨[((1, 0), (1, 0))], fun X => by simp [V3.dot]⟩
  · intro hv
    rw [h2 hv, q _ ⟨[((0, ⟨1, 0, 0⟩), (1, 0))], fun X => by simp [V3.dot]⟩,
      q _ ⟨[((0, ⟨0, 1, 0⟩), (1, 0))], fun X => by simp [V3.dot]⟩,
      q _ ⟨[((0, ⟨0, 0, 1⟩), (1, 0))], fun X => by simp [V3.dot]⟩]
  · intro h0
    rw [h3 h0]
    unfold inertiaMatrix
    dsimp only
    rw [q (fun p => p.y ^ 2 + p.z ^ 2) ⟨[((0, ⟨0, 1, 0⟩), (0, ⟨0, 1, 0⟩)), ((0, ⟨0, 0, 1⟩), (0, ⟨0, 0, 1⟩))],
        fun X => by simp [V3.dot]; ring⟩,
      q (fun p => p.x ^ 2 + p.z ^ 2) ⟨[((0, ⟨1, 0, 0⟩), (0, ⟨1, 0, 0⟩)), ((0, ⟨0, 0, 1⟩), (0, ⟨0, 0, 1⟩))],
        fun X => by simp [V3.dot]; ring⟩,
      q (fun p => p.x ^ 2 + p.y ^ 2) ⟨[((0, ⟨1, 0, 0⟩), (0, ⟨1, 0, 0⟩)), ((0, ⟨0, 1, 0⟩), (0, ⟨0, 1, 0⟩))],
        fun X => by simp [V3.dot]; ring⟩,
      q (fun p => p.x * p.y) ⟨[((0, ⟨1, 0, 0⟩), (0, ⟨0, 1, 0⟩))], fun X => by simp [V3.dot]⟩,
      q (fun p => p.x * p.z) ⟨[((0, ⟨1, 0, 0⟩), (0, ⟨0, 0, 1⟩))], fun X => by simp [V3.dot]⟩,
      q (fun p => p.y * p.z) ⟨[((0, ⟨0, 1, 0⟩), (0, ⟨0, 0, 1⟩))], fun X => by simp [V3.dot]⟩]

end Hydro

/-! ## The unit cube and an oblique plane -/

def obliquePlane : Plane ℚ := ⟨⟨3 / 5, 0, 4 / 5⟩, 1 / 2⟩

/-- The hypotheses of C92 are met by the unit cube and a plane that cuts it obliquely, in two parts with four and nine faces. -/
theorem cube_meets_C92 : ∃ c c', clip insArgsort obliquePlane.real (1 / 1000) false (cubeMesh ℚ).real = .ok c ∧
    clip insArgsort obliquePlane.real.reversed (1 / 1000) false (cubeMesh ℚ).real = .ok c' ∧
    (cubeMesh ℚ).real.WF ∧ (cubeMesh ℚ).real.ClosedOriented ∧ (cubeMesh ℚ).real.StrictlyConvexFaces ∧
    (∀ f ∈ (cubeMesh ℚ).real.faces, ∀ i ∈ f.toList, 1 / 1000 < |obliquePlane.real.dist ((cubeMesh ℚ).real.vert i)|) ∧
    (cubeMesh ℚ).real.WellSeparated obliquePlane.real ∧ c.clipped.faces.length = 4 ∧ c'.clipped.faces.length = 9 := by
  have h1 : ∃ c, clip insArgsort obliquePlane (1 / 1000) false (cubeMesh ℚ) = .ok c ∧ c.clipped.faces.length = 4 := by
    have h : (match clip insArgsort obliquePlane (1 / 1000) false (cubeMesh ℚ) with
        | .ok c => decide (c.clipped.faces.length = 4)
        | .error _ => false) = true := by decide +kernel
    split at h
    · rename_i c hc
      exact ⟨c, hc, by simpa using h⟩
    · simp at h
  have h2 : ∃ c, clip insArgsort obliquePlane.reversed (1 / 1000) false (cubeMesh ℚ) = .ok c ∧ c.clipped.faces.length = 9 := by
    have h : (match clip insArgsort obliquePlane.reversed (1 / 1000) false (cubeMesh ℚ) with
        | .ok c => decide (c.clipped.faces.length = 9)
        | .error _ => false) = true := by decide +kernel
    split at h
    · rename_i c hc
      exact ⟨c, hc, by simpa using h⟩
    · simp at h
  obtain ⟨c, hc, l1⟩ := h1
  obtain ⟨c', hc', l2⟩ := h2
  have w : (cubeMesh ℚ).WF := by decide +kernel
  refine ⟨c.aff ratReal 0, c'.aff ratReal 0, Cli.clip_real2 ?_ w hc, Cli.clip_real2 ?_ w hc', w.real, ?_, ?_, ?_, ?_, l1, l2⟩
  · simp [Plane.aff, Plane.real, obliquePlane, V3.real, V3.dot, ratReal_apply]
  · simp [Plane.aff, Plane.real, Plane.reversed, obliquePlane, V3.real, V3.dot, ratReal_apply]
    ext <;> simp
  · exact Mesh.ClosedOriented.real (closedOriented_of_manifold (by decide +kernel) (by decide +kernel))
  · exact cubeMesh_strictlyConvex.real
  · have : ∀ f ∈ (cubeMesh ℚ).faces, ∀ i ∈ f.toList, 1 / 1000 < |obliquePlane.dist ((cubeMesh ℚ).vert i)| := by decide +kernel
    intro f hf i hi
    have h := this f hf i hi
    rw [Mesh.real_vert, Plane.real_dist]
    have : ((1 / 1000 : ℚ) : ℝ) < ((|obliquePlane.dist ((cubeMesh ℚ).vert i)| : ℚ) : ℝ) := by exact_mod_cast h
    push_cast at this
    exact this
  · exact Mesh.WellSeparated.real (wellSeparated_of_list (by decide +kernel))

/-! ## A regular octahedron and a plane through two of its vertices -/

def octaPlane : Plane ℚ := ⟨⟨3 / 5, -4 / 5, 0⟩, 0⟩

/-- `Clear` for a plane and points with rational coordinates. -/
lemma Plane.Clear.real {p : Plane ℚ} {tol : ℚ} {v : V3 ℚ} (h : p.Clear tol v) : p.real.Clear (tol : ℝ) v.real := by
  unfold Plane.Clear at *
  rw [Plane.real_dist]
  rcases h with h | ⟨h, h'⟩
  · left; exact_mod_cast h
  · right; exact ⟨by exact_mod_cast h, by exact_mod_cast h'⟩

/-- The hypotheses of C92 and C93 are met by a regular octahedron and a plane that contains two of its vertices: each part
has six faces. -/
theorem octa_meets_C92 : ∃ c c', clip insArgsort octaPlane.real (1 / 1000) false octaMesh.real = .ok c ∧
    clip insArgsort octaPlane.real.reversed (1 / 1000) false octaMesh.real = .ok c' ∧
    octaMesh.real.WF ∧ octaMesh.real.ClosedOriented ∧ octaMesh.real.StrictlyConvexFaces ∧
    (∀ f ∈ octaMesh.real.faces, ∀ i ∈ f.toList, octaPlane.real.Clear (1 / 1000) (octaMesh.real.vert i)) ∧
    octaPlane.real.dist (octaMesh.real.vert 4) = 0 ∧ octaPlane.real.normal ≠ 0 ∧
    octaMesh.real.WellSeparated octaPlane.real ∧ c.clipped.faces.length = 6 ∧ c'.clipped.faces.length = 6 := by
  have h1 : ∃ c, clip insArgsort octaPlane (1 / 1000) false octaMesh = .ok c ∧ c.clipped.faces.length = 6 := by
    have h : (match clip insArgsort octaPlane (1 / 1000) false octaMesh with
        | .ok c => decide (c.clipped.faces.length = 6)
        | .error _ => false) = true := by decide +kernel
    split at h
    · rename_i c hc
      exact ⟨c, hc, by simpa using h⟩
    · simp at h
  have h2 : ∃ c, clip insArgsort octaPlane.reversed (1 / 1000) false octaMesh = .ok c ∧ c.clipped.faces.length = 6 := by
    have h : (match clip insArgsort octaPlane.reversed (1 / 1000) false octaMesh with
        | .ok c => decide (c.clipped.faces.length = 6)
        | .error _ => false) = true := by decide +kernel
    split at h
    · rename_i c hc
      exact ⟨c, hc, by simpa using h⟩
    · simp at h
  obtain ⟨c, hc, l1⟩ := h1
  obtain ⟨c', hc', l2⟩ := h2
  have w : octaMesh.WF := by decide +kernel
  refine ⟨c.aff ratReal 0, c'.aff ratReal 0, Cli.clip_real2 ?_ w hc, Cli.clip_real2 ?_ w hc', w.real, ?_, ?_, ?_, ?_, ?_, ?_,
    l1, l2⟩
  · simp [Plane.aff, Plane.real, octaPlane, V3.real, V3.dot, ratReal_apply]
  · simp [Plane.aff, Plane.real, Plane.reversed, octaPlane, V3.real, V3.dot, ratReal_apply]
    ext <;> simp
  · exact Mesh.ClosedOriented.real (closedOriented_of_manifold (by decide +kernel) (by decide +kernel))
  · exact octaMesh_strictlyConvex.real
  · have : ∀ f ∈ octaMesh.faces, ∀ i ∈ f.toList, 1 / 1000 < |octaPlane.dist (octaMesh.vert i)| ∨
        (octaPlane.dist (octaMesh.vert i) = 0 ∧ (0 : ℚ) < 1 / 1000) := by decide +kernel
    intro f hf i hi
    have h : octaPlane.Clear (1 / 1000) (octaMesh.vert i) := this f hf i hi
    have := h.real
    rw [Mesh.real_vert]
    push_cast at this
    exact this
  · rw [Mesh.real_vert, Plane.real_dist]
    have : octaPlane.dist (octaMesh.vert 4) = 0 := by decide +kernel
    rw [this]; simp
  · intro h
    have : octaPlane.real.normal.x = 0 := by rw [h]; rfl
    simp [octaPlane, Plane.real, V3.real] at this
  · exact Mesh.WellSeparated.real (wellSeparated_of_list (by decide +kernel))

/-- The hypotheses of C79 and C85 are met by the octahedron, with four vertices on the free surface. -/
theorem Hydro.octa_meets_C79 (cog : V3 ℝ) (grav : ℝ) :
    (Hydro.workingMesh octaMesh.real M3.one 0).WF ∧ (Hydro.workingMesh octaMesh.real M3.one 0).ClosedOriented ∧
    (Hydro.workingMesh octaMesh.real M3.one 0).StrictlyConvexFaces ∧
    (∀ f ∈ (Hydro.workingMesh octaMesh.real M3.one 0).faces, ∀ i ∈ f.toList,
      ((Hydro.workingMesh octaMesh.real M3.one 0).vert i).z = 0 ∨
      1 / 1000 < |((Hydro.workingMesh octaMesh.real M3.one 0).vert i).z|) ∧
    (Hydro.workingMesh octaMesh.real M3.one 0).WellSeparated ⟨⟨0, 0, 1⟩, 0⟩ ∧
    (octaMesh.real.vert 0).z = 0 ∧ ∃ h, Hydro.compute insArgsort octaMesh.real cog 1000 grav = .ok h := by
  rw [workingMesh_self]
  have w : octaMesh.WF := by decide +kernel
  have h1 : ∃ c, clip insArgsort ⟨⟨0, 0, 1⟩, 0⟩ (1 / 1000) true octaMesh = .ok c ∧ c.closedPolygons ≠ [] := by
    have h : (match clip insArgsort (⟨⟨0, 0, 1⟩, 0⟩ : Plane ℚ) (1 / 1000) true octaMesh with
        | .ok c => decide (c.closedPolygons ≠ [])
        | .error _ => false) = true := by decide +kernel
    split at h
    · rename_i c hc
      exact ⟨c, hc, by simpa using h⟩
    · simp at h
  obtain ⟨c, hc, hne⟩ := h1
  refine ⟨w.real, ?_, octaMesh_strictlyConvex.real, ?_, ?_, ?_,
    Hydro.ofClipped octaMesh.real cog 1000 grav M3.one 0 false none false (c.aff ratReal 0), ?_⟩
  · exact Mesh.ClosedOriented.real (closedOriented_of_manifold (by decide +kernel) (by decide +kernel))
  · have : ∀ f ∈ octaMesh.faces, ∀ i ∈ f.toList, (octaMesh.vert i).z = 0 ∨ 1 / 1000 < |(octaMesh.vert i).z| := by
      decide +kernel
    intro f hf i hi
    rw [Mesh.real_vert]
    rcases this f hf i hi with h | h
    · left
      show (((octaMesh.vert i).z : ℚ) : ℝ) = 0
      rw [h]; simp
    · right
      have : ((1 / 1000 : ℚ) : ℝ) < ((|(octaMesh.vert i).z| : ℚ) : ℝ) := by exact_mod_cast h
      push_cast at this
      exact this
  · rw [← Plane.real_z]
    exact Mesh.WellSeparated.real (wellSeparated_of_list (by decide +kernel))
  · rw [Mesh.real_vert]
    have : (octaMesh.vert 0).z = 0 := by decide +kernel
    show (((octaMesh.vert 0).z : ℚ) : ℝ) = 0
    rw [this]; simp
  · unfold Hydro.compute
    rw [workingMesh_self, clip_real w hc]
    simp only
    rw [if_neg]
    exact hne

end MM
