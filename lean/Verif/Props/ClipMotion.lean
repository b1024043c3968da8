import Verif.Proofs.ClipMap
import Verif.Props.Hydrostatics
import Verif.Props.Equilibrium
import Verif.Props.HydrostaticsOld
import Verif.Props.Geometry

/-!
# Clipping commutes with translations (C69), size of the submerged part (C70), concrete hulls over the reals
-/

namespace MM

set_option linter.unusedSectionVars false
set_option linter.unusedSimpArgs false

/-! ## C69 -/

section C69
variable {K : Type*} [Field K] [LinearOrder K] [IsStrictOrderedRing K]

/-- The results of a run, all translated by `t`. -/
def Clipper.Clipped.translate (t : V3 K) (c : Clipper.Clipped K) : Clipper.Clipped K :=
  { upper := c.upper.translate t, crown := c.crown.translate t, lower := c.lower.translate t
    clippedCrown := c.clippedCrown.translate t, closedPolygons := c.closedPolygons, openLines := c.openLines
    clipped := c.clipped.translate t }

/-- The plane translated by `t`. -/
def Plane.translate (t : V3 K) (p : Plane K) : Plane K := ⟨p.normal, p.c + t.dot p.normal⟩

lemma aff_id (m : Mesh K) (t : V3 K) : m.aff (OrderRingHom.id K) t = m.translate t := by
  simp only [Mesh.aff, Mesh.translate, Mesh.mapVertices, Mesh.mk.injEq, and_true]
  apply List.map_congr_left
  intro v _
  ext <;> simp [affMap]

/-- **C69.** Clipping commutes with translations: for every valid mesh, plane, tolerance and translation, clipping the
translated mesh by the translated plane raises the same exception, or gives the same faces and the same polygons (vertex
numbers included), on the translated vertices. The sort used to merge vertices is any one that looks at the values only
through their comparisons. -/
theorem C69_translate (srt : (ℕ → K) → List ℕ → List ℕ) (hsrt : IsArgsort srt) (hcmp : SortCompat srt srt) (p : Plane K)
    (tol : K) (b : Bool) (m : Mesh K) (hwf : m.WF) (t : V3 K) :
    Clipper.clip srt (p.translate t) tol b (m.translate t) =
      (Clipper.clip srt p tol b m).map (Clipper.Clipped.translate t) := by
  have h := Clipper.clip_map (φ := OrderRingHom.id K) (t := t) hcmp hsrt p tol b m hwf
  have hp : p.aff (OrderRingHom.id K) t = p.translate t := by simp [Plane.aff, Plane.translate]
  rw [aff_id, hp] at h
  rw [show tol = OrderRingHom.id K tol from rfl, h]
  congr 1

/-- The points of the translated plane are the translated points of the plane. -/
theorem Plane.translate_dist (t : V3 K) (p : Plane K) (v : V3 K) : (p.translate t).dist (v + t) = p.dist v := by
  simp only [Plane.dist, Plane.translate, V3.dot, V3.add_x, V3.add_y, V3.add_z]; ring

end C69

/-- A sort that satisfies the hypotheses, and a run that returns. -/
example : IsArgsort (insArgsort (K := ℚ)) ∧ SortCompat (insArgsort (K := ℚ)) (insArgsort (K := ℚ)) ∧
    ((cubeMesh ℚ).WF ∧ (Clipper.clip insArgsort ⟨⟨0, 0, 1⟩, 1 / 2⟩ (1 / 1000) true (cubeMesh ℚ)).isOk = true) :=
  ⟨insArgsort_isArgsort, insArgsort_compat, cubeMesh_wf ℚ, by decide +kernel⟩

/-! ## Concrete hulls over the reals -/

/-- The inclusion of the rationals. -/
noncomputable def ratReal : ℚ →+*o ℝ := { Rat.castHom ℝ with monotone' := Rat.cast_mono }

lemma ratReal_apply (q : ℚ) : ratReal q = (q : ℝ) := rfl

/-- A mesh with rational coordinates, over the reals. -/
noncomputable def Mesh.real (m : Mesh ℚ) : Mesh ℝ := m.aff ratReal 0

/-- A run on rational coordinates is a run on real coordinates, with the same faces and polygons. -/
lemma clip_real {m : Mesh ℚ} (hwf : m.WF) {c : Clipper.Clipped ℚ}
    (h : Clipper.clip insArgsort ⟨⟨0, 0, 1⟩, 0⟩ (1 / 1000) true m = .ok c) :
    Clipper.clip insArgsort ⟨⟨0, 0, 1⟩, 0⟩ (1 / 1000) true m.real = .ok (c.aff ratReal 0) := by
  have h1 := Clipper.clip_map (φ := ratReal) (t := 0) insArgsort_compat insArgsort_isArgsort ⟨⟨0, 0, 1⟩, 0⟩ (1 / 1000) true
    m hwf
  rw [h] at h1
  have hp : (⟨⟨0, 0, 1⟩, 0⟩ : Plane ℚ).aff ratReal 0 = ⟨⟨0, 0, 1⟩, 0⟩ := by
    simp [Plane.aff, V3.dot]
  have ht : ratReal (1 / 1000) = 1 / 1000 := by simp only [map_div₀, map_one, map_ofNat]
  rw [hp, ht] at h1
  exact h1

lemma workingMesh_self (m : Mesh ℝ) : Hydro.workingMesh m M3.one 0 = m := by
  have : ∀ v : V3 ℝ, (fun v : V3 ℝ => (⟨v.x, v.y, v.z + 0⟩ : V3 ℝ)) (M3.one.mulVec v) = v := by
    intro v; ext <;> simp [M3.mulVec, M3.one, V3.dot]
  ext1
  · show (m.vertices.map _).map _ = m.vertices
    rw [List.map_map]
    conv_rhs => rw [← List.map_id m.vertices]
    exact List.map_congr_left (fun v _ => this v)
  · rfl

/-- The unit cube, half immersed. -/
def halfCube : Mesh ℚ := (cubeMesh ℚ).translateZ (-1 / 2)

lemma halfCube_clip : ∃ c, Clipper.clip insArgsort ⟨⟨0, 0, 1⟩, 0⟩ (1 / 1000) true halfCube = .ok c ∧
    c.closedPolygons = [[7, 10, 4, 1, 7]] ∧ c.clipped = ⟨[⟨0, 0, -1 / 2⟩, ⟨0, 0, 0⟩, ⟨0, 0, 1 / 2⟩, ⟨0, 1, -1 / 2⟩,
      ⟨0, 1, 0⟩, ⟨0, 1, 1 / 2⟩, ⟨1, 0, -1 / 2⟩, ⟨1, 0, 0⟩, ⟨1, 0, 1 / 2⟩, ⟨1, 1, -1 / 2⟩, ⟨1, 1, 0⟩, ⟨1, 1, 1 / 2⟩],
      [⟨0, 3, 9, 6⟩, ⟨1, 0, 6, 7⟩, ⟨10, 9, 3, 4⟩, ⟨4, 3, 0, 1⟩, ⟨7, 6, 9, 10⟩]⟩ := by
  have h : (match Clipper.clip insArgsort ⟨⟨0, 0, 1⟩, 0⟩ (1 / 1000) true halfCube with
      | .ok c => decide (c.closedPolygons = [[7, 10, 4, 1, 7]] ∧ c.clipped = ⟨[⟨0, 0, -1 / 2⟩, ⟨0, 0, 0⟩, ⟨0, 0, 1 / 2⟩,
          ⟨0, 1, -1 / 2⟩, ⟨0, 1, 0⟩, ⟨0, 1, 1 / 2⟩, ⟨1, 0, -1 / 2⟩, ⟨1, 0, 0⟩, ⟨1, 0, 1 / 2⟩, ⟨1, 1, -1 / 2⟩, ⟨1, 1, 0⟩,
          ⟨1, 1, 1 / 2⟩], [⟨0, 3, 9, 6⟩, ⟨1, 0, 6, 7⟩, ⟨10, 9, 3, 4⟩, ⟨4, 3, 0, 1⟩, ⟨7, 6, 9, 10⟩]⟩)
      | .error _ => false) = true := by decide +kernel
  split at h
  · rename_i c hc
    exact ⟨c, hc, by simpa using h⟩
  · simp at h

/-- `compute_hydrostatics` returns on the half immersed cube, for every gravity centre and density: the hypotheses of C47,
and of the theorems of `Verif.Props.Equilibrium` on hydrostatics that are computed, are met. -/
theorem halfCube_compute (cog : V3 ℝ) (rho grav : ℝ) (atCog : Bool) (lpp : Option ℝ) (ap : Bool) :
    ∃ h, Hydro.compute insArgsort halfCube.real cog rho grav M3.one 0 atCog lpp ap = .ok h := by
  obtain ⟨c, hc, hp, _⟩ := halfCube_clip
  unfold Hydro.compute
  rw [workingMesh_self, clip_real (by decide +kernel) hc]
  have : (c.aff ratReal 0).closedPolygons ≠ [] := by show c.closedPolygons ≠ []; rw [hp]; simp
  simp only
  rw [if_neg this]
  exact ⟨_, rfl⟩

/-- The clipped half cube, over the reals. -/
noncomputable def halfCubeClipped : Mesh ℝ :=
  ⟨[⟨0, 0, -1 / 2⟩, ⟨0, 0, 0⟩, ⟨0, 0, 1 / 2⟩, ⟨0, 1, -1 / 2⟩,
      ⟨0, 1, 0⟩, ⟨0, 1, 1 / 2⟩, ⟨1, 0, -1 / 2⟩, ⟨1, 0, 0⟩, ⟨1, 0, 1 / 2⟩, ⟨1, 1, -1 / 2⟩, ⟨1, 1, 0⟩, ⟨1, 1, 1 / 2⟩],
      [⟨0, 3, 9, 6⟩, ⟨1, 0, 6, 7⟩, ⟨10, 9, 3, 4⟩, ⟨4, 3, 0, 1⟩, ⟨7, 6, 9, 10⟩]⟩

lemma sqrt_quarter : √((-1 / 2 : ℝ) * (-1 / 2)) = 1 / 2 := by
  rw [show ((-1 / 2 : ℝ) * (-1 / 2)) = (1 / 2) * (1 / 2) by norm_num]
  exact Real.sqrt_mul_self (by norm_num)

lemma halfCubeClipped_volume : halfCubeClipped.volume = 1 / 2 := by
  rw [volume_eq]
  simp [halfCubeClipped, Mesh.faceProps, Mesh.faceIntegrals, Face.isTri, Mesh.quadPropsOf, quadProps, quadA1, quadA2, Mesh.vert,
      V3.norm, V3.normSq, V3.cross, V3.dot, Mesh.quadIntegralsOf, triIntegrals, triDelta, pf1, sqrt_quarter]
  norm_num
  rw [show (√4 : ℝ) = 2 by rw [show (4 : ℝ) = 2 * 2 by norm_num]; exact Real.sqrt_mul_self (by norm_num)]
  norm_num

lemma halfCubeClipped_cog (rho : ℝ) : (halfCubeClipped.evalPlain rho).cog.x = 1 / 2 ∧
    (halfCubeClipped.evalPlain rho).cog.y = 1 / 2 := by
  have h4 : (√4 : ℝ) = 2 := by rw [show (4 : ℝ) = 2 * 2 by norm_num]; exact Real.sqrt_mul_self (by norm_num)
  simp only [Mesh.evalPlain, Inertia.init, halfCubeClipped_volume, normalWeighted_eq]
  constructor
  · simp [halfCubeClipped, Mesh.faceProps, Mesh.faceIntegrals, Face.isTri, Mesh.quadPropsOf, quadProps, quadA1, quadA2, Mesh.vert,
      V3.norm, V3.normSq, V3.cross, V3.dot, Mesh.quadIntegralsOf, triIntegrals, triDelta, pf1, pf2, pt2, sqrt_quarter, h4]
    norm_num
  · simp [halfCubeClipped, Mesh.faceProps, Mesh.faceIntegrals, Face.isTri, Mesh.quadPropsOf, quadProps, quadA1, quadA2, Mesh.vert,
      V3.norm, V3.normSq, V3.cross, V3.dot, Mesh.quadIntegralsOf, triIntegrals, triDelta, pf1, pf2, pt2, sqrt_quarter, h4]
    norm_num

lemma halfCube_hs (cog : V3 ℝ) (rho grav : ℝ) (hrho : rho ≠ 0) : ∃ h,
    Hydro.compute insArgsort halfCube.real cog rho grav = .ok h ∧ h.dispVolume = 1 / 2 ∧ h.buoyancyCenter.x = 1 / 2 ∧
    h.buoyancyCenter.y = 1 / 2 := by
  obtain ⟨c, hc, hp, hm⟩ := halfCube_clip
  have hmesh : (c.aff ratReal 0).clipped = halfCubeClipped := by
    show c.clipped.aff ratReal 0 = _
    rw [hm]
    simp [Mesh.aff, affMap, ratReal_apply, halfCubeClipped]
  have hpoly : (c.aff ratReal 0).closedPolygons ≠ [] := by show c.closedPolygons ≠ []; rw [hp]; simp
  refine ⟨Hydro.ofClipped halfCube.real cog rho grav M3.one 0 false none false (c.aff ratReal 0), ?_, ?_, ?_, ?_⟩
  · unfold Hydro.compute
    rw [workingMesh_self, clip_real (by decide +kernel) hc]
    simp only
    rw [if_neg hpoly]
  · show (((c.aff ratReal 0).clipped.evalPlain rho).mass) / rho = 1 / 2
    rw [hmesh]
    show rho * halfCubeClipped.volume / rho = 1 / 2
    rw [halfCubeClipped_volume]
    field_simp
  · simp only [Hydro.ofClipped, hmesh, M3.transpose, M3.one, M3.mulVec, V3.dot, M3.c0, M3.c1, M3.c2]
    simpa using (halfCubeClipped_cog rho).1
  · simp only [Hydro.ofClipped, hmesh, M3.transpose, M3.one, M3.mulVec, V3.dot, M3.c0, M3.c1, M3.c2]
    simpa using (halfCubeClipped_cog rho).2

/-- The hypotheses of C48 are met: `displacement_equilibrium` returns, converged, on the half immersed cube of mass one
half. -/
theorem halfCube_displacement (cog : V3 ℝ) (grav : ℝ) : ∃ r,
    Hydro.displacementEquilibrium insArgsort halfCube.real (1 / 2000) 1 grav cog (1 / 100) = .ok r ∧
    r.noConvergence = false ∧ r.value = 0 := by
  obtain ⟨h, h1, h2, _⟩ := halfCube_hs cog 1 grav (by norm_num)
  unfold Hydro.displacementEquilibrium
  show ∃ r, Hydro.dispLoop _ _ _ _ _ (98 + 1) _ = _ ∧ _
  unfold Hydro.dispLoop
  simp only [h1, Except.map, h2]
  rw [if_pos (by norm_num)]
  exact ⟨_, rfl, rfl, rfl⟩

/-- The hypotheses of C49 are met: `full_equilibrium` returns, converged, on the half immersed cube with a gravity centre on
its vertical axis. -/
theorem halfCube_full (solve : M3 ℝ → V3 ℝ → Except PyErr (V3 ℝ)) (zg : ℝ) : ∃ r,
    Hydro.fullEquilibrium insArgsort solve halfCube.real ⟨1 / 2, 1 / 2, zg⟩ (1 / 2000) 1 9 (1 / 100) = .ok r ∧
    r.noConvergence = false := by
  obtain ⟨r, hr, _, hv⟩ := halfCube_displacement 0 9
  obtain ⟨h, h1, h2, h3, h4⟩ := halfCube_hs ⟨1 / 2, 1 / 2, zg⟩ 1 9 (by norm_num)
  unfold Hydro.fullEquilibrium
  rw [hr]
  simp only [hv]
  show ∃ r, Hydro.fullLoop _ _ _ _ _ _ _ (98 + 1) _ = _ ∧ _
  unfold Hydro.fullLoop
  simp only [h1]
  rw [if_pos]
  · exact ⟨_, rfl, rfl⟩
  · simp only [Hydro.Converged, Hydro.residue, Hydro.workingPoint, M3.mulVec, M3.one, V3.dot, h2, h3, h4]
    norm_num

/-- `Hydrostatics(mesh)` returns on the half immersed cube: the hypotheses of the theorems C50 are met. -/
theorem halfCube_init (heap : ℕ → Old.Force) (cog : V3 ℝ) (rho grav : ℝ) :
    ∃ a, Old.init insArgsort heap halfCube.real cog none rho grav = .ok a := by
  obtain ⟨c, hc, hp, hm⟩ := halfCube_clip
  have hpoly : (c.aff ratReal 0).closedPolygons ≠ [] := by show c.closedPolygons ≠ []; rw [hp]; simp
  have harea : ((c.aff ratReal 0).clipped.facesProperties.any (fun p => decide (|p.area| < 1 / 10000000000))) = false := by
    show ((c.clipped.aff ratReal 0).facesProperties.any (fun p => decide (|p.area| < 1 / 10000000000))) = false
    rw [facesProperties_eq, hm, List.any_eq_false]
    simp [Mesh.aff, affMap, ratReal_apply, Mesh.faceProps, Face.isTri, Mesh.quadPropsOf, quadProps, quadA1, quadA2, Mesh.vert,
      V3.norm, V3.normSq, V3.cross, V3.dot]
    have h2 : √((-1 / 2 : ℝ) * (-1 / 2)) = 1 / 2 := by
      rw [show ((-1 / 2 : ℝ) * (-1 / 2)) = (1 / 2) * (1 / 2) by norm_num]
      exact Real.sqrt_mul_self (by norm_num)
    rw [h2]
    norm_num
  have hr := clip_real (by decide +kernel) hc
  unfold Old.init Old.State.update
  dsimp only
  rw [hr]
  simp only [Old.State.updateWith, harea, hpoly, if_false, Bool.false_eq_true]
  exact ⟨_, rfl⟩

/-! ## C70 -/

/-- A flared hull: a truncated pyramid, with a square section of side 2 at the bottom `z = -1` and 6 at the top `z = 1`. -/
def flaredHull : Mesh ℚ :=
  ⟨[⟨-1, -1, -1⟩, ⟨1, -1, -1⟩, ⟨-1, 1, -1⟩, ⟨1, 1, -1⟩, ⟨-3, -3, 1⟩, ⟨3, -3, 1⟩, ⟨-3, 3, 1⟩, ⟨3, 3, 1⟩], cubeFaces⟩

/-- **C70 (violation).** For a flared hull (watertight, with vertical symmetry planes), the submerged length and breadth
reported are those of the whole hull (6), although its immersed part has length and breadth 4: the clipped mesh keeps
the vertices, that no face uses, of the faces that cross the waterplane. -/
theorem C70_fails (cog : V3 ℝ) (rho grav : ℝ) : ∃ h c, flaredHull.ClosedOriented ∧
    Hydro.compute insArgsort flaredHull.real cog rho grav = .ok h ∧
    Clipper.clip insArgsort ⟨⟨0, 0, 1⟩, 0⟩ (1 / 1000) true flaredHull.real = .ok c ∧
    (∀ f ∈ c.clipped.faces, ∀ i ∈ f.toList, |(c.clipped.vert i).x| ≤ 2 ∧ |(c.clipped.vert i).y| ≤ 2) ∧
    h.lengthOverallSubmerged = 6 ∧ h.breadthOverallSubmerged = 6 := by
  have hk : (match Clipper.clip insArgsort ⟨⟨0, 0, 1⟩, 0⟩ (1 / 1000) true flaredHull with
      | .ok c => decide (c.closedPolygons ≠ [] ∧ c.clipped = ⟨[⟨-3, -3, 1⟩, ⟨-3, 3, 1⟩, ⟨-2, -2, 0⟩, ⟨-2, 2, 0⟩,
          ⟨-1, -1, -1⟩, ⟨-1, 1, -1⟩, ⟨1, -1, -1⟩, ⟨1, 1, -1⟩, ⟨2, -2, 0⟩, ⟨2, 2, 0⟩, ⟨3, -3, 1⟩, ⟨3, 3, 1⟩],
          [⟨4, 5, 7, 6⟩, ⟨2, 4, 6, 8⟩, ⟨9, 7, 5, 3⟩, ⟨3, 5, 4, 2⟩, ⟨8, 6, 7, 9⟩]⟩)
      | .error _ => false) = true := by decide +kernel
  split at hk
  · rename_i c hc
    obtain ⟨hp, hm⟩ := of_decide_eq_true hk
    have hr := clip_real (by decide +kernel) hc
    have hmesh : (c.aff ratReal 0).clipped = ⟨[⟨-3, -3, 1⟩, ⟨-3, 3, 1⟩, ⟨-2, -2, 0⟩, ⟨-2, 2, 0⟩,
          ⟨-1, -1, -1⟩, ⟨-1, 1, -1⟩, ⟨1, -1, -1⟩, ⟨1, 1, -1⟩, ⟨2, -2, 0⟩, ⟨2, 2, 0⟩, ⟨3, -3, 1⟩, ⟨3, 3, 1⟩],
          [⟨4, 5, 7, 6⟩, ⟨2, 4, 6, 8⟩, ⟨9, 7, 5, 3⟩, ⟨3, 5, 4, 2⟩, ⟨8, 6, 7, 9⟩]⟩ := by
      show c.clipped.aff ratReal 0 = _
      rw [hm]
      simp [Mesh.aff, affMap, ratReal_apply]
    have hpoly : (c.aff ratReal 0).closedPolygons ≠ [] := hp
    refine ⟨Hydro.ofClipped flaredHull.real cog rho grav M3.one 0 false none false (c.aff ratReal 0), c.aff ratReal 0,
      Mesh.closedOriented_of (by decide +kernel), ?_, hr, ?_, ?_, ?_⟩
    · unfold Hydro.compute
      rw [workingMesh_self, hr]
      simp only
      rw [if_neg hpoly]
    · rw [hmesh]
      simp [Face.toList, Mesh.vert]
    · show (c.aff ratReal 0).clipped.bbox.xmax - (c.aff ratReal 0).clipped.bbox.xmin = 6
      rw [hmesh]
      norm_num [Mesh.bbox]
    · show (c.aff ratReal 0).clipped.bbox.ymax - (c.aff ratReal 0).clipped.bbox.ymin = 6
      rw [hmesh]
      norm_num [Mesh.bbox]
  · simp at hk

/-- **C70 (what holds).** For every hull and position, the submerged length, breadth and draught reported are at least those
of the immersed part, whose corners are vertices of the clipped mesh. Missing: that they are not larger, which is
false (`C70_fails`). -/
theorem C70_submerged_size_partial (srt : (ℕ → ℝ) → List ℕ → List ℕ) (m : Mesh ℝ) (cog : V3 ℝ) (rho grav : ℝ) (rot : M3 ℝ)
    (z : ℝ) (atCog : Bool) (lpp : Option ℝ) (ap : Bool) (h : Hydro.HsData)
    (hh : Hydro.compute srt m cog rho grav rot z atCog lpp ap = .ok h) :
    ∃ c, Clipper.clip srt ⟨⟨0, 0, 1⟩, 0⟩ (1 / 1000) true (Hydro.workingMesh m rot z) = .ok c ∧
      ∀ v ∈ c.clipped.vertices, -v.z ≤ h.draught ∧ ∀ w ∈ c.clipped.vertices,
        v.x - w.x ≤ h.lengthOverallSubmerged ∧ v.y - w.y ≤ h.breadthOverallSubmerged := by
  obtain ⟨c, hc, hne, rfl⟩ := Hydro.compute_ok hh
  refine ⟨c, hc, ?_⟩
  intro v hv
  have hvs : c.clipped.vertices ≠ [] := List.ne_nil_of_mem hv
  have hb := (C15_bounding_boxes c.clipped hvs).1
  obtain ⟨⟨a1, a2⟩, ⟨a3, a4⟩, ⟨a5, a6⟩⟩ := hb v hv
  refine ⟨?_, ?_⟩
  · show -v.z ≤ |c.clipped.bbox.zmin|
    exact (neg_le_neg a5).trans (neg_le_abs _)
  · intro w hw
    obtain ⟨⟨b1, b2⟩, ⟨b3, b4⟩, ⟨b5, b6⟩⟩ := hb w hw
    exact ⟨by show v.x - w.x ≤ c.clipped.bbox.xmax - c.clipped.bbox.xmin; linarith,
      by show v.y - w.y ≤ c.clipped.bbox.ymax - c.clipped.bbox.ymin; linarith⟩

end MM
