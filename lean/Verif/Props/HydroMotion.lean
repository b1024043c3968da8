import Verif.Props.Archimedes
import Verif.Props.EquilibrateOld

/-!
# Hydrostatics of a hull translated horizontally (C47, last clause)
-/

namespace MM

set_option linter.unusedSectionVars false
set_option linter.unusedSimpArgs false
set_option linter.unusedVariables false

/-! ## The numbers in the polygons are vertices of the clipped crown -/

namespace Clipper

lemma dictPop_mem {d d' : List (ℕ × ℕ)} {k w : ℕ} (h : dictPop d k = some (w, d')) :
    (∃ e ∈ d, e.2 = w) ∧ ∀ e ∈ d', e ∈ d := by
  unfold dictPop at h
  cases hf : d.find? (fun e => e.1 == k) with
  | none => simp [hf] at h
  | some e =>
    simp only [hf, Option.map_some, Option.some.injEq, Prod.mk.injEq] at h
    refine ⟨⟨e, List.mem_of_find?_eq_some hf, h.1⟩, ?_⟩
    intro e' he'
    rw [← h.2] at he'
    exact (List.mem_filter.1 he').1

lemma follow_mem (P : ℕ → Prop) : ∀ (fuel : ℕ) (d : List (ℕ × ℕ)) (v : ℕ), (∀ e ∈ d, P e.1 ∧ P e.2) →
    (∀ i ∈ (follow fuel d v).1, P i) ∧ ∀ e ∈ (follow fuel d v).2, e ∈ d := by
  intro fuel
  induction fuel with
  | zero => intro d v _; simp [follow]
  | succ n ih =>
    intro d v hd
    unfold follow
    cases h : dictPop d v with
    | none => simp
    | some x =>
      obtain ⟨w, d'⟩ := x
      obtain ⟨⟨e, he, hw⟩, hs⟩ := dictPop_mem h
      obtain ⟨i1, i2⟩ := ih d' w (fun e he => hd e (hs e he))
      refine ⟨?_, fun e he => hs e (i2 e he)⟩
      intro i hi
      rcases List.mem_cons.1 hi with rfl | hi
      · exact hw ▸ (hd e he).2
      · exact i1 i hi

lemma queueBack_mem : ∀ (fuel : ℕ) (d inv : List (ℕ × ℕ)) (v : ℕ), ∀ e ∈ (queueBack fuel d inv v).2, e ∈ d := by
  intro fuel
  induction fuel with
  | zero => intro d inv v e he; simpa [queueBack] using he
  | succ n ih =>
    intro d inv v e he
    unfold queueBack at he
    split at he
    · exact he
    · split at he
      · exact he
      · rename_i x h
        exact (dictPop_mem h).2 e (ih _ _ _ e he)

lemma extractLines_mem (P : ℕ → Prop) (inv : List (ℕ × ℕ)) : ∀ (fuel : ℕ) (d : List (ℕ × ℕ)), (∀ e ∈ d, P e.1 ∧ P e.2) →
    ∀ l ∈ (extractLines inv fuel d).1, ∀ i ∈ l, P i := by
  intro fuel
  induction fuel with
  | zero => intro d _; simp [extractLines]
  | succ n ih =>
    intro d hd
    unfold extractLines
    cases h : d.getLast? with
    | none => simp
    | some x =>
      obtain ⟨v0, v1⟩ := x
      have hx := hd _ (List.mem_of_getLast? h)
      have hd' : ∀ e ∈ d.dropLast, P e.1 ∧ P e.2 := fun e he => hd e (List.mem_of_mem_dropLast he)
      obtain ⟨f1, f2⟩ := follow_mem P d.length d.dropLast v1 hd'
      simp only
      split_ifs
      · exact ih _ (fun e he => hd' e (f2 e (queueBack_mem _ _ _ _ e he)))
      · intro l hl
        rcases List.mem_cons.1 hl with rfl | hl
        · intro i hi
          simp only [List.mem_cons] at hi
          rcases hi with rfl | rfl | hi
          · exact hx.1
          · exact hx.2
          · exact f1 i hi
        · exact ih _ (fun e he => hd' e (f2 e he)) l hl

lemma foldl_dictSet_mem {P : ℕ → Prop} : ∀ (l d : List (ℕ × ℕ)), (∀ e ∈ d, P e.1 ∧ P e.2) → (∀ e ∈ l, P e.1 ∧ P e.2) →
    ∀ e ∈ l.foldl (fun d e => dictSet d e.1 e.2) d, P e.1 ∧ P e.2 := by
  intro l
  induction l with
  | nil => intro d hd _; simpa using hd
  | cons x l ih =>
    intro d hd hl
    rw [List.foldl_cons]
    apply ih
    · have hx := hl x (by simp)
      intro e he
      unfold dictSet at he
      split_ifs at he
      · obtain ⟨e', he', rfl⟩ := List.mem_map.1 he
        split_ifs
        · exact hx
        · exact hd e' he'
      · rcases List.mem_append.1 he with he | he
        · exact hd e he
        · rw [List.mem_singleton] at he; subst he; exact hx
    · exact fun e he => hl e (List.mem_cons_of_mem _ he)

variable {K : Type*} [Field K] [LinearOrder K] [IsStrictOrderedRing K]

lemma clip_polygons_range {srt : (ℕ → K) → List ℕ → List ℕ} (hsrt : IsArgsort srt) {p : Plane K} {tol : K} {b : Bool} {m : Mesh K}
    {c : Clipped K} (h : clip srt p tol b m = .ok c) : ∀ l ∈ c.closedPolygons, ∀ i ∈ l, i < c.clippedCrown.nv := by
  obtain ⟨part, cm, direct, inv, h1, hcc, h3, h4, h5, h6, h7, hlines, h9⟩ := clip_ok h
  have hcl : c.closedPolygons = (extractLines inv direct.length direct).1 := congrArg Prod.fst hlines
  rw [hcl]
  apply extractLines_mem
  have hcm : c.clippedCrown = cm := by first | exact h3 | exact h4 | exact h5 | exact h6 | exact h7
  rw [hcm]
  unfold clipCrown at hcc
  split at hcc
  · simp at hcc
  split at hcc
  · simp at hcc
  rename_i cm0 hmk
  split at hcc
  · simp at hcc
  rename_i cm' newId hm
  simp only [Except.ok.injEq, Prod.mk.injEq] at hcc
  obtain ⟨rfl, rfl, rfl⟩ := hcc
  have key : ∀ i, newId.getD i 0 < cm'.nv := by
    unfold Mesh.mergeDuplicates at hm
    split at hm
    · simp at hm
    rename_i r hr
    split_ifs at hm
    simp only [Except.ok.injEq, Prod.mk.injEq] at hm
    obtain ⟨rfl, rfl⟩ := hm
    have hne : cm0.vertices.map V3.coord ≠ [] := by
      intro h0
      rw [(C03_renumbering_total_in_range_onto srt hsrt (1 / 100000) (by positivity) _).1 h0] at hr
      simp at hr
    obtain ⟨r', hr', e1, e2, e3, e4⟩ :=
      (C03_renumbering_total_in_range_onto srt hsrt (1 / 100000) (by positivity) _).2 hne
    rw [hr] at hr'
    simp only [Except.ok.injEq] at hr'
    subst hr'
    intro i
    show _ < (r.rows.map V3.ofCoord).length
    rw [List.length_map]
    by_cases hi : i < (cm0.vertices.map V3.coord).length
    · obtain ⟨id, g1, g2⟩ := e2 i hi
      rw [List.getD_eq_getElem?_getD, g1]
      exact g2
    · rw [List.getD_eq_getElem?_getD, List.getElem?_eq_none (by omega), Option.getD_none]
      obtain ⟨id, _, g2⟩ := e2 0 (List.length_pos_of_ne_nil hne)
      omega
  unfold remap
  apply foldl_dictSet_mem (P := fun i => i < cm'.nv) _ [] (by simp)
  intro e he
  obtain ⟨e', _, rfl⟩ := List.mem_map.1 he
  exact ⟨key _, key _⟩

end Clipper

/-! ## Bounding box -/

lemma foldl_min_shift (g : V3 ℝ → ℝ) (t : V3 ℝ) (e : ℝ) (hg : ∀ v, g (v + t) = g v + e) : ∀ (l : List (V3 ℝ)) (a : ℝ),
    (l.map (· + t)).foldl (fun a w => min a (g w)) (a + e) = l.foldl (fun a w => min a (g w)) a + e := by
  intro l
  induction l with
  | nil => intro a; rfl
  | cons x l ih =>
    intro a
    simp only [List.map_cons, List.foldl_cons]
    rw [hg, min_add_add_right, ih]

lemma foldl_max_shift (g : V3 ℝ → ℝ) (t : V3 ℝ) (e : ℝ) (hg : ∀ v, g (v + t) = g v + e) : ∀ (l : List (V3 ℝ)) (a : ℝ),
    (l.map (· + t)).foldl (fun a w => max a (g w)) (a + e) = l.foldl (fun a w => max a (g w)) a + e := by
  intro l
  induction l with
  | nil => intro a; rfl
  | cons x l ih =>
    intro a
    simp only [List.map_cons, List.foldl_cons]
    rw [hg, max_add_add_right, ih]

lemma bbox_translate (m : Mesh ℝ) (t : V3 ℝ) (hne : m.vertices ≠ []) : (m.translate t).bbox =
    ⟨m.bbox.xmin + t.x, m.bbox.xmax + t.x, m.bbox.ymin + t.y, m.bbox.ymax + t.y, m.bbox.zmin + t.z, m.bbox.zmax + t.z⟩ := by
  obtain ⟨vs, fs⟩ := m
  cases vs with
  | nil => exact absurd rfl hne
  | cons v vs =>
    simp only [Mesh.bbox, Mesh.translate, Mesh.mapVertices, List.map_cons, V3.add_x, V3.add_y, V3.add_z]
    rw [foldl_min_shift (fun v => v.x) t t.x (fun _ => rfl), foldl_min_shift (fun v => v.y) t t.y (fun _ => rfl),
      foldl_min_shift (fun v => v.z) t t.z (fun _ => rfl), foldl_max_shift (fun v => v.x) t t.x (fun _ => rfl),
      foldl_max_shift (fun v => v.y) t t.y (fun _ => rfl), foldl_max_shift (fun v => v.z) t t.z (fun _ => rfl)]

namespace Hydro
open Clipper

lemma workingMesh_translate (m : Mesh ℝ) {rot : M3 ℝ} (hrot : rot.IsRotation) (z : ℝ) (d : V3 ℝ) :
    workingMesh (m.translate (rot.transpose.mulVec d)) rot z = (workingMesh m rot z).translate d := by
  ext1
  · simp only [workingMesh, Mesh.translate, Mesh.rotateMatrix, Mesh.translateZ, Mesh.mapVertices, List.map_map]
    apply List.map_congr_left
    intro v _
    have h := hrot.mulVec_transpose d
    have e : rot.mulVec (v + rot.transpose.mulVec d) = rot.mulVec v + d := by
      have l : ∀ u v : V3 ℝ, rot.mulVec (u + v) = rot.mulVec u + rot.mulVec v := by
        intro u v
        ext <;> simp only [M3.mulVec, V3.dot, V3.add_x, V3.add_y, V3.add_z] <;> ring
      rw [l, h]
    simp only [Function.comp]
    rw [e]
    ext <;> simp <;> ring
  · rfl

section
variable {srt : (ℕ → ℝ) → List ℕ → List ℕ} (hsrt : IsArgsort srt) {tol : ℝ} (htol : 0 ≤ tol) {b : Bool} {m : Mesh ℝ}
  (hwf : m.WF) (hcl : m.ClosedOriented) (hpos : ∀ f ∈ m.faces, ∀ i ∈ f.toList, waterplane.Clear tol (m.vert i))
  (hsep : m.WellSeparated waterplane) (hcv : m.StrictlyConvexFaces) {c : Clipped ℝ}
  (hc : clip srt waterplane tol b m = .ok c)

include hsrt htol hwf hcl hpos hsep hcv hc

lemma clipped_translate (d : V3 ℝ) (hd : d.z = 0) : (c.clipped.translate d).volume = c.clipped.volume ∧
    ∀ rho, c.clipped.volume ≠ 0 → ((c.clipped.translate d).evalPlain rho).cog = (c.clipped.evalPlain rho).cog + d := by
  have hq := strictlyConvex_cross hcv
  obtain ⟨w, cv⟩ := C78_no_degenerate_face_partial srt hsrt waterplane tol htol b m hwf hcv
    (fun f hf i hi => clear_notAt (hpos f hf i hi)) hsep c hc
  have hflat : c.clipped.FlatFaces := StrictlyConvexFaces.flat cv
  have hflat' := translate_flat d c.clipped w hflat
  obtain ⟨r0, r1, r2, r6, r7, -⟩ := wet_relations hsrt htol hwf hcl hpos hsep hcv hc
  have key := wet_flux_zero hsrt htol hwf hpos hsep hcv hc hq hcl
  have ax : c.clipped.surfaceSum (fun p q r => (areaVec p q r).x) = 0 := by
    apply key
    · intro p q; simp [areaVec, V3.cross]; ring
    · intro p q r; simp [areaVec, V3.cross]; ring
    · intro p q hp hq'; simp [areaVec, V3.cross, hp, hq']
  have ay : c.clipped.surfaceSum (fun p q r => (areaVec p q r).y) = 0 := by
    apply key
    · intro p q; simp [areaVec, V3.cross]; ring
    · intro p q r; simp [areaVec, V3.cross]; ring
    · intro p q hp hq'; simp [areaVec, V3.cross, hp, hq']
  set V := c.clipped.surfaceSum (zFlux ⟨0, 0, 1⟩ (1, 0)) with hV
  rw [one_mul] at r0 r1 r2
  have hvol : c.clipped.volume = V := by
    rw [Mesh.volume, Mesh.volumeWith, normalWeighted_flux _ hflat, r0, r1, r2]; ring
  have sh : ∀ (T : V3 ℝ → V3 ℝ → V3 ℝ → ℝ) (A B : V3 ℝ → V3 ℝ → V3 ℝ → ℝ) (a b : ℝ),
      (∀ p q r : V3 ℝ, T (p + d) (q + d) (r + d) = 1 * T p q r + a * A p q r + b * B p q r) →
      (c.clipped.translate d).surfaceSum T = 1 * c.clipped.surfaceSum T + a * c.clipped.surfaceSum A + b * c.clipped.surfaceSum B := by
    intro T A B a b h
    rw [Old.surfaceSum_translate w, ← surfaceSum_lin]
    congr 1
    funext p q r
    exact h p q r
  have t0 := sh (fun p q r => (areaVec p q r).x * triPoly p q r 0) (fun p q r => (areaVec p q r).x)
    (fun p q r => (areaVec p q r).x) (d.x / 2) 0 (by
      intro p q r; simp only [Old.areaVec_translate]; simp [triPoly, pf1]; ring)
  have t1 := sh (fun p q r => (areaVec p q r).y * triPoly p q r 1) (fun p q r => (areaVec p q r).y)
    (fun p q r => (areaVec p q r).y) (d.y / 2) 0 (by
      intro p q r; simp only [Old.areaVec_translate]; simp [triPoly, pf1]; ring)
  have t2 := sh (fun p q r => (areaVec p q r).z * triPoly p q r 2) (fun p q r => (areaVec p q r).z)
    (fun p q r => (areaVec p q r).z) 0 0 (by
      intro p q r; simp only [Old.areaVec_translate]; simp [triPoly, pf1, hd])
  have t6 := sh (fun p q r => (areaVec p q r).x * triPoly p q r 6) (fun p q r => (areaVec p q r).x * triPoly p q r 0)
    (fun p q r => (areaVec p q r).x) (2 * d.x) (d.x * d.x / 2) (by
      intro p q r; simp only [Old.areaVec_translate]; simp [triPoly, pf1, pf2, pt2]; ring)
  have t7 := sh (fun p q r => (areaVec p q r).y * triPoly p q r 7) (fun p q r => (areaVec p q r).y * triPoly p q r 1)
    (fun p q r => (areaVec p q r).y) (2 * d.y) (d.y * d.y / 2) (by
      intro p q r; simp only [Old.areaVec_translate]; simp [triPoly, pf1, pf2, pt2]; ring)
  have t8 := sh (fun p q r => (areaVec p q r).z * triPoly p q r 8) (fun p q r => (areaVec p q r).z)
    (fun p q r => (areaVec p q r).z) 0 0 (by
      intro p q r; simp only [Old.areaVec_translate]; simp [triPoly, pf2, pt2, pf1, hd])
  rw [r0, ax] at t0
  rw [r1, ay] at t1
  rw [r2] at t2
  rw [r0, ax] at t6
  rw [r1, ay] at t7
  have hvol' : (c.clipped.translate d).volume = V := by
    rw [Mesh.volume, Mesh.volumeWith, normalWeighted_flux _ hflat', t0, t1, t2]; ring
  refine ⟨hvol'.trans hvol.symm, ?_⟩
  intro rho hv
  have e1 : (c.clipped.evalPlain rho).cog = (1 / (2 * V)) •
      Mesh.normalWeighted c.clipped.facesProperties c.clipped.surfaceIntegrals 6 7 8 := by
    rw [← hvol]; rfl
  have e2 : ((c.clipped.translate d).evalPlain rho).cog = (1 / (2 * V)) •
      Mesh.normalWeighted (c.clipped.translate d).facesProperties (c.clipped.translate d).surfaceIntegrals 6 7 8 := by
    rw [← hvol']; rfl
  rw [hvol] at hv
  rw [e1, e2, normalWeighted_flux _ hflat', normalWeighted_flux _ hflat, t6, t7, t8]
  ext
  · simp; field_simp
  · simp; field_simp
  · simp [hd]
end

lemma polyVerts_translate {c : Clipped ℝ} (hr : ∀ l ∈ c.closedPolygons, ∀ i ∈ l, i < c.clippedCrown.nv) (d b : V3 ℝ) :
    polyVerts (c.clippedCrown.translate d) c.closedPolygons true (b + d) =
      polyVerts c.clippedCrown c.closedPolygons true b := by
  unfold polyVerts
  apply List.map_congr_left
  intro l hl
  apply List.map_congr_left
  intro i hi
  simp only [if_true, Mesh.translate]
  rw [vert_mapVertices _ _ _ (hr l hl i hi)]
  simp

/-- **C47, last clause** (each vertex on the plane or farther than the tolerance): translating a watertight hull and its gravity centre horizontally (in the
working position) does not change the stiffness matrix expressed at the vertical of the buoyancy centre (`at_cog`), nor the
volume, areas, metacentric heights, lengths and draught, and it translates the buoyancy centre, the flotation centre and the
forward perpendicular. -/
theorem C47_horizontal_translation_partial (srt : (ℕ → ℝ) → List ℕ → List ℕ) (hsrt : IsArgsort srt) (hcmp : SortCompat srt srt)
    (m : Mesh ℝ) (cog : V3 ℝ) (rho grav : ℝ) (rot : M3 ℝ) (z : ℝ) (lpp : Option ℝ) (ap : Bool) (h : HsData)
    (hwf : (workingMesh m rot z).WF) (hcl : (workingMesh m rot z).ClosedOriented)
    (hcv : (workingMesh m rot z).StrictlyConvexFaces)
    (hpos : ∀ f ∈ (workingMesh m rot z).faces, ∀ i ∈ f.toList, ((workingMesh m rot z).vert i).z = 0 ∨
      1 / 1000 < |((workingMesh m rot z).vert i).z|)
    (hsep : (workingMesh m rot z).WellSeparated ⟨⟨0, 0, 1⟩, 0⟩) (hrot : rot.IsRotation) (hrho : rho ≠ 0)
    (hh : compute srt m cog rho grav rot z true lpp ap = .ok h) (hv : h.dispVolume ≠ 0)
    (d : V3 ℝ) (hd : d.z = 0) :
    ∃ h', compute srt (m.translate (rot.transpose.mulVec d)) (cog + rot.transpose.mulVec d) rho grav rot z true lpp ap = .ok h' ∧
      h'.stiffness = h.stiffness ∧ h'.dispVolume = h.dispVolume ∧ h'.dispMass = h.dispMass ∧
      h'.wetSurfaceArea = h.wetSurfaceArea ∧ h'.waterplaneArea = h.waterplaneArea ∧
      h'.transversalHeight = h.transversalHeight ∧ h'.longitudinalHeight = h.longitudinalHeight ∧
      h'.lengthAtWaterline = h.lengthAtWaterline ∧ h'.breadthAtWaterline = h.breadthAtWaterline ∧
      h'.lengthOverallSubmerged = h.lengthOverallSubmerged ∧ h'.breadthOverallSubmerged = h.breadthOverallSubmerged ∧
      h'.draught = h.draught ∧ h'.forwardPerpendicular = h.forwardPerpendicular + d.x ∧
      h'.buoyancyCenter = h.buoyancyCenter + rot.transpose.mulVec d ∧
      h'.waterplaneCenter = h.waterplaneCenter + rot.transpose.mulVec d := by
  obtain ⟨c, hc, hne, rfl⟩ := compute_ok hh
  set M := workingMesh m rot z with hM
  have htol : (0 : ℝ) ≤ 1 / 1000 := by norm_num
  have hpos' : ∀ f ∈ M.faces, ∀ i ∈ f.toList, waterplane.Clear (1 / 1000) (M.vert i) :=
    fun f hf i hi => waterplane_clear (hpos f hf i hi)
  have hc' : clip srt waterplane (1 / 1000) true M = .ok c := hc
  obtain ⟨w, cv⟩ := C78_no_degenerate_face_partial srt hsrt waterplane (1 / 1000) htol true M hwf hcv
    (fun f hf i hi => clear_notAt (hpos' f hf i hi)) hsep c hc'
  obtain ⟨hvol, hcog⟩ := clipped_translate hsrt htol hwf hcl hpos' hsep hcv hc' d hd
  have hv' : c.clipped.volume ≠ 0 := by
    intro h0
    apply hv
    show rho * c.clipped.volume / rho = 0
    rw [h0]; simp
  have hcog := hcog rho hv'
  have hmass : ((c.clipped.translate d).evalPlain rho).mass = (c.clipped.evalPlain rho).mass := by
    show rho * _ = rho * _
    rw [hvol]
  have hpl := polyVerts_translate (clip_polygons_range hsrt hc) d (c.clipped.evalPlain rho).cog
  have hclip : clip srt ⟨⟨0, 0, 1⟩, 0⟩ (1 / 1000) true (workingMesh (m.translate (rot.transpose.mulVec d)) rot z) =
      .ok (c.translate d) := by
    rw [workingMesh_translate m hrot]
    have := C69_translate srt hsrt hcmp ⟨⟨0, 0, 1⟩, 0⟩ (1 / 1000) true M hwf d
    rw [hc] at this
    simpa [Plane.translate, V3.dot, hd, Except.map, hM] using this
  have hwg : (workingPoint (cog + rot.transpose.mulVec d) rot z).z = (workingPoint cog rot z).z := by
    have l : rot.mulVec (cog + rot.transpose.mulVec d) = rot.mulVec cog + d := by
      conv_rhs => rw [← hrot.mulVec_transpose d]
      ext <;> simp only [M3.mulVec, V3.dot, V3.add_x, V3.add_y, V3.add_z] <;> ring
    simp [workingPoint, l, hd]
  have harea : (c.clipped.translate d).totalArea = c.clipped.totalArea := by
    unfold Mesh.totalArea
    rw [(C18_translate d c.clipped w).2.2.2.1]
  have hbb : (c.clipped.translate d).bbox = _ := bbox_translate c.clipped d (by
    intro h0
    apply hv'
    have hf : c.clipped.faces = [] := by
      by_contra hf
      obtain ⟨f, fs, hfs⟩ := List.exists_cons_of_ne_nil hf
      have := w f (by rw [hfs]; simp) f.a (by simp [Face.toList])
      simp [Mesh.nv, h0] at this
    rw [volume_eq, hf]
    simp)
  refine ⟨ofClipped (m.translate (rot.transpose.mulVec d)) (cog + rot.transpose.mulVec d) rho grav rot z true lpp ap
    (c.translate d), ?_, ?_⟩
  · unfold compute
    rw [hclip]
    simp only
    rw [if_neg (show (c.translate d).closedPolygons ≠ [] from hne)]
  · have lt : ∀ u v : V3 ℝ, rot.transpose.mulVec (u + v) = rot.transpose.mulVec u + rot.transpose.mulVec v := by
      intro u v
      ext <;> simp only [M3.mulVec, V3.dot, V3.add_x, V3.add_y, V3.add_z] <;> ring
    have e1 : (c.translate d).clipped = c.clipped.translate d := rfl
    have e2 : (c.translate d).clippedCrown = c.clippedCrown.translate d := rfl
    have e3 : (c.translate d).closedPolygons = c.closedPolygons := rfl
    simp only [ofClipped, e1, e2, e3, hmass, hcog, hpl, hwg, harea, hbb, V3.add_x, V3.add_y, V3.add_z, hd, add_zero, ← lt]
    simp only [true_and]
    refine ⟨by ring, by ring, by ring, ?_, ?_⟩
    · congr 1
      ext <;> simp [hd]
    · congr 1
      ext <;> simp [hd] <;> ring


/-- The hypotheses are met by the half immersed cube: translating it changes nothing but the positions. -/
theorem halfCube_meets_C47 (cog : V3 ℝ) (grav : ℝ) (x y : ℝ) : ∃ h h',
    compute insArgsort halfCube.real cog 1000 grav M3.one 0 true = .ok h ∧ h.dispVolume = 1 / 2 ∧
    compute insArgsort (halfCube.real.translate ⟨x, y, 0⟩) (cog + ⟨x, y, 0⟩) 1000 grav M3.one 0 true = .ok h' ∧
    h'.stiffness = h.stiffness ∧ h'.buoyancyCenter = h.buoyancyCenter + ⟨x, y, 0⟩ := by
  obtain ⟨w, cl, cv, ps, sp, ro, _⟩ := halfCube_meets_C79 cog grav
  obtain ⟨h, hh⟩ := halfCube_compute cog 1000 grav true none false
  obtain ⟨h0, hh0, hv0, _⟩ := halfCube_hs cog 1000 grav (by norm_num)
  have hv : h.dispVolume = 1 / 2 := by
    obtain ⟨c, hc, _, rfl⟩ := compute_ok hh
    obtain ⟨c0, hc0, _, rfl⟩ := compute_ok hh0
    rw [hc] at hc0
    simp only [Except.ok.injEq] at hc0
    subst hc0
    exact hv0
  have ht : (M3.one : M3 ℝ).transpose.mulVec ⟨x, y, 0⟩ = ⟨x, y, 0⟩ := by
    ext <;> simp [M3.mulVec, M3.one, M3.transpose, M3.c0, M3.c1, M3.c2, V3.dot]
  obtain ⟨h', g⟩ := C47_horizontal_translation_partial insArgsort insArgsort_isArgsort insArgsort_compat halfCube.real cog 1000 grav
    M3.one 0 none false h w cl cv (fun f hf i hi => .inr (ps f hf i hi)) sp ro (by norm_num) hh (by rw [hv]; norm_num) ⟨x, y, 0⟩ rfl
  rw [ht] at g
  exact ⟨h, h', hh, hv, g.1, g.2.1, g.2.2.2.2.2.2.2.2.2.2.2.2.2.2.1⟩

end Hydro
end MM
