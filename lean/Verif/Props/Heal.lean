import Verif.Props.Cache

/-!
# Properties C65 and C66: `remove_degenerated_faces` and `heal_mesh`
-/

namespace MM

set_option linter.unusedSectionVars false
set_option linter.unusedSimpArgs false

open MeshObj

lemma keepFaces_map (faces : List Face) (a : Face → ℝ) (thr : ℝ) :
    keepFaces faces (faces.map a) thr = faces.filter (fun f => decide (thr ≤ a f)) := by
  unfold keepFaces
  induction faces with
  | nil => rfl
  | cons f fs ih =>
    simp only [List.map_cons, List.zip_cons_cons, List.filter_cons]
    by_cases h : thr ≤ a f
    · rw [if_pos (by simpa using h), if_pos (by simpa using h), List.map_cons, ih]
    · rw [if_neg (by simpa using h), if_neg (by simpa using h), ih]

lemma faceProps_area_nonneg (m : Mesh ℝ) (f : Face) : 0 ≤ (m.faceProps f).area := by
  unfold Mesh.faceProps
  split_ifs
  · simp only [Mesh.triPropsOf, triProps]
    have := V3.norm_nonneg ((m.vert f.b - m.vert f.a).cross (m.vert f.c - m.vert f.a))
    positivity
  · simp only [Mesh.quadPropsOf, quadProps, quadA1, quadA2]
    have h1 := V3.norm_nonneg ((m.vert f.b - m.vert f.a).cross (m.vert f.c - m.vert f.a))
    have h2 := V3.norm_nonneg ((m.vert f.d - m.vert f.a).cross (m.vert f.c - m.vert f.a))
    positivity

/-- Some value is at least the mean. -/
lemma exists_ge_mean (l : List ℝ) (h : l ≠ []) : ∃ x ∈ l, l.sum / l.length ≤ x := by
  by_contra hc
  push Not at hc
  have hlen : (0 : ℝ) < l.length := by
    have := List.length_pos_iff.2 h; exact_mod_cast this
  have : ∀ (l' : List ℝ) (M : ℝ), l' ≠ [] → (∀ x ∈ l', x < M) → l'.sum < l'.length * M := by
    intro l' M
    induction l' with
    | nil => intro h; exact absurd rfl h
    | cons x xs ih =>
      intro _ hx
      have h1 := hx x (by simp)
      by_cases hxs : xs = []
      · subst hxs; simpa using h1
      · have h2 := ih hxs (fun y hy => hx y (by simp [hy]))
        simp only [List.sum_cons, List.length_cons, Nat.cast_add, Nat.cast_one]
        nlinarith
  have h2 := this l _ h hc
  rw [mul_div_cancel₀ _ hlen.ne'] at h2
  exact lt_irrefl _ h2

/-- **C65.** `remove_degenerated_faces(rtol)` for `rtol > 0` keeps the vertices, removes exactly the faces whose area
is below `rtol` times the mean area, keeps the others in their order, and when `rtol ≤ 1` never removes all of them;
for `rtol ≤ 0` it raises. -/
theorem C65_remove_degenerated_faces (o : MeshObj) (hf : FreshGeom o) (hwf : o.mesh.WF) (rtol : ℝ) :
    (rtol ≤ 0 → o.doRemoveDegenerated rtol = .error .assertionError) ∧
    (0 < rtol → ∃ o', o.doRemoveDegenerated rtol = .ok o' ∧ o'.mesh.vertices = o.mesh.vertices ∧
      o'.mesh.faces = o.mesh.faces.filter (fun f =>
        decide (o.mesh.totalArea / o.mesh.nf * rtol ≤ (o.mesh.faceProps f).area)) ∧
      (o.mesh.faces ≠ [] → rtol ≤ 1 → o'.mesh.faces ≠ [])) := by
  constructor
  · intro h
    unfold doRemoveDegenerated
    rw [if_neg (by linarith)]
  · intro h
    have hs := hf.readProps_spec
    unfold doRemoveDegenerated
    rw [if_pos h]
    cases hp : o.readProps with
    | error e => rw [hp] at hs; exact absurd hwf hs.2
    | ok r =>
      obtain ⟨p, o1⟩ := r
      rw [hp] at hs
      obtain ⟨-, hsame, hm, -, -, -⟩ := hs
      have hareas : p.map FP.area = o.mesh.faces.map (fun f => (o.mesh.faceProps f).area) := by
        rw [hsame.1, facesProperties_eq, List.map_map]; rfl
      have hthr : areaThreshold (o.mesh.faces.map (fun f => (o.mesh.faceProps f).area)) rtol =
          o.mesh.totalArea / o.mesh.nf * rtol := by
        unfold areaThreshold Mesh.totalArea
        rw [facesProperties_eq, List.map_map, List.length_map]; rfl
      have hfaces : keepFaces o1.mesh.faces (p.map FP.area) (areaThreshold (p.map FP.area) rtol) =
          o.mesh.faces.filter (fun f =>
            decide (o.mesh.totalArea / o.mesh.nf * rtol ≤ (o.mesh.faceProps f).area)) := by
        rw [hareas, hm, keepFaces_map, hthr]
      refine ⟨_, rfl, by rw [hm], hfaces, ?_⟩
      intro hne h1
      show keepFaces o1.mesh.faces (p.map FP.area) (areaThreshold (p.map FP.area) rtol) ≠ []
      rw [hfaces]
      obtain ⟨x, hx, hx2⟩ := exists_ge_mean (o.mesh.faces.map (fun f => (o.mesh.faceProps f).area)) (by simpa using hne)
      obtain ⟨f, hfm, rfl⟩ := List.mem_map.1 hx
      intro hnil
      have := List.filter_eq_nil_iff.1 hnil f hfm
      apply this
      simp only [decide_eq_true_eq]
      rw [← hthr]
      unfold areaThreshold
      have hpos : 0 ≤ (o.mesh.faces.map (fun f => (o.mesh.faceProps f).area)).sum /
          (o.mesh.faces.map (fun f => (o.mesh.faceProps f).area)).length := by
        apply div_nonneg
        · apply List.sum_nonneg
          intro a ha
          obtain ⟨g, -, rfl⟩ := List.mem_map.1 ha
          exact faceProps_area_nonneg _ _
        · positivity
      nlinarith

example : cacheTri.WF ∧ cacheTri.faces ≠ [] ∧ FreshGeom (new cacheTri) :=
  ⟨cacheTri_WF, by simp [cacheTri], .new _⟩

/-! ## heal_mesh -/

/-- `remove_degenerated_faces` as a function of the arrays. -/
noncomputable def removeDegeneratedSpec (rtol : ℝ) (m : Mesh ℝ) : Mesh ℝ :=
  ⟨m.vertices, m.faces.filter (fun f => decide (m.totalArea / m.nf * rtol ≤ (m.faceProps f).area))⟩

lemma WF_set_flip {F : List Face} {n g : ℕ} {f : Face} (h : ∀ f ∈ F, ∀ i ∈ f.toList, i < n)
    (hf : f ∈ F) : ∀ f' ∈ F.set g f.flip, ∀ i ∈ f'.toList, i < n := by
  intro f' hf' i hi
  rcases List.mem_or_eq_of_mem_set hf' with h' | rfl
  · exact h f' h' i hi
  · have : f.flip.toList = f.toList.reverse := rfl
    rw [this, List.mem_reverse] at hi
    exact h f hf i hi

lemma floodAdj_bound {ord : List ℕ → List ℕ} {iface g n : ℕ} {face : Face} {st st' : FloodState}
    (hb : ∀ f ∈ st.faces, ∀ i ∈ f.toList, i < n)
    (h : floodAdj ord iface face st g = .ok st') : ∀ f ∈ st'.faces, ∀ i ∈ f.toList, i < n := by
  unfold floodAdj at h
  split_ifs at h with h1 h2
  · cases h; exact hb
  · simp only at h
    split at h
    · cases h
      simp only
      split_ifs
      · by_cases hg : g < st.faces.length
        · apply WF_set_flip hb
          rw [List.getD_eq_getElem?_getD, List.getElem?_eq_getElem hg]
          exact List.getElem_mem hg
        · rw [List.set_eq_of_length_le (by omega)]; exact hb
      · exact hb
    · cases h; exact hb

lemma floodLoop_bound {ord : List ℕ → List ℕ} {iface n : ℕ} {face : Face} : ∀ (gs : List ℕ) {st st' : FloodState},
    (∀ f ∈ st.faces, ∀ i ∈ f.toList, i < n) →
    floodLoop ord iface face gs st = .ok st' → ∀ f ∈ st'.faces, ∀ i ∈ f.toList, i < n := by
  intro gs
  induction gs with
  | nil => intro st st' hb h; simp [floodLoop] at h; subst h; exact hb
  | cons g gs ih =>
    intro st st' hb h
    unfold floodLoop at h
    cases h1 : floodAdj ord iface face st g with
    | error e => rw [h1] at h; simp at h
    | ok st1 => rw [h1] at h; exact ih (floodAdj_bound hb h1) h

lemma flood_bound {ord : List ℕ → List ℕ} {nf n : ℕ} : ∀ (fuel : ℕ) {st st' : FloodState},
    (∀ f ∈ st.faces, ∀ i ∈ f.toList, i < n) →
    flood ord nf fuel st = .ok st' → ∀ f ∈ st'.faces, ∀ i ∈ f.toList, i < n := by
  intro fuel
  induction fuel with
  | zero => intro st st' hb h; simp [flood] at h; subst h; exact hb
  | succ k ih =>
    intro st st' hb h
    unfold flood at h
    split at h
    · rename_i iface rest hst
      cases h1 : floodPop ord st iface rest with
      | error e => rw [h1] at h; simp at h
      | ok st1 =>
        rw [h1] at h
        unfold floodPop at h1
        exact ih (floodLoop_bound _ (by exact hb) h1) h
    · split at h
      · cases h; exact hb
      · rename_i k0 hk0
        cases h1 : floodPop ord { st with vis := fun i => if i = k0 then true else st.vis i } k0 [] with
        | error e => rw [h1] at h; simp at h
        | ok st1 =>
          rw [h1] at h
          unfold floodPop at h1
          exact ih (floodLoop_bound _ (by exact hb) h1) h

lemma healFlood_WF {ord : List ℕ → List ℕ} {ff ff' : ℕ → List ℕ} {m : Mesh ℝ} {F : List Face}
    (h : healFlood ord ff m.faces = .ok (F, ff')) (hwf : m.WF) : (⟨m.vertices, F⟩ : Mesh ℝ).WF := by
  unfold healFlood at h
  split_ifs at h with hl
  cases hfl : flood ord m.faces.length (m.faces.length + 1) ⟨ff, m.faces, fun k => k == 0, [0]⟩ with
  | error e => rw [hfl] at h; simp at h
  | ok st =>
    rw [hfl] at h
    simp only [Except.ok.injEq, Prod.mk.injEq] at h
    rw [← h.1]; exact flood_bound (n := m.nv) _ (st := ⟨ff, m.faces, fun k => k == 0, [0]⟩) hwf hfl

lemma healTriangles_WF {m : Mesh ℝ} (h : m.WF) : m.healTriangles.WF := by
  have hstep : ∀ f : Face, ∀ i ∈ (Mesh.healStep f).toList, i ∈ f.toList := by
    intro f i hi
    unfold Mesh.healStep at hi
    split_ifs at hi
    · exact hi
    · simp [Face.roll, Face.toList] at hi ⊢; tauto
  intro f hf i hi
  simp only [Mesh.healTriangles, List.map_map, List.mem_map] at hf
  obtain ⟨g, hg, rfl⟩ := hf
  exact h g hg i (hstep _ _ (hstep _ _ (hstep _ _ hi)))

/-- `heal_normals` on an object whose geometric values are right and whose connectivity is not cached is
`heal_normals` of a fresh mesh. -/
lemma doHealNormals_fresh {ord : List ℕ → List ℕ} {o : MeshObj} (h1 : o.cache.props = none) (h2 : o.cache.ids = none)
    (h3 : o.cache.conn = none) (hwf : o.mesh.WF) :
    (o.doHealNormals ord).map MeshObj.mesh = (healNormalsFresh ord o.mesh).map Prod.fst := by
  unfold doHealNormals healNormalsFresh healNormals
  simp only [MeshObj.readConn, h3]
  cases hc : connectivity ord o.mesh.nv o.mesh.faces with
  | error e => rfl
  | ok c =>
    simp only [MeshObj.readIds, h2]
    cases hh : healFlood ord c.ff o.mesh.faces with
    | error e => rfl
    | ok r =>
      obtain ⟨F, ff'⟩ := r
      simp only
      have hk := ids_congr (m := o.mesh) (m' := ⟨o.mesh.vertices, F⟩) (healFlood_kinds hh)
      by_cases hcl : c.isClosed = true
      · rw [if_pos hcl, if_pos hcl]
        have hwf' : (⟨o.mesh.vertices, F⟩ : Mesh ℝ).WF := healFlood_WF hh hwf
        simp only [MeshObj.readProps, h1, MeshObj.readIds]
        rw [← hk.1, ← hk.2]
        simp only [(idsOk_fresh _).2 hwf', if_true]
        have ho : outwardWith (Mesh.zmax ⟨o.mesh.vertices, F⟩)
            (Mesh.facesPropertiesWith ⟨o.mesh.vertices, F⟩ (Mesh.trianglesIds ⟨o.mesh.vertices, F⟩)
              (Mesh.quadranglesIds ⟨o.mesh.vertices, F⟩)) = Mesh.outwardTest ⟨o.mesh.vertices, F⟩ := rfl
        simp only [ho]
        split_ifs <;> rfl
      · rw [if_neg hcl, if_neg hcl]; rfl

/-- **C66.** Whatever queries were made before, as long as the cached geometric values are right, `heal_mesh()`
leaves the mesh obtained by removing the unused vertices, then the faces whose area is below 1e-5 times the mean, then
merging the vertices within 1e-8, then rolling the triangles to the `a b c a` form, then reorienting the faces, each
step applied to a freshly built mesh. -/
theorem C66_heal_mesh (srt : (ℕ → ℝ) → List ℕ → List ℕ) (hsrt : IsArgsort srt) (ord : List ℕ → List ℕ) (o : MeshObj)
    (hf : FreshGeom o) (hwf : o.mesh.WF) (hv : o.mesh.faces ≠ []) :
    ∃ m1 m2 newId, o.mesh.removeUnusedVertices = .ok m1 ∧
      (removeDegeneratedSpec (1 / 100000) m1).mergeDuplicates srt (1 / 100000000) = .ok (m2, newId) ∧
      (o.doHealMesh srt ord).map MeshObj.mesh = (healNormalsFresh ord m2.healTriangles).map Prod.fst := by
  obtain ⟨m1, hm1, hgeom, -, -, hwf1, -⟩ := C08_remove_unused_vertices o.mesh hwf
  set o0 : MeshObj := ⟨o.mesh, dropPropsIfAny o.cache⟩ with ho0
  have hp0 : o0.cache.props = none := by
    simp only [ho0, dropPropsIfAny]
    split_ifs with h
    · rfl
    · simpa using h
  have hr : doRemoveUnused o0 = .ok ⟨m1, dropConn o0.cache⟩ := by
    unfold doRemoveUnused; rw [show o0.mesh = o.mesh from rfl, hm1]
  have hf1 : FreshGeom ⟨m1, dropConn o0.cache⟩ := (dropPropsIfAny_fresh hf).removeUnused hr
  obtain ⟨o2, ho2, hv2, hfa2, hne2⟩ := (C65_remove_degenerated_faces ⟨m1, dropConn o0.cache⟩ hf1 hwf1 (1 / 100000)).2
    (by norm_num)
  have hmesh2 : o2.mesh = removeDegeneratedSpec (1 / 100000) m1 := by
    cases o2 with
    | mk mm cc => cases mm; simp only at hv2 hfa2; simp only [removeDegeneratedSpec, hv2, hfa2]
  have hcache2 : o2.cache.props = none ∧ o2.cache.ids = none ∧ o2.cache.conn = none := by
    obtain ⟨e1, -, e3⟩ := FreshGeom.removeDegenerated ho2
    refine ⟨e1, e3, ?_⟩
    unfold doRemoveDegenerated at ho2
    rw [if_pos (by norm_num)] at ho2
    have hs := hf1.readProps_spec
    cases hp : MeshObj.readProps ⟨m1, dropConn o0.cache⟩ with
    | error e => rw [hp] at ho2; cases ho2
    | ok r =>
      rw [hp] at ho2 hs
      cases ho2
      exact hs.2.2.2.2.1
  have hfne1 : m1.faces ≠ [] := by
    have := congrArg List.length hgeom
    simp only [Mesh.geometry, List.length_map] at this
    intro h0
    rw [h0] at this
    exact hv (List.length_eq_zero_iff.1 this.symm)
  have hwf2 : (removeDegeneratedSpec (1 / 100000) m1).WF := by
    intro f hf' i hi
    exact hwf1 f (List.mem_filter.1 hf').1 i hi
  have hvne : (removeDegeneratedSpec (1 / 100000) m1).vertices ≠ [] := by
    obtain ⟨f, hf'⟩ := List.exists_mem_of_ne_nil _ hfne1
    have := hwf1 f hf' f.a (by simp [Face.toList])
    intro h0
    have h00 : m1.vertices = [] := h0
    simp [Mesh.nv, h00] at this
  obtain ⟨m2, newId, hm2, hwf3, -⟩ := C05_merge_duplicates_moves_corners_within_tol srt hsrt (1 / 100000000) (by norm_num)
    (removeDegeneratedSpec (1 / 100000) m1) hwf2 hvne
  refine ⟨m1, m2, newId, hm1, hm2, ?_⟩
  have hmerge : doMerge srt Mesh.defaultAtol o2 = .ok ⟨m2, dropConn o2.cache⟩ := by
    unfold doMerge
    rw [hmesh2, show (Mesh.defaultAtol : ℝ) = 1 / 100000000 from rfl, hm2]
  have hht : doHealTriangles ⟨m2, dropConn o2.cache⟩ = ⟨m2.healTriangles, dropConn o2.cache⟩ := by
    unfold doHealTriangles dropPropsIfAny
    rw [if_neg (by simp [dropConn, hcache2.1])]
  have hrun : o.doHealMesh srt ord = doHealNormals ord ⟨m2.healTriangles, dropConn o2.cache⟩ := by
    unfold doHealMesh
    rw [hr]
    simp only [bind, Except.bind]
    rw [ho2]
    simp only
    rw [hmerge]
    simp only
    rw [hht]
  rw [hrun]
  exact doHealNormals_fresh hcache2.1 hcache2.2.1 rfl (healTriangles_WF hwf3)

/-- The hypotheses are met. -/
example : cacheTri.WF ∧ cacheTri.faces ≠ [] ∧ FreshGeom (new cacheTri) :=
  ⟨cacheTri_WF, by simp [cacheTri], .new _⟩

end MM
