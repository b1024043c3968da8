import Verif.Proofs.ClipGeom
import Verif.Spec.Witness

/-!
# Clipping a mesh by a plane (C40-C42)
-/

namespace MM
namespace Clipper

set_option linter.unusedSectionVars false
set_option linter.unusedSimpArgs false

variable {K : Type*} [Field K] [LinearOrder K] [IsStrictOrderedRing K]

lemma vertexDists_ok {p : Plane K} {tol : K} {m : Mesh K} {d : List K} (h : vertexDists p tol m = .ok d) :
    d = m.vertices.map p.dist := by
  unfold vertexDists at h
  simp only at h
  split_ifs at h
  simp only [Except.ok.injEq] at h
  exact h.symm

/-- The steps of a successful run. -/
lemma clip_ok {srt : (ℕ → K) → List ℕ → List ℕ} {p : Plane K} {tol : K} {b : Bool} {m : Mesh K} {c : Clipped K}
    (h : clip srt p tol b m = .ok c) :
    ∃ part cm direct inv, partition tol (m.vertices.map p.dist) m = .ok part ∧
      clipCrown srt p tol part.crown part.crownDists = .ok (cm, direct, inv) ∧
      Mesh.add srt part.lower cm = .ok c.clipped ∧ c.upper = part.upper ∧ c.crown = part.crown ∧
      c.lower = part.lower ∧ c.clippedCrown = cm ∧
      (c.closedPolygons, c.openLines) = extractLines inv direct.length direct ∧
      (b = true → c.openLines = []) := by
  unfold clip at h
  cases hd : vertexDists p tol m with
  | error e => rw [hd] at h; simp at h
  | ok d =>
    have := vertexDists_ok hd
    subst this
    simp only [hd] at h
    cases hp : partition tol (m.vertices.map p.dist) m with
    | error e => rw [hp] at h; simp at h
    | ok part =>
      simp only [hp] at h
      cases hc : clipCrown srt p tol part.crown part.crownDists with
      | error e => rw [hc] at h; simp at h
      | ok t =>
        obtain ⟨cm, direct, inv⟩ := t
        simp only [hc] at h
        split_ifs at h with hb
        cases ha : Mesh.add srt part.lower cm with
        | error e => rw [ha] at h; simp at h
        | ok s =>
          simp only [ha, Except.ok.injEq] at h
          subst h
          refine ⟨part, cm, direct, inv, rfl, hc, ha, rfl, rfl, rfl, rfl, rfl, ?_⟩
          intro hb'
          simpa [hb'] using hb

lemma clipCrown_ok {srt : (ℕ → K) → List ℕ → List ℕ} {p : Plane K} {tol : K} {crown : Mesh K} {dists : List K}
    {cm : Mesh K} {direct inv : List (ℕ × ℕ)} (h : clipCrown srt p tol crown dists = .ok (cm, direct, inv)) :
    ∃ st raw newId, clipLoop p tol crown.vertices dists crown.faces ⟨[], [], [], [], crown.nv⟩ = .ok st ∧
      mkMesh (crown.vertices ++ st.pts) st.crownFaces = .ok raw ∧
      raw.mergeDuplicates srt (1 / 100000) = .ok (cm, newId) ∧
      direct = remap newId st.direct ∧ inv = remap newId st.inv := by
  unfold clipCrown at h
  cases hl : clipLoop p tol crown.vertices dists crown.faces ⟨[], [], [], [], crown.nv⟩ with
  | error e => rw [hl] at h; simp at h
  | ok st =>
    simp only [hl] at h
    cases hm : mkMesh (crown.vertices ++ st.pts) st.crownFaces with
    | error e => rw [hm] at h; simp at h
    | ok raw =>
      simp only [hm] at h
      cases hg : raw.mergeDuplicates srt (1 / 100000) with
      | error e => rw [hg] at h; simp at h
      | ok t =>
        obtain ⟨cm', newId⟩ := t
        simp only [hg, Except.ok.injEq, Prod.mk.injEq] at h
        obtain ⟨rfl, rfl, rfl⟩ := h
        exact ⟨st, raw, newId, rfl, hm, hg, rfl, rfl⟩

/-! ## C40 -/

lemma allFour_above (p : Plane K) (tol : K) (m : Mesh K) (hwf : m.WF) {f : Face} (hf : f ∈ m.faces) :
    allFour (isAbove tol) (m.vertices.map p.dist) f = decide (∀ i ∈ f.toList, tol < p.dist (m.vert i)) := by
  rw [Bool.eq_iff_iff, allFour_iff, decide_eq_true_iff]
  constructor <;> intro h i hi <;> have := h i hi
  · rw [dists_getD p m (hwf f hf i hi)] at this; simpa [isAbove] using this
  · rw [dists_getD p m (hwf f hf i hi)]; simpa [isAbove] using this

lemma allFour_below (p : Plane K) (tol : K) (m : Mesh K) (hwf : m.WF) {f : Face} (hf : f ∈ m.faces) :
    allFour (isBelow tol) (m.vertices.map p.dist) f = decide (∀ i ∈ f.toList, p.dist (m.vert i) < -tol) := by
  rw [Bool.eq_iff_iff, allFour_iff, decide_eq_true_iff]
  constructor <;> intro h i hi <;> have := h i hi
  · rw [dists_getD p m (hwf f hf i hi)] at this; simpa [isBelow] using this
  · rw [dists_getD p m (hwf f hf i hi)]; simpa [isBelow] using this

lemma perm_three {α : Type*} (l : List α) (q r : α → Bool) (h : ∀ a ∈ l, q a = true → r a = false) :
    (l.filter q ++ l.filter (fun a => !q a && !r a) ++ l.filter r).Perm l := by
  induction l with
  | nil => simp
  | cons a l ih =>
    have ih := ih (fun x hx => h x (List.mem_cons_of_mem _ hx))
    have ha := h a (by simp)
    simp only [List.filter_cons]
    cases hq : q a <;> cases hr : r a
    · simp only [Bool.not_false, Bool.and_self, if_true, Bool.false_eq_true, if_false]
      refine (List.Perm.trans ?_ (List.Perm.cons a ih))
      rw [List.append_assoc, List.append_assoc, List.cons_append]
      exact List.perm_middle
    · simp only [Bool.not_false, Bool.not_true, Bool.and_false, if_true, Bool.false_eq_true, if_false]
      exact List.perm_middle.trans (List.Perm.cons a ih)
    · simp only [Bool.not_true, Bool.false_and, if_true, Bool.false_eq_true, if_false]
      exact List.Perm.cons a ih
    · exact absurd (ha hq) (by simp [hr])

/-- **C40.** The clipper fails with the error that says "above" (resp. "below") exactly when all the vertices are
above (resp. below) the plane; otherwise, the faces of the upper, lower and crown meshes are respectively those
whose corners are all above, all below, and the others, and each face of the mesh is in exactly one of them. -/
theorem C40_partition (srt : (ℕ → K) → List ℕ → List ℕ) (p : Plane K) (tol : K) (htol : 0 ≤ tol)
    (b : Bool) (m : Mesh K) (hwf : m.WF) :
    (clip srt p tol b m = .error .above ↔ ∀ v ∈ m.vertices, tol < p.dist v) ∧
    (clip srt p tol b m = .error .below ↔ m.vertices ≠ [] ∧ ∀ v ∈ m.vertices, p.dist v < -tol) ∧
    (∀ c, clip srt p tol b m = .ok c →
      c.upper.geometry =
        (m.faces.filter (fun f => ∀ i ∈ f.toList, tol < p.dist (m.vert i))).map m.cornerPoints ∧
      c.lower.geometry =
        (m.faces.filter (fun f => ∀ i ∈ f.toList, p.dist (m.vert i) < -tol)).map m.cornerPoints ∧
      c.crown.geometry =
        (m.faces.filter (fun f => (¬ ∀ i ∈ f.toList, tol < p.dist (m.vert i)) ∧
          ¬ ∀ i ∈ f.toList, p.dist (m.vert i) < -tol)).map m.cornerPoints ∧
      (c.upper.geometry ++ c.crown.geometry ++ c.lower.geometry).Perm m.geometry) := by
  have hloop : ∀ (dists : List K) (fs : List Face) (st : LoopState K) (verts : List (V3 K)),
      clipLoop p tol verts dists fs st ≠ .error .above ∧ clipLoop p tol verts dists fs st ≠ .error .below := by
    intro dists fs st verts
    have key : ∀ e, clipLoop p tol verts dists fs st = .error e → e ≠ .above ∧ e ≠ .below := by
      intro e h
      obtain ⟨f, _, index, hf⟩ := clipLoop_error h
      rw [clipFace_plan htol] at hf
      unfold evalPlan evalPlanWith at hf
      split at hf
      · cases hf; simp
      · cases hf; simp
      · split at hf
        · rename_i e' he
          cases hf
          obtain ⟨ij, _, h2⟩ := mapE_error he
          unfold cut at h2
          split at h2 <;> cases h2 <;> simp
        · cases hf
    exact ⟨fun h => (key _ h).1 rfl, fun h => (key _ h).2 rfl⟩
  have hno : ∀ dists, vertexDists p tol m = .ok dists → clip srt p tol b m ≠ .error .above ∧
      clip srt p tol b m ≠ .error .below := by
    intro dists hd
    unfold clip
    simp only [hd]
    cases partition tol dists m with
    | error e => simp
    | ok part =>
      have hl := hloop part.crownDists part.crown.faces ⟨[], [], [], [], part.crown.nv⟩ part.crown.vertices
      simp only [clipCrown]
      cases hl' : clipLoop p tol part.crown.vertices part.crownDists part.crown.faces ⟨[], [], [], [], part.crown.nv⟩ with
      | error e => rw [hl'] at hl; simpa using hl
      | ok st =>
        simp only
        cases mkMesh (part.crown.vertices ++ st.pts) st.crownFaces with
        | error e => simp
        | ok cm =>
          simp only
          cases cm.mergeDuplicates srt (1 / 100000) with
          | error e => simp
          | ok t =>
            simp only
            split_ifs
            · simp
            · split <;> simp
  have ha : (m.vertices.map p.dist).all (isAbove tol) = true ↔ ∀ v ∈ m.vertices, tol < p.dist v := by
    simp [isAbove]
  have hb : (m.vertices.map p.dist).all (isBelow tol) = true ↔ ∀ v ∈ m.vertices, p.dist v < -tol := by
    simp [isBelow]
  refine ⟨?_, ?_, ?_⟩
  · rw [← ha]
    by_cases h : (m.vertices.map p.dist).all (isAbove tol) = true
    · simp only [h, iff_true]
      simp [clip, vertexDists, h]
    · simp only [h, iff_false, Bool.false_eq_true]
      by_cases h' : (m.vertices.map p.dist).all (isBelow tol) = true
      · simp only [clip, vertexDists, h, h', Bool.false_eq_true, if_false, if_true]; simp
      · exact (hno (m.vertices.map p.dist) (by simp only [vertexDists, h, h', Bool.false_eq_true, if_false])).1
  · rw [← hb]
    by_cases h : (m.vertices.map p.dist).all (isAbove tol) = true
    · have he : clip srt p tol b m = .error .above := by simp [clip, vertexDists, h]
      rw [he]
      simp only [Except.error.injEq, reduceCtorEq, ne_eq, false_iff, not_and]
      intro hne h'
      obtain ⟨v, hv⟩ := List.exists_mem_of_ne_nil _ hne
      have h1 := ha.1 h v hv
      have h2 := hb.1 h' v hv
      linarith
    · by_cases h' : (m.vertices.map p.dist).all (isBelow tol) = true
      · have hne : m.vertices ≠ [] := by rintro h0; rw [h0] at h; simp at h
        simp only [h', hne, ne_eq, not_false_eq_true, and_self, iff_true]
        simp only [clip, vertexDists, h, h', Bool.false_eq_true, if_false, if_true]
      · simp only [h', and_false, iff_false, Bool.false_eq_true]
        exact (hno (m.vertices.map p.dist) (by simp only [vertexDists, h, h', Bool.false_eq_true, if_false])).2
  · intro c hc
    obtain ⟨part, cm, direct, inv, hp, _, _, hu, hcr, hl, _, _, _⟩ := clip_ok hc
    obtain ⟨part', gu, gc, gl, hp', su, sc, sl, _⟩ := partition_spec p tol m hwf
    rw [hp] at hp'
    cases hp'
    rw [hu, hcr, hl, su.geometry, sc.geometry, sl.geometry]
    have e1 : m.faces.filter (fun f => allFour (isAbove tol) (m.vertices.map p.dist) f) =
        m.faces.filter (fun f => ∀ i ∈ f.toList, tol < p.dist (m.vert i)) :=
      List.filter_congr (fun f hf => allFour_above p tol m hwf hf)
    have e2 : m.faces.filter (fun f => allFour (isBelow tol) (m.vertices.map p.dist) f) =
        m.faces.filter (fun f => ∀ i ∈ f.toList, p.dist (m.vert i) < -tol) :=
      List.filter_congr (fun f hf => allFour_below p tol m hwf hf)
    have e3 : m.faces.filter (fun f => !allFour (isAbove tol) (m.vertices.map p.dist) f &&
        !allFour (isBelow tol) (m.vertices.map p.dist) f) =
        m.faces.filter (fun f => (¬ ∀ i ∈ f.toList, tol < p.dist (m.vert i)) ∧
          ¬ ∀ i ∈ f.toList, p.dist (m.vert i) < -tol) := by
      apply List.filter_congr
      intro f hf
      rw [allFour_above p tol m hwf hf, allFour_below p tol m hwf hf]
      simp only [Bool.decide_and, decide_not]
    refine ⟨by rw [e1], by rw [e2], by rw [e3], ?_⟩
    rw [← List.map_append, ← List.map_append]
    apply List.Perm.map
    apply perm_three
    intro f hf h1
    rw [allFour_above p tol m hwf hf, decide_eq_true_iff] at h1
    rw [allFour_below p tol m hwf hf, decide_eq_false_iff_not]
    intro h2
    have h1 := h1 f.a (by simp [Face.toList])
    have h2 := h2 f.a (by simp [Face.toList])
    linarith

/-! ## C42 -/

lemma isA_iff {tol d : K} : (classOf tol d).isA = true ↔ tol < d := by
  rw [← isAbove_cls]; simp [isAbove]

lemma isB_iff {tol d : K} (h : 0 ≤ tol) : (classOf tol d).isB = true ↔ d < -tol := by
  rw [← isBelow_cls h]; simp [isBelow]

lemma isO_iff {tol d : K} (h : 0 ≤ tol) : (classOf tol d).isO = true ↔ |d| < tol := by
  rw [← isOn_cls h]; simp [isOn]

lemma isBad_iff {tol d : K} (h : 0 ≤ tol) : (classOf tol d).isBad = true ↔ |d| = tol := by
  have h1 := @isA_iff K _ _ _ tol d
  have h2 := isB_iff (d := d) h
  have h3 := isO_iff (d := d) h
  generalize classOf tol d = c at *
  cases c <;> simp [Cls.isA, Cls.isB, Cls.isO, Cls.isBad] at *
  · have := le_abs_self d; intro h; linarith
  · exact h3.ne
  · exact h3.ne
  · have := neg_abs_le d; intro h; linarith
  · exact le_antisymm (abs_le.2 ⟨by linarith, by linarith⟩) h3
  · exact le_antisymm (abs_le.2 ⟨by linarith, by linarith⟩) h3

lemma corners_getD_mem {f : Face} {k : ℕ} (h : k < f.corners.length) : f.corners.getD k 0 ∈ f.corners := by
  rw [List.getD_eq_getElem?_getD, List.getElem?_eq_getElem h]; exact List.getElem_mem h

/-- The corners of a face, seen by the clipper of a mesh. -/
lemma clsList_eq (p : Plane K) (tol : K) (m : Mesh K) (hwf : m.WF) {f : Face} (hf : f ∈ m.faces) :
    clsList tol (m.vertices.map p.dist) f.corners = f.corners.map (fun i => classOf tol (p.dist (m.vert i))) := by
  unfold clsList
  apply List.map_congr_left
  intro i hi
  rw [dists_getD p m (hwf f hf i (Face.corners_sub f i hi))]

lemma cls_corner (p : Plane K) (tol : K) (m : Mesh K) (hwf : m.WF) {f : Face} (hf : f ∈ m.faces) {k : ℕ}
    (hk : k < f.corners.length) (x : Cls) :
    (clsList tol (m.vertices.map p.dist) f.corners).getD k x = classOf tol (p.dist (m.vert (f.corners.getD k 0))) := by
  rw [clsList_getD hk, dists_getD p m (hwf f hf _ (Face.corners_sub f _ (corners_getD_mem hk)))]

lemma clsList_length (tol : K) (dists : List K) (face : List ℕ) : (clsList tol dists face).length = face.length := by
  simp [clsList]

/-- No corner at exactly the tolerance and not three of the four corners on the plane: the face is clipped, in lines
of four numbers; nothing is left of it only when no corner is below. -/
lemma clipFace_isOk {p : Plane K} {tol : K} (htol : 0 ≤ tol) {m : Mesh K} (hwf : m.WF) {f : Face} (hf : f ∈ m.faces)
    (index : ℕ) (hn : ∀ i ∈ f.corners, |p.dist (m.vert i)| ≠ tol)
    (h3 : ¬ (f.corners.length = 4 ∧ (f.corners.filter (fun i => |p.dist (m.vert i)| < tol)).length = 3)) :
    ∃ r, clipFace p tol m.vertices (m.vertices.map p.dist) index f.corners = .ok r ∧
      (∀ l ∈ r.faces, l.length = 4) ∧ (r.faces = [] → ∀ i ∈ f.corners, -tol < p.dist (m.vert i)) := by
  rw [clipFace_plan htol]
  set c := clsList tol (m.vertices.map p.dist) f.corners with hc
  have hmem : c ∈ lists3 ++ lists4 := clsList_mem f
  have hbad : c.any Cls.isBad = false := by
    rw [List.any_eq_false]
    intro x hx
    rw [hc, clsList_eq p tol m hwf hf] at hx
    obtain ⟨i, hi, rfl⟩ := List.mem_map.1 hx
    rw [isBad_iff htol]; exact hn i hi
  have hunk : plan c ≠ .unknown := by
    rw [Ne, table_unknown c hmem hbad]
    rintro ⟨h1, h2⟩
    apply h3
    refine ⟨by rw [← clsList_length tol (m.vertices.map p.dist)]; exact h1, ?_⟩
    rw [hc, clsList_eq p tol m hwf hf, List.filter_map, List.length_map] at h2
    rw [← h2]
    congr 1
    apply List.filter_congr
    intro i _
    rw [Bool.eq_iff_iff, decide_eq_true_iff, Function.comp_apply, isO_iff htol]
  obtain ⟨hup, hk⟩ := table_known c hmem hbad
  cases hp : plan c with
  | unknown => exact absurd hp hunk
  | unpack => exact absurd hp hup
  | ok q =>
    have hk := PlanRes.check_ok hk hp
    rw [Bool.and_eq_true, List.all_eq_true] at hk
    have hr := PlanRes.check_ok (table_range c hmem) hp
    simp only [Plan.inRange, Bool.and_eq_true, List.all_eq_true] at hr
    unfold evalPlan evalPlanWith
    simp only
    have : ∃ r, mapE (fun ij : ℕ × ℕ => cut p m.vertices (f.corners.getD ij.1 0) (f.corners.getD ij.2 0)) q.cuts =
        .ok r := by
      rw [mapE_isOk]
      intro ij hij
      have h1 := hr.1.2 ij hij
      simp only [decide_eq_true_eq] at h1
      rw [hc, clsList_length] at h1
      have h2 := List.all_eq_true.1 hk.2 ij hij
      rw [hc, cls_corner p tol m hwf hf h1.1, cls_corner p tol m hwf hf h1.2, Bool.or_eq_true, Bool.and_eq_true,
        Bool.and_eq_true, isA_iff, isB_iff htol, isA_iff, isB_iff htol] at h2
      apply cut_isOk
      change p.dist (m.vert _) * p.dist (m.vert _) < 0
      rcases h2 with ⟨h, h'⟩ | ⟨h, h'⟩
      · exact mul_neg_of_pos_of_neg (by linarith) (by linarith)
      · exact mul_neg_of_neg_of_pos (by linarith) (by linarith)
    obtain ⟨pts, hpts⟩ := this
    rw [hpts]
    refine ⟨_, rfl, ?_, ?_⟩
    · intro l hl
      obtain ⟨l0, h0, rfl⟩ := List.mem_map.1 hl
      simpa using hk.1 l0 h0
    · intro he i hi
      have h5 := PlanRes.check_ok (table_empty c hmem hbad) hp
      have he' : q.faces = [] := by simpa using he
      rw [he'] at h5
      simp only [List.isEmpty_nil, Bool.not_true, Bool.false_or, List.all_eq_true] at h5
      have h6 := h5 (classOf tol (p.dist (m.vert i)))
        (by rw [hc, clsList_eq p tol m hwf hf]; exact List.mem_map_of_mem hi)
      rw [Bool.not_eq_true', ← Bool.not_eq_true, isB_iff htol, not_lt] at h6
      refine lt_of_le_of_ne h6 (fun h7 => hn i hi ?_)
      rw [← h7, abs_neg, abs_of_nonneg htol]

/-- The numbers in the faces emitted by the loop. -/
lemma Run.entries {p : Plane K} {tol : K} (htol : 0 ≤ tol) {m : Mesh K} (hwf : m.WF)
    {fs : List Face} (hfs : ∀ f ∈ fs, f ∈ m.faces) {st' : LoopState K} {l : List (ℕ × Face × FaceClip K)}
    (h : Run p tol m.vertices (m.vertices.map p.dist) fs ⟨[], [], [], [], m.nv⟩ l st') :
    ∀ t ∈ l, ∀ line ∈ t.2.2.faces, ∀ i ∈ line,
      (i ∈ t.2.1.corners ∧ i < m.nv) ∨ (t.1 ≤ i ∧ i < m.nv + st'.pts.length ∧
        ∃ x, (m.vertices ++ st'.pts)[i]? = some x ∧ p.dist x = 0) := by
  intro t ht line hline i hi
  have hf : t.2.1 ∈ m.faces := hfs _ (by rw [← h.faces_eq]; exact List.mem_map_of_mem ht)
  have hok := h.ok t ht
  rw [clipFace_plan htol] at hok
  obtain ⟨q, hq, h1, h2, h3, h4, _⟩ := evalPlan_ok hok
  obtain ⟨g1, g2, g3⟩ := h.point htol (by simp [Mesh.nv]) t ht
  rw [h1] at hline
  obtain ⟨l0, hl0, rfl⟩ := List.mem_map.1 hline
  obtain ⟨ref, href, rfl⟩ := List.mem_map.1 hi
  have hr := PlanRes.check_ok (table_range _ (clsList_mem t.2.1)) hq
  simp only [Plan.inRange, Bool.and_eq_true, List.all_eq_true, clsList_length] at hr
  have hr := hr.1.1 l0 hl0 ref href
  cases ref with
  | old k =>
    left
    simp only [Ref.inRange, decide_eq_true_eq] at hr
    have := corners_getD_mem hr
    exact ⟨this, hwf _ hf _ (Face.corners_sub _ _ this)⟩
  | new j =>
    right
    simp only [Ref.inRange, decide_eq_true_eq] at hr
    rw [← h3] at hr
    simp only [evalRef]
    refine ⟨by omega, by simp only [Mesh.nv]; omega, ?_⟩
    have hj : j < t.2.2.pts.length := by omega
    refine ⟨t.2.2.pts[j], ?_, ?_⟩
    · rw [g3 j hr, List.getElem?_eq_getElem hj]
    · rw [List.forall₂_iff_get] at h2
      exact (cut_ok (h2.2 j (by omega) hj)).1

lemma raw_wf {p : Plane K} {tol : K} (htol : 0 ≤ tol) {m : Mesh K} (hwf : m.WF) {st' : LoopState K}
    {l : List (ℕ × Face × FaceClip K)}
    (h : Run p tol m.vertices (m.vertices.map p.dist) m.faces ⟨[], [], [], [], m.nv⟩ l st') {raw : Mesh K}
    (hr : mkMesh (m.vertices ++ st'.pts) st'.crownFaces = .ok raw) :
    raw.WF ∧ raw.vertices ≠ [] := by
  obtain ⟨h0, h1, h2⟩ := mkMesh_ok hr
  have hwf' : raw.WF := by
    intro f hf i hi
    have : f.toList ∈ st'.crownFaces := by rw [← h2]; exact List.mem_map_of_mem hf
    rw [h.crownFaces, List.nil_append, List.mem_flatMap] at this
    obtain ⟨t, ht, hline⟩ := this
    have hnv : raw.nv = m.nv + st'.pts.length := by simp [Mesh.nv, h1]
    rcases h.entries htol hwf (fun f hf => hf) t ht _ hline i hi with h | h <;> omega
  refine ⟨hwf', ?_⟩
  intro h3
  have : raw.faces ≠ [] := by rintro h4; rw [h4] at h2; exact h0 h2.symm
  obtain ⟨f, hf⟩ := List.exists_mem_of_ne_nil _ this
  have := hwf' f hf f.a (by simp [Face.toList])
  simp [Mesh.nv, h3] at this

lemma Face.corners_map_length (f : Face) : f.corners.length = 4 ↔ f.a ≠ f.d := by
  unfold Face.corners Face.isTri
  by_cases h : f.a = f.d <;> simp [h]

lemma Selected.face {m m' : Mesh K} {q : Face → Bool} {g : ℕ → ℕ} (h : Selected m q m' g) {f' : Face}
    (hf' : f' ∈ m'.faces) : ∃ f ∈ m.faces, q f = true ∧ f' = f.map g ∧ f'.corners = f.corners.map g ∧
      ∀ i ∈ f.toList, m'.vert (g i) = m.vert i := by
  rw [h.faces] at hf'
  obtain ⟨f, hf, rfl⟩ := List.mem_map.1 hf'
  exact ⟨f, (List.mem_filter.1 hf).1, (List.mem_filter.1 hf).2, rfl, h.corners hf, fun i hi => h.vert_eq hf hi⟩

lemma mkMesh_isOk {verts : List (V3 K)} {faces : List (List ℕ)} (h0 : faces ≠ []) (h : ∀ l ∈ faces, l.length = 4) :
    ∃ cm, mkMesh verts faces = .ok cm := by
  unfold mkMesh
  rw [if_neg h0]
  split
  · rename_i e he
    exfalso
    obtain ⟨l, hl, h'⟩ := mapE_error he
    match l, h l hl with
    | [a, b, c, d], _ => simp [toFace] at h'
  · exact ⟨_, rfl⟩

/-- **C42 (partial).** When no corner of a face is at distance exactly `tol` of the plane and no quadrangle has exactly
three corners on the plane, clipping never fails with "clipping case not known"; it can only fail because the mesh is
entirely above or below, because of an open intersection line when closed ones are asserted, or because no face
crosses the plane. -/
theorem C42_known_cases_partial (srt : (ℕ → K) → List ℕ → List ℕ) (hsrt : IsArgsort srt) (p : Plane K) (tol : K)
    (htol : 0 ≤ tol) (b : Bool) (m : Mesh K) (hwf : m.WF)
    (hn : ∀ f ∈ m.faces, ∀ i ∈ f.corners, |p.dist (m.vert i)| ≠ tol)
    (h3 : ∀ f ∈ m.faces, f.a ≠ f.d → (f.corners.filter (fun i => |p.dist (m.vert i)| < tol)).length ≠ 3) :
    ∀ e, clip srt p tol b m = .error e →
      (e = .above ∧ ∀ v ∈ m.vertices, tol < p.dist v) ∨
      (e = .below ∧ ∀ v ∈ m.vertices, p.dist v < -tol) ∨
      (e = .openCurve ∧ b = true) ∨
      (e = .py .indexError ∧
        ∀ f ∈ m.faces, (∀ i ∈ f.corners, p.dist (m.vert i) < -tol) ∨ ∀ i ∈ f.corners, -tol < p.dist (m.vert i)) := by
  intro e he
  have h40 := C40_partition srt p tol htol b m hwf
  cases hd : vertexDists p tol m with
  | error e' =>
    have : e' = e := by simpa [clip, hd] using he
    subst this
    unfold vertexDists at hd
    simp only at hd
    split_ifs at hd with h1 h2
    · cases hd; exact Or.inl ⟨rfl, h40.1.1 he⟩
    · cases hd; exact Or.inr (Or.inl ⟨rfl, (h40.2.1.1 he).2⟩)
  | ok d =>
    right; right
    have := vertexDists_ok hd
    subst this
    obtain ⟨part, gu, gc, gl, hp, su, sc, sl, hcd⟩ := partition_spec p tol m hwf
    have hok : ∀ f' ∈ part.crown.faces, ∀ index, ∃ r, clipFace p tol part.crown.vertices part.crownDists index f'.corners = .ok r ∧
      (∀ l ∈ r.faces, l.length = 4) ∧ (r.faces = [] → ∀ i ∈ f'.corners, -tol < p.dist (part.crown.vert i)) := by
      intro f' hf' index
      rw [hcd]
      obtain ⟨f, hf, _, rfl, hco, hv⟩ := sc.face hf'
      have hv' : ∀ i ∈ f.corners, part.crown.vert (gc i) = m.vert i := fun i hi => hv i (Face.corners_sub f i hi)
      apply clipFace_isOk htol sc.wf hf' index
      · intro i hi
        rw [hco] at hi
        obtain ⟨j, hj, rfl⟩ := List.mem_map.1 hi
        rw [hv' j hj]
        exact hn f hf j hj
      · rw [hco, List.length_map, Face.corners_map_length]
        rintro ⟨h1, h2⟩
        apply h3 f hf h1
        rw [List.filter_map, List.length_map] at h2
        rw [← h2]
        congr 1
        apply List.filter_congr
        intro i hi
        rw [Function.comp_apply, hv' i hi]
    unfold clip at he
    simp only [hd, hp] at he
    cases hc : clipCrown srt p tol part.crown part.crownDists with
    | error e' =>
      rw [hc] at he
      simp only [Except.error.injEq] at he
      subst he
      right
      unfold clipCrown at hc
      cases hl : clipLoop p tol part.crown.vertices part.crownDists part.crown.faces ⟨[], [], [], [], part.crown.nv⟩ with
      | error e =>
        obtain ⟨f, hf, index, h⟩ := clipLoop_error hl
        obtain ⟨r, hr, _⟩ := hok f hf index
        rw [hr] at h; cases h
      | ok st =>
        obtain ⟨l, hrun⟩ := clipLoop_ok hl
        have hcf := hrun.crownFaces
        simp only [List.nil_append] at hcf
        have hall : ∀ line ∈ st.crownFaces, line.length = 4 := by
          intro line hline
          rw [hcf, List.mem_flatMap] at hline
          obtain ⟨t, ht, hline⟩ := hline
          obtain ⟨r, hr, h4, _⟩ := hok t.2.1 (by rw [← hrun.faces_eq]; exact List.mem_map_of_mem ht) t.1
          have := hrun.ok t ht
          rw [hr] at this
          cases this
          exact h4 line hline
        simp only [hl] at hc
        by_cases hempty : st.crownFaces = []
        · simp only [hempty, mkMesh, if_true, Except.error.injEq] at hc
          refine ⟨hc.symm, ?_⟩
          intro f hf
          by_cases ha : allFour (isAbove tol) (m.vertices.map p.dist) f = true
          · rw [allFour_above p tol m hwf hf, decide_eq_true_iff] at ha
            right
            intro i hi
            have := ha i (Face.corners_sub f i hi)
            linarith
          by_cases hb : allFour (isBelow tol) (m.vertices.map p.dist) f = true
          · rw [allFour_below p tol m hwf hf, decide_eq_true_iff] at hb
            left
            intro i hi
            exact hb i (Face.corners_sub f i hi)
          · right
            have hfm : f ∈ m.faces.filter (fun f => !allFour (isAbove tol) (m.vertices.map p.dist) f &&
                !allFour (isBelow tol) (m.vertices.map p.dist) f) := by
              simp [hf, ha, hb]
            have hf' : f.map gc ∈ part.crown.faces := by rw [sc.faces]; exact List.mem_map_of_mem hfm
            have hf'' := hf'
            rw [← hrun.faces_eq] at hf''
            obtain ⟨t, ht, hte⟩ := List.mem_map.1 hf''
            obtain ⟨r, hr, _, h5⟩ := hok (f.map gc) hf' t.1
            have hrt := hrun.ok t ht
            rw [hte, hr] at hrt
            cases hrt
            have hre : t.2.2.faces = [] := by
              rw [hempty] at hcf
              exact List.flatMap_eq_nil_iff.1 hcf.symm t ht
            intro i hi
            have := h5 hre (gc i) (by rw [sc.corners hfm]; exact List.mem_map_of_mem hi)
            rwa [sc.vert_eq hfm (Face.corners_sub f i hi)] at this
        · exfalso
          obtain ⟨raw, hraw⟩ := mkMesh_isOk (verts := part.crown.vertices ++ st.pts) hempty hall
          simp only [hraw] at hc
          rw [hcd] at hrun
          obtain ⟨hw, hv⟩ := raw_wf htol sc.wf hrun hraw
          obtain ⟨m', newId, hm, _⟩ :=
            C05_merge_duplicates_moves_corners_within_tol srt hsrt (1 / 100000) (by positivity) raw hw hv
          rw [hm] at hc
          simp at hc
    | ok t =>
      obtain ⟨cm, direct, inv⟩ := t
      simp only [hc] at he
      split_ifs at he with hb
      · left
        simp only [Except.error.injEq] at he
        simp only [Bool.and_eq_true] at hb
        exact ⟨he.symm, hb.1⟩
      · exfalso
        obtain ⟨st, raw, newId, e1, e2, e3, _, _⟩ := clipCrown_ok hc
        obtain ⟨l, hrun⟩ := clipLoop_ok e1
        rw [hcd] at hrun
        obtain ⟨hw, hv⟩ := raw_wf htol sc.wf hrun e2
        obtain ⟨m', newId', hm, hw', _, hg, _⟩ :=
          C05_merge_duplicates_moves_corners_within_tol srt hsrt (1 / 100000) (by positivity) raw hw hv
        rw [e3] at hm
        cases hm
        have hne : cm.vertices ≠ [] := by
          obtain ⟨g0, _, g2⟩ := mkMesh_ok e2
          intro h0
          have hfe : cm.faces = [] := by
            by_contra hfe
            obtain ⟨f, hf⟩ := List.exists_mem_of_ne_nil _ hfe
            have := hw' f hf f.a (by simp [Face.toList])
            simp [Mesh.nv, h0] at this
          have := hg.length_eq
          simp only [Mesh.geometry, List.length_map, hfe, List.length_nil] at this
          rw [List.length_eq_zero_iff.1 this] at g2
          exact g0 g2.symm
        obtain ⟨s, hs, _⟩ := C11_concatenation srt hsrt part.lower cm sl.wf hw' (by simp [hne])
        rw [hs] at he
        simp at he

/-! ### Where the property fails -/

/-- A quadrangle with three corners within the tolerance of the plane `z = 0` and one above. -/
def quad130 : Mesh ℚ := ⟨[⟨0, 0, 2⟩, ⟨-1, 0, 1 / 2⟩, ⟨0, 0, -1 / 2⟩, ⟨1, 0, 1 / 2⟩], [⟨0, 1, 2, 3⟩]⟩

/-- The plane `z = 0`. -/
def z0 : Plane ℚ := ⟨⟨0, 0, 1⟩, 0⟩

/-- The clipper fails on a plane convex quadrangle with three corners on the plane and one above. -/
theorem C42_three_on_unknown : clip insArgsort z0 1 false quad130 = .error .unknownCase := by decide +kernel

/-- The same when the last one is below. -/
theorem C42_three_on_below_unknown :
    clip insArgsort z0 1 false ⟨[⟨0, 0, -2⟩, ⟨-1, 0, -1 / 2⟩, ⟨0, 0, 1 / 2⟩, ⟨1, 0, -1 / 2⟩], [⟨0, 1, 2, 3⟩]⟩ =
      .error .unknownCase := by decide +kernel

/-- The clipper fails on a triangle with a corner at distance exactly the tolerance. -/
theorem C42_at_tolerance_unknown :
    clip insArgsort z0 1 false ⟨[⟨0, 0, 1⟩, ⟨-1, 0, -2⟩, ⟨1, 0, -2⟩], [⟨0, 1, 2, 0⟩]⟩ =
      .error .unknownCase := by decide +kernel

/-- It raises `IndexError` when no face crosses the plane although the mesh is on both sides. -/
theorem C42_no_crown_indexError :
    clip insArgsort z0 (1 / 10) false ⟨[⟨0, 0, 1⟩, ⟨1, 0, 1⟩, ⟨0, 1, 1⟩, ⟨0, 0, -1⟩, ⟨1, 0, -1⟩, ⟨0, 1, -1⟩],
      [⟨0, 1, 2, 0⟩, ⟨3, 4, 5, 3⟩]⟩ = .error (.py .indexError) := by decide +kernel

/-- The hypotheses of C40 and C42 hold for the unit cube cut at mid-height, which is clipped without error. -/
example : (cubeMesh ℚ).WF ∧ (clip insArgsort ⟨⟨0, 0, 1⟩, 1 / 2⟩ (1 / 100) true (cubeMesh ℚ)).isOk = true ∧
    (∀ f ∈ (cubeMesh ℚ).faces, ∀ i ∈ f.corners, |(⟨⟨0, 0, 1⟩, 1 / 2⟩ : Plane ℚ).dist ((cubeMesh ℚ).vert i)| ≠ 1 / 100) ∧
    (∀ f ∈ (cubeMesh ℚ).faces, f.a ≠ f.d → (f.corners.filter
      (fun i => |(⟨⟨0, 0, 1⟩, 1 / 2⟩ : Plane ℚ).dist ((cubeMesh ℚ).vert i)| < 1 / 100)).length ≠ 3) := by decide +kernel

/-! ## C41 -/

lemma dist_close (p : Plane K) {e : K} {u v : V3 K} (h : V3.Close e u v) :
    p.dist v ≤ p.dist u + e * p.normal.abs1 := by
  obtain ⟨h1, h2, h3⟩ := h
  have key : ∀ a b n : K, |a - b| ≤ e → b * n ≤ a * n + e * |n| := by
    intro a b n hab
    have : (b - a) * n ≤ |a - b| * |n| := by
      rw [← abs_mul]
      calc (b - a) * n ≤ |(b - a) * n| := le_abs_self _
        _ = |(a - b) * n| := by rw [abs_mul, abs_mul, abs_sub_comm]
    have := mul_le_mul_of_nonneg_right hab (abs_nonneg n)
    linarith [sub_mul b a n]
  have k1 := key _ _ p.normal.x h1
  have k2 := key _ _ p.normal.y h2
  have k3 := key _ _ p.normal.z h3
  simp only [Plane.dist, V3.dot, V3.abs1]
  linarith

/-- All the points of a geometry satisfy a predicate. -/
def AllPts (P : V3 K → Prop) (g : List (List (Option (V3 K)))) : Prop := ∀ l ∈ g, ∀ o ∈ l, ∀ x, o = some x → P x

lemma AllPts.close {P Q : V3 K → Prop} {e : K} (hPQ : ∀ u v, V3.Close e u v → P u → Q v)
    {g h : List (List (Option (V3 K)))} (hc : GeomClose e g h) (hP : AllPts P g) : AllPts Q h := by
  intro l hl o ho x hx
  obtain ⟨k, hk, rfl⟩ := List.mem_iff_getElem.1 hl
  have hk' : k < g.length := by rw [hc.length_eq]; exact hk
  have h1 := (List.forall₂_iff_get.1 hc).2 k hk' hk
  obtain ⟨k2, hk2, rfl⟩ := List.mem_iff_getElem.1 ho
  have hk2' : k2 < g[k].length := by have := h1.length_eq; simp at this; omega
  have h2 := (List.forall₂_iff_get.1 h1).2 k2 hk2' hk2
  simp only [List.get_eq_getElem] at h2
  rw [hx] at h2
  cases hu : g[k][k2] with
  | none => rw [hu] at h2; exact h2.elim
  | some u =>
    rw [hu] at h2
    exact hPQ u x h2 (hP _ (List.getElem_mem hk') _ (List.getElem_mem hk2') u hu)

lemma allPts_geometry {P : V3 K → Prop} {m : Mesh K} (hwf : m.WF) :
    AllPts P m.geometry ↔ ∀ f ∈ m.faces, ∀ i ∈ f.toList, P (m.vert i) := by
  constructor
  · intro h f hf i hi
    refine h _ (List.mem_map_of_mem hf) _ (List.mem_map_of_mem hi) _ ?_
    have : i < m.vertices.length := hwf f hf i hi
    simp [Mesh.vert, List.getD_eq_getElem?_getD, this]
  · intro h l hl o ho x hx
    obtain ⟨f, hf, rfl⟩ := List.mem_map.1 hl
    obtain ⟨i, hi, rfl⟩ := List.mem_map.1 ho
    have := h f hf i hi
    rw [Mesh.vert, List.getD_eq_getElem?_getD, hx] at this
    exact this

lemma AllPts.append {P : V3 K → Prop} {g h : List (List (Option (V3 K)))} (h1 : AllPts P g) (h2 : AllPts P h) :
    AllPts P (g ++ h) := by
  intro l hl
  rcases List.mem_append.1 hl with hl | hl
  · exact h1 l hl
  · exact h2 l hl

/-- The pattern of alternate corners is impossible when the diagonals cross. -/
lemma not_altern {p : Plane K} {tol : K} (htol : 0 ≤ tol) {a b c d : V3 K} (h : DiagonalsCross a b c d) :
    altern [classOf tol (p.dist a), classOf tol (p.dist b), classOf tol (p.dist c), classOf tol (p.dist d)] = false := by
  obtain ⟨s, t, hs0, hs1, ht0, ht1, he⟩ := h
  have he := congrArg p.dist he
  rw [dist_comb p _ _ _ _ (by ring), dist_comb p _ _ _ _ (by ring)] at he
  rw [← Bool.not_eq_true]
  simp only [altern, Bool.or_eq_true, Bool.and_eq_true, Bool.not_eq_true', ← Bool.not_eq_true, isA_iff, isB_iff htol,
    not_lt]
  have up : ∀ (r x y : K), 0 ≤ r → r ≤ 1 → tol < x → tol < y → tol < (1 - r) * x + r * y := by
    intro r x y h0 h1 hx hy
    rcases eq_or_lt_of_le h0 with h | h
    · subst h; simpa using hx
    · nlinarith [mul_nonneg (sub_nonneg.2 h1) (sub_nonneg.2 hx.le), mul_pos h (sub_pos.2 hy)]
  have up' : ∀ (r x y : K), 0 ≤ r → r ≤ 1 → x ≤ tol → y ≤ tol → (1 - r) * x + r * y ≤ tol := by
    intro r x y h0 h1 hx hy
    nlinarith [mul_nonneg (sub_nonneg.2 h1) (sub_nonneg.2 hx), mul_nonneg h0 (sub_nonneg.2 hy)]
  have dn : ∀ (r x y : K), 0 ≤ r → r ≤ 1 → x < -tol → y < -tol → (1 - r) * x + r * y < -tol := by
    intro r x y h0 h1 hx hy
    rcases eq_or_lt_of_le h0 with h | h
    · subst h; simpa using hx
    · nlinarith [mul_nonneg (sub_nonneg.2 h1) (sub_nonneg.2 hx.le), mul_pos h (sub_pos.2 hy)]
  have dn' : ∀ (r x y : K), 0 ≤ r → r ≤ 1 → -tol ≤ x → -tol ≤ y → -tol ≤ (1 - r) * x + r * y := by
    intro r x y h0 h1 hx hy
    nlinarith [mul_nonneg (sub_nonneg.2 h1) (sub_nonneg.2 hx), mul_nonneg h0 (sub_nonneg.2 hy)]
  rintro (((⟨⟨⟨h1, h2⟩, h3⟩, h4⟩ | ⟨⟨⟨h1, h2⟩, h3⟩, h4⟩) | ⟨⟨⟨h1, h2⟩, h3⟩, h4⟩) | ⟨⟨⟨h1, h2⟩, h3⟩, h4⟩)
  · have := up s _ _ hs0 hs1 h1 h2; have := up' t _ _ ht0 ht1 h3 h4; linarith
  · have := up t _ _ ht0 ht1 h1 h2; have := up' s _ _ hs0 hs1 h3 h4; linarith
  · have := dn s _ _ hs0 hs1 h1 h2; have := dn' t _ _ ht0 ht1 h3 h4; linarith
  · have := dn t _ _ ht0 ht1 h1 h2; have := dn' s _ _ hs0 hs1 h3 h4; linarith

/-- The diagonals of every quadrangle of the mesh have a common point. -/
def QuadsCross (m : Mesh K) : Prop :=
  ∀ f ∈ m.faces, f.a ≠ f.d → DiagonalsCross (m.vert f.a) (m.vert f.b) (m.vert f.c) (m.vert f.d)

lemma corners_not_altern {p : Plane K} {tol : K} (htol : 0 ≤ tol) {m : Mesh K} (hwf : m.WF) (hq : QuadsCross m)
    {f : Face} (hf : f ∈ m.faces) : altern (clsList tol (m.vertices.map p.dist) f.corners) = false := by
  rw [clsList_eq p tol m hwf hf]
  by_cases h : f.a = f.d
  · simp [Face.corners, Face.isTri, h, altern]
  · simp only [Face.corners, Face.isTri, beq_iff_eq, h, if_false, List.map_cons, List.map_nil]
    exact not_altern htol (hq f hf h)

lemma isUp_pos {tol d : K} (htol : 0 < tol) (h : (classOf tol d).isUp = true) : 0 < d := by
  by_cases h1 : (classOf tol d).isA = true
  · rw [isA_iff] at h1; linarith
  · by_contra h0
    have h2 := (neg_cls htol.le d)
    have h3 := isO_iff (d := d) htol.le
    have hd : d = 0 ∨ d < 0 := by rcases lt_trichotomy d 0 with h | h | h <;> [right; left; exact absurd h h0] <;> exact h
    rcases hd with rfl | hd
    · rw [abs_zero] at h3
      have := h3.2 htol
      generalize classOf tol 0 = c at *
      cases c <;> simp_all [Cls.isO, Cls.isUp]
    · have := h2.1 hd
      generalize classOf tol d = c at *
      cases c <;> simp_all [Cls.isNeg, Cls.isUp]

/-- **C41.** Every corner of every face of the clipped mesh is at distance at most the vicinity tolerance above the
plane, up to the displacements by the two merges of vertices. -/
theorem C41_nothing_above (srt : (ℕ → K) → List ℕ → List ℕ) (hsrt : IsArgsort srt) (p : Plane K) (tol : K)
    (htol : 0 ≤ tol) (b : Bool) (m : Mesh K) (hwf : m.WF) (hq : QuadsCross m) (c : Clipped K)
    (h : clip srt p tol b m = .ok c) :
    c.clipped.WF ∧ ∀ f ∈ c.clipped.faces, ∀ i ∈ f.toList,
      p.dist (c.clipped.vert i) ≤ tol + (1 / 100000 + 1 / 100000000) * p.normal.abs1 := by
  obtain ⟨part, cm, direct, inv, hp, hcc, hadd, _, _, _, _, _, _⟩ := clip_ok h
  obtain ⟨part', gu, gc, gl, hp', su, sc, sl, hcd⟩ := partition_spec p tol m hwf
  rw [hp] at hp'
  cases hp'
  obtain ⟨st, raw, newId, e1, e2, e3, _, _⟩ := clipCrown_ok hcc
  rw [hcd] at e1
  obtain ⟨l, hrun⟩ := clipLoop_ok e1
  obtain ⟨hw, hv⟩ := raw_wf htol sc.wf hrun e2
  have hqc : QuadsCross part.crown := by
    intro f' hf' h
    obtain ⟨f, hf, _, rfl, _, hvv⟩ := sc.face hf'
    simp only [Face.map] at h ⊢
    rw [hvv f.a (by simp [Face.toList]), hvv f.b (by simp [Face.toList]), hvv f.c (by simp [Face.toList]),
      hvv f.d (by simp [Face.toList])]
    exact hq f hf (fun h' => h (by rw [h']))
  have hraw : AllPts (fun x => p.dist x ≤ tol) raw.geometry := by
    rw [allPts_geometry hw]
    intro f hf i hi
    obtain ⟨_, g1, g2⟩ := mkMesh_ok e2
    have hline : f.toList ∈ st.crownFaces := by rw [← g2]; exact List.mem_map_of_mem hf
    rw [hrun.crownFaces, List.nil_append, List.mem_flatMap] at hline
    obtain ⟨t, ht, hline⟩ := hline
    have htf : t.2.1 ∈ part.crown.faces := by rw [← hrun.faces_eq]; exact List.mem_map_of_mem ht
    have hok := hrun.ok t ht
    rw [clipFace_plan htol] at hok
    obtain ⟨q, hq1, q1, q2, q3, q4, _⟩ := evalPlan_ok hok
    have htab := PlanRes.check_ok (table_noA _ (clsList_mem t.2.1)) hq1
    rw [corners_not_altern htol sc.wf hqc htf, Bool.false_or, Bool.or_eq_true] at htab
    rcases htab with hbad | hnoA
    · exfalso
      simp only [Plan.badCut, Bool.and_eq_true, List.any_eq_true, decide_eq_true_eq, clsList_length] at hbad
      obtain ⟨⟨x, hx, hxo⟩, ij, hij, ⟨⟨h1, h2⟩, h3⟩, h4⟩ := hbad
      have htol' : 0 < tol := by
        obtain ⟨i, _, rfl⟩ := List.mem_map.1 hx
        rw [isO_iff htol] at hxo
        exact lt_of_le_of_lt (abs_nonneg _) hxo
      rw [cls_corner p tol _ sc.wf htf h1] at h3
      rw [cls_corner p tol _ sc.wf htf h2] at h4
      obtain ⟨k, hk, rfl⟩ := List.mem_iff_getElem.1 hij
      rw [List.forall₂_iff_get] at q2
      have hcut := q2.2 k hk (by omega)
      obtain ⟨_, hle, _⟩ := cut_ok hcut
      have h5 := mul_pos (isUp_pos htol' h3) (isUp_pos htol' h4)
      have : p.dist (part.crown.vert (t.2.1.corners.getD q.cuts[k].1 0)) *
        p.dist (part.crown.vert (t.2.1.corners.getD q.cuts[k].2 0)) ≤ 0 := hle
      linarith
    · have hent := hrun.entries htol sc.wf (fun f hf => hf) t ht _ hline i hi
      rcases hent with ⟨h1, h2⟩ | ⟨h1, h2, x, h3, h4⟩
      · have hi' := hi
        rw [q1] at hline
        obtain ⟨l0, hl0, hl0e⟩ := List.mem_map.1 hline
        rw [← hl0e] at hi'
        obtain ⟨ref, href, hre⟩ := List.mem_map.1 hi'
        have hno := List.all_eq_true.1 (List.all_eq_true.1 hnoA l0 hl0) ref href
        have hvi : raw.vert i = part.crown.vert i := by
          have : i < part.crown.vertices.length := h2
          simp [Mesh.vert, g1, List.getD_eq_getElem?_getD, List.getElem?_append_left this]
        cases ref with
        | old k =>
          simp only [Ref.okOld, Bool.and_eq_true, decide_eq_true_eq, clsList_length, Bool.not_eq_true',
            ← Bool.not_eq_true] at hno
          rw [cls_corner p tol _ sc.wf htf hno.1, isA_iff, not_lt] at hno
          simp only [evalRef] at hre
          rw [hvi, ← hre]
          exact hno.2
        | new j =>
          exfalso
          obtain ⟨_, g3, _⟩ := hrun.point htol (by simp [Mesh.nv]) t ht
          simp only [evalRef] at hre
          simp only [Mesh.nv] at h2
          omega
      · have : raw.vert i = x := by simp [Mesh.vert, g1, List.getD_eq_getElem?_getD, h3]
        rw [this, h4]; exact htol
  obtain ⟨cm', newId', hm, hw', _, hg, _⟩ :=
    C05_merge_duplicates_moves_corners_within_tol srt hsrt (1 / 100000) (by positivity) raw hw hv
  rw [e3] at hm
  cases hm
  have hcm : AllPts (fun x => p.dist x ≤ tol + 1 / 100000 * p.normal.abs1) cm.geometry :=
    AllPts.close (fun u v huv hu => by have := dist_close p huv; linarith) hg hraw
  have habs : 0 ≤ p.normal.abs1 := by unfold V3.abs1; positivity
  have hlow : AllPts (fun x => p.dist x ≤ tol + 1 / 100000 * p.normal.abs1) part.lower.geometry := by
    rw [allPts_geometry sl.wf]
    intro f' hf' i hi
    obtain ⟨f, hf, hqf, rfl, _, hvv⟩ := sl.face hf'
    rw [Face.toList_map] at hi
    obtain ⟨j, hj, rfl⟩ := List.mem_map.1 hi
    rw [hvv j hj]
    rw [allFour_below p tol m hwf hf, decide_eq_true_iff] at hqf
    have h1 := hqf j hj
    have h2 : 0 ≤ 1 / 100000 * p.normal.abs1 := by positivity
    linarith
  have hne : part.lower.vertices ++ cm.vertices ≠ [] := by
    intro h0
    have h0 := (List.append_eq_nil_iff.1 h0).2
    obtain ⟨g0, _, g2⟩ := mkMesh_ok e2
    have hfe : cm.faces = [] := by
      by_contra hfe
      obtain ⟨f, hf⟩ := List.exists_mem_of_ne_nil _ hfe
      have := hw' f hf f.a (by simp [Face.toList])
      simp [Mesh.nv, h0] at this
    have := hg.length_eq
    simp only [Mesh.geometry, List.length_map, hfe, List.length_nil] at this
    rw [List.length_eq_zero_iff.1 this] at g2
    exact g0 g2.symm
  obtain ⟨s, hs, hsw, _, hsg⟩ := C11_concatenation srt hsrt part.lower cm sl.wf hw' hne
  rw [hadd] at hs
  cases hs
  refine ⟨hsw, ?_⟩
  rw [← allPts_geometry (P := fun x => p.dist x ≤ tol + (1 / 100000 + 1 / 100000000) * p.normal.abs1) hsw]
  exact AllPts.close (fun u v huv hu => by have := dist_close p huv; linarith) hsg (hlow.append hcm)

/-- Plane convex quadrangles meet the hypothesis of C41. -/
lemma quadsCross_of_convex {m : Mesh K} (h : ∀ f ∈ m.faces, f.a ≠ f.d →
    ConvexQuad (m.vert f.a) (m.vert f.b) (m.vert f.c) (m.vert f.d)) : QuadsCross m :=
  fun f hf h' => (h f hf h').diagonalsCross

lemma cubeMesh_quadsCross : QuadsCross (cubeMesh ℚ) := by
  have h : ∀ f ∈ (cubeMesh ℚ).faces, f.a ≠ f.d →
      (1 - (1/2 : ℚ)) • (cubeMesh ℚ).vert f.a + (1/2 : ℚ) • (cubeMesh ℚ).vert f.c =
        (1 - (1/2 : ℚ)) • (cubeMesh ℚ).vert f.b + (1/2 : ℚ) • (cubeMesh ℚ).vert f.d := by decide +kernel
  exact fun f hf h' => ⟨1/2, 1/2, by norm_num, by norm_num, by norm_num, by norm_num, h f hf h'⟩

/-- The hypotheses of C41 are met by the cube cut at mid-height, which the clipper clips. -/
example : (cubeMesh ℚ).WF ∧ QuadsCross (cubeMesh ℚ) ∧
    ∃ c, clip insArgsort (⟨⟨0, 0, 1⟩, 1/2⟩ : Plane ℚ) (1/1000) true (cubeMesh ℚ) = .ok c := by
  refine ⟨cubeMesh_wf ℚ, cubeMesh_quadsCross, ?_⟩
  have h : (match clip insArgsort (⟨⟨0, 0, 1⟩, 1/2⟩ : Plane ℚ) (1/1000) true (cubeMesh ℚ) with
    | .ok _ => true | .error _ => false) = true := by decide +kernel
  revert h
  cases clip insArgsort (⟨⟨0, 0, 1⟩, 1/2⟩ : Plane ℚ) (1/1000) true (cubeMesh ℚ) with
  | ok c => intro _; exact ⟨c, rfl⟩
  | error e => intro h; cases h

end Clipper
end MM
