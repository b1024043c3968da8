import Verif.Proofs.ClipperFl
import Verif.Proofs.Rounding
import Verif.Props.PlaneFl
import Verif.Props.ClipBand

/-!
# A run of the clipper in floating point (C121)
-/

namespace MM
namespace Clipper

variable {K : Type*} [Field K] [LinearOrder K] [IsStrictOrderedRing K]

/-- Two results of the clipper with the same faces and lines, and vertices known up to `e`. -/
structure SameUpTo (e : K) (c c' : Clipped K) : Prop where
  upper : c'.upper = c.upper
  crown : c'.crown = c.crown
  lower : c'.lower = c.lower
  crownFaces : c'.clippedCrown.faces = c.clippedCrown.faces
  crownVerts : List.Forall₂ (V3.Close e) c.clippedCrown.vertices c'.clippedCrown.vertices
  closed : c'.closedPolygons = c.closedPolygons
  opened : c'.openLines = c.openLines
  faces : c'.clipped.faces = c.clipped.faces
  verts : List.Forall₂ (V3.Close e) c.clipped.vertices c'.clipped.vertices

lemma close_refl {e : K} (he : 0 ≤ e) (v : V3 K) : V3.Close e v v := by
  refine ⟨?_, ?_, ?_⟩ <;> simpa using he

lemma mkMesh_vertices {v v' : List (V3 K)} (fs : List (List ℕ)) :
    (∃ er, mkMesh v fs = .error er ∧ mkMesh v' fs = .error er) ∨
    ∃ g, mkMesh v fs = .ok ⟨v, g⟩ ∧ mkMesh v' fs = .ok ⟨v', g⟩ := by
  unfold mkMesh
  split_ifs with h
  · exact .inl ⟨_, rfl, rfl⟩
  · cases mapE (fun l => match toFace l with
      | none => Except.error PyErr.valueError
      | some f => .ok f) fs with
    | error e => exact .inl ⟨_, rfl, rfl⟩
    | ok g => exact .inr ⟨g, rfl, rfl⟩

/-- The two runs side by side. -/
lemma clipFl_sim' (u g : K) (hu : 0 ≤ u) (hu1 : u < 1) (rnd : K → K) (hr : IsRounding u rnd) (hone : rnd 1 = 1)
    (hidem : ∀ a ∈ [1 / 100000, 1 / 100000000], rnd (rnd a) = rnd a) (dot dot' : V3 K → V3 K → K) (hd : IsDot g dot) (hd' : IsDot g dot') (hg : 0 ≤ g)
    (srt srt' : (ℕ → K) → List ℕ → List ℕ) (hsrt : IsArgsort srt) (hsrt' : IsArgsort srt') (p : Plane K) (tol B R e : K)
    (htol0 : 0 < tol) (htol : 2 * g * (1 + u) * B ≤ tol) (b : Bool) (m : Mesh K) (hwf : m.WF)
    (hclear : ∀ v ∈ m.vertices,
      g * absDot v p.normal + u * (|p.dist v| + g * absDot v p.normal) < |p.dist v - tol| ∧
      g * absDot v p.normal + u * (|p.dist v| + g * absDot v p.normal) < |p.dist v + tol|)
    (hB : ∀ v ∈ m.vertices, absDot v p.normal + |p.c| ≤ B) (hR : ∀ v ∈ m.vertices, ∀ k, |v.coord k| ≤ R)
    (he0 : 0 ≤ e) (he : (g + ((1 + u) ^ 2 / (1 - u) - 1) * (1 + 3 * g)) * B / tol * R + ((1 + u) ^ 3 - 1) * R ≤ e)
    (hsep : m.TolSeparated p tol)
    (hgap : ∀ X Y, m.TolClipPoint p tol X → m.TolClipPoint p tol Y → ∀ a ∈ [1 / 100000, 1 / 100000000], ∀ k,
      |X.coord k - Y.coord k| + 2 * e ≤ (1 - u) * a ∨ (1 + u) / (1 - u) * a + 2 * e < |X.coord k - Y.coord k|) :
    (∃ er, clip srt p tol b m = .error er ∧ clipFl rnd dot dot' srt' p tol b m = .error er) ∨
    ∃ c c', clip srt p tol b m = .ok c ∧ clipFl rnd dot dot' srt' p tol b m = .ok c' ∧ SameUpTo e c c' ∧
      (∀ v ∈ c.clipped.vertices, m.TolClipPoint p tol v) ∧ ∀ v ∈ c.clippedCrown.vertices, m.TolClipPoint p tol v := by
  have hag : ∀ v ∈ m.vertices, Agree tol (p.dist v) (p.distFl rnd dot' v) := by
    intro v hv
    obtain ⟨h1, h2, h3⟩ := (C118_classification u g hu rnd hr dot' hd' p tol v).2 (hclear v hv).1 (hclear v hv).2
    have hz : 0 ≤ g * absDot v p.normal + u * (|p.dist v| + g * absDot v p.normal) := by
      have := absDot_nonneg v p.normal
      positivity
    rcases lt_trichotomy (p.dist v) (-tol) with h | h | h
    · exact .inr (.inr ⟨h, h2.2 h⟩)
    · have := (hclear v hv).2
      rw [h] at this hz
      simp only [neg_add_cancel, abs_zero] at this
      linarith
    · rcases lt_trichotomy (p.dist v) tol with h' | h' | h'
      · exact .inr (.inl ⟨abs_lt.2 ⟨h, h'⟩, h3.2 (abs_lt.2 ⟨h, h'⟩)⟩)
      · have := (hclear v hv).1
        rw [h'] at this hz
        simp only [sub_self, abs_zero] at this
        linarith
      · exact .inl ⟨h', h1.2 h'⟩
  have hpos : ∀ f ∈ m.faces, ∀ i ∈ f.toList, |p.dist (m.vert i)| ≠ tol := by
    intro f hf i hi heq
    have hi' : i < m.vertices.length := hwf f hf i hi
    have hm : m.vert i ∈ m.vertices := by simp [Mesh.vert, List.getD_eq_getElem?_getD, hi']
    rcases hag _ hm with ⟨h, -⟩ | ⟨h, -⟩ | ⟨h, -⟩
    · exact absurd (heq ▸ le_abs_self (p.dist (m.vert i))) (not_le.2 h)
    · exact h.ne heq
    · have := neg_abs_le (p.dist (m.vert i))
      linarith
  obtain ⟨ce, co⟩ := C118_partition u g hu rnd hr dot' hd' p tol m hclear
  unfold clip clipFl
  cases hv' : vertexDistsFl rnd dot' p tol m with
  | error er =>
    left
    rw [(ce er).1 hv']
    exact ⟨er, rfl, rfl⟩
  | ok ds' =>
    obtain ⟨ds, hv, hpart⟩ := co ds' hv'
    rw [hv]
    have hds : ds = m.vertices.map p.dist := by
      unfold vertexDists at hv
      simp only at hv
      split_ifs at hv
      exact (Except.ok.inj hv).symm
    have hds' : ds' = m.vertices.map (p.distFl rnd dot') := by
      unfold vertexDistsFl at hv'
      simp only at hv'
      split_ifs at hv'
      exact (Except.ok.inj hv').symm
    subst hds hds'
    obtain ⟨part, gu, gc, gl, hp, su, sc, sl, hcd⟩ := partition_spec p tol m hwf
    obtain ⟨subc, subl⟩ := partition_sub hwf hp
    -- the computed partition
    have hp' : ∃ part', partition tol (m.vertices.map (p.distFl rnd dot')) m = .ok part' ∧ part'.upper = part.upper ∧
        part'.crown = part.crown ∧ part'.lower = part.lower ∧
        part'.crownDists = part.crown.vertices.map (p.distFl rnd dot') := by
      rw [hp] at hpart
      cases hq : partition tol (m.vertices.map (p.distFl rnd dot')) m with
      | error e => rw [hq] at hpart; simp [Except.toOption] at hpart
      | ok part' =>
        rw [hq] at hpart
        simp only [Except.toOption, Option.map_some, Option.some.injEq, Prod.mk.injEq] at hpart
        refine ⟨part', rfl, hpart.1, hpart.2.1, hpart.2.2, ?_⟩
        rw [← hpart.2.1]
        exact partition_dists hwf hq
    obtain ⟨part', hp', hu', hc', hl', hcd'⟩ := hp'
    simp only [hp, hp']
    -- the loop
    have hmem : ∀ i, i < part.crown.nv → part.crown.vertices.getD i 0 ∈ m.vertices := by
      intro i hi
      have hi' : i < part.crown.vertices.length := hi
      refine subc _ ?_
      simp [List.getD_eq_getElem?_getD, hi']
    have hlt : ∀ f ∈ part.crown.faces, ∀ i ∈ f.corners, i < part.crown.nv := fun f hf i hi =>
      sc.wf f hf i (Face.corners_sub f i hi)
    have hget : ∀ (φ : V3 K → K) (i : ℕ), i < part.crown.nv →
        (part.crown.vertices.map φ).getD i 0 = φ (part.crown.vertices.getD i 0) := by
      intro φ i hi
      have hi' : i < part.crown.vertices.length := hi
      simp [List.getD_eq_getElem?_getD, hi']
    have hloop := clipLoopWith_sim (cutf := cut p part.crown.vertices) (cutf' := cutFl rnd dot p part.crown.vertices)
      (tol := tol) (e := e) htol0.le (dists := part.crownDists) (dists' := part'.crownDists) part.crown.faces
      ⟨[], [], [], [], part.crown.nv⟩ ⟨[], [], [], [], part.crown.nv⟩
      (by
        intro f hf i hi
        have hi' := hlt f hf i hi
        rw [hcd, hcd', hget _ _ hi', hget _ _ hi']
        exact hag _ (hmem i hi'))
      (by
        intro f hf i hi j hj hs
        have hi' := hlt f hf i hi
        have hj' := hlt f hf j hj
        rw [hcd, hget _ _ hi', hget _ _ hj'] at hs
        have a1 := hag _ (hmem i hi')
        have a2 := hag _ (hmem j hj')
        refine cut_near hu hu1 hr hone hd hd' hg htol0 htol (hB _ (hmem i hi')) (hB _ (hmem j hj')) (hR _ (hmem i hi'))
          (hR _ (hmem j hj')) he hs ?_
        have up : ∀ {d d' : K}, Agree tol d d' → d > tol → d' > tol := by
          rintro d d' (⟨-, h⟩ | ⟨h, -⟩ | ⟨h, -⟩) k
          · exact h
          · linarith [(abs_lt.1 h).2]
          · linarith
        have dn : ∀ {d d' : K}, Agree tol d d' → d < -tol → d' < -tol := by
          rintro d d' (⟨h, -⟩ | ⟨h, -⟩ | ⟨-, h⟩) k
          · linarith
          · linarith [(abs_lt.1 h).1]
          · exact h
        exact hs.imp (fun h => ⟨up a1 h.1, dn a2 h.2⟩) (fun h => ⟨dn a1 h.1, up a2 h.2⟩))
      rfl rfl rfl rfl .nil
    have hcrown : (∃ er, clipCrown srt p tol part.crown part.crownDists = .error er ∧
          clipCrownFl rnd dot srt' p tol part'.crown part'.crownDists = .error er) ∨
        ∃ cm cm' d i, clipCrown srt p tol part.crown part.crownDists = .ok (cm, d, i) ∧
          clipCrownFl rnd dot srt' p tol part'.crown part'.crownDists = .ok (cm', d, i) ∧ cm'.faces = cm.faces ∧
          List.Forall₂ (V3.Close e) cm.vertices cm'.vertices ∧ ∀ v ∈ cm.vertices, m.TolClipPoint p tol v := by
      unfold clipCrown clipCrownFl
      rw [clipLoop_eq, hc']
      rcases hloop with ⟨er, h1, h2⟩ | ⟨s, s', h1, h2, h3, h4, h5, h6, h7⟩
      · left
        rw [h1, h2]
        exact ⟨er, rfl, rfl⟩
      have hpts := loop_clipPoints htol0.le hwf hpos hp ((clipLoop_eq _ _ _ _ _ _).trans h1)
      rw [h1, h2]
      simp only [h3, h4, h5]
      rcases mkMesh_vertices (v := part.crown.vertices ++ s.pts) (v' := part.crown.vertices ++ s'.pts) s.crownFaces with
        ⟨er, k1, k2⟩ | ⟨gf, k1, k2⟩
      · left
        rw [k1, k2]
        exact ⟨_, rfl, rfl⟩
      rw [k1, k2]
      simp only
      have hraw : ∀ v ∈ part.crown.vertices ++ s.pts, m.TolClipPoint p tol v := by
        intro v hv
        exact (List.mem_append.1 hv).elim (fun h => .inl (subc v h)) (hpts v)
      rcases mergeDuplicates_sim hu hu1 hr hsrt hsrt' (a := 1 / 100000) (by positivity) he0 (hidem _ (by simp))
        (m := ⟨part.crown.vertices ++ s.pts, gf⟩) (m' := ⟨part.crown.vertices ++ s'.pts, gf⟩) rfl
        (List.rel_append (List.forall₂_same.2 fun v _ => close_refl he0 v) h7)
        (fun X hX Y hY k => hgap X Y (hraw X hX) (hraw Y hY) _ (by simp) k)
        (fun X hX Y hY hc => hsep X Y (hraw X hX) (hraw Y hY) hc) with ⟨er, q1, q2⟩ | ⟨n, n', ids, q1, q2, q3, q4, q5⟩
      · left
        rw [q1, q2]
        exact ⟨_, rfl, rfl⟩
      · right
        rw [q1, q2]
        exact ⟨n, n', _, _, rfl, rfl, q3, q4, fun v hv => hraw v (q5 v hv)⟩
    rcases hcrown with ⟨er, h1, h2⟩ | ⟨cm, cm', d, i, h1, h2, h3, h4, h5⟩
    · left
      rw [h1, h2]
      exact ⟨er, rfl, rfl⟩
    rw [h1, h2]
    simp only
    split_ifs with hb
    · exact .inl ⟨_, rfl, rfl⟩
    -- the sum
    have hconv : ∀ v ∈ (Mesh.concat part.lower cm).vertices, m.TolClipPoint p tol v := by
      intro v hv'
      simp only [Mesh.concat, List.mem_append] at hv'
      exact hv'.elim (fun h => .inl (subl v h)) (h5 v)
    have hle : (Mesh.defaultAtol : K) ≤ 1 / 100000 := by unfold Mesh.defaultAtol; norm_num
    unfold Mesh.add Mesh.addFl
    rw [hl']
    rcases mergeDuplicates_sim hu hu1 hr hsrt hsrt' (a := Mesh.defaultAtol) (by unfold Mesh.defaultAtol; positivity) he0
      (hidem _ (by simp [Mesh.defaultAtol])) (m := Mesh.concat part.lower cm) (m' := Mesh.concat part.lower cm') (by simp [Mesh.concat, h3])
      (List.rel_append (List.forall₂_same.2 fun v _ => close_refl he0 v) h4)
      (fun X hX Y hY k => hgap X Y (hconv X hX) (hconv Y hY) _ (by simp [Mesh.defaultAtol]) k)
      (fun X hX Y hY hc => hsep X Y (hconv X hX) (hconv Y hY) ⟨hc.1.trans hle, hc.2.1.trans hle, hc.2.2.trans hle⟩) with
      ⟨er, q1, q2⟩ | ⟨n, n', ids, q1, q2, q3, q4, q5⟩
    · left
      rw [q1, q2]
      exact ⟨_, rfl, rfl⟩
    · right
      rw [q1, q2]
      exact ⟨_, _, rfl, rfl, ⟨hu', hc', rfl, h3, h4, rfl, rfl, q3, q4⟩, fun v hv => hconv v (q5 v hv), h5⟩

lemma clipFl_sim (u g : K) (hu : 0 ≤ u) (hu1 : u < 1) (rnd : K → K) (hr : IsRounding u rnd) (hone : rnd 1 = 1)
    (hidem : ∀ a ∈ [1 / 100000, 1 / 100000000], rnd (rnd a) = rnd a) (dot dot' : V3 K → V3 K → K) (hd : IsDot g dot) (hd' : IsDot g dot') (hg : 0 ≤ g)
    (srt srt' : (ℕ → K) → List ℕ → List ℕ) (hsrt : IsArgsort srt) (hsrt' : IsArgsort srt') (p : Plane K) (tol B R e : K)
    (htol0 : 0 < tol) (htol : 2 * g * (1 + u) * B ≤ tol) (b : Bool) (m : Mesh K) (hwf : m.WF)
    (hclear : ∀ v ∈ m.vertices,
      g * absDot v p.normal + u * (|p.dist v| + g * absDot v p.normal) < |p.dist v - tol| ∧
      g * absDot v p.normal + u * (|p.dist v| + g * absDot v p.normal) < |p.dist v + tol|)
    (hB : ∀ v ∈ m.vertices, absDot v p.normal + |p.c| ≤ B) (hR : ∀ v ∈ m.vertices, ∀ k, |v.coord k| ≤ R)
    (he0 : 0 ≤ e) (he : (g + ((1 + u) ^ 2 / (1 - u) - 1) * (1 + 3 * g)) * B / tol * R + ((1 + u) ^ 3 - 1) * R ≤ e)
    (hsep : m.TolSeparated p tol)
    (hgap : ∀ X Y, m.TolClipPoint p tol X → m.TolClipPoint p tol Y → ∀ a ∈ [1 / 100000, 1 / 100000000], ∀ k,
      |X.coord k - Y.coord k| + 2 * e ≤ (1 - u) * a ∨ (1 + u) / (1 - u) * a + 2 * e < |X.coord k - Y.coord k|) :
    (∃ er, clip srt p tol b m = .error er ∧ clipFl rnd dot dot' srt' p tol b m = .error er) ∨
    ∃ c c', clip srt p tol b m = .ok c ∧ clipFl rnd dot dot' srt' p tol b m = .ok c' ∧ SameUpTo e c c' ∧
      ∀ v ∈ c.clipped.vertices, m.TolClipPoint p tol v := by
  rcases clipFl_sim' u g hu hu1 rnd hr hone hidem dot dot' hd hd' hg srt srt' hsrt hsrt' p tol B R e htol0 htol b m hwf hclear
    hB hR he0 he hsep hgap with h | ⟨c, c', h1, h2, h3, h4, -⟩
  · exact .inl h
  · exact .inr ⟨c, c', h1, h2, h3, h4⟩

/-- **C121.** Take a mesh the vertices of which are clear of the two planes at distance `tol`, and where no difference of
coordinates of two of its vertices or points of intersection is near `1e-5` or `1e-8`. Then a run of the clipper in floating
point raises an exception if and only if an exact run does, and it is the same; otherwise the faces of all the meshes, the
closed polygons and the open lines are the same, and the vertices differ by at most `e`, of the order of
`(g + 3 u) B R / tol + 3 u R`, `R` being a bound of the coordinates. The two runs may sort ties differently. -/
theorem C121_same_connectivity (u g : K) (hu : 0 ≤ u) (hu1 : u < 1) (rnd : K → K) (hr : IsRounding u rnd) (hone : rnd 1 = 1)
    (hidem : ∀ a ∈ [1 / 100000, 1 / 100000000], rnd (rnd a) = rnd a) (dot dot' : V3 K → V3 K → K) (hd : IsDot g dot) (hd' : IsDot g dot') (hg : 0 ≤ g)
    (srt srt' : (ℕ → K) → List ℕ → List ℕ) (hsrt : IsArgsort srt) (hsrt' : IsArgsort srt') (p : Plane K) (tol B R e : K)
    (htol0 : 0 < tol) (htol : 2 * g * (1 + u) * B ≤ tol) (b : Bool) (m : Mesh K) (hwf : m.WF)
    (hclear : ∀ v ∈ m.vertices,
      g * absDot v p.normal + u * (|p.dist v| + g * absDot v p.normal) < |p.dist v - tol| ∧
      g * absDot v p.normal + u * (|p.dist v| + g * absDot v p.normal) < |p.dist v + tol|)
    (hB : ∀ v ∈ m.vertices, absDot v p.normal + |p.c| ≤ B) (hR : ∀ v ∈ m.vertices, ∀ k, |v.coord k| ≤ R)
    (he0 : 0 ≤ e) (he : (g + ((1 + u) ^ 2 / (1 - u) - 1) * (1 + 3 * g)) * B / tol * R + ((1 + u) ^ 3 - 1) * R ≤ e)
    (hsep : m.TolSeparated p tol)
    (hgap : ∀ X Y, m.TolClipPoint p tol X → m.TolClipPoint p tol Y → ∀ a ∈ [1 / 100000, 1 / 100000000], ∀ k,
      |X.coord k - Y.coord k| + 2 * e ≤ (1 - u) * a ∨ (1 + u) / (1 - u) * a + 2 * e < |X.coord k - Y.coord k|) :
    (∀ er, clipFl rnd dot dot' srt' p tol b m = .error er ↔ clip srt p tol b m = .error er) ∧
    (∀ c, clip srt p tol b m = .ok c → ∃ c', clipFl rnd dot dot' srt' p tol b m = .ok c' ∧ SameUpTo e c c') := by
  rcases clipFl_sim u g hu hu1 rnd hr hone hidem dot dot' hd hd' hg srt srt' hsrt hsrt' p tol B R e htol0 htol b m hwf hclear
    hB hR he0 he hsep hgap with ⟨er, h1, h2⟩ | ⟨c, c', h1, h2, h3, -⟩
  · rw [h1, h2]
    exact ⟨fun _ => Iff.rfl, fun c hc => by cases hc⟩
  · rw [h1, h2]
    refine ⟨fun _ => by simp, fun d hd => ?_⟩
    cases hd
    exact ⟨c', rfl, h3⟩

lemma tolClipPoints_mem {p : Plane K} {tol : K} {m : Mesh K} {X : V3 K} (h : m.TolClipPoint p tol X) :
    X ∈ tolClipPoints p tol m := by
  rcases h with hX | ⟨e, he, h1, rfl⟩
  · exact List.mem_append_left _ hX
  · exact List.mem_append_right _ (List.mem_map.2 ⟨e, List.mem_filter.2 ⟨he, by simpa using h1⟩, rfl⟩)

/-- An octahedron of doubles, three vertices of which are near the plane `z = 0`. -/
def flOcta : Mesh ℚ :=
  ⟨[⟨1, 0, 1 / 2048⟩, ⟨-1, 0, -1 / 4096⟩, ⟨0, 1, 1 / 8⟩, ⟨0, -1, 0⟩, ⟨0, 0, 1⟩, ⟨0, 0, -1⟩],
   [⟨0, 2, 4, 0⟩, ⟨2, 1, 4, 2⟩, ⟨1, 3, 4, 1⟩, ⟨3, 0, 4, 3⟩, ⟨2, 0, 5, 2⟩, ⟨1, 2, 5, 1⟩, ⟨3, 1, 5, 3⟩, ⟨0, 3, 5, 0⟩]⟩

/-- The plane `z = 0`. -/
def flWater : Plane ℚ := ⟨⟨0, 0, 1⟩, 0⟩

/-- The hypotheses of C121 are met by `flOcta` in doubles, with the default tolerance `1e-3` and `e = 1e-10`. The computed
point of intersection is not the exact one. -/
theorem flOcta_meets_C121 :
    IsRounding (1 / 2 ^ 53) (roundBits 53) ∧ roundBits 53 1 = 1 ∧
      (∀ a ∈ [1 / 100000, 1 / 100000000], roundBits 53 (roundBits 53 a) = roundBits 53 a) ∧
      IsDot ((1 + 1 / 2 ^ 53) ^ 3 - 1) (dotFma (roundBits 53)) ∧ IsDot ((1 + 1 / 2 ^ 53) ^ 3 - 1) (dotFl (roundBits 53)) ∧
      (2 : ℚ) * ((1 + 1 / 2 ^ 53) ^ 3 - 1) * (1 + 1 / 2 ^ 53) * 1 ≤ 1 / 1000 ∧ flOcta.WF ∧
      (∀ v ∈ flOcta.vertices,
        ((1 + 1 / 2 ^ 53) ^ 3 - 1) * absDot v flWater.normal +
          1 / 2 ^ 53 * (|flWater.dist v| + ((1 + 1 / 2 ^ 53) ^ 3 - 1) * absDot v flWater.normal) <
            |flWater.dist v - 1 / 1000| ∧
        ((1 + 1 / 2 ^ 53) ^ 3 - 1) * absDot v flWater.normal +
          1 / 2 ^ 53 * (|flWater.dist v| + ((1 + 1 / 2 ^ 53) ^ 3 - 1) * absDot v flWater.normal) <
            |flWater.dist v + 1 / 1000|) ∧
      (∀ v ∈ flOcta.vertices, absDot v flWater.normal + |flWater.c| ≤ 1) ∧
      (∀ v ∈ flOcta.vertices, ∀ k, |v.coord k| ≤ 1) ∧
      (((1 + 1 / 2 ^ 53) ^ 3 - 1) + ((1 + 1 / 2 ^ 53) ^ 2 / (1 - 1 / 2 ^ 53) - 1) * (1 + 3 * ((1 + 1 / 2 ^ 53) ^ 3 - 1))) *
        1 / (1 / 1000) * 1 + ((1 + 1 / 2 ^ 53) ^ 3 - 1) * 1 ≤ (1 / 10 ^ 10 : ℚ) ∧
      flOcta.TolSeparated flWater (1 / 1000) ∧
      (∀ X Y, flOcta.TolClipPoint flWater (1 / 1000) X → flOcta.TolClipPoint flWater (1 / 1000) Y →
        ∀ a ∈ [1 / 100000, 1 / 100000000], ∀ k,
        |X.coord k - Y.coord k| + 2 * (1 / 10 ^ 10) ≤ (1 - 1 / 2 ^ 53) * a ∨
          (1 + 1 / 2 ^ 53) / (1 - 1 / 2 ^ 53) * a + 2 * (1 / 10 ^ 10) < |X.coord k - Y.coord k|) ∧
      (match clipFl (roundBits 53) (dotFma (roundBits 53)) (dotFl (roundBits 53)) insArgsort flWater (1 / 1000) true flOcta,
          clip insArgsort flWater (1 / 1000) true flOcta with
        | .ok c', .ok c => c'.closedPolygons.length = 1 ∧ c'.clipped.vertices ≠ c.clipped.vertices
        | _, _ => False) := by
  have hr := roundBits_isRounding (p := 53) (by norm_num)
  have hgap : ∀ X ∈ tolClipPoints flWater (1 / 1000) flOcta, ∀ Y ∈ tolClipPoints flWater (1 / 1000) flOcta,
      ∀ a ∈ [1 / 100000, 1 / 100000000], ∀ k,
        |X.coord k - Y.coord k| + 2 * (1 / 10 ^ 10) ≤ (1 - 1 / 2 ^ 53) * a ∨
          (1 + 1 / 2 ^ 53) / (1 - 1 / 2 ^ 53) * a + 2 * (1 / 10 ^ 10) < |X.coord k - Y.coord k| := by decide +kernel
  refine ⟨hr, by decide +kernel, by decide +kernel, dotFma_isDot hr (by norm_num), dotFl_isDot hr (by norm_num),
    by decide +kernel, by decide +kernel, by decide +kernel, by decide +kernel, by decide +kernel, by decide +kernel,
    tolSeparated_of_list (by decide +kernel),
    fun X Y hX hY => hgap X (tolClipPoints_mem hX) Y (tolClipPoints_mem hY), ?_⟩
  have h : (match clipFl (roundBits 53) (dotFma (roundBits 53)) (dotFl (roundBits 53)) insArgsort flWater (1 / 1000) true
        flOcta, clip insArgsort flWater (1 / 1000) true flOcta with
      | .ok c', .ok c => decide (c'.closedPolygons.length = 1 ∧ c'.clipped.vertices ≠ c.clipped.vertices)
      | _, _ => false) = true := by decide +kernel
  revert h
  split
  · rename_i c' c h1 h2
    intro h
    simpa using h
  · intro h
    cases h

end Clipper
end MM
