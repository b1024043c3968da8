import Verif.Proofs.ClipBand
import Verif.Props.ClipOnPlane

/-!
# C75 and C45, with vertices within the tolerance of the plane
-/

namespace MM
namespace Clipper

set_option linter.unusedSectionVars false
set_option linter.unusedSimpArgs false
set_option linter.unusedVariables false

variable {K : Type*} [Field K] [LinearOrder K] [IsStrictOrderedRing K]

/-- Renumbering of the corners of a face. -/
lemma tolSectionEdge_map {p : Plane K} {tol : K} {V V' : ℕ → V3 K} {g : ℕ → ℕ} {f : Face} (hV : ∀ i ∈ f.toList, V' (g i) = V i)
    (hinj : ∀ i ∈ f.toList, ∀ j ∈ f.toList, g i = g j → i = j) :
    (f.map g).tolSectionEdge p tol V' = f.tolSectionEdge p tol V := by
  unfold Face.tolSectionEdge
  have hde : (f.map g).directedEdges = f.directedEdges.map (fun e => (g e.1, g e.2)) :=
    directedEdges_map (hinj _ (by simp [Face.toList]) _ (by simp [Face.toList]))
  have hfind : ∀ (Q : V3 K → V3 K → Bool), (f.map g).directedEdges.find? (fun e => Q (V' e.1) (V' e.2)) =
      (f.directedEdges.find? (fun e => Q (V e.1) (V e.2))).map (fun e => (g e.1, g e.2)) := by
    intro Q
    rw [hde, List.find?_map]
    congr 1
    have : ∀ L : List (ℕ × ℕ), (∀ e ∈ L, e.1 ∈ f.toList ∧ e.2 ∈ f.toList) →
        L.find? ((fun e => Q (V' e.1) (V' e.2)) ∘ fun e => (g e.1, g e.2)) = L.find? (fun e => Q (V e.1) (V e.2)) := by
      intro L hL
      induction L with
      | nil => rfl
      | cons a L ih =>
        have h1 := hL a (by simp)
        simp only [List.find?_cons, Function.comp, hV _ h1.1, hV _ h1.2]
        split
        · rfl
        · exact ih (fun e he => hL e (List.mem_cons_of_mem _ he))
    exact this _ (fun e he => edges_mem_toList he)
  have h1 := hfind (fun x y => decide (-tol ≤ p.dist x) && decide (p.dist y < -tol))
  have h2 := hfind (fun x y => decide (p.dist x < -tol) && decide (-tol ≤ p.dist y))
  rw [h1, h2]
  cases e1 : f.directedEdges.find? (fun e => decide (-tol ≤ p.dist (V e.1)) && decide (p.dist (V e.2) < -tol)) with
  | none => simp
  | some e =>
    cases e2 : f.directedEdges.find? (fun e => decide (p.dist (V e.1) < -tol) && decide (-tol ≤ p.dist (V e.2))) with
    | none => simp
    | some e' =>
      have m1 := edges_mem_toList (List.mem_of_find?_eq_some e1)
      have m2 := edges_mem_toList (List.mem_of_find?_eq_some e2)
      simp only [Option.map_some, hV _ m1.1, hV _ m1.2, hV _ m2.1, hV _ m2.2]
      have : g e.1 = g e'.2 ↔ e.1 = e'.2 := ⟨hinj _ m1.1 _ m2.2, fun h => by rw [h]⟩
      simp only [this]

lemma tolSectionEdge_none {p : Plane K} {tol : K} {V : ℕ → V3 K} {f : Face}
    (h : (∀ i ∈ f.toList, -tol ≤ p.dist (V i)) ∨ (∀ i ∈ f.toList, p.dist (V i) < -tol)) : f.tolSectionEdge p tol V = none := by
  have : f.directedEdges.find? (fun e => decide (-tol ≤ p.dist (V e.1)) && decide (p.dist (V e.2) < -tol)) = none := by
    rw [List.find?_eq_none]
    intro e he
    have m := edges_mem_toList he
    simp only [Bool.and_eq_true, decide_eq_true_eq]
    rintro ⟨h1, h2⟩
    rcases h with h | h
    · exact absurd (h _ m.2) (not_le.2 h2)
    · exact absurd (h _ m.1) (not_lt.2 h1)
  unfold Face.tolSectionEdge
  rw [this]

/-- The ends of the edges are points that clipping deals with. -/
lemma tolSection_clipPoint {p : Plane K} {tol : K} {m : Mesh K} (hwf : m.WF) {e : V3 K × V3 K} (he : e ∈ m.tolSectionEdges p tol) :
    m.TolClipPoint p tol e.1 ∧ m.TolClipPoint p tol e.2 := by
  obtain ⟨f, hf, hfe⟩ := List.mem_filterMap.1 he
  unfold Face.tolSectionEdge at hfe
  have hv : ∀ i ∈ f.toList, m.vert i ∈ m.vertices := by
    intro i hi
    have : i < m.vertices.length := hwf f hf i hi
    simp [Mesh.vert, List.getD_eq_getElem?_getD, this]
  split at hfe
  · rename_i a a' h1 h2
    have m1 := List.mem_of_find?_eq_some h1
    have m2 := List.mem_of_find?_eq_some h2
    have p1 := List.find?_some h1
    have p2 := List.find?_some h2
    simp only [Bool.and_eq_true, decide_eq_true_eq] at p1 p2
    split_ifs at hfe
    simp only [Option.some.injEq] at hfe
    subst hfe
    unfold Plane.tolCutPt
    constructor
    · simp only
      split_ifs with h
      · exact .inr ⟨a, List.mem_flatMap.2 ⟨f, hf, m1⟩, .inl ⟨h, p1.2⟩, rfl⟩
      · exact .inl (hv _ (edges_mem_toList m1).1)
    · simp only
      split_ifs with h
      · exact .inr ⟨a', List.mem_flatMap.2 ⟨f, hf, m2⟩, .inr ⟨p2.1, h⟩, cutPt_symm _ _ _⟩
      · exact .inl (hv _ (edges_mem_toList m2).2)
  · simp at hfe

lemma crown_tol {srt : (ℕ → K) → List ℕ → List ℕ} (hsrt : IsArgsort srt) {p : Plane K} {tol : K}
    (htol : 0 ≤ tol) {m : Mesh K} (hwf : m.WF)
    (hpos : ∀ f ∈ m.faces, ∀ i ∈ f.toList, |p.dist (m.vert i)| ≠ tol) (hq : QuadsCross m)
    (hnd : ∀ f ∈ m.faces, f.corners.Nodup) (hfl : m.NoSlabSide p tol)
    {part : Partition K} (hp : partition tol (m.vertices.map p.dist) m = .ok part)
    {cm : Mesh K} {direct inv : List (ℕ × ℕ)}
    (hcc : clipCrown srt p tol part.crown part.crownDists = .ok (cm, direct, inv)) :
    ∃ (es : List (ℕ × ℕ)) (W : ℕ → V3 K) (N : ℕ) (newId : List ℕ),
      es.map (fun e => (W e.1, W e.2)) = m.tolSectionEdges p tol ∧ (∀ e ∈ es, e.1 < N ∧ e.2 < N) ∧
      direct = remap newId (es.foldl (fun d e => dictSet d e.1 e.2) []) ∧
      inv = remap newId (es.foldl (fun d e => dictSet d e.2 e.1) []) ∧
      (∀ i j, i < N → j < N → W i = W j → newId.getD i 0 = newId.getD j 0) ∧
      (∀ i j, i < N → j < N → newId.getD i 0 = newId.getD j 0 → V3.Close (1 / 100000) (W i) (W j)) ∧
      (∀ i, i < N → ∃ u, cm.vertices[newId.getD i 0]? = some u ∧ V3.Close (1 / 100000) (W i) u) := by
  obtain ⟨part', gu, gc, gl, hp', su, sc, sl, hcd⟩ := partition_spec p tol m hwf
  rw [hp] at hp'
  cases hp'
  obtain ⟨st, raw, newId, e1, e2, e3, e4, e5⟩ := clipCrown_ok hcc
  rw [hcd] at e1
  obtain ⟨l, hrun⟩ := clipLoop_ok e1
  obtain ⟨hw, hv⟩ := raw_wf htol sc.wf hrun e2
  obtain ⟨g0, g1, g2⟩ := mkMesh_ok e2
  obtain ⟨m1, m2, m3⟩ := merge_ids hsrt (by positivity) hw hv e3
  set qc := fun f => !allFour (isAbove tol) (m.vertices.map p.dist) f &&
        !allFour (isBelow tol) (m.vertices.map p.dist) f with hqc
  have cpos : ∀ f ∈ part.crown.faces, ∀ i ∈ f.toList, |p.dist (part.crown.vert i)| ≠ tol := by
    intro f' hf' i hi
    obtain ⟨f, hf, _, rfl, _, hvv⟩ := sc.face hf'
    rw [Face.toList_map] at hi
    obtain ⟨j, hj, rfl⟩ := List.mem_map.1 hi
    rw [hvv j hj]; exact hpos f hf j hj
  have ccross : QuadsCross part.crown := by
    intro f' hf' h
    obtain ⟨f, hf, _, rfl, _, hvv⟩ := sc.face hf'
    simp only [Face.map] at h ⊢
    rw [hvv f.a (by simp [Face.toList]), hvv f.b (by simp [Face.toList]), hvv f.c (by simp [Face.toList]),
      hvv f.d (by simp [Face.toList])]
    exact hq f hf (fun h' => h (by rw [h']))
  have cnd : ∀ f ∈ part.crown.faces, f.corners.Nodup := by
    intro f' hf'
    obtain ⟨f, hf, hqf, rfl, _, hvv⟩ := sc.face hf'
    have hm := List.mem_filter.2 ⟨hf, hqf⟩
    rw [sc.corners hm]
    refine List.Nodup.map_on ?_ (hnd f hf)
    intro i hi j hj hij
    exact sc.inj f hm _ (Face.corners_sub f i hi) f hm _ (Face.corners_sub f j hj) hij
  have cfl : part.crown.NoSlabSide p tol := by
    intro f' hf' e he h1 h2
    obtain ⟨f, hf, hqf, rfl, _, hvv⟩ := sc.face hf'
    have hm : f ∈ m.faces.filter qc := List.mem_filter.2 ⟨hf, hqf⟩
    rw [directedEdges_map (fun h => sc.inj f hm _ (by simp [Face.toList]) f hm _ (by simp [Face.toList]) h)] at he
    obtain ⟨e0, he0, rfl⟩ := List.mem_map.1 he
    simp only [hvv _ (edges_mem_toList he0).1] at h1
    simp only [hvv _ (edges_mem_toList he0).2] at h2
    rw [Face.toList_map]
    refine (hfl f hf e0 he0 h1 h2).imp ?_ ?_ <;>
    · intro h i hi
      obtain ⟨j, hj, rfl⟩ := List.mem_map.1 hi
      rw [hvv j hj]
      exact h j hj
  have hedge : ∀ t ∈ l, t.2.2.edge.map (fun e => (raw.vert e.1, raw.vert e.2)) =
      t.2.1.tolSectionEdge p tol part.crown.vert ∧ ∀ e, t.2.2.edge = some e → e.1 < raw.nv ∧ e.2 < raw.nv := by
    intro t ht
    have hft : t.2.1 ∈ part.crown.faces := by rw [← hrun.faces_eq]; exact List.mem_map_of_mem ht
    have hok := hrun.ok t ht
    rw [clipFace_plan htol] at hok
    obtain ⟨q, hpl, h1, h2, h3, h4, h5⟩ := evalPlan_ok hok
    obtain ⟨hbad, hidx, q', hpl', _, hlen, _, hcuts⟩ := run_cuts htol sc.wf
      cpos hrun g1 ht
    have hcq : plan (cornerCls p tol part.crown.vert t.2.1) = .ok q := by
      rw [clsList_eq p tol part.crown sc.wf hft] at hpl; exact hpl
    obtain rfl : q = q' := by rw [hcq] at hpl'; exact PlanRes.ok.inj hpl'
    obtain ⟨k1, k2, k3⟩ := hrun.point htol (by simp [Mesh.nv]) t ht
    have hrange := PlanRes.check_ok (table_range _ (cornerCls_mem p tol part.crown.vert t.2.1)) hcq
    simp only [Plan.inRange, Bool.and_eq_true, cornerCls_length] at hrange
    have hrange := hrange.2
    have hold : ∀ i, i < part.crown.nv → raw.vert i = part.crown.vert i := by
      intro i hi
      have : i < part.crown.vertices.length := hi
      simp [Mesh.vert, g1, List.getD_eq_getElem?_getD, List.getElem?_append_left this]
    have hnv : raw.nv = part.crown.vertices.length + st.pts.length := by simp [Mesh.nv, g1]
    have hlt : ∀ k, k < t.2.1.corners.length → t.2.1.corners.getD k 0 < part.crown.nv := fun k hk =>
      sc.wf _ hft _ (Face.corners_sub _ _ (corners_getD_mem hk))
    have hpt : ∀ r, Ref.inRange t.2.1.corners.length q.cuts.length r = true →
        raw.vert (evalRef t.2.1.corners t.1 r) = pt (cornerPt part.crown.vert t.2.1) (fun j => raw.vert (t.1 + j)) r ∧
        evalRef t.2.1.corners t.1 r < raw.nv := by
      intro r hr
      cases r with
      | old k =>
        simp only [Ref.inRange, decide_eq_true_eq] at hr
        have := hlt k hr
        refine ⟨hold _ this, ?_⟩
        rw [hnv]
        simp only [evalRef]
        have h' : t.2.1.corners.getD k 0 < part.crown.vertices.length := this
        omega
      | new j =>
        simp only [Ref.inRange, decide_eq_true_eq] at hr
        refine ⟨rfl, ?_⟩
        simp only [evalRef]
        omega
    rw [plan_tol htol (cpos _ hft) (cls_not_altern htol sc.wf ccross hft)
      (slab_flatOn htol (cfl _ hft)) (cnd _ hft) hcq hcuts, h5]
    cases he : q.edge with
    | none => simp
    | some e =>
      rw [he] at hrange
      simp only [Bool.and_eq_true] at hrange
      have r1 := hpt _ hrange.1
      have r2 := hpt _ hrange.2
      refine ⟨by simp [r1.1, r2.1], ?_⟩
      intro e' he'
      simp only [Option.map_some, Option.some.injEq] at he'
      subst he'
      exact ⟨r1.2, r2.2⟩
  refine ⟨l.filterMap (fun t => t.2.2.edge), raw.vert, raw.nv, newId, ?_, ?_, by rw [e4, hrun.direct], by rw [e5, hrun.inv],
    m1, m2, m3⟩
  · rw [List.map_filterMap]
    have s1 : l.filterMap (fun t => t.2.2.edge.map (fun e => (raw.vert e.1, raw.vert e.2))) =
        (l.map (fun t => t.2.1)).filterMap (fun f => f.tolSectionEdge p tol part.crown.vert) := by
      rw [List.filterMap_map]
      exact List.filterMap_congr (fun t ht => (hedge t ht).1)
    rw [s1, hrun.faces_eq, sc.faces, List.filterMap_map]
    have s2 : (m.faces.filter qc).filterMap ((fun f => f.tolSectionEdge p tol part.crown.vert) ∘ Face.map gc) =
        (m.faces.filter qc).filterMap (Face.tolSectionEdge p tol m.vert) := by
      apply List.filterMap_congr
      intro f hf
      exact tolSectionEdge_map (fun i hi => sc.vert_eq hf hi) (fun i hi j hj => sc.inj f hf i hi f hf j hj)
    rw [s2]
    unfold Mesh.tolSectionEdges
    rw [List.filterMap_filter]
    apply List.filterMap_congr
    intro f hf
    split_ifs with hb
    · rfl
    · symm
      apply tolSectionEdge_none
      rw [hqc] at hb
      simp only [Bool.and_eq_true, Bool.not_eq_true', ← Bool.not_eq_true, not_and_or, not_not] at hb
      rw [allFour_above p tol m hwf hf, allFour_below p tol m hwf hf, decide_eq_true_iff, decide_eq_true_iff] at hb
      rcases hb with hb | hb
      · exact .inl (fun i hi => by have := hb i hi; linarith)
      · exact .inr (fun i hi => by have := hb i hi; linarith)
  · intro e he
    obtain ⟨t, ht, hte⟩ := List.mem_filterMap.1 he
    exact (hedge t ht).2 e hte

/-- **C75** (partial: the diagonals of each quadrangle cross, no corner at exactly the tolerance, no face with a side in the slab
of the tolerance has corners on both sides of it, distinct points apart, no two edges of the section from the same point). For a
watertight mesh which may have vertices within the tolerance of the plane there is no open line, and the boundary polygons returned
by the clipper are the boundary along the plane of the part of the mesh below it: each edge exactly once. -/
theorem C75_polygons_in_slab_partial (srt : (ℕ → K) → List ℕ → List ℕ) (hsrt : IsArgsort srt) (p : Plane K) (tol : K)
    (htol : 0 ≤ tol) (b : Bool) (m : Mesh K) (hwf : m.WF) (hcl : m.ClosedOriented) (hq : QuadsCross m)
    (hnd : ∀ f ∈ m.faces, f.corners.Nodup) (hfl : m.NoSlabSide p tol)
    (hpos : ∀ f ∈ m.faces, ∀ i ∈ f.toList, |p.dist (m.vert i)| ≠ tol) (hsep : m.TolSeparated p tol)
    (hone : ((m.tolSectionEdges p tol).map Prod.fst).Nodup) (c : Clipped K) (hc : clip srt p tol b m = .ok c) :
    c.openLines = [] ∧ c.polygonEdges.Perm (m.tolSectionEdges p tol) := by
  have hbal := tol_balanced hsrt htol hwf hcl hpos hq hsep hnd hfl hc
  obtain ⟨part, cm, direct, inv, hp, hcc, _, _, _, _, hcm, hlines, _⟩ := clip_ok hc
  obtain ⟨_, _, _, _, _, _, _, _, hcp, _⟩ := clip_planned_tol hsrt htol hwf hpos
      (fun f hf => .inr (hnd f hf)) hsep hc
  have hcl' : c.closedPolygons = (extractLines inv direct.length direct).1 := congrArg Prod.fst hlines
  have hop : c.openLines = (extractLines inv direct.length direct).2 := congrArg Prod.snd hlines
  subst hcm
  obtain ⟨es, W, N, newId, hes, hlt, hdir, hinv, w1, w2, w3⟩ := crown_tol hsrt htol hwf hpos hq hnd hfl hp hcc
  have hcpW : ∀ e ∈ es, m.TolClipPoint p tol (W e.1) ∧ m.TolClipPoint p tol (W e.2) := by
    intro e he
    exact tolSection_clipPoint hwf (e := (W e.1, W e.2)) (by rw [← hes]; exact List.mem_map_of_mem he)
  have hvert : ∀ i, i < N → m.TolClipPoint p tol (W i) → c.clippedCrown.vert (newId.getD i 0) = W i := by
    intro i hi hW
    obtain ⟨u, u1, u2⟩ := w3 i hi
    have hu : m.TolClipPoint p tol u := hcp u (List.mem_of_getElem? u1)
    rw [Mesh.vert, List.getD_eq_getElem?_getD, u1]
    exact (hsep _ _ hW hu u2).symm
  have hst : ((es.map (renEdge newId)).map Prod.fst).Nodup := by
    rw [← hes, List.map_map] at hone
    rw [List.map_map]
    refine List.Nodup.of_map (fun i => c.clippedCrown.vert i) ?_
    rw [List.map_map]
    have : es.map ((fun i => c.clippedCrown.vert i) ∘ (Prod.fst ∘ renEdge newId)) =
        es.map (Prod.fst ∘ fun e => (W e.1, W e.2)) := by
      apply List.map_congr_left
      intro e he
      exact hvert _ (hlt e he).1 (hcpW e he).1
    rw [this]
    exact hone
  obtain ⟨_, l2, l3⟩ := lines_of_edges newId es hst hdir hinv
  have hopen : c.openLines = [] := by
    rw [hop, l3]
    classical
    let g : V3 K → ℕ := fun X => if h : ∃ i, i < N ∧ W i = X then newId.getD h.choose 0 else 0
    have hg : ∀ i, i < N → g (W i) = newId.getD i 0 := by
      intro i hi
      have h : ∃ j, j < N ∧ W j = W i := ⟨i, hi, rfl⟩
      simp only [g]
      rw [dif_pos h]
      exact w1 _ _ h.choose_spec.1 hi h.choose_spec.2
    have a1 : (es.map (renEdge newId)).map Prod.snd = ((m.tolSectionEdges p tol).map Prod.snd).map g := by
      rw [← hes, List.map_map, List.map_map, List.map_map]
      apply List.map_congr_left
      intro e he
      exact (hg _ (hlt e he).2).symm
    have a2 : (es.map (renEdge newId)).map Prod.fst = ((m.tolSectionEdges p tol).map Prod.fst).map g := by
      rw [← hes, List.map_map, List.map_map, List.map_map]
      apply List.map_congr_left
      intro e he
      exact (hg _ (hlt e he).1).symm
    rw [a1, a2]
    exact hbal.map g
  refine ⟨hopen, ?_⟩
  unfold Clipped.polygonEdges
  have l2' : (c.closedPolygons.flatMap chainPairs).Perm (es.map (renEdge newId)) := by
    rw [← hcl', ← hop, hopen, List.append_nil] at l2
    exact l2
  refine (l2'.map _).trans ?_
  rw [← hes, List.map_map]
  have : es.map ((fun e => (c.clippedCrown.vert e.1, c.clippedCrown.vert e.2)) ∘ renEdge newId) =
      es.map (fun e => (W e.1, W e.2)) := by
    apply List.map_congr_left
    intro e he
    exact Prod.ext (hvert _ (hlt e he).1 (hcpW e he).1) (hvert _ (hlt e he).2 (hcpW e he).2)
  rw [this]

/-- **C75** (partial, as above). With vertices within the tolerance of the plane, the clipped mesh with the boundary polygons is closed: as many edges
from `u` to `v` as from `v` to `u`. -/
theorem C75_wetted_body_in_slab_partial (srt : (ℕ → K) → List ℕ → List ℕ) (hsrt : IsArgsort srt) (p : Plane K) (tol : K)
    (htol : 0 ≤ tol) (b : Bool) (m : Mesh K) (hwf : m.WF) (hcl : m.ClosedOriented) (hq : QuadsCross m)
    (hnd : ∀ f ∈ m.faces, f.corners.Nodup) (hfl : m.NoSlabSide p tol)
    (hpos : ∀ f ∈ m.faces, ∀ i ∈ f.toList, |p.dist (m.vert i)| ≠ tol) (hsep : m.TolSeparated p tol)
    (hone : ((m.tolSectionEdges p tol).map Prod.fst).Nodup) (c : Clipped K) (hc : clip srt p tol b m = .ok c) (u v : V3 K) :
    c.clipped.pointEdges.count (u, v) + c.polygonEdges.count (u, v) =
      c.clipped.pointEdges.count (v, u) + c.polygonEdges.count (v, u) := by
  have hp := (C75_polygons_in_slab_partial srt hsrt p tol htol b m hwf hcl hq hnd hfl hpos hsep hone c hc).2
  rw [hp.count_eq, hp.count_eq]
  have key := clip_closed_tol hsrt htol hwf hcl hpos hq hsep hnd hfl hc (φ := fun x y =>
    (if (x, y) = (u, v) then (1 : K) else 0) - (if (x, y) = (v, u) then (1 : K) else 0)) (by
      intro x y
      simp only [Prod.mk.injEq]
      by_cases h1 : x = u ∧ y = v <;> by_cases h2 : x = v ∧ y = u
      · rw [if_pos h1, if_pos h2, if_pos ⟨h2.2, h2.1⟩, if_pos ⟨h1.2, h1.1⟩]; ring
      · rw [if_pos h1, if_neg h2, if_neg (fun h => h2 ⟨h.2, h.1⟩), if_pos ⟨h1.2, h1.1⟩]; ring
      · rw [if_neg h1, if_pos h2, if_pos ⟨h2.2, h2.1⟩, if_neg (fun h => h1 ⟨h.2, h.1⟩)]; ring
      · rw [if_neg h1, if_neg h2, if_neg (fun h => h2 ⟨h.2, h.1⟩), if_neg (fun h => h1 ⟨h.2, h.1⟩)]; ring)
  simp only [Prod.mk.eta] at key
  rw [count_antisymm, count_antisymm] at key
  have : ((c.clipped.pointEdges.count (u, v) + (m.tolSectionEdges p tol).count (u, v) : ℕ) : K) =
      ((c.clipped.pointEdges.count (v, u) + (m.tolSectionEdges p tol).count (v, u) : ℕ) : K) := by
    push_cast; linarith
  exact_mod_cast this

/-- **C45** (partial: as above, and no quadrangle has exactly three corners in the slab). A watertight mesh which may have vertices
within the tolerance of the plane is cut along closed polygons only, and the clipper returns as soon as a face has a corner below
the slab and a corner which is not. -/
theorem C45_in_slab_partial (srt : (ℕ → K) → List ℕ → List ℕ) (hsrt : IsArgsort srt) (p : Plane K) (tol : K)
    (htol : 0 ≤ tol) (m : Mesh K) (hwf : m.WF) (hcl : m.ClosedOriented) (hq : QuadsCross m)
    (hnd : ∀ f ∈ m.faces, f.corners.Nodup) (hfl : m.NoSlabSide p tol)
    (hpos : ∀ f ∈ m.faces, ∀ i ∈ f.toList, |p.dist (m.vert i)| ≠ tol) (hsep : m.TolSeparated p tol)
    (hone : ((m.tolSectionEdges p tol).map Prod.fst).Nodup)
    (h3 : ∀ f ∈ m.faces, f.a ≠ f.d → (f.corners.filter (fun i => |p.dist (m.vert i)| < tol)).length ≠ 3) :
    (∀ b c, clip srt p tol b m = .ok c → c.openLines = []) ∧
    ((∃ f ∈ m.faces, (∃ i ∈ f.toList, p.dist (m.vert i) < -tol) ∧ ∃ i ∈ f.toList, -tol ≤ p.dist (m.vert i)) →
      ∀ b, ∃ c, clip srt p tol b m = .ok c) := by
  have hopen : ∀ b c, clip srt p tol b m = .ok c → c.openLines = [] := fun b c hc =>
    (C75_polygons_in_slab_partial srt hsrt p tol htol b m hwf hcl hq hnd hfl hpos hsep hone c hc).1
  refine ⟨hopen, ?_⟩
  rintro ⟨f, hf, ⟨i, hi, hdi⟩, j, hj, hdj⟩
  have hvm : ∀ k ∈ f.toList, m.vert k ∈ m.vertices := by
    intro k hk
    have : k < m.vertices.length := hwf f hf k hk
    simp [Mesh.vert, List.getD_eq_getElem?_getD, this]
  have hfalse : ∃ c, clip srt p tol false m = .ok c := by
    cases hb : clip srt p tol false m with
    | ok c => exact ⟨c, rfl⟩
    | error e =>
      exfalso
      rcases C42_known_cases_partial srt hsrt p tol htol false m hwf
        (fun f hf i hi => hpos f hf i (Face.corners_sub f i hi)) h3 e hb with ⟨_, h⟩ | ⟨_, h⟩ | ⟨_, h⟩ | ⟨_, h⟩
      · linarith [h _ (hvm i hi)]
      · linarith [h _ (hvm j hj)]
      · cases h
      · rcases h f hf with h | h
        · linarith [h _ (toList_corners f j hj)]
        · linarith [h _ (toList_corners f i hi)]
  obtain ⟨c, hc⟩ := hfalse
  intro b
  cases b with
  | false => exact ⟨c, hc⟩
  | true =>
    refine ⟨c, ?_⟩
    have ho := hopen _ _ hc
    unfold clip at hc ⊢
    cases h1 : vertexDists p tol m with
    | error e => simp [h1] at hc
    | ok d =>
      simp only [h1] at hc ⊢
      cases h2 : partition tol d m with
      | error e => simp [h2] at hc
      | ok part =>
        simp only [h2] at hc ⊢
        cases h3 : clipCrown srt p tol part.crown part.crownDists with
        | error e => simp [h3] at hc
        | ok t =>
          obtain ⟨cm, direct, inv⟩ := t
          simp only [h3, Bool.false_and, Bool.false_eq_true, if_false] at hc ⊢
          cases h4 : Mesh.add srt part.lower cm with
          | error e => simp [h4] at hc
          | ok w =>
            simp only [h4, Except.ok.injEq] at hc ⊢
            subst hc
            simp only at ho
            simp [ho]


/-- The points of `TolClipPoint`, as a list. -/
def tolClipPoints (p : Plane K) (tol : K) (m : Mesh K) : List (V3 K) :=
  m.vertices ++ (m.directedEdges.filter (fun e =>
    decide ((tol < p.dist (m.vert e.1) ∧ p.dist (m.vert e.2) < -tol) ∨
      (p.dist (m.vert e.1) < -tol ∧ tol < p.dist (m.vert e.2))))).map (fun e => p.cutPt (m.vert e.1) (m.vert e.2))

lemma tolSeparated_of_list {p : Plane K} {tol : K} {m : Mesh K}
    (h : ∀ X ∈ tolClipPoints p tol m, ∀ Y ∈ tolClipPoints p tol m, V3.Close (1 / 100000) X Y → X = Y) :
    m.TolSeparated p tol := by
  have hm : ∀ X, m.TolClipPoint p tol X → X ∈ tolClipPoints p tol m := by
    rintro X (hX | ⟨e, he, h1, rfl⟩)
    · exact List.mem_append_left _ hX
    · refine List.mem_append_right _ (List.mem_map.2 ⟨e, List.mem_filter.2 ⟨he, by simpa using h1⟩, rfl⟩)
  exact fun X Y hX hY => h X (hm X hX) Y (hm Y hY)

end Clipper

/-- An octahedron with three vertices within `1/1000` of the plane `z = 0`: above it, below it and on it. -/
def slabOcta : Mesh ℚ :=
  ⟨[⟨1, 0, 1 / 2000⟩, ⟨-1, 0, -1 / 3000⟩, ⟨0, 1, 1 / 10⟩, ⟨0, -1, 0⟩, ⟨0, 0, 1⟩, ⟨0, 0, -1⟩],
   [⟨0, 2, 4, 0⟩, ⟨2, 1, 4, 2⟩, ⟨1, 3, 4, 1⟩, ⟨3, 0, 4, 3⟩, ⟨2, 0, 5, 2⟩, ⟨1, 2, 5, 1⟩, ⟨3, 1, 5, 3⟩, ⟨0, 3, 5, 0⟩]⟩

/-- A prism, a trapezium along `y`, with two vertical sides close to the plane `z = 0`. -/
def slabPrism : Mesh ℚ :=
  ⟨[⟨0, 0, 1 / 500⟩, ⟨-1, 0, 1 / 2000⟩, ⟨-1, 0, -1 / 2000⟩, ⟨0, 0, -1 / 500⟩, ⟨0, 1, 1 / 500⟩, ⟨-1, 1, 1 / 2000⟩,
    ⟨-1, 1, -1 / 2000⟩, ⟨0, 1, -1 / 500⟩],
   [⟨0, 3, 2, 1⟩, ⟨4, 5, 6, 7⟩, ⟨0, 1, 5, 4⟩, ⟨1, 2, 6, 5⟩, ⟨2, 3, 7, 6⟩, ⟨3, 0, 4, 7⟩]⟩

lemma slabPrism_strictlyConvex : slabPrism.StrictlyConvexFaces := by
  have h : ∀ f ∈ slabPrism.faces,
      let P := slabPrism.vert
      let n := areaVec (P f.a) (P f.b) (P f.c)
      let k := fun v : V3 ℚ => v.dot n / n.dot n
      f.a ≠ f.d ∧ n ≠ 0 ∧ ∀ v ∈ [areaVec (P f.a) (P f.c) (P f.d), areaVec (P f.a) (P f.b) (P f.d),
        areaVec (P f.b) (P f.c) (P f.d)], 0 < k v ∧ v = k v • n := by decide +kernel
  intro f hf
  obtain ⟨h1, h2, h⟩ := h f hf
  rw [if_neg h1]
  have e1 := h (areaVec (slabPrism.vert f.a) (slabPrism.vert f.c) (slabPrism.vert f.d)) (by simp)
  have e2 := h (areaVec (slabPrism.vert f.a) (slabPrism.vert f.b) (slabPrism.vert f.d)) (by simp)
  have e3 := h (areaVec (slabPrism.vert f.b) (slabPrism.vert f.c) (slabPrism.vert f.d)) (by simp)
  exact ⟨_, 1, _, _, _, one_pos, e1.1, e2.1, e3.1, h2, by rw [one_smul], e1.2, e2.2, e3.2⟩

namespace Clipper

/-- The hypotheses of the theorems above are met by `slabOcta`: the section has four edges, between the vertices in the slab and
the point where an edge through the slab crosses the plane. -/
theorem slabOcta_meets_C75 : ∃ c, clip insArgsort ⟨⟨0, 0, 1⟩, 0⟩ (1 / 1000) true slabOcta = .ok c ∧ slabOcta.WF ∧
    slabOcta.ClosedOriented ∧ QuadsCross slabOcta ∧ (∀ f ∈ slabOcta.faces, f.corners.Nodup) ∧
    slabOcta.NoSlabSide ⟨⟨0, 0, 1⟩, 0⟩ (1 / 1000) ∧
    (∀ f ∈ slabOcta.faces, ∀ i ∈ f.toList, |(⟨⟨0, 0, 1⟩, 0⟩ : Plane ℚ).dist (slabOcta.vert i)| ≠ 1 / 1000) ∧
    slabOcta.TolSeparated ⟨⟨0, 0, 1⟩, 0⟩ (1 / 1000) ∧
    ((slabOcta.tolSectionEdges ⟨⟨0, 0, 1⟩, 0⟩ (1 / 1000)).map Prod.fst).Nodup ∧
    (∀ f ∈ slabOcta.faces, f.a ≠ f.d →
      (f.corners.filter (fun i => |(⟨⟨0, 0, 1⟩, 0⟩ : Plane ℚ).dist (slabOcta.vert i)| < 1 / 1000)).length ≠ 3) ∧
    (∃ f ∈ slabOcta.faces, (∃ i ∈ f.toList, (⟨⟨0, 0, 1⟩, 0⟩ : Plane ℚ).dist (slabOcta.vert i) < -(1 / 1000)) ∧
      ∃ i ∈ f.toList, -(1 / 1000) ≤ (⟨⟨0, 0, 1⟩, 0⟩ : Plane ℚ).dist (slabOcta.vert i)) ∧
    slabOcta.tolSectionEdges ⟨⟨0, 0, 1⟩, 0⟩ (1 / 1000) =
      [(⟨1, 0, 1 / 2000⟩, ⟨0, 10 / 11, 0⟩), (⟨0, 10 / 11, 0⟩, ⟨-1, 0, -1 / 3000⟩), (⟨-1, 0, -1 / 3000⟩, ⟨0, -1, 0⟩),
        (⟨0, -1, 0⟩, ⟨1, 0, 1 / 2000⟩)] := by
  have h : (match clip insArgsort (⟨⟨0, 0, 1⟩, 0⟩ : Plane ℚ) (1 / 1000) true slabOcta with
      | .ok _ => true
      | .error _ => false) = true := by decide +kernel
  split at h
  · rename_i c hc
    refine ⟨c, hc, by decide +kernel, closedOriented_of_manifold (by decide +kernel) (by decide +kernel), ?_, by decide +kernel,
      ?_, by decide +kernel, tolSeparated_of_list (by decide +kernel), by decide +kernel, by decide +kernel, by decide +kernel,
      by decide +kernel⟩
    · have : ∀ f ∈ slabOcta.faces, f.a = f.d := by decide +kernel
      exact fun f hf hn => absurd (this f hf) hn
    · show ∀ f ∈ slabOcta.faces, ∀ e ∈ f.directedEdges, |(⟨⟨0, 0, 1⟩, 0⟩ : Plane ℚ).dist (slabOcta.vert e.1)| < 1 / 1000 →
        |(⟨⟨0, 0, 1⟩, 0⟩ : Plane ℚ).dist (slabOcta.vert e.2)| < 1 / 1000 →
        (∀ i ∈ f.toList, (⟨⟨0, 0, 1⟩, 0⟩ : Plane ℚ).dist (slabOcta.vert i) ≤ 1 / 1000) ∨
          (∀ i ∈ f.toList, -(1 / 1000) ≤ (⟨⟨0, 0, 1⟩, 0⟩ : Plane ℚ).dist (slabOcta.vert i))
      decide +kernel
  · simp at h

/-- **C45 fails** without the hypothesis on the sides in the slab, even for a convex body: a face with a side within the tolerance
of the plane and corners above and below it is cut along its diagonal. The clipper fails with the open curve error on this
watertight prism, with the default tolerance, although no corner is at the tolerance, no quadrangle has three corners in the slab
and distinct points are apart. -/
theorem C45_fails_in_slab : clip insArgsort (⟨⟨0, 0, 1⟩, 0⟩ : Plane ℚ) (1 / 1000) true slabPrism = .error .openCurve ∧
    slabPrism.WF ∧ slabPrism.ClosedOriented ∧ slabPrism.StrictlyConvexFaces ∧
    (∀ f ∈ slabPrism.faces, ∀ i ∈ f.toList, |(⟨⟨0, 0, 1⟩, 0⟩ : Plane ℚ).dist (slabPrism.vert i)| ≠ 1 / 1000) ∧
    slabPrism.TolSeparated ⟨⟨0, 0, 1⟩, 0⟩ (1 / 1000) ∧
    ((slabPrism.tolSectionEdges ⟨⟨0, 0, 1⟩, 0⟩ (1 / 1000)).map Prod.fst).Nodup ∧
    (∀ f ∈ slabPrism.faces,
      (f.corners.filter (fun i => |(⟨⟨0, 0, 1⟩, 0⟩ : Plane ℚ).dist (slabPrism.vert i)| < 1 / 1000)).length ≠ 3) := by
  have h : (match clip insArgsort (⟨⟨0, 0, 1⟩, 0⟩ : Plane ℚ) (1 / 1000) true slabPrism with
      | .error .openCurve => true
      | _ => false) = true := by decide +kernel
  refine ⟨?_, by decide +kernel, closedOriented_of_manifold (by decide +kernel) (by decide +kernel), slabPrism_strictlyConvex,
    by decide +kernel, tolSeparated_of_list (by decide +kernel), by decide +kernel, by decide +kernel⟩
  split at h
  · assumption
  · simp at h

end Clipper
end MM
