import Verif.Proofs.ClipSection
import Verif.Props.ClipConvex
import Verif.Props.ClipBody
import Verif.Proofs.RealMesh

/-!
# C75, with vertices on the plane
-/

namespace MM
namespace Clipper

set_option linter.unusedSectionVars false
set_option linter.unusedSimpArgs false
set_option linter.unusedVariables false

variable {K : Type*} [Field K] [LinearOrder K] [IsStrictOrderedRing K]

/-- Renumbering of the corners of a face. -/
lemma lowerSectionEdge_map {p : Plane K} {V V' : ℕ → V3 K} {g : ℕ → ℕ} {f : Face} (hV : ∀ i ∈ f.toList, V' (g i) = V i)
    (hinj : ∀ i ∈ f.toList, ∀ j ∈ f.toList, g i = g j → i = j) :
    (f.map g).lowerSectionEdge p V' = f.lowerSectionEdge p V := by
  unfold Face.lowerSectionEdge
  have hde : (f.map g).directedEdges = f.directedEdges.map (fun e => (g e.1, g e.2)) :=
    directedEdges_map (hinj _ (by simp [Face.toList]) _ (by simp [Face.toList]))
  have hfind : ∀ (Q : V3 K → V3 K → Bool), (f.map g).directedEdges.find? (fun e => Q (V' e.1) (V' e.2)) =
      (f.directedEdges.find? (fun e => Q (V e.1) (V e.2))).map (fun e => (g e.1, g e.2)) := by
    intro Q
    rw [hde, List.find?_map]
    congr 1
    have : ∀ L : List (ℕ × ℕ), (∀ e ∈ L, e.1 ∈ f.toList ∧ e.2 ∈ f.toList) →
        L.find? ((fun e => Q (V' e.1) (V' e.2)) ∘ fun e => (g e.1, g e.2)) = L.find? (fun e => Q (V e.1) (V e.2)) := by
      intro L hL
      induction L with
      | nil => rfl
      | cons a L ih =>
        have h1 := hL a (by simp)
        simp only [List.find?_cons, Function.comp, hV _ h1.1, hV _ h1.2]
        split
        · rfl
        · exact ih (fun e he => hL e (List.mem_cons_of_mem _ he))
    exact this _ (fun e he => edges_mem_toList he)
  have h1 := hfind (fun x y => decide (0 ≤ p.dist x) && decide (p.dist y < 0))
  have h2 := hfind (fun x y => decide (p.dist x < 0) && decide (0 ≤ p.dist y))
  rw [h1, h2]
  cases e1 : f.directedEdges.find? (fun e => decide (0 ≤ p.dist (V e.1)) && decide (p.dist (V e.2) < 0)) with
  | none => simp
  | some e =>
    cases e2 : f.directedEdges.find? (fun e => decide (p.dist (V e.1) < 0) && decide (0 ≤ p.dist (V e.2))) with
    | none => simp
    | some e' =>
      have m1 := edges_mem_toList (List.mem_of_find?_eq_some e1)
      have m2 := edges_mem_toList (List.mem_of_find?_eq_some e2)
      simp only [Option.map_some, hV _ m1.1, hV _ m1.2, hV _ m2.1, hV _ m2.2]
      have : g e.1 = g e'.2 ↔ e.1 = e'.2 := ⟨hinj _ m1.1 _ m2.2, fun h => by rw [h]⟩
      simp only [this]

lemma lowerSectionEdge_none {p : Plane K} {V : ℕ → V3 K} {f : Face}
    (h : (∀ i ∈ f.toList, 0 ≤ p.dist (V i)) ∨ (∀ i ∈ f.toList, p.dist (V i) < 0)) : f.lowerSectionEdge p V = none := by
  have : f.directedEdges.find? (fun e => decide (0 ≤ p.dist (V e.1)) && decide (p.dist (V e.2) < 0)) = none := by
    rw [List.find?_eq_none]
    intro e he
    have m := edges_mem_toList he
    simp only [Bool.and_eq_true, decide_eq_true_eq]
    rintro ⟨h1, h2⟩
    rcases h with h | h
    · exact absurd (h _ m.2) (not_le.2 h2)
    · exact absurd (h _ m.1) (not_lt.2 h1)
  unfold Face.lowerSectionEdge
  rw [this]

/-- The ends of the edges are points that clipping deals with. -/
lemma lowerSection_clipPoint {p : Plane K} {m : Mesh K} (hwf : m.WF) {e : V3 K × V3 K} (he : e ∈ m.lowerSectionEdges p) :
    m.ClipPoint p e.1 ∧ m.ClipPoint p e.2 := by
  obtain ⟨f, hf, hfe⟩ := List.mem_filterMap.1 he
  unfold Face.lowerSectionEdge at hfe
  have hv : ∀ i ∈ f.toList, m.vert i ∈ m.vertices := by
    intro i hi
    have : i < m.vertices.length := hwf f hf i hi
    simp [Mesh.vert, List.getD_eq_getElem?_getD, this]
  split at hfe
  · rename_i a a' h1 h2
    have m1 := List.mem_of_find?_eq_some h1
    have m2 := List.mem_of_find?_eq_some h2
    have p1 := List.find?_some h1
    have p2 := List.find?_some h2
    simp only [Bool.and_eq_true, decide_eq_true_eq] at p1 p2
    split_ifs at hfe
    simp only [Option.some.injEq] at hfe
    subst hfe
    constructor
    · rcases p1.1.lt_or_eq with h | h
      · exact .inr ⟨a, List.mem_flatMap.2 ⟨f, hf, m1⟩, mul_neg_of_pos_of_neg h p1.2, rfl⟩
      · refine .inl ?_
        simp only
        rw [cutPt_left h.symm p1.2.ne]
        exact hv _ (edges_mem_toList m1).1
    · rcases p2.2.lt_or_eq with h | h
      · exact .inr ⟨a', List.mem_flatMap.2 ⟨f, hf, m2⟩, mul_neg_of_neg_of_pos p2.1 h, rfl⟩
      · refine .inl ?_
        simp only
        rw [cutPt_symm, cutPt_left h.symm p2.1.ne]
        exact hv _ (edges_mem_toList m2).2
  · simp at hfe

lemma crown_section {srt : (ℕ → K) → List ℕ → List ℕ} (hsrt : IsArgsort srt) {p : Plane K} {tol : K}
    (htol : 0 ≤ tol) {m : Mesh K} (hwf : m.WF)
    (hpos : ∀ f ∈ m.faces, ∀ i ∈ f.toList, p.Clear tol (m.vert i)) (hcv : m.StrictlyConvexFaces)
    {part : Partition K} (hp : partition tol (m.vertices.map p.dist) m = .ok part)
    {cm : Mesh K} {direct inv : List (ℕ × ℕ)}
    (hcc : clipCrown srt p tol part.crown part.crownDists = .ok (cm, direct, inv)) :
    ∃ (es : List (ℕ × ℕ)) (W : ℕ → V3 K) (N : ℕ) (newId : List ℕ),
      es.map (fun e => (W e.1, W e.2)) = m.lowerSectionEdges p ∧ (∀ e ∈ es, e.1 < N ∧ e.2 < N) ∧
      direct = remap newId (es.foldl (fun d e => dictSet d e.1 e.2) []) ∧
      inv = remap newId (es.foldl (fun d e => dictSet d e.2 e.1) []) ∧
      (∀ i j, i < N → j < N → W i = W j → newId.getD i 0 = newId.getD j 0) ∧
      (∀ i j, i < N → j < N → newId.getD i 0 = newId.getD j 0 → V3.Close (1 / 100000) (W i) (W j)) ∧
      (∀ i, i < N → ∃ u, cm.vertices[newId.getD i 0]? = some u ∧ V3.Close (1 / 100000) (W i) u) := by
  obtain ⟨part', gu, gc, gl, hp', su, sc, sl, hcd⟩ := partition_spec p tol m hwf
  rw [hp] at hp'
  cases hp'
  obtain ⟨st, raw, newId, e1, e2, e3, e4, e5⟩ := clipCrown_ok hcc
  rw [hcd] at e1
  obtain ⟨l, hrun⟩ := clipLoop_ok e1
  obtain ⟨hw, hv⟩ := raw_wf htol sc.wf hrun e2
  obtain ⟨g0, g1, g2⟩ := mkMesh_ok e2
  obtain ⟨m1, m2, m3⟩ := merge_ids hsrt (by positivity) hw hv e3
  have hq := strictlyConvex_cross hcv
  set qc := fun f => !allFour (isAbove tol) (m.vertices.map p.dist) f &&
        !allFour (isBelow tol) (m.vertices.map p.dist) f with hqc
  have cpos : ∀ f ∈ part.crown.faces, ∀ i ∈ f.toList, p.Clear tol (part.crown.vert i) := by
    intro f' hf' i hi
    obtain ⟨f, hf, _, rfl, _, hvv⟩ := sc.face hf'
    rw [Face.toList_map] at hi
    obtain ⟨j, hj, rfl⟩ := List.mem_map.1 hi
    rw [hvv j hj]; exact hpos f hf j hj
  have ccross : QuadsCross part.crown := by
    intro f' hf' h
    obtain ⟨f, hf, _, rfl, _, hvv⟩ := sc.face hf'
    simp only [Face.map] at h ⊢
    rw [hvv f.a (by simp [Face.toList]), hvv f.b (by simp [Face.toList]), hvv f.c (by simp [Face.toList]),
      hvv f.d (by simp [Face.toList])]
    exact hq f hf (fun h' => h (by rw [h']))
  have ccv : part.crown.StrictlyConvexFaces := by
    intro f' hf'
    obtain ⟨f, hf, hqf, rfl, _, hvv⟩ := sc.face hf'
    have hm : f ∈ m.faces.filter qc := List.mem_filter.2 ⟨hf, hqf⟩
    have hiff : (f.map gc).a = (f.map gc).d ↔ f.a = f.d := by
      simp only [Face.map]
      exact ⟨fun h => sc.inj f hm _ (by simp [Face.toList]) f hm _ (by simp [Face.toList]) h, fun h => by rw [h]⟩
    have := hcv f hf
    simp only [hiff]
    simp only [Face.map]
    rw [hvv f.a (by simp [Face.toList]), hvv f.b (by simp [Face.toList]), hvv f.c (by simp [Face.toList]),
      hvv f.d (by simp [Face.toList])]
    exact this
  have hedge : ∀ t ∈ l, t.2.2.edge.map (fun e => (raw.vert e.1, raw.vert e.2)) =
      t.2.1.lowerSectionEdge p part.crown.vert ∧ ∀ e, t.2.2.edge = some e → e.1 < raw.nv ∧ e.2 < raw.nv := by
    intro t ht
    have hft : t.2.1 ∈ part.crown.faces := by rw [← hrun.faces_eq]; exact List.mem_map_of_mem ht
    have hok := hrun.ok t ht
    rw [clipFace_plan htol] at hok
    obtain ⟨q, hpl, h1, h2, h3, h4, h5⟩ := evalPlan_ok hok
    obtain ⟨hbad, hidx, q', hpl', _, hlen, _, hcuts⟩ := run_cuts htol sc.wf
      (fun f hf i hi => clear_notAt (cpos f hf i hi)) hrun g1 ht
    have hcq : plan (cornerCls p tol part.crown.vert t.2.1) = .ok q := by
      rw [clsList_eq p tol part.crown sc.wf hft] at hpl; exact hpl
    obtain rfl : q = q' := by rw [hcq] at hpl'; exact PlanRes.ok.inj hpl'
    obtain ⟨k1, k2, k3⟩ := hrun.point htol (by simp [Mesh.nv]) t ht
    have hrange := PlanRes.check_ok (table_range _ (cornerCls_mem p tol part.crown.vert t.2.1)) hcq
    simp only [Plan.inRange, Bool.and_eq_true, cornerCls_length] at hrange
    have hrange := hrange.2
    have hold : ∀ i, i < part.crown.nv → raw.vert i = part.crown.vert i := by
      intro i hi
      have : i < part.crown.vertices.length := hi
      simp [Mesh.vert, g1, List.getD_eq_getElem?_getD, List.getElem?_append_left this]
    have hnv : raw.nv = part.crown.vertices.length + st.pts.length := by simp [Mesh.nv, g1]
    have hlt : ∀ k, k < t.2.1.corners.length → t.2.1.corners.getD k 0 < part.crown.nv := fun k hk =>
      sc.wf _ hft _ (Face.corners_sub _ _ (corners_getD_mem hk))
    have hpt : ∀ r, Ref.inRange t.2.1.corners.length q.cuts.length r = true →
        raw.vert (evalRef t.2.1.corners t.1 r) = pt (cornerPt part.crown.vert t.2.1) (fun j => raw.vert (t.1 + j)) r ∧
        evalRef t.2.1.corners t.1 r < raw.nv := by
      intro r hr
      cases r with
      | old k =>
        simp only [Ref.inRange, decide_eq_true_eq] at hr
        have := hlt k hr
        refine ⟨hold _ this, ?_⟩
        rw [hnv]
        simp only [evalRef]
        have h' : t.2.1.corners.getD k 0 < part.crown.vertices.length := this
        omega
      | new j =>
        simp only [Ref.inRange, decide_eq_true_eq] at hr
        refine ⟨rfl, ?_⟩
        simp only [evalRef]
        omega
    rw [plan_section htol (cpos _ hft) (cls_not_altern htol sc.wf ccross hft)
      (not_flatOn htol (cpos _ hft) (ccross _ hft) (ccv _ hft)) (corners_nodup (ccv _ hft)) hcq hcuts, h5]
    cases he : q.edge with
    | none => simp
    | some e =>
      rw [he] at hrange
      simp only [Bool.and_eq_true] at hrange
      have r1 := hpt _ hrange.1
      have r2 := hpt _ hrange.2
      refine ⟨by simp [r1.1, r2.1], ?_⟩
      intro e' he'
      simp only [Option.map_some, Option.some.injEq] at he'
      subst he'
      exact ⟨r1.2, r2.2⟩
  refine ⟨l.filterMap (fun t => t.2.2.edge), raw.vert, raw.nv, newId, ?_, ?_, by rw [e4, hrun.direct], by rw [e5, hrun.inv],
    m1, m2, m3⟩
  · rw [List.map_filterMap]
    have s1 : l.filterMap (fun t => t.2.2.edge.map (fun e => (raw.vert e.1, raw.vert e.2))) =
        (l.map (fun t => t.2.1)).filterMap (fun f => f.lowerSectionEdge p part.crown.vert) := by
      rw [List.filterMap_map]
      exact List.filterMap_congr (fun t ht => (hedge t ht).1)
    rw [s1, hrun.faces_eq, sc.faces, List.filterMap_map]
    have s2 : (m.faces.filter qc).filterMap ((fun f => f.lowerSectionEdge p part.crown.vert) ∘ Face.map gc) =
        (m.faces.filter qc).filterMap (Face.lowerSectionEdge p m.vert) := by
      apply List.filterMap_congr
      intro f hf
      exact lowerSectionEdge_map (fun i hi => sc.vert_eq hf hi) (fun i hi j hj => sc.inj f hf i hi f hf j hj)
    rw [s2]
    unfold Mesh.lowerSectionEdges
    rw [List.filterMap_filter]
    apply List.filterMap_congr
    intro f hf
    split_ifs with hb
    · rfl
    · symm
      apply lowerSectionEdge_none
      rw [hqc] at hb
      simp only [Bool.and_eq_true, Bool.not_eq_true', ← Bool.not_eq_true, not_and_or, not_not] at hb
      rw [allFour_above p tol m hwf hf, allFour_below p tol m hwf hf, decide_eq_true_iff, decide_eq_true_iff] at hb
      rcases hb with hb | hb
      · exact .inl (fun i hi => by have := hb i hi; linarith)
      · exact .inr (fun i hi => by have := hb i hi; linarith)
  · intro e he
    obtain ⟨t, ht, hte⟩ := List.mem_filterMap.1 he
    exact (hedge t ht).2 e hte

/-- **C75** (partial: strictly convex faces, each vertex on the plane or farther from it than the tolerance, distinct points
apart, no two edges of the section from the same point). For a watertight mesh which may have vertices on the plane there is no
open line, and the boundary polygons returned by the clipper are the boundary in the plane of the part of the mesh below it: each
edge exactly once. -/
theorem C75_polygons_on_plane_partial (srt : (ℕ → K) → List ℕ → List ℕ) (hsrt : IsArgsort srt) (p : Plane K) (tol : K)
    (htol : 0 ≤ tol) (b : Bool) (m : Mesh K) (hwf : m.WF) (hcl : m.ClosedOriented) (hcv : m.StrictlyConvexFaces)
    (hpos : ∀ f ∈ m.faces, ∀ i ∈ f.toList, p.Clear tol (m.vert i)) (hsep : m.WellSeparated p)
    (hone : ((m.lowerSectionEdges p).map Prod.fst).Nodup) (c : Clipped K) (hc : clip srt p tol b m = .ok c) :
    c.openLines = [] ∧ c.polygonEdges.Perm (m.lowerSectionEdges p) := by
  have hq := strictlyConvex_cross hcv
  have hbal := section_balanced hsrt htol hwf hcl hpos hq hsep hcv hc
  obtain ⟨part, cm, direct, inv, hp, hcc, _, _, _, _, hcm, hlines, _⟩ := clip_ok hc
  obtain ⟨_, _, _, _, _, _, _, _, hcp, _⟩ := clip_planned_notAt hsrt htol hwf (fun f hf i hi => clear_notAt (hpos f hf i hi))
      (fun f hf => .inr (corners_nodup (hcv f hf))) hsep hc
  have hcl' : c.closedPolygons = (extractLines inv direct.length direct).1 := congrArg Prod.fst hlines
  have hop : c.openLines = (extractLines inv direct.length direct).2 := congrArg Prod.snd hlines
  subst hcm
  obtain ⟨es, W, N, newId, hes, hlt, hdir, hinv, w1, w2, w3⟩ := crown_section hsrt htol hwf hpos hcv hp hcc
  have hcpW : ∀ e ∈ es, m.ClipPoint p (W e.1) ∧ m.ClipPoint p (W e.2) := by
    intro e he
    exact lowerSection_clipPoint hwf (e := (W e.1, W e.2)) (by rw [← hes]; exact List.mem_map_of_mem he)
  have hvert : ∀ i, i < N → m.ClipPoint p (W i) → c.clippedCrown.vert (newId.getD i 0) = W i := by
    intro i hi hW
    obtain ⟨u, u1, u2⟩ := w3 i hi
    have hu : m.ClipPoint p u := hcp u (List.mem_of_getElem? u1)
    rw [Mesh.vert, List.getD_eq_getElem?_getD, u1]
    exact (hsep _ _ hW hu u2).symm
  have hst : ((es.map (renEdge newId)).map Prod.fst).Nodup := by
    rw [← hes, List.map_map] at hone
    rw [List.map_map]
    refine List.Nodup.of_map (fun i => c.clippedCrown.vert i) ?_
    rw [List.map_map]
    have : es.map ((fun i => c.clippedCrown.vert i) ∘ (Prod.fst ∘ renEdge newId)) =
        es.map (Prod.fst ∘ fun e => (W e.1, W e.2)) := by
      apply List.map_congr_left
      intro e he
      exact hvert _ (hlt e he).1 (hcpW e he).1
    rw [this]
    exact hone
  obtain ⟨_, l2, l3⟩ := lines_of_edges newId es hst hdir hinv
  have hopen : c.openLines = [] := by
    rw [hop, l3]
    classical
    let g : V3 K → ℕ := fun X => if h : ∃ i, i < N ∧ W i = X then newId.getD h.choose 0 else 0
    have hg : ∀ i, i < N → g (W i) = newId.getD i 0 := by
      intro i hi
      have h : ∃ j, j < N ∧ W j = W i := ⟨i, hi, rfl⟩
      simp only [g]
      rw [dif_pos h]
      exact w1 _ _ h.choose_spec.1 hi h.choose_spec.2
    have a1 : (es.map (renEdge newId)).map Prod.snd = ((m.lowerSectionEdges p).map Prod.snd).map g := by
      rw [← hes, List.map_map, List.map_map, List.map_map]
      apply List.map_congr_left
      intro e he
      exact (hg _ (hlt e he).2).symm
    have a2 : (es.map (renEdge newId)).map Prod.fst = ((m.lowerSectionEdges p).map Prod.fst).map g := by
      rw [← hes, List.map_map, List.map_map, List.map_map]
      apply List.map_congr_left
      intro e he
      exact (hg _ (hlt e he).1).symm
    rw [a1, a2]
    exact hbal.map g
  refine ⟨hopen, ?_⟩
  unfold Clipped.polygonEdges
  have l2' : (c.closedPolygons.flatMap chainPairs).Perm (es.map (renEdge newId)) := by
    rw [← hcl', ← hop, hopen, List.append_nil] at l2
    exact l2
  refine (l2'.map _).trans ?_
  rw [← hes, List.map_map]
  have : es.map ((fun e => (c.clippedCrown.vert e.1, c.clippedCrown.vert e.2)) ∘ renEdge newId) =
      es.map (fun e => (W e.1, W e.2)) := by
    apply List.map_congr_left
    intro e he
    exact Prod.ext (hvert _ (hlt e he).1 (hcpW e he).1) (hvert _ (hlt e he).2 (hcpW e he).2)
  rw [this]

/-- **C75** (partial, as above). With vertices on the plane, the clipped mesh with the boundary polygons is closed: as many edges
from `u` to `v` as from `v` to `u`. -/
theorem C75_wetted_body_on_plane_partial (srt : (ℕ → K) → List ℕ → List ℕ) (hsrt : IsArgsort srt) (p : Plane K) (tol : K)
    (htol : 0 ≤ tol) (b : Bool) (m : Mesh K) (hwf : m.WF) (hcl : m.ClosedOriented) (hcv : m.StrictlyConvexFaces)
    (hpos : ∀ f ∈ m.faces, ∀ i ∈ f.toList, p.Clear tol (m.vert i)) (hsep : m.WellSeparated p)
    (hone : ((m.lowerSectionEdges p).map Prod.fst).Nodup) (c : Clipped K) (hc : clip srt p tol b m = .ok c) (u v : V3 K) :
    c.clipped.pointEdges.count (u, v) + c.polygonEdges.count (u, v) =
      c.clipped.pointEdges.count (v, u) + c.polygonEdges.count (v, u) := by
  have hp := (C75_polygons_on_plane_partial srt hsrt p tol htol b m hwf hcl hcv hpos hsep hone c hc).2
  rw [hp.count_eq, hp.count_eq]
  have key := clip_closed_section hsrt htol hwf hcl hpos (strictlyConvex_cross hcv) hsep hcv hc (φ := fun x y =>
    (if (x, y) = (u, v) then (1 : K) else 0) - (if (x, y) = (v, u) then (1 : K) else 0)) (by
      intro x y
      simp only [Prod.mk.injEq]
      by_cases h1 : x = u ∧ y = v <;> by_cases h2 : x = v ∧ y = u
      · rw [if_pos h1, if_pos h2, if_pos ⟨h2.2, h2.1⟩, if_pos ⟨h1.2, h1.1⟩]; ring
      · rw [if_pos h1, if_neg h2, if_neg (fun h => h2 ⟨h.2, h.1⟩), if_pos ⟨h1.2, h1.1⟩]; ring
      · rw [if_neg h1, if_pos h2, if_pos ⟨h2.2, h2.1⟩, if_neg (fun h => h1 ⟨h.2, h.1⟩)]; ring
      · rw [if_neg h1, if_neg h2, if_neg (fun h => h2 ⟨h.2, h.1⟩), if_neg (fun h => h1 ⟨h.2, h.1⟩)]; ring)
  simp only [Prod.mk.eta] at key
  rw [count_antisymm, count_antisymm] at key
  have : ((c.clipped.pointEdges.count (u, v) + (m.lowerSectionEdges p).count (u, v) : ℕ) : K) =
      ((c.clipped.pointEdges.count (v, u) + (m.lowerSectionEdges p).count (v, u) : ℕ) : K) := by
    push_cast; linarith
  exact_mod_cast this

/-- Boundary in the plane, for a plane and a mesh with rational coordinates. -/
lemma lowerSectionEdges_real (p : Plane ℚ) (m : Mesh ℚ) : m.real.lowerSectionEdges p.real =
    (m.lowerSectionEdges p).map (fun e => (e.1.real, e.2.real)) := by
  unfold Mesh.lowerSectionEdges
  rw [List.map_filterMap]
  apply List.filterMap_congr
  intro f _
  unfold Face.lowerSectionEdge
  simp only [Mesh.real_vert, Plane.real_dist, Plane.real_cutPt, Rat.cast_nonneg, Rat.cast_lt_zero, Rat.cast_eq_zero]
  split <;> simp_all
  split_ifs <;> rfl

lemma lowerSection_nodup_real {p : Plane ℚ} {m : Mesh ℚ} (h : ((m.lowerSectionEdges p).map Prod.fst).Nodup) :
    ((m.real.lowerSectionEdges p.real).map Prod.fst).Nodup := by
  rw [lowerSectionEdges_real, List.map_map]
  have : Prod.fst ∘ (fun e : V3 ℚ × V3 ℚ => (e.1.real, e.2.real)) = V3.real ∘ Prod.fst := rfl
  rw [this, ← List.map_map]
  exact h.map (fun a b h => V3.real_inj.1 h)

end Clipper

/-- A regular octahedron. -/
def octaMesh : Mesh ℚ :=
  ⟨[⟨1, 0, 0⟩, ⟨-1, 0, 0⟩, ⟨0, 1, 0⟩, ⟨0, -1, 0⟩, ⟨0, 0, 1⟩, ⟨0, 0, -1⟩],
   [⟨0, 2, 4, 0⟩, ⟨2, 1, 4, 2⟩, ⟨1, 3, 4, 1⟩, ⟨3, 0, 4, 3⟩, ⟨2, 0, 5, 2⟩, ⟨1, 2, 5, 1⟩, ⟨3, 1, 5, 3⟩, ⟨0, 3, 5, 0⟩]⟩

lemma octaMesh_strictlyConvex : octaMesh.StrictlyConvexFaces := by
  have h : ∀ f ∈ octaMesh.faces, f.a = f.d ∧ areaVec (octaMesh.vert f.a) (octaMesh.vert f.b) (octaMesh.vert f.c) ≠ 0 := by
    decide +kernel
  intro f hf
  rw [if_pos (h f hf).1]
  exact (h f hf).2

namespace Clipper

/-- The hypotheses of the two theorems above are met by the octahedron cut at `z = 0`, where it has four vertices and four edges:
the section has these four edges. -/
theorem octa_meets_C75 : ∃ c, clip insArgsort ⟨⟨0, 0, 1⟩, 0⟩ (1 / 1000) true octaMesh = .ok c ∧ octaMesh.WF ∧
    octaMesh.ClosedOriented ∧ octaMesh.StrictlyConvexFaces ∧
    (∀ f ∈ octaMesh.faces, ∀ i ∈ f.toList, (⟨⟨0, 0, 1⟩, 0⟩ : Plane ℚ).Clear (1 / 1000) (octaMesh.vert i)) ∧
    octaMesh.WellSeparated ⟨⟨0, 0, 1⟩, 0⟩ ∧ ((octaMesh.lowerSectionEdges ⟨⟨0, 0, 1⟩, 0⟩).map Prod.fst).Nodup ∧
    octaMesh.lowerSectionEdges ⟨⟨0, 0, 1⟩, 0⟩ = [(⟨1, 0, 0⟩, ⟨0, 1, 0⟩), (⟨0, 1, 0⟩, ⟨-1, 0, 0⟩), (⟨-1, 0, 0⟩, ⟨0, -1, 0⟩),
      (⟨0, -1, 0⟩, ⟨1, 0, 0⟩)] := by
  have h : (match clip insArgsort (⟨⟨0, 0, 1⟩, 0⟩ : Plane ℚ) (1 / 1000) true octaMesh with
      | .ok _ => true
      | .error _ => false) = true := by decide +kernel
  split at h
  · rename_i c hc
    refine ⟨c, hc, by decide +kernel, closedOriented_of_manifold (by decide +kernel) (by decide +kernel),
      octaMesh_strictlyConvex, ?_, wellSeparated_of_list (by decide +kernel), by decide +kernel, by decide +kernel⟩
    show ∀ f ∈ octaMesh.faces, ∀ i ∈ f.toList, 1 / 1000 < |(⟨⟨0, 0, 1⟩, 0⟩ : Plane ℚ).dist (octaMesh.vert i)| ∨
      ((⟨⟨0, 0, 1⟩, 0⟩ : Plane ℚ).dist (octaMesh.vert i) = 0 ∧ (0 : ℚ) < 1 / 1000)
    decide +kernel
  · simp at h

end Clipper
end MM
