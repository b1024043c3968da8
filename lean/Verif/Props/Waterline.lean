import Verif.Props.ImmersedBody

/-!
# C86: length and breadth at the waterline, forward perpendicular
-/

namespace MM
namespace Hydro

open Clipper

set_option linter.unusedSectionVars false
set_option linter.unusedSimpArgs false

lemma foldl_max_greatest : ∀ (l : List ℝ) (a : ℝ), IsGreatest {x | x ∈ a :: l} (l.foldl max a) := by
  intro l
  induction l with
  | nil => intro a; exact ⟨by simp, by intro x hx; simp at hx; exact hx.le⟩
  | cons b l ih =>
    intro a
    obtain ⟨h1, h2⟩ := ih (max a b)
    refine ⟨?_, ?_⟩
    · rw [List.foldl_cons]
      rcases List.mem_cons.1 h1 with h | h
      · rw [h]
        rcases max_choice a b with h | h <;> rw [h] <;> simp
      · exact List.mem_cons_of_mem _ (List.mem_cons_of_mem _ h)
    · intro x hx
      rw [List.foldl_cons]
      have h0 : max a b ≤ l.foldl max (max a b) := h2 (List.mem_cons_self ..)
      rcases List.mem_cons.1 hx with rfl | hx
      · exact (le_max_left _ _).trans h0
      rcases List.mem_cons.1 hx with rfl | hx
      · exact (le_max_right _ _).trans h0
      · exact h2 (List.mem_cons_of_mem _ hx)

lemma foldl_min_least : ∀ (l : List ℝ) (a : ℝ), IsLeast {x | x ∈ a :: l} (l.foldl min a) := by
  intro l
  induction l with
  | nil => intro a; exact ⟨by simp, by intro x hx; simp at hx; exact hx.ge⟩
  | cons b l ih =>
    intro a
    obtain ⟨h1, h2⟩ := ih (min a b)
    refine ⟨?_, ?_⟩
    · rw [List.foldl_cons]
      rcases List.mem_cons.1 h1 with h | h
      · rw [h]
        rcases min_choice a b with h | h <;> rw [h] <;> simp
      · exact List.mem_cons_of_mem _ (List.mem_cons_of_mem _ h)
    · intro x hx
      rw [List.foldl_cons]
      have h0 : l.foldl min (min a b) ≤ min a b := h2 (List.mem_cons_self ..)
      rcases List.mem_cons.1 hx with rfl | hx
      · exact h0.trans (min_le_left _ _)
      rcases List.mem_cons.1 hx with rfl | hx
      · exact h0.trans (min_le_right _ _)
      · exact h2 (List.mem_cons_of_mem _ hx)

lemma maxL_greatest {l : List ℝ} (h : l ≠ []) : IsGreatest {x | x ∈ l} (maxL l) := by
  cases l with
  | nil => exact absurd rfl h
  | cons a l => exact foldl_max_greatest l a

lemma minL_least {l : List ℝ} (h : l ≠ []) : IsLeast {x | x ∈ l} (minL l) := by
  cases l with
  | nil => exact absurd rfl h
  | cons a l => exact foldl_min_least l a

/-- The largest and the smallest value of a function on the points of some polygons. -/
lemma polys_greatest {L : List (List (ℝ × ℝ))} (hL : L ≠ []) (hl : ∀ l ∈ L, l ≠ []) (g : ℝ × ℝ → ℝ) :
    IsGreatest {x | ∃ l ∈ L, ∃ q ∈ l, g q = x} (maxL (L.map (fun l => maxL (l.map g)))) := by
  obtain ⟨h1, h2⟩ := maxL_greatest (l := L.map (fun l => maxL (l.map g))) (by simpa using hL)
  refine ⟨?_, ?_⟩
  · obtain ⟨l, hm, he⟩ := List.mem_map.1 h1
    obtain ⟨k1, _⟩ := maxL_greatest (l := l.map g) (by simpa using hl l hm)
    obtain ⟨q, hq, e⟩ := List.mem_map.1 k1
    exact ⟨l, hm, q, hq, e.trans he⟩
  · rintro x ⟨l, hm, q, hq, rfl⟩
    exact ((maxL_greatest (l := l.map g) (by simpa using hl l hm)).2 (List.mem_map.2 ⟨q, hq, rfl⟩)).trans
      (h2 (List.mem_map.2 ⟨l, hm, rfl⟩))

lemma polys_least {L : List (List (ℝ × ℝ))} (hL : L ≠ []) (hl : ∀ l ∈ L, l ≠ []) (g : ℝ × ℝ → ℝ) :
    IsLeast {x | ∃ l ∈ L, ∃ q ∈ l, g q = x} (minL (L.map (fun l => minL (l.map g)))) := by
  obtain ⟨h1, h2⟩ := minL_least (l := L.map (fun l => minL (l.map g))) (by simpa using hL)
  refine ⟨?_, ?_⟩
  · obtain ⟨l, hm, he⟩ := List.mem_map.1 h1
    obtain ⟨k1, _⟩ := minL_least (l := l.map g) (by simpa using hl l hm)
    obtain ⟨q, hq, e⟩ := List.mem_map.1 k1
    exact ⟨l, hm, q, hq, e.trans he⟩
  · rintro x ⟨l, hm, q, hq, rfl⟩
    exact (h2 (List.mem_map.2 ⟨l, hm, rfl⟩)).trans
      ((minL_least (l := l.map g) (by simpa using hl l hm)).2 (List.mem_map.2 ⟨q, hq, rfl⟩))

/-- **C86** (what holds): whatever the hull and its position, the length and the breadth at the waterline returned are the
extents in `x` and `y` of the intersection polygons, and with `at_cog` the forward perpendicular returned is the largest
abscissa of the waterline. Missing: without `at_cog` (the default) the abscissa of the buoyancy centre is added to it
(`C86_fails`). -/
theorem C86_waterline_extents_partial (srt : (ℕ → ℝ) → List ℕ → List ℕ) (m : Mesh ℝ) (cog : V3 ℝ) (rho grav : ℝ) (rot : M3 ℝ)
    (z : ℝ) (atCog : Bool) (lpp : Option ℝ) (ap : Bool) (h : HsData)
    (hh : compute srt m cog rho grav rot z atCog lpp ap = .ok h) :
    ∃ c xmin xmax ymin ymax, clip srt ⟨⟨0, 0, 1⟩, 0⟩ (1 / 1000) true (workingMesh m rot z) = .ok c ∧
      IsLeast {x | ∃ l ∈ waterline c, ∃ q ∈ l, q.1 = x} xmin ∧ IsGreatest {x | ∃ l ∈ waterline c, ∃ q ∈ l, q.1 = x} xmax ∧
      IsLeast {y | ∃ l ∈ waterline c, ∃ q ∈ l, q.2 = y} ymin ∧ IsGreatest {y | ∃ l ∈ waterline c, ∃ q ∈ l, q.2 = y} ymax ∧
      h.lengthAtWaterline = xmax - xmin ∧ h.breadthAtWaterline = ymax - ymin ∧ h.breadth = ymax - ymin ∧
      (atCog = true → h.forwardPerpendicular = xmax) ∧
      (atCog = false → h.forwardPerpendicular = xmax + (c.clipped.evalPlain rho).cog.x) := by
  obtain ⟨c, hc, hne, rfl⟩ := compute_ok hh
  have hcl := closedPolygons_closed hc
  set B := (c.clipped.evalPlain rho).cog with hB
  set L := polyVerts c.clippedCrown c.closedPolygons atCog B with hLdef
  have hLe : L = _ := polyVerts_eq c atCog B
  have hL : L ≠ [] := by rw [hLe]; simpa [waterline] using hne
  have hl : ∀ l ∈ L, l ≠ [] := by
    intro l hl
    rw [hLe] at hl
    obtain ⟨l1, h1, rfl⟩ := List.mem_map.1 hl
    obtain ⟨l2, h2, rfl⟩ := List.mem_map.1 h1
    have := (hcl l2 h2).1
    simpa using this
  -- the coordinates about the reference point
  have hset : ∀ (g : ℝ × ℝ → ℝ) (a : ℝ), (∀ q : ℝ × ℝ, g (q.1 - (if atCog then B.x else 0), q.2 - (if atCog then B.y else 0)) + a = g q) →
      {x | ∃ l ∈ waterline c, ∃ q ∈ l, g q = x} = {x | ∃ l ∈ L, ∃ q ∈ l, g q + a = x} := by
    intro g a hg
    ext x
    simp only [Set.mem_setOf_eq]
    rw [hLe]
    constructor
    · rintro ⟨l, hm, q, hq, rfl⟩
      exact ⟨_, List.mem_map.2 ⟨l, hm, rfl⟩, _, List.mem_map.2 ⟨q, hq, rfl⟩, hg q⟩
    · rintro ⟨l', hm', q', hq', rfl⟩
      obtain ⟨l, hm, rfl⟩ := List.mem_map.1 hm'
      obtain ⟨q, hq, rfl⟩ := List.mem_map.1 hq'
      exact ⟨l, hm, q, hq, (hg q).symm⟩
  have gr : ∀ (g : ℝ × ℝ → ℝ) (a : ℝ), IsGreatest {x | ∃ l ∈ L, ∃ q ∈ l, g q + a = x} (maxL (L.map (fun l => maxL (l.map g))) + a) := by
    intro g a
    obtain ⟨⟨l, hm, q, hq, e⟩, h2⟩ := polys_greatest hL hl g
    refine ⟨⟨l, hm, q, hq, by rw [e]⟩, ?_⟩
    rintro x ⟨l, hm, q, hq, rfl⟩
    have := h2 ⟨l, hm, q, hq, rfl⟩
    linarith
  have le : ∀ (g : ℝ × ℝ → ℝ) (a : ℝ), IsLeast {x | ∃ l ∈ L, ∃ q ∈ l, g q + a = x} (minL (L.map (fun l => minL (l.map g))) + a) := by
    intro g a
    obtain ⟨⟨l, hm, q, hq, e⟩, h2⟩ := polys_least hL hl g
    refine ⟨⟨l, hm, q, hq, by rw [e]⟩, ?_⟩
    rintro x ⟨l, hm, q, hq, rfl⟩
    have := h2 ⟨l, hm, q, hq, rfl⟩
    linarith
  refine ⟨c, minL (L.map (fun l => minL (l.map Prod.fst))) + (if atCog then B.x else 0),
    maxL (L.map (fun l => maxL (l.map Prod.fst))) + (if atCog then B.x else 0),
    minL (L.map (fun l => minL (l.map Prod.snd))) + (if atCog then B.y else 0),
    maxL (L.map (fun l => maxL (l.map Prod.snd))) + (if atCog then B.y else 0), hc, ?_, ?_, ?_, ?_, ?_, ?_, ?_, ?_, ?_⟩
  · rw [hset Prod.fst (if atCog then B.x else 0) (by intro q; simp)]; exact le _ _
  · rw [hset Prod.fst (if atCog then B.x else 0) (by intro q; simp)]; exact gr _ _
  · rw [hset Prod.snd (if atCog then B.y else 0) (by intro q; simp)]; exact le _ _
  · rw [hset Prod.snd (if atCog then B.y else 0) (by intro q; simp)]; exact gr _ _
  · show maxL (L.map (fun l => maxL (l.map Prod.fst))) - minL (L.map (fun l => minL (l.map Prod.fst))) = _
    ring
  · show maxL (L.map (fun l => maxL (l.map Prod.snd))) - minL (L.map (fun l => minL (l.map Prod.snd))) = _
    ring
  · show maxL (L.map (fun l => maxL (l.map Prod.snd))) - minL (L.map (fun l => minL (l.map Prod.snd))) = _
    ring
  · intro ha
    show maxL (L.map (fun l => maxL (l.map Prod.fst))) + B.x = _
    simp [ha]
  · intro ha
    show maxL (L.map (fun l => maxL (l.map Prod.fst))) + B.x = _
    simp [ha, hB]

/-- **C71 (library).** The length between perpendiculars returned by `compute_hydrostatics` is the one given when there is one,
and is trusted; else, when the origin is announced to be at the aft perpendicular, it is trusted and, with `at_cog`, it is the
largest abscissa of the waterline; else it is the length of the waterline and is not trusted. -/
theorem C71_library (srt : (ℕ → ℝ) → List ℕ → List ℕ) (m : Mesh ℝ) (cog : V3 ℝ) (rho grav : ℝ) (rot : M3 ℝ)
    (z : ℝ) (atCog : Bool) (lpp : Option ℝ) (ap : Bool) (h : HsData)
    (hh : compute srt m cog rho grav rot z atCog lpp ap = .ok h) :
    ∃ c, clip srt ⟨⟨0, 0, 1⟩, 0⟩ (1 / 1000) true (workingMesh m rot z) = .ok c ∧
      (∀ l, lpp = some l → h.lpp = l ∧ h.trustLpp = true) ∧
      (lpp = none → ap = true → h.trustLpp = true ∧
        (atCog = true → IsGreatest {x | ∃ l ∈ waterline c, ∃ q ∈ l, q.1 = x} h.lpp)) ∧
      (lpp = none → ap = false → h.trustLpp = false ∧ ∃ xmin xmax, h.lpp = xmax - xmin ∧
        IsLeast {x | ∃ l ∈ waterline c, ∃ q ∈ l, q.1 = x} xmin ∧ IsGreatest {x | ∃ l ∈ waterline c, ∃ q ∈ l, q.1 = x} xmax) := by
  obtain ⟨c, xmin, xmax, _, _, hc, h1, h2, _, _, h3, _, _, h4, _⟩ := C86_waterline_extents_partial _ _ _ _ _ _ _ _ _ _ _ hh
  obtain ⟨c', hc', _, rfl⟩ := compute_ok hh
  refine ⟨c, hc, ?_, ?_, ?_⟩
  · rintro l rfl
    exact ⟨rfl, rfl⟩
  · rintro rfl rfl
    refine ⟨rfl, fun ha => ?_⟩
    have e := h4 ha
    change (ofClipped m cog rho grav rot z atCog none true c').forwardPerpendicular = xmax at e
    show IsGreatest _ (ofClipped m cog rho grav rot z atCog none true c').forwardPerpendicular
    rw [e]; exact h2
  · rintro rfl rfl
    exact ⟨rfl, xmin, xmax, h3, h1, h2⟩

/-- The hypothesis of C86 is met by the half immersed cube, and **C86 fails** for the default `at_cog = False`: its waterline
is the unit square, of largest abscissa 1, and the forward perpendicular returned is 3/2. -/
theorem C86_fails (cog : V3 ℝ) (grav : ℝ) : ∃ h c, compute insArgsort halfCube.real cog 1000 grav = .ok h ∧
    clip insArgsort ⟨⟨0, 0, 1⟩, 0⟩ (1 / 1000) true halfCube.real = .ok c ∧
    IsGreatest {x | ∃ l ∈ waterline c, ∃ q ∈ l, q.1 = x} 1 ∧ h.lengthAtWaterline = 1 ∧ h.breadthAtWaterline = 1 ∧
    h.forwardPerpendicular = 3 / 2 := by
  obtain ⟨h, hh⟩ := halfCube_compute cog 1000 grav false none false
  obtain ⟨c, x0, x1, y0, y1, hc, hx0, hx1, hy0, hy1, hl, hb, _, _, hf⟩ := C86_waterline_extents_partial _ _ _ _ _ _ _ _ _ _ _ hh
  rw [workingMesh_self] at hc
  obtain ⟨c', hc', hw⟩ := halfCube_waterline
  obtain rfl : c' = c := by rw [hc] at hc'; exact (Except.ok.inj hc').symm
  obtain ⟨c2, hc2, -, hm⟩ := halfCube_clip
  have hr := clip_real (by decide +kernel) hc2
  have hmesh : c'.clipped = halfCubeClipped := by
    have : c' = c2.aff ratReal 0 := by
      have hr' : clip insArgsort ⟨⟨0, 0, 1⟩, 0⟩ (1 / 1000) true halfCube.real = .ok (c2.aff ratReal 0) := hr
      rw [hc] at hr'; exact Except.ok.inj hr'
    rw [this]
    show c2.clipped.aff ratReal 0 = _
    rw [hm]
    simp [Mesh.aff, affMap, ratReal_apply, halfCubeClipped]
  have g1 : IsGreatest {x : ℝ | ∃ l ∈ waterline c', ∃ q ∈ l, q.1 = x} 1 := by
    rw [hw]
    refine ⟨⟨_, by simp; rfl, (1, 0), by simp, rfl⟩, ?_⟩
    rintro x ⟨l, hl, q, hq, rfl⟩
    simp only [List.mem_singleton] at hl
    subst hl
    simp only [List.mem_cons, List.not_mem_nil, or_false] at hq
    rcases hq with rfl | rfl | rfl | rfl | rfl <;> norm_num
  have g2 : IsLeast {x : ℝ | ∃ l ∈ waterline c', ∃ q ∈ l, q.1 = x} 0 := by
    rw [hw]
    refine ⟨⟨_, by simp; rfl, (0, 1), by simp, rfl⟩, ?_⟩
    rintro x ⟨l, hl, q, hq, rfl⟩
    simp only [List.mem_singleton] at hl
    subst hl
    simp only [List.mem_cons, List.not_mem_nil, or_false] at hq
    rcases hq with rfl | rfl | rfl | rfl | rfl <;> norm_num
  have g3 : IsGreatest {x : ℝ | ∃ l ∈ waterline c', ∃ q ∈ l, q.2 = x} 1 := by
    rw [hw]
    refine ⟨⟨_, by simp; rfl, (0, 1), by simp, rfl⟩, ?_⟩
    rintro x ⟨l, hl, q, hq, rfl⟩
    simp only [List.mem_singleton] at hl
    subst hl
    simp only [List.mem_cons, List.not_mem_nil, or_false] at hq
    rcases hq with rfl | rfl | rfl | rfl | rfl <;> norm_num
  have g4 : IsLeast {x : ℝ | ∃ l ∈ waterline c', ∃ q ∈ l, q.2 = x} 0 := by
    rw [hw]
    refine ⟨⟨_, by simp; rfl, (1, 0), by simp, rfl⟩, ?_⟩
    rintro x ⟨l, hl, q, hq, rfl⟩
    simp only [List.mem_singleton] at hl
    subst hl
    simp only [List.mem_cons, List.not_mem_nil, or_false] at hq
    rcases hq with rfl | rfl | rfl | rfl | rfl <;> norm_num
  refine ⟨h, c', hh, hc, g1, ?_, ?_, ?_⟩
  · rw [hl, hx1.unique g1, hx0.unique g2]; norm_num
  · rw [hb, hy1.unique g3, hy0.unique g4]; norm_num
  · rw [hf rfl, hx1.unique g1, hmesh, (halfCubeClipped_cog 1000).1]; norm_num

end Hydro
end MM
