import Verif.Proofs.VolumeQuadFl
import Verif.Props.VolumeFl
import Verif.Props.ClipFlVolume
import Verif.Spec.Closed
import Verif.Proofs.ClipTol
import Verif.Proofs.Pressure
import Verif.Proofs.RealMesh
import Verif.Props.Archimedes

/-!
# Volume of a mesh of triangles and quadrangles in floating point, and of a mesh clipped in floating point (C129)
-/

namespace MM

open QuadFl Clipper

variable {rnd : ℝ → ℝ} {u ε R : ℝ}

lemma face_near (hr : IsRounding u rnd) (hu : u ≤ ε) (h0 : 0 ≤ ε) (h1 : ε ≤ 1 / 100) (hR : 0 ≤ R) {g : ℝ} (hg : g ≤ ε)
    {nrm : V3 ℝ → ℝ} (hnrm : ∀ v, |nrm v - v.norm| ≤ g * v.norm) {m m' : Mesh ℝ} (hflat : m.FlatFaces)
    (hv : List.Forall₂ (V3.Close (ε * R)) m.vertices m'.vertices) (hb : ∀ v ∈ m.vertices, ∀ k, |v.coord k| ≤ R) {f : Face}
    (hf : f ∈ m.faces) (hn : nrm (m'.faceCrossFl rnd f) ≠ 0) : NearV ε R (m'.face0Fl rnd nrm f) (faceFlux m f) := by
  have n := Clipper.vert_near hR (by positivity) hv hb
  have hF := hflat f hf
  unfold Mesh.face0Fl faceFlux
  unfold Mesh.faceCrossFl at hn
  split_ifs at hF hn ⊢
  · exact tri_near hr hu h0 h1 hR hg hnrm (n f.a).1 (n f.b).1 (n f.c).1 (n f.a).2 (n f.b).2 (n f.c).2 hF hn
  · exact quad_near hr hu h0 h1 hR hg hnrm (n f.a).1 (n f.b).1 (n f.c).1 (n f.d).1 (n f.a).2 (n f.b).2 (n f.c).2 (n f.d).2 hF hn

lemma faceFlux_cone (m : Mesh ℝ) (f : Face) :
    ((faceFlux m f).x + (faceFlux m f).y + (faceFlux m f).z) / 3 = m.faceConeVolume f := by
  unfold faceFlux Mesh.faceConeVolume
  split_ifs
  · exact flux1_cone _ _ _
  · rw [← flux1_cone, ← flux1_cone]
    simp only [V3.add_x, V3.add_y, V3.add_z]
    ring

lemma sum_terms {m m' : Mesh ℝ} {nrm : V3 ℝ → ℝ} (h0 : 0 ≤ ε) (h1 : ε ≤ 1 / 100) (hR : 0 ≤ R) (l : List Face)
    (h : ∀ f ∈ l, NearV ε R (m'.face0Fl rnd nrm f) (faceFlux m f)) :
    |((l.map (m'.face0Fl rnd nrm)).flatMap (fun t => [t.x, t.y, t.z])).sum / 3 - (l.map m.faceConeVolume).sum| ≤
        l.length * (357 * (ε * R ^ 3)) ∧
      (((l.map (m'.face0Fl rnd nrm)).flatMap (fun t => [t.x, t.y, t.z])).map (fun x => |x|)).sum ≤ l.length * (33 * R ^ 3) ∧
      ((l.map (m'.face0Fl rnd nrm)).flatMap (fun t => [t.x, t.y, t.z])).length = 3 * l.length := by
  induction l with
  | nil => simp
  | cons f l ih =>
    obtain ⟨i1, i2, i3⟩ := ih (fun f hf => h f (by simp [hf]))
    obtain ⟨⟨x1, x2⟩, ⟨y1, y2⟩, ⟨z1, z2⟩⟩ := h f (by simp)
    have R3 : 0 ≤ R ^ 3 := by positivity
    have t : ε * R ^ 3 ≤ 1 / 100 * R ^ 3 := mul_le_mul_of_nonneg_right h1 R3
    have b : ∀ a c : ℝ, |a - c| ≤ 357 * (ε * R ^ 3) → |c| ≤ 7 * R ^ 3 → |a| ≤ 11 * R ^ 3 := by
      intro a c h1 h2
      have := abs_add_le (a - c) c
      rw [sub_add_cancel] at this
      linarith
    have bx := b _ _ x1 x2
    have by' := b _ _ y1 y2
    have bz := b _ _ z1 z2
    simp only [List.map_cons, List.flatMap_cons, List.sum_append, List.map_append, List.sum_cons, List.map_nil, List.sum_nil,
      List.length_append, List.length_cons, List.length_nil, Nat.cast_add, Nat.cast_one, add_zero]
    refine ⟨?_, by linarith, by omega⟩
    rw [← faceFlux_cone]
    rw [abs_le] at x1 y1 z1 i1 ⊢
    constructor <;> linarith [x1.1, x1.2, y1.1, y1.2, z1.1, z1.2, i1.1, i1.2]

/-- **C129.** The volume computed in floating point for a mesh of triangles and of plane quadrangles (whose diagonal from the first
corner is inside), whatever the order in which the terms are added, from norms of relative error at most `ε`. The vertices
may themselves be off by at most `ε R`, as those of the mesh of `clip`. -/
theorem C129_volume (u ε g R : ℝ) (hu0 : 0 ≤ u) (hu : u ≤ ε) (h1 : ε ≤ 1 / 100) (hR : 0 ≤ R) (rnd : ℝ → ℝ) (hr : IsRounding u rnd)
    (hg : g ≤ ε) (nrm : V3 ℝ → ℝ) (hnrm : ∀ v, |nrm v - v.norm| ≤ g * v.norm) (m m' : Mesh ℝ) (hflat : m.FlatFaces)
    (hfaces : m'.faces = m.faces) (hv : List.Forall₂ (V3.Close (ε * R)) m.vertices m'.vertices)
    (hb : ∀ v ∈ m.vertices, ∀ k, |v.coord k| ≤ R) (hn : ∀ f ∈ m'.faces, nrm (m'.faceCrossFl rnd f) ≠ 0) (V : ℝ)
    (hV : m'.VolumeAllFl rnd nrm V) :
    |V - m.signedVolume| ≤ m.faces.length * R ^ 3 * (357 * ε + 11 * ((1 + u) ^ (3 * m.faces.length + 1) - 1)) := by
  have h0 : 0 ≤ ε := hu0.trans hu
  obtain ⟨s, hs, rfl⟩ := hV
  rw [hfaces] at hs hn
  obtain ⟨e1, e2, e3⟩ := sum_terms (rnd := rnd) (m := m) (m' := m') (nrm := nrm) h0 h1 hR m.faces
    (fun f hf => face_near hr hu h0 h1 hR hg hnrm hflat hv hb hf (hn f hf))
  set l := (m.faces.map (m'.face0Fl rnd nrm)).flatMap (fun t => [t.x, t.y, t.z]) with hl
  have E := Err.sum (u := u) (n := 0) hu0 hr hs (l.map (fun x => (|x|, x))) (by
    rw [List.forall₂_map_left_iff]
    exact List.forall₂_same.2 (fun x _ => Err.exact x))
  have E' := ((E.div (q := 3) (by norm_num)).round hu0 hr).mono hu0 (k := 3 * m.faces.length + 1) (by
    rw [List.length_map, e3]; omega)
  have hE := E'.2
  simp only [List.map_map, Function.comp_def, List.map_id'] at hE
  have P := pow_sub_nonneg hu0 (3 * m.faces.length + 1)
  have k := mul_le_mul_of_nonneg_left (div_le_div_of_nonneg_right e2 (by norm_num : (0 : ℝ) ≤ 3)) P
  have tri : |rnd (s / 3) - m.signedVolume| ≤ |rnd (s / 3) - l.sum / 3| + |l.sum / 3 - (m.faces.map m.faceConeVolume).sum| :=
    abs_sub_le _ _ _
  refine tri.trans ((add_le_add (hE.trans k) e1).trans (le_of_eq ?_))
  ring

/-- Twice the vector area of a plane face: the vector product of two sides of a triangle, of the diagonals of a quadrangle. -/
def Mesh.twiceArea (m : Mesh ℝ) (f : Face) : V3 ℝ :=
  if f.a = f.d then (m.vert f.b - m.vert f.a).cross (m.vert f.c - m.vert f.a)
  else (m.vert f.c - m.vert f.a).cross (m.vert f.d - m.vert f.b)

/-- Faces that are not too small have a computed normal. -/
lemma cross_ne_zero (hr : IsRounding u rnd) (hu : u ≤ ε) (h0 : 0 ≤ ε) (h1 : ε ≤ 1 / 100) (hR : 0 ≤ R) {g : ℝ} (hg : g ≤ ε)
    {nrm : V3 ℝ → ℝ} (hnrm : ∀ v, |nrm v - v.norm| ≤ g * v.norm) {m m' : Mesh ℝ}
    (hv : List.Forall₂ (V3.Close (ε * R)) m.vertices m'.vertices) (hb : ∀ v ∈ m.vertices, ∀ k, |v.coord k| ≤ R) {f : Face}
    (hA : 104 * (ε * R ^ 2) < (m.twiceArea f).norm) : nrm (m'.faceCrossFl rnd f) ≠ 0 := by
  have n := Clipper.vert_near hR (by positivity) hv hb
  have near : (m'.faceCrossFl rnd f - m.twiceArea f).norm ≤ 104 * (ε * R ^ 2) := by
    unfold Mesh.faceCrossFl Mesh.twiceArea
    split_ifs
    · exact (crossV_near hr hu h0 h1 hR (subV_near hr hu h0 h1 hR (n f.b).1 (n f.a).1 (n f.b).2 (n f.a).2)
        (subV_near hr hu h0 h1 hR (n f.c).1 (n f.a).1 (n f.c).2 (n f.a).2)).1
    · exact (crossV_near hr hu h0 h1 hR (subV_near hr hu h0 h1 hR (n f.c).1 (n f.a).1 (n f.c).2 (n f.a).2)
        (subV_near hr hu h0 h1 hR (n f.d).1 (n f.b).1 (n f.d).2 (n f.b).2)).1
  have d := (abs_le.1 (norm_diff (m'.faceCrossFl rnd f) (m.twiceArea f))).1
  have p : 0 < (m'.faceCrossFl rnd f).norm := by linarith
  have k := (abs_le.1 (hnrm (m'.faceCrossFl rnd f))).1
  have : g * (m'.faceCrossFl rnd f).norm ≤ 1 / 100 * (m'.faceCrossFl rnd f).norm :=
    mul_le_mul_of_nonneg_right (hg.trans h1) p.le
  exact (by linarith : 0 < nrm (m'.faceCrossFl rnd f)).ne'

/-- The mesh clipped in floating point, next to the exact one. -/
lemma clipFl_near (u g : ℝ) (hu : 0 ≤ u) (hu1 : u < 1) (rnd : ℝ → ℝ) (hr : IsRounding u rnd) (hone : rnd 1 = 1)
    (hidem : ∀ a ∈ [1 / 100000, 1 / 100000000], rnd (rnd a) = rnd a) (dot dot' : V3 ℝ → V3 ℝ → ℝ) (hd : IsDot g dot) (hd' : IsDot g dot') (hg : 0 ≤ g)
    (srt srt' : (ℕ → ℝ) → List ℕ → List ℕ) (hsrt : IsArgsort srt) (hsrt' : IsArgsort srt') (p : Plane ℝ) (tol B R e : ℝ)
    (htol0 : 0 < tol) (htol : 2 * g * (1 + u) * B ≤ tol) (b : Bool) (m : Mesh ℝ) (hwf : m.WF)
    (hclear : ∀ v ∈ m.vertices,
      g * absDot v p.normal + u * (|p.dist v| + g * absDot v p.normal) < |p.dist v - tol| ∧
      g * absDot v p.normal + u * (|p.dist v| + g * absDot v p.normal) < |p.dist v + tol|)
    (hB : ∀ v ∈ m.vertices, absDot v p.normal + |p.c| ≤ B) (hR : ∀ v ∈ m.vertices, ∀ k, |v.coord k| ≤ R)
    (he0 : 0 ≤ e) (he : (g + ((1 + u) ^ 2 / (1 - u) - 1) * (1 + 3 * g)) * B / tol * R + ((1 + u) ^ 3 - 1) * R ≤ e)
    (hsep : m.TolSeparated p tol)
    (hgap : ∀ X Y, m.TolClipPoint p tol X → m.TolClipPoint p tol Y → ∀ a ∈ [1 / 100000, 1 / 100000000], ∀ k,
      |X.coord k - Y.coord k| + 2 * e ≤ (1 - u) * a ∨ (1 + u) / (1 - u) * a + 2 * e < |X.coord k - Y.coord k|)
    (c : Clipped ℝ) (hc : clip srt p tol b m = .ok c) :
    ∃ c', clipFl rnd dot dot' srt' p tol b m = .ok c' ∧ c'.clipped.faces = c.clipped.faces ∧
      List.Forall₂ (V3.Close e) c.clipped.vertices c'.clipped.vertices ∧ ∀ v ∈ c.clipped.vertices, ∀ k, |v.coord k| ≤ R := by
  have hvm : ∀ f ∈ m.faces, ∀ i ∈ f.toList, m.vert i ∈ m.vertices := by
    intro f hf i hi
    have hi' : i < m.vertices.length := hwf f hf i hi
    simp [Mesh.vert, List.getD_eq_getElem?_getD, hi']
  rcases Clipper.clipFl_sim u g hu hu1 rnd hr hone hidem dot dot' hd hd' hg srt srt' hsrt hsrt' p tol B R e htol0 htol b m hwf hclear
    hB hR he0 he hsep hgap with ⟨er, h1, h2⟩ | ⟨c1, c', h1', h2, h3, h4⟩
  · rw [h1] at hc
    cases hc
  · rw [h1'] at hc
    cases hc
    refine ⟨c', h2, h3.faces, h3.verts, ?_⟩
    intro v hv
    rcases h4 v hv with h | ⟨x, hx, hs, rfl⟩
    · exact hR v h
    · obtain ⟨f, hf, hxf⟩ := List.mem_flatMap.1 hx
      have hm := hvm f hf
      exact Clipper.cutPt_coord_le htol0.le hs (hR _ (hm _ (edges_mem_toList hxf).1)) (hR _ (hm _ (edges_mem_toList hxf).2))

/-- **C129.** Displaced volume: the mesh is clipped in floating point, then its volume is computed in floating point. Under the conditions
of C121 (with vertices computed within `e`), the result is that of the exact calculation, up to an error that tends to 0 with `ε`. -/
theorem C129_clipped_volume (u g : ℝ) (hu : 0 ≤ u) (hu1 : u < 1) (rnd : ℝ → ℝ) (hr : IsRounding u rnd) (hone : rnd 1 = 1)
    (hidem : ∀ a ∈ [1 / 100000, 1 / 100000000], rnd (rnd a) = rnd a) (dot dot' : V3 ℝ → V3 ℝ → ℝ) (hd : IsDot g dot) (hd' : IsDot g dot') (hg : 0 ≤ g)
    (srt srt' : (ℕ → ℝ) → List ℕ → List ℕ) (hsrt : IsArgsort srt) (hsrt' : IsArgsort srt') (p : Plane ℝ) (tol B R e : ℝ)
    (htol0 : 0 < tol) (htol : 2 * g * (1 + u) * B ≤ tol) (b : Bool) (m : Mesh ℝ) (hwf : m.WF)
    (hclear : ∀ v ∈ m.vertices,
      g * absDot v p.normal + u * (|p.dist v| + g * absDot v p.normal) < |p.dist v - tol| ∧
      g * absDot v p.normal + u * (|p.dist v| + g * absDot v p.normal) < |p.dist v + tol|)
    (hB : ∀ v ∈ m.vertices, absDot v p.normal + |p.c| ≤ B) (hR : ∀ v ∈ m.vertices, ∀ k, |v.coord k| ≤ R)
    (he0 : 0 ≤ e) (he : (g + ((1 + u) ^ 2 / (1 - u) - 1) * (1 + 3 * g)) * B / tol * R + ((1 + u) ^ 3 - 1) * R ≤ e)
    (hsep : m.TolSeparated p tol)
    (hgap : ∀ X Y, m.TolClipPoint p tol X → m.TolClipPoint p tol Y → ∀ a ∈ [1 / 100000, 1 / 100000000], ∀ k,
      |X.coord k - Y.coord k| + 2 * e ≤ (1 - u) * a ∨ (1 + u) / (1 - u) * a + 2 * e < |X.coord k - Y.coord k|)
    (hR0 : 0 ≤ R) (hcv : m.StrictlyConvexFaces) (c : Clipped ℝ) (hc : clip srt p tol b m = .ok c)
    (ε g' : ℝ) (huε : u ≤ ε) (hgε : g' ≤ ε) (h1 : ε ≤ 1 / 100) (heε : e ≤ ε * R) (nrm : V3 ℝ → ℝ)
    (hnrm : ∀ v, |nrm v - v.norm| ≤ g' * v.norm)
    (hA : ∀ f ∈ c.clipped.faces, 104 * (ε * R ^ 2) < (c.clipped.twiceArea f).norm) :
    ∃ c', clipFl rnd dot dot' srt' p tol b m = .ok c' ∧
      ∀ V, c'.clipped.VolumeAllFl rnd nrm V → |V - c.clipped.signedVolume| ≤
        c.clipped.faces.length * R ^ 3 * (357 * ε + 11 * ((1 + u) ^ (3 * c.clipped.faces.length + 1) - 1)) := by
  have t0 : ∀ v ∈ m.vertices, |p.dist v| ≠ tol := by
    intro v hv h
    have k1 := (hclear v hv)
    have k0 : 0 ≤ g * absDot v p.normal + u * (|p.dist v| + g * absDot v p.normal) := by
      have : 0 ≤ absDot v p.normal := by unfold absDot; positivity
      positivity
    rcases abs_choice (p.dist v) with h' | h' <;> rw [h'] at h
    · have := k1.1
      rw [show p.dist v - tol = 0 by linarith, abs_zero] at this
      linarith
    · have := k1.2
      rw [show p.dist v + tol = 0 by linarith, abs_zero] at this
      linarith
  have hvm : ∀ f ∈ m.faces, ∀ i ∈ f.toList, m.vert i ∈ m.vertices := by
    intro f hf i hi
    have hi' : i < m.vertices.length := hwf f hf i hi
    simp [Mesh.vert, List.getD_eq_getElem?_getD, hi']
  have hflat : c.clipped.FlatFaces := StrictlyConvexFaces.flat (clip_convex_tol hsrt htol0.le hwf
    (fun f hf i hi => t0 _ (hvm f hf i hi)) (strictlyConvex_cross hcv) hsep hcv hc)
  obtain ⟨c', h2, h3, h4, hb⟩ := clipFl_near u g hu hu1 rnd hr hone hidem dot dot' hd hd' hg srt srt' hsrt hsrt' p tol B R e
    htol0 htol b m hwf hclear hB hR he0 he hsep hgap c hc
  have hv : List.Forall₂ (V3.Close (ε * R)) c.clipped.vertices c'.clipped.vertices :=
    h4.imp fun _ _ h => ⟨h.1.trans heε, h.2.1.trans heε, h.2.2.trans heε⟩
  refine ⟨c', h2, C129_volume u ε g' R hu huε h1 hR0 rnd hr hgε nrm hnrm _ _ hflat h3 hv hb ?_⟩
  rw [h3]
  exact fun f hf => cross_ne_zero hr huε (hu.trans huε) h1 hR0 hgε hnrm hv hb (hA f hf)

/-! ### Case -/

/-- A rounding, exact up to 1. -/
noncomputable def topRound (u x : ℝ) : ℝ := if |x| ≤ 1 then x else x * (1 + u)

lemma topRound_isRounding {u : ℝ} (hu : 0 ≤ u) : IsRounding u (topRound u) where
  mono := by
    intro x y h
    unfold topRound
    split_ifs with h1 h2 h2
    · exact h
    · rw [abs_le] at h1
      have : 1 < y := by
        by_contra h'
        exact h2 (abs_le.2 ⟨by linarith, by linarith⟩)
      nlinarith
    · rw [abs_le] at h2
      have : x < -1 := by
        by_contra h'
        exact h1 (abs_le.2 ⟨by linarith, by linarith⟩)
      nlinarith
    · exact mul_le_mul_of_nonneg_right h (by linarith)
  odd := by
    intro x
    unfold topRound
    rw [abs_neg]
    split_ifs <;> ring
  near := by
    intro x
    unfold topRound
    split_ifs
    · rw [sub_self, abs_zero]; positivity
    · rw [show x * (1 + u) - x = u * x by ring, abs_mul, abs_of_nonneg hu]

lemma TolClipPoint.of_real {p : Plane ℚ} {tol : ℚ} {m : Mesh ℚ} {X : V3 ℝ} (h : m.real.TolClipPoint p.real tol X) :
    ∃ x, m.TolClipPoint p tol x ∧ X = x.real := by
  rcases h with hX | ⟨e, he, h1, rfl⟩
  · rw [Mesh.real_vertices, List.mem_map] at hX
    obtain ⟨x, hx, rfl⟩ := hX
    exact ⟨x, Or.inl hx, rfl⟩
  · rw [Mesh.real_vert, Mesh.real_vert, Plane.real_dist, Plane.real_dist] at h1
    refine ⟨_, Or.inr ⟨e, he, ?_, rfl⟩, ?_⟩
    · exact_mod_cast h1
    · rw [Mesh.real_vert, Mesh.real_vert, Plane.real_cutPt]

/-- The points dealt with when the half cube is clipped have coordinates among `-1/2, 0, 1/2, 1`. -/
lemma halfCube_points {X : V3 ℝ} (h : halfCube.real.TolClipPoint ⟨⟨0, 0, 1⟩, 0⟩ (1 / 1000) X) (k : Fin 3) :
    ∃ n : ℤ, X.coord k = n / 2 := by
  rw [← Plane.real_z, show (1 / 1000 : ℝ) = ((1 / 1000 : ℚ) : ℝ) by norm_num] at h
  obtain ⟨x, hx, rfl⟩ := TolClipPoint.of_real h
  have key : ∀ k, ∃ n : ℤ, x.coord k = n / 2 := by
    rcases hx with hx | ⟨e, he, hd, rfl⟩
    · have : ∀ v ∈ halfCube.vertices, ∀ k, v.coord k = (v.coord k * 2).num / 2 := by decide +kernel
      exact fun k => ⟨_, this x hx k⟩
    · have : ∀ e ∈ halfCube.directedEdges, ((1 / 1000 < (⟨⟨0, 0, 1⟩, 0⟩ : Plane ℚ).dist (halfCube.vert e.1) ∧
            (⟨⟨0, 0, 1⟩, 0⟩ : Plane ℚ).dist (halfCube.vert e.2) < -(1 / 1000)) ∨
          ((⟨⟨0, 0, 1⟩, 0⟩ : Plane ℚ).dist (halfCube.vert e.1) < -(1 / 1000) ∧
            1 / 1000 < (⟨⟨0, 0, 1⟩, 0⟩ : Plane ℚ).dist (halfCube.vert e.2))) →
          ∀ k, ((⟨⟨0, 0, 1⟩, 0⟩ : Plane ℚ).cutPt (halfCube.vert e.1) (halfCube.vert e.2)).coord k =
            (((⟨⟨0, 0, 1⟩, 0⟩ : Plane ℚ).cutPt (halfCube.vert e.1) (halfCube.vert e.2)).coord k * 2).num / 2 := by
        decide +kernel
      exact fun k => ⟨_, this e he hd k⟩
  obtain ⟨n, hn⟩ := key k
  refine ⟨n, ?_⟩
  have : x.real.coord k = ((x.coord k : ℚ) : ℝ) := by fin_cases k <;> rfl
  rw [this, hn]
  push_cast
  rfl

/-- The hypotheses of C129 are met by the half immersed cube, whose displaced volume is computed within `10⁻⁸`. -/
theorem halfCube_meets_C129 :
    ∃ c', clipFl (topRound (1 / 2 ^ 53)) (dotFl (topRound (1 / 2 ^ 53))) (dotFma (topRound (1 / 2 ^ 53))) insArgsort
        ⟨⟨0, 0, 1⟩, 0⟩ (1 / 1000) true halfCube.real = .ok c' ∧
      ∀ V, c'.clipped.VolumeAllFl (topRound (1 / 2 ^ 53)) V3.norm V → |V - 1 / 2| ≤ 1 / 10 ^ 8 := by
  obtain ⟨c, hc, hp, hm⟩ := halfCube_clip
  have hmesh : (c.aff ratReal 0).clipped = halfCubeClipped := by
    show c.clipped.aff ratReal 0 = _
    rw [hm]
    simp [Mesh.aff, affMap, ratReal_apply, halfCubeClipped]
  have hR := clip_real (by decide +kernel) hc
  have hu : (0 : ℝ) ≤ 1 / 2 ^ 53 := by norm_num
  have hr := topRound_isRounding hu
  have verts : ∀ v ∈ halfCube.real.vertices, (|v.x| ≤ 1 ∧ |v.y| ≤ 1) ∧ |v.z| = 1 / 2 := by
    have : ∀ v ∈ halfCube.vertices, (|v.x| ≤ 1 ∧ |v.y| ≤ 1) ∧ |v.z| = 1 / 2 := by decide +kernel
    intro v hv
    rw [Mesh.real_vertices, List.mem_map] at hv
    obtain ⟨w, hw, rfl⟩ := hv
    obtain ⟨⟨a, b⟩, c⟩ := this w hw
    refine ⟨⟨?_, ?_⟩, ?_⟩
    · show |(w.x : ℝ)| ≤ 1
      exact_mod_cast a
    · show |(w.y : ℝ)| ≤ 1
      exact_mod_cast b
    · have : ((|w.z| : ℚ) : ℝ) = ((1 / 2 : ℚ) : ℝ) := by rw [c]
      push_cast at this
      exact this
  have gap : ∀ X Y, halfCube.real.TolClipPoint ⟨⟨0, 0, 1⟩, 0⟩ (1 / 1000) X → halfCube.real.TolClipPoint ⟨⟨0, 0, 1⟩, 0⟩ (1 / 1000) Y →
      ∀ k, X.coord k = Y.coord k ∨ 1 / 2 ≤ |X.coord k - Y.coord k| := by
    intro X Y hX hY k
    obtain ⟨a, ha⟩ := halfCube_points hX k
    obtain ⟨b, hb⟩ := halfCube_points hY k
    rw [ha, hb]
    by_cases h : a = b
    · left; rw [h]
    · right
      rw [← sub_div, abs_div, abs_of_pos (by norm_num : (0 : ℝ) < 2)]
      have : (1 : ℤ) ≤ |a - b| := Int.one_le_abs (sub_ne_zero.2 h)
      have : (1 : ℝ) ≤ |(a : ℝ) - b| := by exact_mod_cast this
      linarith
  obtain ⟨c', h1, h2⟩ := C129_clipped_volume (1 / 2 ^ 53) ((1 + 1 / 2 ^ 53) ^ 3 - 1) hu (by norm_num) (topRound (1 / 2 ^ 53)) hr
    (by simp [topRound]) (by
      intro a ha
      have : |a| ≤ 1 := by
        rcases List.mem_cons.1 ha with rfl | ha
        · norm_num [abs_of_pos]
        · rw [List.mem_singleton.1 ha]; norm_num [abs_of_pos]
      simp [topRound, this]) (dotFl (topRound (1 / 2 ^ 53))) (dotFma (topRound (1 / 2 ^ 53))) (dotFl_isDot hr hu) (dotFma_isDot hr hu)
    (by norm_num) insArgsort insArgsort insArgsort_isArgsort insArgsort_isArgsort ⟨⟨0, 0, 1⟩, 0⟩ (1 / 1000) (1 / 2) 1 (1 / 10 ^ 12)
    (by norm_num) (by norm_num) true halfCube.real (Mesh.WF.real (by decide +kernel)) (by
      intro v hv
      have z := (verts v hv).2
      have d : (⟨⟨0, 0, 1⟩, 0⟩ : Plane ℝ).dist v = v.z := by simp [Plane.dist, V3.dot]
      have a : absDot v (⟨0, 0, 1⟩ : V3 ℝ) = 1 / 2 := by simp [absDot, z]
      rw [d, a, z]
      rcases abs_eq (by norm_num : (0 : ℝ) ≤ 1 / 2) |>.1 z with h | h <;> rw [h] <;> norm_num [abs_of_pos, abs_of_neg]) (by
      intro v hv
      have z := (verts v hv).2
      simp [absDot, z]) (by
      intro v hv k
      obtain ⟨⟨a, b⟩, c⟩ := verts v hv
      fin_cases k
      · exact a
      · exact b
      · show |v.z| ≤ 1
        rw [c]; norm_num) (by norm_num) (by norm_num) (by
      intro X Y hX hY hXY
      have k : ∀ k, |X.coord k - Y.coord k| ≤ 1 / 100000 → X.coord k = Y.coord k := by
        intro k h
        rcases gap X Y hX hY k with h' | h'
        · exact h'
        · exfalso; linarith [(by norm_num : (1 / 100000 : ℝ) < 1 / 2)]
      exact V3.ext (k 0 hXY.1) (k 1 hXY.2.1) (k 2 hXY.2.2)) (by
      intro X Y hX hY a ha k
      have a1 : 1 / 100000000 ≤ a ∧ a ≤ 1 / 100000 := by
        rcases List.mem_cons.1 ha with rfl | ha
        · norm_num
        · rw [List.mem_singleton.1 ha]; norm_num
      rcases gap X Y hX hY k with h | h
      · left
        rw [h, sub_self, abs_zero]
        have := mul_le_mul_of_nonneg_left a1.1 (by norm_num : (0 : ℝ) ≤ 1 - 1 / 2 ^ 53)
        refine le_trans ?_ this
        norm_num
      · right
        have := mul_le_mul_of_nonneg_left a1.2 (by norm_num : (0 : ℝ) ≤ (1 + 1 / 2 ^ 53) / (1 - 1 / 2 ^ 53))
        refine lt_of_lt_of_le (lt_of_le_of_lt (add_le_add_left this _) ?_) h
        norm_num) (by norm_num) (Mesh.StrictlyConvexFaces.real Hydro.halfCube_strictlyConvex) _ hR (1 / 10 ^ 12) 0 (by norm_num) (by norm_num) (by norm_num) (by norm_num)
    V3.norm (by simp) (by
      rw [hmesh]
      intro f hf
      have h2 : 1 / 2 ≤ (halfCubeClipped.twiceArea f).norm := by
        simp only [halfCubeClipped, List.mem_cons, List.not_mem_nil, or_false] at hf
        have k := coord_le_norm (halfCubeClipped.twiceArea f)
        rcases hf with rfl | rfl | rfl | rfl | rfl
        · refine le_trans ?_ k.2.2
          simp [halfCubeClipped, Mesh.twiceArea, Mesh.vert, V3.cross]; norm_num
        · refine le_trans ?_ k.2.1
          simp [halfCubeClipped, Mesh.twiceArea, Mesh.vert, V3.cross]; norm_num
        · refine le_trans ?_ k.2.1
          simp [halfCubeClipped, Mesh.twiceArea, Mesh.vert, V3.cross]; norm_num
        · refine le_trans ?_ k.1
          simp [halfCubeClipped, Mesh.twiceArea, Mesh.vert, V3.cross]; norm_num
        · refine le_trans ?_ k.1
          simp [halfCubeClipped, Mesh.twiceArea, Mesh.vert, V3.cross]; norm_num
      refine lt_of_lt_of_le ?_ h2
      norm_num)
  refine ⟨c', h1, fun V hV => ?_⟩
  have := h2 V hV
  rw [hmesh] at this
  have hv : halfCubeClipped.signedVolume = 1 / 2 := by
    rw [← coneVolume_real]
    simp [halfCubeClipped, Mesh.faceConeVolume, Mesh.coneVolume, Mesh.vert, coneVol, V3.dot, V3.cross]
    norm_num
  rw [hv] at this
  refine this.trans ?_
  simp only [halfCubeClipped, List.length_cons, List.length_nil]
  norm_num

end MM
