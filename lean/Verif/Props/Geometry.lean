import Verif.Proofs.FaceProps
import Verif.Props.MeshIndex
import Mathlib.Data.List.MinMax
import Mathlib.Tactic.NormNum

/-!
# Properties C10, C12–C16, C18: geometry of the mesh operations
-/

namespace MM

set_option linter.unusedSectionVars false

/-! ## C10: conservation by triangulation -/

theorem sum_triangulate {M : Type*} [AddCommMonoid M] (l : List Face) (φ ψ : Face → M)
    (h : ∀ f, ψ f = φ (Mesh.secondTri f) + if f.isTri then 0 else φ (Mesh.firstTri f)) :
    ((l.map Mesh.secondTri ++ (l.filter (fun f => !f.isTri)).map Mesh.firstTri).map φ).sum =
      (l.map ψ).sum := by
  rw [List.map_append, List.sum_append]
  induction l with
  | nil => simp
  | cons f l ih =>
    simp only [List.map_cons, List.sum_cons]
    rw [h f, ← ih]
    by_cases ht : f.isTri
    · simp [ht, add_assoc]
    · simp [ht]
      abel

/-- **C10 (conservation part).** Splitting the quadrangles changes neither the total area nor any of the
fifteen total surface integrals, for any mesh. -/
theorem C10_triangulate_conserves (m : Mesh ℝ) :
    m.triangulateQuadrangles.totalArea = m.totalArea ∧
    m.triangulateQuadrangles.totalIntegrals = m.totalIntegrals := by
  have hv : ∀ i, m.triangulateQuadrangles.vert i = m.vert i := fun i => rfl
  constructor
  · rw [totalArea_eq, totalArea_eq]
    apply sum_triangulate
    intro f
    by_cases ht : f.isTri
    · simp [ht, Mesh.secondTri, Mesh.faceProps, Mesh.triPropsOf, hv]
    · have h2 : (⟨f.a, f.c, f.d, f.a⟩ : Face).isTri = true := by simp [Face.isTri]
      have h1 : (⟨f.a, f.b, f.c, f.a⟩ : Face).isTri = true := by simp [Face.isTri]
      simp only [Mesh.secondTri, Mesh.firstTri, ht, Bool.false_eq_true, if_false, Mesh.faceProps, h1, h2,
        if_true, Mesh.triPropsOf, Mesh.quadPropsOf, hv, triProps, quadProps, quadA1, quadA2]
      rw [V3.norm_cross_comm (m.vert f.d - m.vert f.a)]
      ring
  · rw [totalIntegrals_eq, totalIntegrals_eq]
    apply sum_triangulate
    intro f
    by_cases ht : f.isTri
    · simp [ht, Mesh.secondTri, Mesh.faceIntegrals, Mesh.triIntegralsOf, hv]
    · have h2 : (⟨f.a, f.c, f.d, f.a⟩ : Face).isTri = true := by simp [Face.isTri]
      have h1 : (⟨f.a, f.b, f.c, f.a⟩ : Face).isTri = true := by simp [Face.isTri]
      simp only [Mesh.secondTri, Mesh.firstTri, ht, Bool.false_eq_true, if_false, Mesh.faceIntegrals, h1,
        h2, if_true, Mesh.triIntegralsOf, Mesh.quadIntegralsOf, hv]
      rw [add_comm]

/-! ## C12: flip_normals -/

theorem Face.isTri_flip (f : Face) : f.flip.isTri = f.isTri := by
  simp only [Face.flip, Face.isTri, Bool.beq_eq_decide_eq]; exact decide_eq_decide.2 eq_comm

theorem faceProps_flip_normal (m : Mesh ℝ) (f : Face) :
    (m.faceProps f.flip).normal = -(m.faceProps f).normal := by
  by_cases ht : f.isTri
  · have he : f.a = f.d := by simpa [Face.isTri] using ht
    simp only [Mesh.faceProps, Face.isTri_flip, ht, if_true]
    simp only [Mesh.triPropsOf, triProps, Face.flip, he]
    rw [V3.cross_anticomm (m.vert f.c - m.vert f.d), V3.norm_neg, smul_neg]
  · simp only [Mesh.faceProps, Face.isTri_flip, ht, Bool.false_eq_true, if_false]
    simp only [Mesh.quadPropsOf, quadProps, Face.flip]
    have : (m.vert f.b - m.vert f.d).cross (m.vert f.a - m.vert f.c) =
        -((m.vert f.c - m.vert f.a).cross (m.vert f.d - m.vert f.b)) := by
      ext <;> simp [V3.cross] <;> ring
    rw [this, V3.norm_neg, smul_neg]

/-- **C12.** `flip_normals` negates each face normal; it reverses the corner list of each face, keeps the
triangle/quadrangle classes and is an involution. -/
theorem C12_flip_normals (m : Mesh ℝ) :
    m.flipNormals.facesProperties.map FP.normal = m.facesProperties.map (fun p => -p.normal) ∧
    m.flipNormals.vertices = m.vertices ∧
    m.flipNormals.faces.map Face.toList = m.faces.map (fun f => f.toList.reverse) ∧
    m.flipNormals.trianglesIds = m.trianglesIds ∧
    m.flipNormals.quadranglesIds = m.quadranglesIds ∧
    m.flipNormals.flipNormals = m := by
  refine ⟨?_, C12_flip_normals_structure m⟩
  rw [facesProperties_eq, facesProperties_eq]
  simp only [Mesh.flipNormals, List.map_map]
  apply List.map_congr_left
  intro f _
  exact faceProps_flip_normal m f

/-! ## C13: mirror -/

section Mirror

/-- Linear part of the reflection. -/
def reflLin (n v : V3 ℝ) : V3 ℝ := v - (2 * v.dot n) • n

theorem reflLin_reflLin (n v : V3 ℝ) (hn : n.dot n = 1) : reflLin n (reflLin n v) = v := by
  have : (reflLin n v).dot n = - v.dot n := by
    simp only [reflLin, V3.sub_dot, V3.smul_dot, hn]; ring
  rw [reflLin, this, reflLin]
  ext <;> simp

theorem reflLin_smul (n v : V3 ℝ) (a : ℝ) : reflLin n (a • v) = a • reflLin n v := by
  ext <;> simp [reflLin, V3.smul_dot] <;> ring

theorem reflect_sub (p : Plane ℝ) (u v : V3 ℝ) : p.reflect u - p.reflect v = reflLin p.normal (u - v) := by
  ext <;> simp [Plane.reflect, reflLin, V3.sub_dot] <;> ring

theorem reflLin_cross (n u v : V3 ℝ) (hn : n.dot n = 1) :
    (reflLin n u).cross (reflLin n v) = - reflLin n (u.cross v) := by
  simp only [V3.dot] at hn
  ext
  · simp [reflLin, V3.cross, V3.dot]
    linear_combination (-2 * (u.y * v.z - u.z * v.y)) * hn
  · simp [reflLin, V3.cross, V3.dot]
    linear_combination (-2 * (u.z * v.x - u.x * v.z)) * hn
  · simp [reflLin, V3.cross, V3.dot]
    linear_combination (-2 * (u.x * v.y - u.y * v.x)) * hn

theorem areaVec_reflect (p : Plane ℝ) (hn : p.normal.dot p.normal = 1) (u v w : V3 ℝ) :
    areaVec (p.reflect u) (p.reflect w) (p.reflect v) = reflLin p.normal (areaVec u v w) := by
  rw [areaVec, reflect_sub, reflect_sub, reflLin_cross _ _ _ hn, V3.cross_anticomm]
  ext <;> simp [reflLin, areaVec, V3.neg_dot] <;> ring

theorem reflLin_normSq (n v : V3 ℝ) (hn : n.dot n = 1) : (reflLin n v).normSq = v.normSq := by
  simp only [V3.normSq, reflLin, V3.sub_dot, V3.dot_sub, V3.smul_dot, V3.dot_smul, hn, V3.dot_comm n v]
  ring

theorem reflLin_ne_zero {n v : V3 ℝ} (hn : n.dot n = 1) (hv : v ≠ 0) : reflLin n v ≠ 0 := by
  intro h
  apply hv
  rw [← reflLin_reflLin n v hn, h]
  simp [reflLin]

/-- Reflection of the cone over a triangle, with reversed orientation. -/
theorem tetVol_reflect (p : Plane ℝ) (hn : p.normal.dot p.normal = 1) (u v w : V3 ℝ) :
    tetVol (p.reflect u) (p.reflect w) (p.reflect v) =
      tetVol u v w - p.c / 3 * (areaVec u v w).dot p.normal := by
  simp only [V3.dot] at hn
  simp only [tetVol, Plane.reflect, areaVec, V3.dot, V3.cross, V3.sub_x, V3.sub_y, V3.sub_z, V3.smul_x,
    V3.smul_y, V3.smul_z]
  generalize p.normal = n at hn ⊢
  generalize p.c = c
  linear_combination (-(1 / 3) * (u.x * (v.y * w.z - v.z * w.y) + u.y * (v.z * w.x - v.x * w.z) +
    u.z * (v.x * w.y - v.y * w.x)) * -1 ) * hn

theorem mirror_vert (p : Plane ℝ) (m : Mesh ℝ) {i : ℕ} (hi : i < m.nv) :
    (m.mirror p).vert i = p.reflect (m.vert i) := vert_mapVertices m p.reflect i hi

theorem mirror_convex (p : Plane ℝ) (hn : p.normal.dot p.normal = 1) (m : Mesh ℝ) (hwf : m.WF)
    (h : m.ConvexFaces) : (m.mirror p).ConvexFaces := by
  intro f' hf'
  obtain ⟨f, hf, rfl⟩ := List.mem_map.1 hf'
  obtain ⟨ha, hb, hc, hd⟩ := hwf.corner hf
  have := h f hf
  simp only [Face.flip, mirror_vert p m ha, mirror_vert p m hb, mirror_vert p m hc, mirror_vert p m hd]
  by_cases ht : f.a = f.d
  · rw [if_pos ht] at this
    rw [if_pos ht.symm, ← ht]
    rw [areaVec_reflect p hn]
    exact reflLin_ne_zero hn this
  · rw [if_neg ht] at this
    rw [if_neg (fun e => ht e.symm)]
    obtain ⟨n, α, β, γ, δ, hα, hβ, hγ, hδ, hs, hn0, e1, e2, e3, e4⟩ := this
    generalize m.vert f.a = a, m.vert f.b = b, m.vert f.c = c, m.vert f.d = d at *
    have hsum : (γ + δ) • n = (α + β) • n := by
      rw [add_smul, add_smul, ← e1, ← e2, ← e3, ← e4]
      ext <;> simp [areaVec, V3.cross] <;> ring
    have hsum' : γ + δ = α + β := by
      have h0 : ((γ + δ) - (α + β)) • n = 0 := by rw [sub_smul, hsum, sub_self]
      rcases smul_eq_zero.1 h0 with h | h
      · linarith
      · exact absurd h hn0
    refine ⟨reflLin p.normal n, δ, γ, β, α, hδ, hγ, hβ, hα, by linarith, reflLin_ne_zero hn hn0,
      ?_, ?_, ?_, ?_⟩
    · rw [areaVec_reflect p hn, ← reflLin_smul, ← e4, areaVec_cyc, areaVec_cyc]
    · rw [areaVec_reflect p hn, ← reflLin_smul, ← e3, areaVec_cyc, areaVec_cyc]
    · rw [areaVec_reflect p hn, ← reflLin_smul, ← e2, areaVec_cyc, areaVec_cyc]
    · rw [areaVec_reflect p hn, ← reflLin_smul, ← e1, areaVec_cyc, areaVec_cyc]

/-- The four points of a plane convex quadrangle are coplanar. -/
theorem ConvexQuad.coplanar {p q r s : V3 ℝ} (h : ConvexQuad p q r s) :
    (s - p).dot (areaVec p q r) = 0 := by
  obtain ⟨n, α, β, γ, δ, hα, hβ, hγ, hδ, hs, hn0, e1, e2, e3, e4⟩ := h
  have o1 : (s - p).dot (areaVec p r s) = 0 := by simp [areaVec, V3.dot, V3.cross]; ring
  have o2 : (s - p).dot (areaVec p q s) = 0 := by simp [areaVec, V3.dot, V3.cross]; ring
  have o3 : (s - q).dot (areaVec q r s) = 0 := by simp [areaVec, V3.dot, V3.cross]; ring
  have o4 : (q - p).dot (areaVec p q r) = 0 := by simp [areaVec, V3.dot, V3.cross]; ring
  rw [e2, V3.dot_smul] at o1
  rw [e3, V3.dot_smul] at o2
  rw [e4, V3.dot_smul] at o3
  rw [e1, V3.dot_smul] at o4
  rw [e1, V3.dot_smul]
  have hsum : (γ + δ) • n = (α + β) • n := by
    rw [add_smul, add_smul, ← e1, ← e2, ← e3, ← e4]
    ext <;> simp [areaVec, V3.cross] <;> ring
  have hsum' : γ + δ = α + β := by
    have h0 : ((γ + δ) - (α + β)) • n = 0 := by rw [sub_smul, hsum, sub_self]
    rcases smul_eq_zero.1 h0 with h | h
    · linarith
    · exact absurd h hn0
  rcases mul_eq_zero.1 o1 with hb | hb
  · rcases mul_eq_zero.1 o2 with hg | hg
    · have hd : δ ≠ 0 := by intro hd; linarith
      have hq := (mul_eq_zero.1 o3).resolve_left hd
      have : (s - p).dot n = (s - q).dot n + (q - p).dot n := by simp [V3.dot]; ring
      rw [this, hq, zero_add, o4]
    · rw [hg, mul_zero]
  · rw [hb, mul_zero]

theorem mirror_closed {K : Type*} [CommRing K] (p : Plane K) (m : Mesh K) (h : m.ClosedOriented) :
    (m.mirror p).ClosedOriented := by
  have key : ∀ l : List Face, ∀ i j : ℕ, ((l.map Face.flip).flatMap Face.directedEdges).count (i, j) =
      (l.flatMap Face.directedEdges).count (j, i) := by
    intro l i j
    induction l with
    | nil => rfl
    | cons f l ih =>
      simp only [List.map_cons, List.flatMap_cons, List.count_append, ih]
      congr 1
      have hp : (f.flip.directedEdges).Perm (f.directedEdges.map Prod.swap) := by
        unfold Face.directedEdges Face.flip
        by_cases ht : f.a = f.d
        · simp only [ht, if_true, List.map_cons, List.map_nil, Prod.swap_prod_mk]
          rw [List.perm_iff_count]; intro x; simp only [List.count_cons, List.count_nil]; omega
        · have ht' : ¬ f.d = f.a := fun e => ht e.symm
          simp only [ht, ht', if_false, List.map_cons, List.map_nil, Prod.swap_prod_mk]
          rw [List.perm_iff_count]; intro x; simp only [List.count_cons, List.count_nil]; omega
      rw [hp.count_eq, show ((i, j) : ℕ × ℕ) = Prod.swap (j, i) from rfl,
        List.count_map_of_injective _ _ Prod.swap_injective]
  intro i j
  show ((m.faces.map Face.flip).flatMap Face.directedEdges).count (i, j) =
    ((m.faces.map Face.flip).flatMap Face.directedEdges).count (j, i)
  rw [key, key]
  exact h j i

theorem reflect_reflect {K : Type*} [CommRing K] (p : Plane K) (hn : p.normal.dot p.normal = 1) (v : V3 K) :
    p.reflect (p.reflect v) = v := by
  have : (p.reflect v).dot p.normal - p.c = -(v.dot p.normal - p.c) := by
    simp only [Plane.reflect, V3.sub_dot, V3.smul_dot, hn]; ring
  rw [Plane.reflect, this]
  ext <;> simp [Plane.reflect] <;> ring

/-- **C13.** For a plane with unit normal: `mirror` keeps the distance between any two vertices, fixes the
points of the plane, changes the sign of the signed distance to the plane, is an involution, keeps closed
oriented meshes closed and oriented, and keeps the signed volume of a closed oriented mesh whose faces are
plane, convex and not degenerate. -/
theorem C13_mirror (p : Plane ℝ) (hn : p.normal.dot p.normal = 1) (m : Mesh ℝ) (hwf : m.WF) :
    (∀ i < m.nv, ∀ j < m.nv, ((m.mirror p).vert i - (m.mirror p).vert j).norm =
      (m.vert i - m.vert j).norm) ∧
    (∀ i < m.nv, p.dist ((m.mirror p).vert i) = - p.dist (m.vert i)) ∧
    (∀ i < m.nv, p.dist (m.vert i) = 0 → (m.mirror p).vert i = m.vert i) ∧
    (m.mirror p).mirror p = m ∧
    (m.ClosedOriented → (m.mirror p).ClosedOriented) ∧
    (m.ClosedOriented → m.ConvexFaces → (m.mirror p).volume = m.volume) := by
  refine ⟨?_, ?_, ?_, ?_, mirror_closed p m, ?_⟩
  · intro i hi j hj
    rw [mirror_vert p m hi, mirror_vert p m hj, reflect_sub, V3.norm, reflLin_normSq _ _ hn, V3.norm]
  · intro i hi
    rw [mirror_vert p m hi]
    simp only [Plane.dist, Plane.reflect, V3.sub_dot, V3.smul_dot, hn]; ring
  · intro i hi h0
    rw [mirror_vert p m hi]
    simp only [Plane.dist] at h0
    rw [Plane.reflect, h0]; simp
  · ext1
    · simp only [Mesh.mirror, Mesh.flipNormals, Mesh.mapVertices, List.map_map]
      have : p.reflect ∘ p.reflect = id := by funext v; exact reflect_reflect p hn v
      rw [this, List.map_id]
    · simp only [Mesh.mirror, Mesh.flipNormals, Mesh.mapVertices, List.map_map]
      have : Face.flip ∘ Face.flip = id := by funext f; rfl
      rw [this, List.map_id]
  · intro hcl hcv
    rw [volume_eq_signedVolume _ (mirror_convex p hn m hwf hcv).flat, volume_eq_signedVolume _ hcv.flat]
    have hA := closed_areaVec_sum m hcl p.normal
    have : (m.mirror p).signedVolume = m.signedVolume -
        p.c / 3 * (m.faces.map (fun f => (m.faceAreaVec f).dot p.normal)).sum := by
      unfold Mesh.signedVolume
      show ((m.faces.map Face.flip).map (m.mirror p).faceSignedVolume).sum = _
      rw [List.map_map]
      have hface : ∀ f ∈ m.faces, (m.mirror p).faceSignedVolume f.flip =
          m.faceSignedVolume f - p.c / 3 * (m.faceAreaVec f).dot p.normal := by
        intro f hf
        obtain ⟨ha, hb, hc, hd⟩ := hwf.corner hf
        have hcf := hcv f hf
        simp only [Mesh.faceSignedVolume, Face.flip, mirror_vert p m ha, mirror_vert p m hb,
          mirror_vert p m hc, mirror_vert p m hd, Mesh.faceAreaVec]
        by_cases ht : f.a = f.d
        · rw [if_pos ht.symm, if_pos ht, if_pos ht, ← ht, tetVol_reflect p hn]
        · rw [if_neg ht] at hcf
          have hco := hcf.coplanar
          rw [if_neg (fun e => ht e.symm), if_neg ht, if_neg ht, tetVol_reflect p hn,
            tetVol_reflect p hn, V3.add_dot]
          generalize m.vert f.a = a, m.vert f.b = b, m.vert f.c = c, m.vert f.d = d at *
          have e1 : tetVol d b c + tetVol d a b = tetVol a b c + tetVol a c d +
              (d - a).dot (areaVec a b c) / 6 := by
            simp [tetVol, areaVec, V3.dot, V3.cross]; ring
          have e2 : (areaVec d b c).dot p.normal + (areaVec d a b).dot p.normal =
              (areaVec a b c).dot p.normal + (areaVec a c d).dot p.normal := by
            simp [areaVec, V3.dot, V3.cross]; ring
          rw [hco] at e1
          linear_combination e1 - p.c / 3 * e2
      rw [List.map_congr_left (f := (m.mirror p).faceSignedVolume ∘ Face.flip) (g := fun f => m.faceSignedVolume f - p.c / 3 *
        (m.faceAreaVec f).dot p.normal) hface]
      generalize m.faces = l
      induction l with
      | nil => simp
      | cons f l ih => simp only [List.map_cons, List.sum_cons, ih]; ring
    rw [this, hA]; ring

end Mirror

/-! ## C14: symmetrize -/

/-- **C14.** For a plane with unit normal, `symmetrize` succeeds on a non empty mesh with valid indices;
the result has the original faces followed by their mirror images with reversed corner order, each corner
within `1e-8` per coordinate of its ideal position; and the reflection of any vertex of the result lies
within `1e-8` (per coordinate) of a vertex of the result. -/
theorem C14_symmetrize {K : Type*} [Field K] [LinearOrder K] [IsStrictOrderedRing K]
    (srt : (ℕ → K) → List ℕ → List ℕ) (hsrt : IsArgsort srt) (p : Plane K)
    (hn : p.normal.dot p.normal = 1) (m : Mesh K) (hwf : m.WF) (hne : m.vertices ≠ []) :
    ∃ s, m.symmetrize srt p = .ok s ∧ s.WF ∧ s.nf = 2 * m.nf ∧
      GeomClose (1 / 100000000)
        (m.geometry ++ m.geometry.map (fun c => (c.map (Option.map p.reflect)).reverse)) s.geometry ∧
      (∀ v ∈ s.vertices, ∃ w ∈ s.vertices, V3.Close (1 / 100000000) (p.reflect v) w) := by
  have h0 : (0 : K) ≤ Mesh.defaultAtol := by unfold Mesh.defaultAtol; positivity
  have hwf' : (m.symmetrizeRaw p).WF := by
    intro f hf i hi
    simp only [Mesh.symmetrizeRaw, Mesh.nv, List.length_append, List.length_map]
    rcases List.mem_append.1 hf with hf | hf
    · have := hwf f hf i hi
      simp only [Mesh.nv] at this; omega
    · obtain ⟨g, hg, rfl⟩ := List.mem_map.1 hf
      obtain ⟨h1, h2, h3, h4⟩ := hwf.corner hg
      simp only [Mesh.nv] at h1 h2 h3 h4
      simp only [Face.flip, Face.map, Face.toList, Mesh.nv, List.mem_cons, List.not_mem_nil,
        or_false] at hi
      rcases hi with rfl | rfl | rfl | rfl <;> omega
  have hgeo : (m.symmetrizeRaw p).geometry =
      m.geometry ++ m.geometry.map (fun c => (c.map (Option.map p.reflect)).reverse) := by
    simp only [Mesh.geometry, Mesh.symmetrizeRaw, List.map_append, List.map_map]
    congr 1
    · apply List.map_congr_left
      intro f hf
      apply List.map_congr_left
      intro i hi
      have := hwf f hf i hi
      exact List.getElem?_append_left this
    · apply List.map_congr_left
      intro f hf
      have hidx : ∀ i, (m.vertices ++ m.vertices.map p.reflect)[i + m.nv]? =
          (m.vertices[i]?).map p.reflect := by
        intro i
        rw [List.getElem?_append_right (by simp [Mesh.nv])]
        simp [Mesh.nv]
      simp only [Function.comp, Mesh.cornerPoints, Face.flip, Face.map, Face.toList, List.map_cons,
        List.map_nil, hidx, List.reverse_cons, List.reverse_nil, List.nil_append, List.cons_append]
  have hne' : (m.symmetrizeRaw p).vertices ≠ [] := by
    simp [Mesh.symmetrizeRaw, hne]
  obtain ⟨s, ids, hs, hswf, _, hclose, _, hids, hmem⟩ :=
    C05_merge_duplicates_moves_corners_within_tol srt hsrt _ h0 (m.symmetrizeRaw p) hwf' hne'
  refine ⟨s, by simp [Mesh.symmetrize, hs, Except.map], hswf, ?_, ?_, ?_⟩
  · have := hclose.length_eq
    simp only [Mesh.geometry, List.length_map, Mesh.symmetrizeRaw, List.length_append] at this
    simp only [Mesh.nf]; omega
  · rw [← hgeo]; exact hclose
  · intro v hv
    have hv' := hmem v hv
    have hr : p.reflect v ∈ (m.symmetrizeRaw p).vertices := by
      rcases List.mem_append.1 hv' with h | h
      · exact List.mem_append.2 (Or.inr (List.mem_map.2 ⟨v, h, rfl⟩))
      · obtain ⟨u, hu, rfl⟩ := List.mem_map.1 h
        rw [reflect_reflect p hn]
        exact List.mem_append.2 (Or.inl hu)
    obtain ⟨i, hi, he⟩ := List.getElem_of_mem hr
    obtain ⟨id, _, h2⟩ := hids i hi
    rw [List.getElem?_eq_getElem hi, he] at h2
    cases hw : s.vertices[id]? with
    | none => rw [hw] at h2; exact absurd h2 (by simp [OptClose])
    | some w =>
      rw [hw] at h2
      exact ⟨w, List.mem_of_getElem? hw, h2⟩

/-! ## C15: bounding boxes -/

section BBoxes
variable {K : Type*}

theorem foldl_min_spec [LinearOrder K] {α : Type*} (g : α → K) (l : List α) (a : K) :
    (l.foldl (fun a w => min a (g w)) a ≤ a) ∧ (∀ w ∈ l, l.foldl (fun a w => min a (g w)) a ≤ g w) ∧
    (l.foldl (fun a w => min a (g w)) a = a ∨ ∃ w ∈ l, l.foldl (fun a w => min a (g w)) a = g w) := by
  induction l generalizing a with
  | nil => simp
  | cons x l ih =>
    obtain ⟨h1, h2, h3⟩ := ih (min a (g x))
    simp only [List.foldl_cons]
    refine ⟨h1.trans (min_le_left _ _), ?_, ?_⟩
    · intro w hw
      rcases List.mem_cons.1 hw with rfl | hw
      · exact h1.trans (min_le_right _ _)
      · exact h2 w hw
    · rcases h3 with h3 | ⟨w, hw, h3⟩
      · rcases min_choice a (g x) with h | h
        · left; rw [h3, h]
        · right; exact ⟨x, List.mem_cons_self, by rw [h3, h]⟩
      · right; exact ⟨w, List.mem_cons_of_mem _ hw, h3⟩

theorem foldl_max_spec [LinearOrder K] {α : Type*} (g : α → K) (l : List α) (a : K) :
    (a ≤ l.foldl (fun a w => max a (g w)) a) ∧ (∀ w ∈ l, g w ≤ l.foldl (fun a w => max a (g w)) a) ∧
    (l.foldl (fun a w => max a (g w)) a = a ∨ ∃ w ∈ l, l.foldl (fun a w => max a (g w)) a = g w) := by
  induction l generalizing a with
  | nil => simp
  | cons x l ih =>
    obtain ⟨h1, h2, h3⟩ := ih (max a (g x))
    simp only [List.foldl_cons]
    refine ⟨(le_max_left _ _).trans h1, ?_, ?_⟩
    · intro w hw
      rcases List.mem_cons.1 hw with rfl | hw
      · exact (le_max_right _ _).trans h1
      · exact h2 w hw
    · rcases h3 with h3 | ⟨w, hw, h3⟩
      · rcases max_choice a (g x) with h | h
        · left; rw [h3, h]
        · right; exact ⟨x, List.mem_cons_self, by rw [h3, h]⟩
      · right; exact ⟨w, List.mem_cons_of_mem _ hw, h3⟩

/-- `b` contains `v`. -/
def Mesh.BBox.Contains [LE K] (b : Mesh.BBox K) (v : V3 K) : Prop :=
  (b.xmin ≤ v.x ∧ v.x ≤ b.xmax) ∧ (b.ymin ≤ v.y ∧ v.y ≤ b.ymax) ∧ (b.zmin ≤ v.z ∧ v.z ≤ b.zmax)

/-- **C15.** On a mesh with at least one vertex, `axis_aligned_bbox` contains each vertex and each of its
six sides is touched by a vertex; `squared_axis_aligned_bbox` is a cube with the same centre, contains
that box, and is the smallest such cube (one of its extents is that of the box). -/
theorem C15_bounding_boxes [Field K] [LinearOrder K] [IsStrictOrderedRing K] (m : Mesh K)
    (hne : m.vertices ≠ []) :
    (∀ v ∈ m.vertices, m.bbox.Contains v) ∧
    ((∃ v ∈ m.vertices, v.x = m.bbox.xmin) ∧ (∃ v ∈ m.vertices, v.x = m.bbox.xmax) ∧
     (∃ v ∈ m.vertices, v.y = m.bbox.ymin) ∧ (∃ v ∈ m.vertices, v.y = m.bbox.ymax) ∧
     (∃ v ∈ m.vertices, v.z = m.bbox.zmin) ∧ (∃ v ∈ m.vertices, v.z = m.bbox.zmax)) ∧
    (let b := m.bbox; let s := m.squaredBBox
     (s.xmax - s.xmin = s.ymax - s.ymin ∧ s.ymax - s.ymin = s.zmax - s.zmin) ∧
     (s.xmin + s.xmax = b.xmin + b.xmax ∧ s.ymin + s.ymax = b.ymin + b.ymax ∧
       s.zmin + s.zmax = b.zmin + b.zmax) ∧
     (s.xmin ≤ b.xmin ∧ b.xmax ≤ s.xmax ∧ s.ymin ≤ b.ymin ∧ b.ymax ≤ s.ymax ∧
       s.zmin ≤ b.zmin ∧ b.zmax ≤ s.zmax) ∧
     (s.xmax - s.xmin = b.xmax - b.xmin ∨ s.ymax - s.ymin = b.ymax - b.ymin ∨
       s.zmax - s.zmin = b.zmax - b.zmin)) := by
  refine ⟨?_, ?_, ?_⟩
  · intro v hv
    cases hvs : m.vertices with
    | nil => exact absurd hvs hne
    | cons a l =>
      rw [hvs] at hv
      simp only [Mesh.bbox, hvs, Mesh.BBox.Contains]
      obtain ⟨x1, x2, _⟩ := foldl_min_spec V3.x l a.x
      obtain ⟨x1', x2', _⟩ := foldl_max_spec V3.x l a.x
      obtain ⟨y1, y2, _⟩ := foldl_min_spec V3.y l a.y
      obtain ⟨y1', y2', _⟩ := foldl_max_spec V3.y l a.y
      obtain ⟨z1, z2, _⟩ := foldl_min_spec V3.z l a.z
      obtain ⟨z1', z2', _⟩ := foldl_max_spec V3.z l a.z
      rcases List.mem_cons.1 hv with rfl | hv
      · exact ⟨⟨x1, x1'⟩, ⟨y1, y1'⟩, ⟨z1, z1'⟩⟩
      · exact ⟨⟨x2 v hv, x2' v hv⟩, ⟨y2 v hv, y2' v hv⟩, ⟨z2 v hv, z2' v hv⟩⟩
  · cases hvs : m.vertices with
    | nil => exact absurd hvs hne
    | cons a l =>
      have mn : ∀ g : V3 K → K, ∃ v ∈ a :: l, g v = l.foldl (fun a w => min a (g w)) (g a) := by
        intro g
        obtain ⟨_, _, h | ⟨w, hw, h⟩⟩ := foldl_min_spec g l (g a)
        · exact ⟨a, List.mem_cons_self, h.symm⟩
        · exact ⟨w, List.mem_cons_of_mem _ hw, h.symm⟩
      have mx : ∀ g : V3 K → K, ∃ v ∈ a :: l, g v = l.foldl (fun a w => max a (g w)) (g a) := by
        intro g
        obtain ⟨_, _, h | ⟨w, hw, h⟩⟩ := foldl_max_spec g l (g a)
        · exact ⟨a, List.mem_cons_self, h.symm⟩
        · exact ⟨w, List.mem_cons_of_mem _ hw, h.symm⟩
      simp only [Mesh.bbox, hvs]
      exact ⟨mn _, mx _, mn _, mx _, mn _, mx _⟩
  · simp only [Mesh.squaredBBox]
    generalize m.bbox = b
    set dx := (b.xmax - b.xmin) * (1 / 2) with hdx
    set dy := (b.ymax - b.ymin) * (1 / 2) with hdy
    set dz := (b.zmax - b.zmin) * (1 / 2) with hdz
    have e1 : dx ≤ max (max dx dy) dz := (le_max_left _ _).trans (le_max_left _ _)
    have e2 : dy ≤ max (max dx dy) dz := (le_max_right _ _).trans (le_max_left _ _)
    have e3 : dz ≤ max (max dx dy) dz := le_max_right _ _
    have e4 : max (max dx dy) dz = dx ∨ max (max dx dy) dz = dy ∨ max (max dx dy) dz = dz := by
      rcases max_choice (max dx dy) dz with h | h
      · rcases max_choice dx dy with h' | h'
        · left; rw [h, h']
        · right; left; rw [h, h']
      · right; right; exact h
    generalize max (max dx dy) dz = d at *
    refine ⟨⟨by ring, by ring⟩, ⟨by ring, by ring, by ring⟩, ?_, ?_⟩
    · refine ⟨?_, ?_, ?_, ?_, ?_, ?_⟩ <;> linarith
    · rcases e4 with h | h | h
      · left; rw [h, hdx]; ring
      · right; left; rw [h, hdy]; ring
      · right; right; rw [h, hdz]; ring

end BBoxes

/-! ## C16: edge lengths -/

/-- The lengths of the edges of the faces of a mesh. -/
noncomputable def Mesh.trueEdgeLengths (m : Mesh ℝ) : List ℝ :=
  m.directedEdges.map (fun e => (m.vert e.2 - m.vert e.1).norm)

theorem foldl_min_id (l : List ℝ) (a : ℝ) : l.foldl min a = l.foldl (fun a w => min a (id w)) a := rfl
theorem foldl_max_id (l : List ℝ) (a : ℝ) : l.foldl max a = l.foldl (fun a w => max a (id w)) a := rfl

theorem edgesStats_spec (m : Mesh ℝ) (mn mx av : ℝ) (h : m.edgesStats = .ok (mn, mx, av)) :
    (mn ∈ m.edgeLengths ∧ ∀ e ∈ m.edgeLengths, mn ≤ e) ∧
    (mx ∈ m.edgeLengths ∧ ∀ e ∈ m.edgeLengths, e ≤ mx) ∧
    av = m.edgeLengths.sum / m.edgeLengths.length := by
  unfold Mesh.edgesStats at h
  split at h
  · cases h
  · rename_i e es he
    simp only [Except.ok.injEq, Prod.mk.injEq] at h
    obtain ⟨rfl, rfl, rfl⟩ := h
    rw [he]
    obtain ⟨a1, a2, a3⟩ := foldl_min_spec id es e
    obtain ⟨b1, b2, b3⟩ := foldl_max_spec id es e
    refine ⟨⟨?_, ?_⟩, ⟨?_, ?_⟩, rfl⟩
    · rcases a3 with h | ⟨w, hw, h⟩
      · rw [foldl_min_id, h]; exact List.mem_cons_self
      · rw [foldl_min_id, h]; exact List.mem_cons_of_mem _ hw
    · intro x hx
      rcases List.mem_cons.1 hx with rfl | hx
      · exact a1
      · exact a2 x hx
    · rcases b3 with h | ⟨w, hw, h⟩
      · rw [foldl_max_id, h]; exact List.mem_cons_self
      · rw [foldl_max_id, h]; exact List.mem_cons_of_mem _ hw
    · intro x hx
      rcases List.mem_cons.1 hx with rfl | hx
      · exact b1
      · exact b2 x hx

/-- The tabulated lengths: those of the edges, plus one zero for each triangle. -/
theorem edgeLengths_perm (m : Mesh ℝ) :
    m.edgeLengths.Perm (m.trueEdgeLengths ++ (m.faces.filter Face.isTri).map (fun _ => 0)) := by
  unfold Mesh.edgeLengths Mesh.trueEdgeLengths Mesh.directedEdges
  induction m.faces with
  | nil => simp
  | cons f l ih =>
    rw [List.flatMap_cons, List.flatMap_cons, List.map_append]
    refine (List.Perm.append_left _ ih).trans ?_
    by_cases ht : f.a = f.d
    · have htri : f.isTri = true := by simpa [Face.isTri] using ht
      rw [List.filter_cons_of_pos (by simpa using htri), List.map_cons]
      simp only [Face.directedEdges, ht, if_true, List.map_cons, List.map_nil, sub_self, V3.norm_zero]
      rw [List.perm_iff_count]; intro x
      simp only [List.count_append, List.count_cons, List.count_nil]; omega
    · have htri : ¬ f.isTri = true := by simpa [Face.isTri] using ht
      rw [List.filter_cons_of_neg (by simpa using htri)]
      simp only [Face.directedEdges, ht, if_false, List.map_cons, List.map_nil]
      rw [List.perm_iff_count]; intro x
      simp only [List.count_append, List.count_cons, List.count_nil]; omega

/-- **C16 (what holds).** The statistics of a mesh with at least one face: the maximum is always that of
the edges of its faces, and the sum over the tabulated entries is the sum of the edge lengths; if no face is
a triangle, the minimum and the mean are those of the edges too. Missing: with triangles the minimum and
the mean are wrong (`C16_min_edge_zero_with_triangle`, `C16_fails`). -/
theorem C16_edge_stats_partial (m : Mesh ℝ) (mn mx av : ℝ) (h : m.edgesStats = .ok (mn, mx, av)) :
    (mx ∈ m.trueEdgeLengths ∧ ∀ e ∈ m.trueEdgeLengths, e ≤ mx) ∧
    av * (4 * m.nf) = m.trueEdgeLengths.sum ∧
    ((∀ f ∈ m.faces, f.a ≠ f.d) →
      (mn ∈ m.trueEdgeLengths ∧ ∀ e ∈ m.trueEdgeLengths, mn ≤ e) ∧
      av = m.trueEdgeLengths.sum / m.trueEdgeLengths.length) := by
  obtain ⟨⟨a1, a2⟩, ⟨b1, b2⟩, hav⟩ := edgesStats_spec m mn mx av h
  have hp := edgeLengths_perm m
  have hlen : m.edgeLengths.length = 4 * m.nf := by
    simp [Mesh.edgeLengths, Mesh.nf, List.length_flatMap, mul_comm]
  have hne : m.edgeLengths ≠ [] := List.ne_nil_of_mem a1
  have hnf : 0 < m.nf := by
    have := List.length_pos_iff.2 hne; omega
  have hsum : m.edgeLengths.sum = m.trueEdgeLengths.sum := by
    rw [hp.sum_eq, List.sum_append]
    simp
  have hmxtrue : ∀ e ∈ m.trueEdgeLengths, e ≤ mx := fun e he =>
    b2 e (hp.mem_iff.2 (List.mem_append.2 (Or.inl he)))
  refine ⟨⟨?_, hmxtrue⟩, ?_, ?_⟩
  · rcases List.mem_append.1 (hp.mem_iff.1 b1) with hb | hb
    · exact hb
    · obtain ⟨f, hf, h0⟩ := List.mem_map.1 hb
      -- all lengths are ≤ 0, hence zero
      obtain ⟨hf, ht⟩ := List.mem_filter.1 hf
      have hmem : (m.vert f.b - m.vert f.a).norm ∈ m.trueEdgeLengths := by
        refine List.mem_map.2 ⟨(f.a, f.b), List.mem_flatMap.2 ⟨f, hf, ?_⟩, rfl⟩
        unfold Face.directedEdges; split_ifs <;> simp
      have h1 := hmxtrue _ hmem
      have h2 := V3.norm_nonneg (m.vert f.b - m.vert f.a)
      have h3 : mx = (m.vert f.b - m.vert f.a).norm := by linarith
      rw [h3]; exact hmem
  · rw [hav, hsum, hlen]
    have : (m.nf : ℝ) ≠ 0 := by exact_mod_cast hnf.ne'
    push_cast
    field_simp
  · intro hq
    have hfil : m.faces.filter Face.isTri = [] := by
      rw [List.filter_eq_nil_iff]; intro f hf; simpa [Face.isTri] using hq f hf
    rw [hfil, List.map_nil, List.append_nil] at hp
    exact ⟨⟨hp.mem_iff.1 a1, fun e he => a2 e (hp.mem_iff.2 he)⟩, by rw [hav, hsum, hp.length_eq]⟩

/-- **C16 (violation).** As soon as one face is a triangle, `min_edge_length` is zero. -/
theorem C16_min_edge_zero_with_triangle (m : Mesh ℝ) (mn mx av : ℝ)
    (h : m.edgesStats = .ok (mn, mx, av)) (f : Face) (hf : f ∈ m.faces) (ht : f.a = f.d) : mn = 0 := by
  obtain ⟨⟨a1, a2⟩, _, _⟩ := edgesStats_spec m mn mx av h
  have h0 : (0 : ℝ) ∈ m.edgeLengths := by
    refine List.mem_flatMap.2 ⟨f, hf, ?_⟩
    rw [ht]; simp
  have h1 := a2 0 h0
  obtain ⟨g, _, hg⟩ := List.mem_flatMap.1 a1
  simp only [List.mem_cons, List.not_mem_nil, or_false] at hg
  have : 0 ≤ mn := by
    rcases hg with rfl | rfl | rfl | rfl <;> exact V3.norm_nonneg _
  linarith

/-- A single 3-4-5 right triangle. -/
def tri345 : Mesh ℝ := ⟨[⟨0, 0, 0⟩, ⟨3, 0, 0⟩, ⟨0, 4, 0⟩], [⟨0, 1, 2, 0⟩]⟩

/-- **C16 (witness).** For a single 3-4-5 triangle the edges are 3, 5 and 4 but the reported minimum is 0
(instead of 3) and the reported mean is 3 (instead of 4). -/
theorem C16_fails : tri345.trueEdgeLengths = [3, 5, 4] ∧
    tri345.edgesStats = .ok (0, 5, 3) := by
  have n1 : ((⟨3, 0, 0⟩ : V3 ℝ) - ⟨0, 0, 0⟩).norm = 3 := V3.norm_of_sq (by norm_num) (by
    simp [V3.normSq, V3.dot]; norm_num)
  have n2 : ((⟨0, 4, 0⟩ : V3 ℝ) - ⟨3, 0, 0⟩).norm = 5 := V3.norm_of_sq (by norm_num) (by
    simp [V3.normSq, V3.dot]; norm_num)
  have n3 : ((⟨0, 0, 0⟩ : V3 ℝ) - ⟨0, 4, 0⟩).norm = 4 := V3.norm_of_sq (by norm_num) (by
    simp [V3.normSq, V3.dot]; norm_num)
  constructor
  · simp only [tri345, Mesh.trueEdgeLengths, Mesh.directedEdges, Face.directedEdges, Mesh.vert,
      List.flatMap_cons, List.flatMap_nil, if_true, List.append_nil, List.map_cons, List.map_nil,
      List.getD_cons_zero, List.getD_cons_succ, n1, n2, n3]
  · have he : tri345.edgeLengths = [0, 3, 5, 4] := by
      simp only [tri345, Mesh.edgeLengths, Mesh.vert,
        List.flatMap_cons, List.flatMap_nil, List.append_nil,
        List.getD_cons_zero, List.getD_cons_succ, n1, n2, n3, sub_self, V3.norm_zero]
    simp only [Mesh.edgesStats, he]
    norm_num

/-! ## C18: rigid motions and scalings -/

section Moves

theorem faces_mapVertices {K : Type*} [CommRing K] (g : V3 K → V3 K) (m : Mesh K) :
    (m.mapVertices g).faces = m.faces := rfl

theorem areaVec_translate (t p q r : V3 ℝ) : areaVec (p + t) (q + t) (r + t) = areaVec p q r := by
  ext <;> simp [areaVec]

theorem areaVec_rot {R : M3 ℝ} (hR : R.IsRotation) (p q r : V3 ℝ) :
    areaVec (R.mulVec p) (R.mulVec q) (R.mulVec r) = R.mulVec (areaVec p q r) := by
  rw [areaVec, ← M3.mulVec_sub, ← M3.mulVec_sub, hR.cross_mulVec, areaVec]

theorem areaVec_smul (a : ℝ) (p q r : V3 ℝ) : areaVec (a • p) (a • q) (a • r) = (a ^ 2) • areaVec p q r := by
  ext <;> simp [areaVec, V3.cross] <;> ring

/-- How the properties of a face change when its corners move. -/
theorem faceProps_map (m : Mesh ℝ) (hwf : m.WF) (g : V3 ℝ → V3 ℝ) (Φ : FP → FP)
    (h3 : ∀ p q r, triProps (g p) (g q) (g r) = Φ (triProps p q r))
    (h4 : ∀ p q r s, quadProps (g p) (g q) (g r) (g s) = Φ (quadProps p q r s)) :
    (m.mapVertices g).facesProperties = m.facesProperties.map Φ := by
  rw [facesProperties_eq, facesProperties_eq, List.map_map]
  apply List.map_congr_left
  intro f hf
  obtain ⟨ha, hb, hc, hd⟩ := hwf.corner (f := f) hf
  simp only [Mesh.faceProps, Function.comp, Mesh.triPropsOf, Mesh.quadPropsOf,
    vert_mapVertices m g _ ha, vert_mapVertices m g _ hb, vert_mapVertices m g _ hc,
    vert_mapVertices m g _ hd]
  split_ifs
  · exact h3 _ _ _
  · exact h4 _ _ _ _

theorem faceIntegrals_map (m : Mesh ℝ) (hwf : m.WF) (g : V3 ℝ → V3 ℝ) {f : Face} (hf : f ∈ m.faces) :
    (m.mapVertices g).faceIntegrals f =
      if f.isTri then triIntegrals (g (m.vert f.a)) (g (m.vert f.b)) (g (m.vert f.c))
      else triIntegrals (g (m.vert f.a)) (g (m.vert f.b)) (g (m.vert f.c)) +
        triIntegrals (g (m.vert f.a)) (g (m.vert f.c)) (g (m.vert f.d)) := by
  obtain ⟨ha, hb, hc, hd⟩ := hwf.corner (f := f) hf
  simp only [Mesh.faceIntegrals, Mesh.triIntegralsOf, Mesh.quadIntegralsOf,
    vert_mapVertices m g _ ha, vert_mapVertices m g _ hb, vert_mapVertices m g _ hc,
    vert_mapVertices m g _ hd]

end Moves

end MM
