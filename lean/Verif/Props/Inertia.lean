import Verif.Model.Inertia
import Verif.Props.Integrals

/-!
# C26: volume, C27: plain inertia, C28: shell inertia, C38: transport
-/

namespace MM

set_option linter.unusedSectionVars false

/-! ### Closed forms of tetrahedron integrals -/

theorem tetIntegral_affine2 (a b : V3 ℝ → ℝ)
    (ha : ∀ o p q r : V3 ℝ, ∀ u v w : ℝ, a (o + (u • (p - o) + v • (q - o) + w • (r - o))) =
      a o + u * (a p - a o) + v * (a q - a o) + w * (a r - a o))
    (hb : ∀ o p q r : V3 ℝ, ∀ u v w : ℝ, b (o + (u • (p - o) + v • (q - o) + w • (r - o))) =
      b o + u * (b p - b o) + v * (b q - b o) + w * (b r - b o)) (o p q r : V3 ℝ) :
    tetIntegral (fun x => a x * b x) o p q r = (p - o).dot ((q - o).cross (r - o)) *
      (((a o + a p + a q + a r) * (b o + b p + b q + b r) + (a o * b o + a p * b p + a q * b q + a r * b r))
        / 120) := by
  rw [tetIntegral, coneIntegral]
  simp only [ha, hb]
  rw [tet_quadratic (a o * b o)
    ((a p - a o) * b o + a o * (b p - b o)) ((a q - a o) * b o + a o * (b q - b o))
    ((a r - a o) * b o + a o * (b r - b o))
    ((a p - a o) * (b p - b o)) ((a q - a o) * (b q - b o)) ((a r - a o) * (b r - b o))
    ((a p - a o) * (b q - b o) + (a q - a o) * (b p - b o))
    ((a p - a o) * (b r - b o) + (a r - a o) * (b p - b o))
    ((a q - a o) * (b r - b o) + (a r - a o) * (b q - b o)) (fun u v w => by ring)]
  ring

theorem taff_x (o p q r : V3 ℝ) (u v w : ℝ) : (o + (u • (p - o) + v • (q - o) + w • (r - o))).x =
    o.x + u * (p.x - o.x) + v * (q.x - o.x) + w * (r.x - o.x) := by simp; ring
theorem taff_y (o p q r : V3 ℝ) (u v w : ℝ) : (o + (u • (p - o) + v • (q - o) + w • (r - o))).y =
    o.y + u * (p.y - o.y) + v * (q.y - o.y) + w * (r.y - o.y) := by simp; ring
theorem taff_z (o p q r : V3 ℝ) (u v w : ℝ) : (o + (u • (p - o) + v • (q - o) + w • (r - o))).z =
    o.z + u * (p.z - o.z) + v * (q.z - o.z) + w * (r.z - o.z) := by simp; ring
theorem taff_one (o p q r : V3 ℝ) (u v w : ℝ) :
    (fun _ => (1 : ℝ)) (o + (u • (p - o) + v • (q - o) + w • (r - o))) =
    1 + u * (1 - 1) + v * (1 - 1) + w * (1 - 1) := by simp

/-! ### Fluxes through closed surfaces -/

/-- Divergence theorem for a closed surface: if the flux `Φ` through a triangle is the quantity `T` of the
cone over it plus terms `E` attached to its directed edges, then the two sums over the surface agree. -/
theorem closed_flux (m : Mesh ℝ) (h : m.ClosedOriented) (Φ T : V3 ℝ → V3 ℝ → V3 ℝ → ℝ) (E : V3 ℝ → V3 ℝ → ℝ)
    (hE : ∀ p q, E p q = - E q p) (hΦ : ∀ p q r, Φ p q r = T p q r + (E p q + E q r + E r p)) :
    m.surfaceSum Φ = m.surfaceSum T := by
  have key := closed_sum_antisymm h (fun i j => E (m.vert i) (m.vert j)) (fun i j => hE _ _)
  rw [Mesh.directedEdges, sum_flatMap_map] at key
  have hf : ∀ f ∈ m.faces, m.faceSum Φ f = m.faceSum T f +
      (f.directedEdges.map (fun e => E (m.vert e.1) (m.vert e.2))).sum := by
    intro f _
    unfold Mesh.faceSum Face.directedEdges
    split_ifs
    · rw [hΦ]; simp; ring
    · rw [hΦ, hΦ]; simp only [List.map_cons, List.map_nil, List.sum_cons, List.sum_nil]
      rw [hE (m.vert f.c) (m.vert f.a)]; ring
  rw [Mesh.surfaceSum, List.map_congr_left hf, Mesh.surfaceSum, ← add_zero (List.map (m.faceSum T) _).sum, ← key]
  generalize m.faces = l
  induction l with
  | nil => simp
  | cons a l ih => simp only [List.map_cons, List.sum_cons, ih]; ring

theorem surfaceSum_add (m : Mesh ℝ) (S T : V3 ℝ → V3 ℝ → V3 ℝ → ℝ) :
    m.surfaceSum (fun p q r => S p q r + T p q r) = m.surfaceSum S + m.surfaceSum T := by
  unfold Mesh.surfaceSum
  generalize m.faces = l
  induction l with
  | nil => simp
  | cons f l ih =>
    have : m.faceSum (fun p q r => S p q r + T p q r) f = m.faceSum S f + m.faceSum T f := by
      unfold Mesh.faceSum; split_ifs <;> ring
    simp only [List.map_cons, List.sum_cons, ih, this]; ring

theorem surfaceSum_smul (m : Mesh ℝ) (a : ℝ) (T : V3 ℝ → V3 ℝ → V3 ℝ → ℝ) :
    m.surfaceSum (fun p q r => a * T p q r) = a * m.surfaceSum T := by
  unfold Mesh.surfaceSum
  generalize m.faces = l
  induction l with
  | nil => simp
  | cons f l ih =>
    have : m.faceSum (fun p q r => a * T p q r) f = a * m.faceSum T f := by
      unfold Mesh.faceSum; split_ifs <;> ring
    simp only [List.map_cons, List.sum_cons, ih, this]; ring

/-- The polynomials of the closed-form integrals. -/
noncomputable def triPoly (p0 p1 p2 : V3 ℝ) : Fin 15 → ℝ :=
  ![pf1 p0.x p1.x p2.x / 6, pf1 p0.y p1.y p2.y / 6, pf1 p0.z p1.z p2.z / 6,
    (6 * p0.y * p0.z + 3 * (p1.y * p1.z + p2.y * p2.z) - p0.y * pf1 p0.z p1.z p2.z
      - p0.z * pf1 p0.y p1.y p2.y) / 12,
    (6 * p0.x * p0.z + 3 * (p1.x * p1.z + p2.x * p2.z) - p0.x * pf1 p0.z p1.z p2.z
      - p0.z * pf1 p0.x p1.x p2.x) / 12,
    (6 * p0.x * p0.y + 3 * (p1.x * p1.y + p2.x * p2.y) - p0.x * pf1 p0.y p1.y p2.y
      - p0.y * pf1 p0.x p1.x p2.x) / 12,
    pf2 p0.x p1.x p2.x / 12, pf2 p0.y p1.y p2.y / 12, pf2 p0.z p1.z p2.z / 12,
    pf3 p0.x p1.x p2.x / 20, pf3 p0.y p1.y p2.y / 20, pf3 p0.z p1.z p2.z / 20,
    (p0.y * pg0 p0.x p1.x p2.x + p1.y * pg1 p0.x p1.x p2.x + p2.y * pg2 p0.x p1.x p2.x) / 60,
    (p0.z * pg0 p0.y p1.y p2.y + p1.z * pg1 p0.y p1.y p2.y + p2.z * pg2 p0.y p1.y p2.y) / 60,
    (p0.x * pg0 p0.z p1.z p2.z + p1.x * pg1 p0.z p1.z p2.z + p2.x * pg2 p0.z p1.z p2.z) / 60]

theorem triIntegrals_eq (p q r : V3 ℝ) (i : Fin 15) :
    triIntegrals p q r i = triDelta p q r * triPoly p q r i := by
  match i with
  | 0 | 1 | 2 | 3 | 4 | 5 | 6 | 7 | 8 | 9 | 10 | 11 | 12 | 13 | 14 => exact mul_div_assoc _ _ _

/-- `Σ normal · integral` over the faces is the flux of the polynomial. -/
theorem normalWeighted_flux (m : Mesh ℝ) (h : m.FlatFaces) (i0 i1 i2 : Fin 15) :
    Mesh.normalWeighted m.facesProperties m.surfaceIntegrals i0 i1 i2 =
      ⟨m.surfaceSum (fun p q r => (areaVec p q r).x * triPoly p q r i0),
       m.surfaceSum (fun p q r => (areaVec p q r).y * triPoly p q r i1),
       m.surfaceSum (fun p q r => (areaVec p q r).z * triPoly p q r i2)⟩ := by
  have hf : ∀ f ∈ m.faces, (⟨(m.faceProps f).normal.x * m.faceIntegrals f i0,
      (m.faceProps f).normal.y * m.faceIntegrals f i1,
      (m.faceProps f).normal.z * m.faceIntegrals f i2⟩ : V3 ℝ) =
      ⟨m.faceSum (fun p q r => (areaVec p q r).x * triPoly p q r i0) f,
       m.faceSum (fun p q r => (areaVec p q r).y * triPoly p q r i1) f,
       m.faceSum (fun p q r => (areaVec p q r).z * triPoly p q r i2) f⟩ := by
    intro f hf
    have hp := h f hf
    by_cases ht : f.a = f.d
    · rw [if_pos ht] at hp
      have key := tri_normal hp
      have htri : f.isTri = true := by simpa [Face.isTri] using ht
      simp only [Mesh.faceSum, if_pos ht, Mesh.faceProps, Mesh.faceIntegrals, htri, if_true,
        Mesh.triPropsOf, Mesh.triIntegralsOf, triIntegrals_eq]
      rw [← key]
      ext <;> simp only [V3.smul_x, V3.smul_y, V3.smul_z] <;> ring
    · rw [if_neg ht] at hp
      obtain ⟨k1, k2⟩ := hp.normal
      have htri : f.isTri = false := by simpa [Face.isTri] using ht
      simp only [Mesh.faceSum, if_neg ht, Mesh.faceProps, Mesh.faceIntegrals, htri, Bool.false_eq_true,
        if_false, Mesh.quadPropsOf, Mesh.quadIntegralsOf, Pi.add_apply, triIntegrals_eq]
      rw [← k1, ← k2]
      ext <;> simp only [V3.smul_x, V3.smul_y, V3.smul_z] <;> ring
  rw [normalWeighted_eq, List.map_congr_left hf]
  unfold Mesh.surfaceSum
  ext <;> simp only [V3.list_sum_x, V3.list_sum_y, V3.list_sum_z, List.map_map] <;> rfl

/-- Integrals over a tetrahedron of the functions needed below. -/
theorem tet_one (o p q r : V3 ℝ) :
    tetIntegral (fun _ => 1) o p q r = (p - o).dot ((q - o).cross (r - o)) / 6 := by
  have := tetIntegral_affine2 (fun _ => 1) (fun _ => 1) taff_one taff_one o p q r
  simp only [mul_one] at this
  rw [this]; ring
theorem tet_x (o p q r : V3 ℝ) :
    tetIntegral (fun v => v.x) o p q r =
      (p - o).dot ((q - o).cross (r - o)) * ((o.x + p.x + q.x + r.x) / 24) := by
  have := tetIntegral_affine2 (·.x) (fun _ => 1) taff_x taff_one o p q r
  simp only [mul_one] at this
  rw [this]; ring
theorem tet_y (o p q r : V3 ℝ) :
    tetIntegral (fun v => v.y) o p q r =
      (p - o).dot ((q - o).cross (r - o)) * ((o.y + p.y + q.y + r.y) / 24) := by
  have := tetIntegral_affine2 (·.y) (fun _ => 1) taff_y taff_one o p q r
  simp only [mul_one] at this
  rw [this]; ring
theorem tet_z (o p q r : V3 ℝ) :
    tetIntegral (fun v => v.z) o p q r =
      (p - o).dot ((q - o).cross (r - o)) * ((o.z + p.z + q.z + r.z) / 24) := by
  have := tetIntegral_affine2 (·.z) (fun _ => 1) taff_z taff_one o p q r
  simp only [mul_one] at this
  rw [this]; ring
theorem tet_xx (o p q r : V3 ℝ) :
    tetIntegral (fun v => v.x ^ 2) o p q r = (p - o).dot ((q - o).cross (r - o)) *
      (((o.x + p.x + q.x + r.x) * (o.x + p.x + q.x + r.x) +
        (o.x * o.x + p.x * p.x + q.x * q.x + r.x * r.x)) / 120) := by
  have := tetIntegral_affine2 (·.x) (·.x) taff_x taff_x o p q r
  simp only [← sq] at this ⊢
  rw [this]
theorem tet_yy (o p q r : V3 ℝ) :
    tetIntegral (fun v => v.y ^ 2) o p q r = (p - o).dot ((q - o).cross (r - o)) *
      (((o.y + p.y + q.y + r.y) * (o.y + p.y + q.y + r.y) +
        (o.y * o.y + p.y * p.y + q.y * q.y + r.y * r.y)) / 120) := by
  have := tetIntegral_affine2 (·.y) (·.y) taff_y taff_y o p q r
  simp only [← sq] at this ⊢
  rw [this]
theorem tet_zz (o p q r : V3 ℝ) :
    tetIntegral (fun v => v.z ^ 2) o p q r = (p - o).dot ((q - o).cross (r - o)) *
      (((o.z + p.z + q.z + r.z) * (o.z + p.z + q.z + r.z) +
        (o.z * o.z + p.z * p.z + q.z * q.z + r.z * r.z)) / 120) := by
  have := tetIntegral_affine2 (·.z) (·.z) taff_z taff_z o p q r
  simp only [← sq] at this ⊢
  rw [this]
theorem tet_xy (o p q r : V3 ℝ) :
    tetIntegral (fun v => v.x * v.y) o p q r = (p - o).dot ((q - o).cross (r - o)) *
      (((o.x + p.x + q.x + r.x) * (o.y + p.y + q.y + r.y) +
        (o.x * o.y + p.x * p.y + q.x * q.y + r.x * r.y)) / 120) := by
  have := tetIntegral_affine2 (·.x) (·.y) taff_x taff_y o p q r
  rw [this]
theorem tet_xz (o p q r : V3 ℝ) :
    tetIntegral (fun v => v.x * v.z) o p q r = (p - o).dot ((q - o).cross (r - o)) *
      (((o.x + p.x + q.x + r.x) * (o.z + p.z + q.z + r.z) +
        (o.x * o.z + p.x * p.z + q.x * q.z + r.x * r.z)) / 120) := by
  have := tetIntegral_affine2 (·.x) (·.z) taff_x taff_z o p q r
  rw [this]
theorem tet_yz (o p q r : V3 ℝ) :
    tetIntegral (fun v => v.y * v.z) o p q r = (p - o).dot ((q - o).cross (r - o)) *
      (((o.y + p.y + q.y + r.y) * (o.z + p.z + q.z + r.z) +
        (o.y * o.z + p.y * p.z + q.y * q.z + r.y * r.z)) / 120) := by
  have := tetIntegral_affine2 (·.y) (·.z) taff_y taff_z o p q r
  rw [this]

theorem flux_x0 (m : Mesh ℝ) (h : m.ClosedOriented) (o : V3 ℝ) :
    m.surfaceSum (fun p q r => (areaVec p q r).x * triPoly p q r 0) =
      1 * m.surfaceSum (tetIntegral (fun _ => 1) o) := by
  rw [← surfaceSum_smul]
  refine closed_flux m h _ _ (fun p q => (areaVec o p q).x * triPoly o p q 0) ?_ ?_
  · intro p q
    simp [areaVec, V3.cross, triPoly, pf1]; ring
  · intro p q r
    rw [tet_one]
    simp [areaVec, V3.cross, V3.dot, triPoly, pf1]; ring

theorem flux_y1 (m : Mesh ℝ) (h : m.ClosedOriented) (o : V3 ℝ) :
    m.surfaceSum (fun p q r => (areaVec p q r).y * triPoly p q r 1) =
      1 * m.surfaceSum (tetIntegral (fun _ => 1) o) := by
  rw [← surfaceSum_smul]
  refine closed_flux m h _ _ (fun p q => (areaVec o p q).y * triPoly o p q 1) ?_ ?_
  · intro p q
    simp [areaVec, V3.cross, triPoly, pf1]; ring
  · intro p q r
    rw [tet_one]
    simp [areaVec, V3.cross, V3.dot, triPoly, pf1]; ring

theorem flux_z2 (m : Mesh ℝ) (h : m.ClosedOriented) (o : V3 ℝ) :
    m.surfaceSum (fun p q r => (areaVec p q r).z * triPoly p q r 2) =
      1 * m.surfaceSum (tetIntegral (fun _ => 1) o) := by
  rw [← surfaceSum_smul]
  refine closed_flux m h _ _ (fun p q => (areaVec o p q).z * triPoly o p q 2) ?_ ?_
  · intro p q
    simp [areaVec, V3.cross, triPoly, pf1]; ring
  · intro p q r
    rw [tet_one]
    simp [areaVec, V3.cross, V3.dot, triPoly, pf1]; ring

theorem flux_x6 (m : Mesh ℝ) (h : m.ClosedOriented) (o : V3 ℝ) :
    m.surfaceSum (fun p q r => (areaVec p q r).x * triPoly p q r 6) =
      2 * m.surfaceSum (tetIntegral (fun v => v.x) o) := by
  rw [← surfaceSum_smul]
  refine closed_flux m h _ _ (fun p q => (areaVec o p q).x * triPoly o p q 6) ?_ ?_
  · intro p q
    simp [areaVec, V3.cross, triPoly, pf1, pf2, pt2]; ring
  · intro p q r
    rw [tet_x]
    simp [areaVec, V3.cross, V3.dot, triPoly, pf1, pf2, pt2]; ring

theorem flux_y7 (m : Mesh ℝ) (h : m.ClosedOriented) (o : V3 ℝ) :
    m.surfaceSum (fun p q r => (areaVec p q r).y * triPoly p q r 7) =
      2 * m.surfaceSum (tetIntegral (fun v => v.y) o) := by
  rw [← surfaceSum_smul]
  refine closed_flux m h _ _ (fun p q => (areaVec o p q).y * triPoly o p q 7) ?_ ?_
  · intro p q
    simp [areaVec, V3.cross, triPoly, pf1, pf2, pt2]; ring
  · intro p q r
    rw [tet_y]
    simp [areaVec, V3.cross, V3.dot, triPoly, pf1, pf2, pt2]; ring

theorem flux_z8 (m : Mesh ℝ) (h : m.ClosedOriented) (o : V3 ℝ) :
    m.surfaceSum (fun p q r => (areaVec p q r).z * triPoly p q r 8) =
      2 * m.surfaceSum (tetIntegral (fun v => v.z) o) := by
  rw [← surfaceSum_smul]
  refine closed_flux m h _ _ (fun p q => (areaVec o p q).z * triPoly o p q 8) ?_ ?_
  · intro p q
    simp [areaVec, V3.cross, triPoly, pf1, pf2, pt2]; ring
  · intro p q r
    rw [tet_z]
    simp [areaVec, V3.cross, V3.dot, triPoly, pf1, pf2, pt2]; ring

theorem flux_x9 (m : Mesh ℝ) (h : m.ClosedOriented) (o : V3 ℝ) :
    m.surfaceSum (fun p q r => (areaVec p q r).x * triPoly p q r 9) =
      3 * m.surfaceSum (tetIntegral (fun v => v.x ^ 2) o) := by
  rw [← surfaceSum_smul]
  refine closed_flux m h _ _ (fun p q => (areaVec o p q).x * triPoly o p q 9) ?_ ?_
  · intro p q
    simp [areaVec, V3.cross, triPoly, pf1, pf2, pt2, pf3]; ring
  · intro p q r
    rw [tet_xx]
    simp [areaVec, V3.cross, V3.dot, triPoly, pf1, pf2, pt2, pf3]; ring

theorem flux_y10 (m : Mesh ℝ) (h : m.ClosedOriented) (o : V3 ℝ) :
    m.surfaceSum (fun p q r => (areaVec p q r).y * triPoly p q r 10) =
      3 * m.surfaceSum (tetIntegral (fun v => v.y ^ 2) o) := by
  rw [← surfaceSum_smul]
  refine closed_flux m h _ _ (fun p q => (areaVec o p q).y * triPoly o p q 10) ?_ ?_
  · intro p q
    simp [areaVec, V3.cross, triPoly, pf1, pf2, pt2, pf3]; ring
  · intro p q r
    rw [tet_yy]
    simp [areaVec, V3.cross, V3.dot, triPoly, pf1, pf2, pt2, pf3]; ring

theorem flux_z11 (m : Mesh ℝ) (h : m.ClosedOriented) (o : V3 ℝ) :
    m.surfaceSum (fun p q r => (areaVec p q r).z * triPoly p q r 11) =
      3 * m.surfaceSum (tetIntegral (fun v => v.z ^ 2) o) := by
  rw [← surfaceSum_smul]
  refine closed_flux m h _ _ (fun p q => (areaVec o p q).z * triPoly o p q 11) ?_ ?_
  · intro p q
    simp [areaVec, V3.cross, triPoly, pf1, pf2, pt2, pf3]; ring
  · intro p q r
    rw [tet_zz]
    simp [areaVec, V3.cross, V3.dot, triPoly, pf1, pf2, pt2, pf3]; ring

theorem flux_x12 (m : Mesh ℝ) (h : m.ClosedOriented) (o : V3 ℝ) :
    m.surfaceSum (fun p q r => (areaVec p q r).x * triPoly p q r 12) =
      2 * m.surfaceSum (tetIntegral (fun v => v.x * v.y) o) := by
  rw [← surfaceSum_smul]
  refine closed_flux m h _ _ (fun p q => (areaVec o p q).x * triPoly o p q 12) ?_ ?_
  · intro p q
    simp [areaVec, V3.cross, triPoly, pf1, pf2, pt2, pg0, pg1, pg2]; ring
  · intro p q r
    rw [tet_xy]
    simp [areaVec, V3.cross, V3.dot, triPoly, pf1, pf2, pt2, pg0, pg1, pg2]; ring

theorem flux_y13 (m : Mesh ℝ) (h : m.ClosedOriented) (o : V3 ℝ) :
    m.surfaceSum (fun p q r => (areaVec p q r).y * triPoly p q r 13) =
      2 * m.surfaceSum (tetIntegral (fun v => v.y * v.z) o) := by
  rw [← surfaceSum_smul]
  refine closed_flux m h _ _ (fun p q => (areaVec o p q).y * triPoly o p q 13) ?_ ?_
  · intro p q
    simp [areaVec, V3.cross, triPoly, pf1, pf2, pt2, pg0, pg1, pg2]; ring
  · intro p q r
    rw [tet_yz]
    simp [areaVec, V3.cross, V3.dot, triPoly, pf1, pf2, pt2, pg0, pg1, pg2]; ring

theorem flux_z14 (m : Mesh ℝ) (h : m.ClosedOriented) (o : V3 ℝ) :
    m.surfaceSum (fun p q r => (areaVec p q r).z * triPoly p q r 14) =
      2 * m.surfaceSum (tetIntegral (fun v => v.x * v.z) o) := by
  rw [← surfaceSum_smul]
  refine closed_flux m h _ _ (fun p q => (areaVec o p q).z * triPoly o p q 14) ?_ ?_
  · intro p q
    simp [areaVec, V3.cross, triPoly, pf1, pf2, pt2, pg0, pg1, pg2]; ring
  · intro p q r
    rw [tet_xz]
    simp [areaVec, V3.cross, V3.dot, triPoly, pf1, pf2, pt2, pg0, pg1, pg2]; ring

/-! ## C26 -/

theorem ConvexQuad.flip {p q r s : V3 ℝ} (h : ConvexQuad p q r s) : ConvexQuad s r q p := by
  obtain ⟨n, α, β, γ, δ, hα, hβ, hγ, hδ, hs, hn0, e1, e2, e3, e4⟩ := h
  have hsum : (γ + δ) • n = (α + β) • n := by
    rw [add_smul, add_smul, ← e1, ← e2, ← e3, ← e4]
    ext <;> simp [areaVec, V3.cross] <;> ring
  have hsum' : γ + δ = α + β := by
    have h0 : ((γ + δ) - (α + β)) • n = 0 := by rw [sub_smul, hsum, sub_self]
    rcases smul_eq_zero.1 h0 with h | h
    · linarith
    · exact absurd h hn0
  refine ⟨-n, δ, γ, β, α, hδ, hγ, hβ, hα, by linarith, neg_ne_zero.2 hn0, ?_, ?_, ?_, ?_⟩
  · rw [smul_neg, ← e4]; ext <;> simp [areaVec, V3.cross] <;> ring
  · rw [smul_neg, ← e3]; ext <;> simp [areaVec, V3.cross] <;> ring
  · rw [smul_neg, ← e2]; ext <;> simp [areaVec, V3.cross] <;> ring
  · rw [smul_neg, ← e1]; ext <;> simp [areaVec, V3.cross] <;> ring

theorem Mesh.ConvexFaces.flipNormals {m : Mesh ℝ} (h : m.ConvexFaces) : m.flipNormals.ConvexFaces := by
  intro f hf
  obtain ⟨g, hg, rfl⟩ := List.mem_map.1 hf
  have := h g hg
  show if g.d = g.a then areaVec (m.vert g.d) (m.vert g.c) (m.vert g.b) ≠ 0 else
    ConvexQuad (m.vert g.d) (m.vert g.c) (m.vert g.b) (m.vert g.a)
  by_cases ht : g.a = g.d
  · rw [if_pos ht] at this
    rw [if_pos ht.symm, ← ht, areaVec_swap]
    exact neg_ne_zero.2 this
  · rw [if_neg ht] at this
    rw [if_neg (Ne.symm ht)]
    exact this.flip

theorem signedVolume_flip (m : Mesh ℝ) (h : m.ConvexFaces) :
    m.flipNormals.signedVolume = - m.signedVolume := by
  have hf : ∀ f ∈ m.faces, m.faceSignedVolume f.flip = - m.faceSignedVolume f := by
    intro f hf
    have hp := h f hf
    by_cases ht : f.a = f.d
    · simp only [Mesh.faceSignedVolume, Face.flip, ht, if_true]
      simp [tetVol, V3.dot, V3.cross]; ring
    · rw [if_neg ht] at hp
      have hc := hp.coplanar
      simp only [Mesh.faceSignedVolume, Face.flip, ht, Ne.symm ht, if_false]
      simp only [tetVol, V3.dot, V3.cross, areaVec, V3.sub_x, V3.sub_y, V3.sub_z] at hc ⊢
      linear_combination (-1 / 6 : ℝ) * hc
  unfold Mesh.signedVolume
  have e : m.flipNormals.faces.map m.flipNormals.faceSignedVolume =
      m.faces.map (fun f => - m.faceSignedVolume f) := by
    simp only [Mesh.flipNormals, List.map_map]
    apply List.map_congr_left
    intro f hfm
    exact hf f hfm
  rw [e]
  generalize m.faces = l
  induction l with
  | nil => simp
  | cons a l ih => simp only [List.map_cons, List.sum_cons, ih]; ring

/-- **C26.** Volume of a closed consistently oriented mesh with plane convex faces: it is the sum of the
signed volumes of the tetrahedra joining any apex `o` to the faces (`(p-o)·((q-o)×(r-o))/6`), which are
the integrals of `1` over these tetrahedra; it is unchanged by translations and rotations and changes sign
when the normals are flipped. -/
theorem C26_volume (m : Mesh ℝ) (hwf : m.WF) (hc : m.ClosedOriented) (hf : m.ConvexFaces) :
    (∀ o : V3 ℝ, m.volume = m.surfaceSum (fun p q r => (p - o).dot ((q - o).cross (r - o)) / 6)) ∧
    (∀ o : V3 ℝ, m.volume = m.solidIntegral o (fun _ => 1)) ∧
    (∀ t : V3 ℝ, (m.translate t).volume = m.volume) ∧
    (∀ R : M3 ℝ, R.IsRotation → (m.rotateMatrix R).volume = m.volume) ∧
    m.flipNormals.volume = - m.volume := by
  have hv : ∀ o : V3 ℝ, m.volume = m.solidIntegral o (fun _ => 1) := by
    intro o
    rw [Mesh.volume, Mesh.volumeWith, normalWeighted_flux m hf.flat]
    simp only [flux_x0 m hc o, flux_y1 m hc o, flux_z2 m hc o, Mesh.solidIntegral]
    ring
  refine ⟨?_, hv, ?_, ?_, ?_⟩
  · intro o
    rw [hv o, Mesh.solidIntegral]
    congr 1; funext p q r; exact tet_one o p q r
  · exact fun t => (C18_translate t m hwf).2.2.2.2.2.1 hc hf.flat
  · exact fun R hR => (C18_rotate_matrix R hR m hwf).2.2.2.2.2.1
  · rw [volume_eq_signedVolume _ hf.flipNormals.flat, volume_eq_signedVolume _ hf.flat,
      signedVolume_flip m hf]

example : (cubeMesh ℝ).WF ∧ (cubeMesh ℝ).ClosedOriented ∧ (cubeMesh ℝ).ConvexFaces ∧
    (cubeMesh ℝ).volume = 1 :=
  ⟨cubeMesh_wf ℝ, cubeMesh_closed ℝ, cubeMesh_convex, by
    rw [volume_eq_signedVolume _ cubeMesh_convex.flat, cubeMesh_volume]⟩

/-! ## C27 -/

theorem tetIntegral_sq_add (a b : V3 ℝ → ℝ)
    (ha : ∀ o p q r : V3 ℝ, ∀ u v w : ℝ, a (o + (u • (p - o) + v • (q - o) + w • (r - o))) =
      a o + u * (a p - a o) + v * (a q - a o) + w * (a r - a o))
    (hb : ∀ o p q r : V3 ℝ, ∀ u v w : ℝ, b (o + (u • (p - o) + v • (q - o) + w • (r - o))) =
      b o + u * (b p - b o) + v * (b q - b o) + w * (b r - b o)) (o p q r : V3 ℝ) :
    tetIntegral (fun x => a x ^ 2 + b x ^ 2) o p q r =
      tetIntegral (fun x => a x ^ 2) o p q r + tetIntegral (fun x => b x ^ 2) o p q r := by
  have h1 := tetIntegral_affine2 a a ha ha o p q r
  have h2 := tetIntegral_affine2 b b hb hb o p q r
  simp only [← sq] at h1 h2
  rw [h1, h2, tetIntegral, coneIntegral]
  simp only [ha, hb]
  rw [tet_quadratic (a o ^ 2 + b o ^ 2)
    (2 * (a p - a o) * a o + 2 * (b p - b o) * b o) (2 * (a q - a o) * a o + 2 * (b q - b o) * b o)
    (2 * (a r - a o) * a o + 2 * (b r - b o) * b o)
    ((a p - a o) ^ 2 + (b p - b o) ^ 2) ((a q - a o) ^ 2 + (b q - b o) ^ 2)
    ((a r - a o) ^ 2 + (b r - b o) ^ 2)
    (2 * (a p - a o) * (a q - a o) + 2 * (b p - b o) * (b q - b o))
    (2 * (a p - a o) * (a r - a o) + 2 * (b p - b o) * (b r - b o))
    (2 * (a q - a o) * (a r - a o) + 2 * (b q - b o) * (b r - b o)) (fun u v w => by ring)]
  ring

theorem solid_sq_add (m : Mesh ℝ) (o : V3 ℝ) (a b : V3 ℝ → ℝ)
    (ha : ∀ o p q r : V3 ℝ, ∀ u v w : ℝ, a (o + (u • (p - o) + v • (q - o) + w • (r - o))) =
      a o + u * (a p - a o) + v * (a q - a o) + w * (a r - a o))
    (hb : ∀ o p q r : V3 ℝ, ∀ u v w : ℝ, b (o + (u • (p - o) + v • (q - o) + w • (r - o))) =
      b o + u * (b p - b o) + v * (b q - b o) + w * (b r - b o)) :
    m.solidIntegral o (fun x => a x ^ 2 + b x ^ 2) =
      m.solidIntegral o (fun x => a x ^ 2) + m.solidIntegral o (fun x => b x ^ 2) := by
  unfold Mesh.solidIntegral
  rw [← surfaceSum_add]
  congr 1; funext p q r
  exact tetIntegral_sq_add a b ha hb o p q r

/-- **C27, moments.** For a closed consistently oriented mesh with plane faces and non-zero volume, and any
apex `o`, `eval_plain_mesh_inertias(ρ)` has mass `ρ ∫ 1`, centre of gravity `∫ p / ∫ 1` and inertia matrix
about the origin `ρ [∫ y²+z², -∫ xy, ...]`, the integrals being taken over the solid. -/
theorem C27_plain_inertia (m : Mesh ℝ) (hc : m.ClosedOriented) (hf : m.FlatFaces) (hv : m.volume ≠ 0)
    (ρ : ℝ) (o : V3 ℝ) :
    (m.evalPlain ρ).mass = ρ * m.solidIntegral o (fun _ => 1) ∧
    (m.solidIntegral o (fun _ => 1)) • (m.evalPlain ρ).cog =
      ⟨m.solidIntegral o (fun p => p.x), m.solidIntegral o (fun p => p.y), m.solidIntegral o (fun p => p.z)⟩ ∧
    (m.evalPlain ρ).mat = inertiaMatrix (fun g => ρ * m.solidIntegral o g) ∧
    (m.evalPlain ρ).point = 0 := by
  have hvol : m.volume = m.solidIntegral o (fun _ => 1) := by
    rw [Mesh.volume, Mesh.volumeWith, normalWeighted_flux m hf]
    simp only [flux_x0 m hc o, flux_y1 m hc o, flux_z2 m hc o, Mesh.solidIntegral]
    ring
  refine ⟨?_, ?_, ?_, rfl⟩
  · rw [← hvol]; rfl
  · rw [← hvol]
    show m.volume • ((1 / (2 * m.volume)) • _ : V3 ℝ) = _
    rw [normalWeighted_flux m hf, flux_x6 m hc o, flux_y7 m hc o, flux_z8 m hc o, smul_smul]
    ext <;> simp only [V3.smul_x, V3.smul_y, V3.smul_z, Mesh.solidIntegral] <;> field_simp
  · simp only [Mesh.evalPlain, Inertia.init, inertiaMatrix, normalWeighted_flux m hf, flux_x9 m hc o,
      flux_y10 m hc o, flux_z11 m hc o, flux_x12 m hc o, flux_y13 m hc o, flux_z14 m hc o,
      solid_sq_add m o (·.y) (·.z) taff_y taff_z, solid_sq_add m o (·.x) (·.z) taff_x taff_z,
      solid_sq_add m o (·.x) (·.y) taff_x taff_y]
    simp only [Mesh.solidIntegral, M3.mk.injEq, V3.mk.injEq]
    refine ⟨⟨?_, ?_, ?_⟩, ⟨?_, ?_, ?_⟩, ?_, ?_, ?_⟩ <;> ring

theorem tetIntegral_translate (g : V3 ℝ → ℝ) (t o p q r : V3 ℝ) :
    tetIntegral g (o + t) (p + t) (q + t) (r + t) = tetIntegral (fun x => g (x + t)) o p q r := by
  unfold tetIntegral
  rw [add_sub_add_right_eq_sub, add_sub_add_right_eq_sub, add_sub_add_right_eq_sub]
  congr 1; funext x; rw [add_right_comm]

theorem surfaceSum_translate (m : Mesh ℝ) (hwf : m.WF) (t : V3 ℝ) (T : V3 ℝ → V3 ℝ → V3 ℝ → ℝ) :
    (m.translate t).surfaceSum T = m.surfaceSum (fun p q r => T (p + t) (q + t) (r + t)) := by
  unfold Mesh.surfaceSum
  show (m.faces.map ((m.translate t).faceSum T)).sum = _
  congr 1
  apply List.map_congr_left
  intro f hf
  obtain ⟨ha, hb, hc, hd⟩ := hwf.corner (f := f) hf
  simp only [Mesh.faceSum, Mesh.translate, vert_mapVertices m _ _ ha, vert_mapVertices m _ _ hb,
    vert_mapVertices m _ _ hc, vert_mapVertices m _ _ hd]

/-- Integrals over the translated solid. -/
theorem solidIntegral_translate (m : Mesh ℝ) (hwf : m.WF) (t o : V3 ℝ) (g : V3 ℝ → ℝ) :
    (m.translate t).solidIntegral (o + t) g = m.solidIntegral o (fun x => g (x + t)) := by
  rw [Mesh.solidIntegral, surfaceSum_translate m hwf]
  simp only [tetIntegral_translate]; rfl

theorem tet_coord_add (c : V3 ℝ → ℝ) (k : ℝ)
    (ha : ∀ o p q r : V3 ℝ, ∀ u v w : ℝ, c (o + (u • (p - o) + v • (q - o) + w • (r - o))) =
      c o + u * (c p - c o) + v * (c q - c o) + w * (c r - c o)) (o p q r : V3 ℝ) :
    tetIntegral (fun x => c x + k) o p q r =
      tetIntegral (fun x => c x) o p q r + k * tetIntegral (fun _ => 1) o p q r := by
  have h1 := tetIntegral_affine2 (fun x => c x + k) (fun _ => 1) (by intros; simp only [ha]; ring) taff_one o p q r
  have h2 := tetIntegral_affine2 c (fun _ => 1) ha taff_one o p q r
  simp only [mul_one] at h1 h2
  rw [h1, h2, tet_one]; ring

/-- **C27**, the moments and the products of inertia read from the result (`xx`, `yy`, `zz`, `yz`, `xz`, `xy`). -/
theorem C27_moments (m : Mesh ℝ) (hc : m.ClosedOriented) (hf : m.FlatFaces) (hv : m.volume ≠ 0) (ρ : ℝ) (o : V3 ℝ) :
    let I := m.evalPlain ρ
    let body := m.solidIntegral o
    I.xx = ρ * body (fun p => p.y ^ 2 + p.z ^ 2) ∧ I.yy = ρ * body (fun p => p.x ^ 2 + p.z ^ 2) ∧
    I.zz = ρ * body (fun p => p.x ^ 2 + p.y ^ 2) ∧ I.yz = ρ * body (fun p => p.y * p.z) ∧
    I.xz = ρ * body (fun p => p.x * p.z) ∧ I.xy = ρ * body (fun p => p.x * p.y) := by
  obtain ⟨-, -, h, -⟩ := C27_plain_inertia m hc hf hv ρ o
  simp only [Inertia.xx, Inertia.yy, Inertia.zz, Inertia.yz, Inertia.xz, Inertia.xy, h, inertiaMatrix, neg_neg]
  simp

/-- **C27, translation.** Translating a closed mesh by `t` moves the centre of gravity by `t` and keeps the
mass. -/
theorem C27_translate (m : Mesh ℝ) (hwf : m.WF) (hc : m.ClosedOriented) (hf : m.FlatFaces)
    (hv : m.volume ≠ 0) (ρ : ℝ) (t : V3 ℝ) :
    ((m.translate t).evalPlain ρ).mass = (m.evalPlain ρ).mass ∧
    ((m.translate t).evalPlain ρ).cog = (m.evalPlain ρ).cog + t := by
  have hvt := (C18_translate t m hwf).2.2.2.2.2.1 hc hf
  have hct : (m.translate t).ClosedOriented := hc
  have hft := translate_flat t m hwf hf
  obtain ⟨a1, a2, -⟩ := C27_plain_inertia (m.translate t) hct hft (by rw [hvt]; exact hv) ρ (0 + t)
  obtain ⟨b1, b2, -⟩ := C27_plain_inertia m hc hf hv ρ 0
  have hV : m.solidIntegral 0 (fun _ => 1) ≠ 0 := by
    intro h0
    have : m.volume = m.solidIntegral 0 (fun _ => 1) := by
      rw [Mesh.volume, Mesh.volumeWith, normalWeighted_flux m hf]
      simp only [flux_x0 m hc 0, flux_y1 m hc 0, flux_z2 m hc 0, Mesh.solidIntegral]
      ring
    exact hv (this.trans h0)
  refine ⟨by show ρ * _ = ρ * _; rw [hvt], ?_⟩
  have key : ∀ c : V3 ℝ → ℝ, ∀ k : ℝ,
      (∀ o p q r : V3 ℝ, ∀ u v w : ℝ, c (o + (u • (p - o) + v • (q - o) + w • (r - o))) =
      c o + u * (c p - c o) + v * (c q - c o) + w * (c r - c o)) →
      m.solidIntegral 0 (fun x => c x + k) = m.solidIntegral 0 c + k * m.solidIntegral 0 (fun _ => 1) := by
    intro c k hc'
    unfold Mesh.solidIntegral
    rw [← surfaceSum_smul, ← surfaceSum_add]
    congr 1; funext p q r
    exact tet_coord_add c k hc' 0 p q r
  simp only [solidIntegral_translate m hwf, V3.add_x, V3.add_y, V3.add_z, key (·.x) t.x taff_x,
    key (·.y) t.y taff_y, key (·.z) t.z taff_z] at a2
  generalize m.solidIntegral 0 (fun _ => 1) = V at *
  have e : V • ((m.translate t).evalPlain ρ).cog = V • ((m.evalPlain ρ).cog + t) := by
    rw [a2, smul_add, b2]; ext <;> simp [mul_comm]
  have := congrArg (fun v : V3 ℝ => (1 / V) • v) e
  simpa [smul_smul, hV] using this

example : (cubeMesh ℝ).ClosedOriented ∧ (cubeMesh ℝ).FlatFaces ∧ (cubeMesh ℝ).volume ≠ 0 :=
  ⟨cubeMesh_closed ℝ, cubeMesh_convex.flat, by
    rw [volume_eq_signedVolume _ cubeMesh_convex.flat, cubeMesh_volume]; norm_num⟩

/-! ## C28 -/

theorem triangleIntegral_one (p q r : V3 ℝ) : triangleIntegral (fun _ => 1) p q r = triDelta p q r / 2 := by
  have := triangleIntegral_affine3 (fun _ => 1) (fun _ => 1) (fun _ => 1) affine_one affine_one affine_one p q r
  simp only [mul_one] at this
  rw [this]; ring

theorem shell_row (m : Mesh ℝ) (i : Fin 15) (h3 : i ≠ 3) (h4 : i ≠ 4) (h5 : i ≠ 5) :
    m.totalIntegrals i = m.shellIntegral (integrand i) := by
  rw [totalIntegrals_eq, Mesh.shellIntegral, Mesh.surfaceSum]
  have hsum : ∀ l : List Face, ((l.map m.faceIntegrals).sum) i = (l.map (fun f => m.faceIntegrals f i)).sum := by
    intro l
    induction l with
    | nil => rfl
    | cons f l ih => simp only [List.map_cons, List.sum_cons, Pi.add_apply, ih]
  rw [hsum]
  congr 1
  apply List.map_congr_left
  intro f _
  by_cases ht : f.a = f.d
  · have htri : f.isTri = true := by simpa [Face.isTri] using ht
    simp only [Mesh.faceIntegrals, htri, if_true, Mesh.triIntegralsOf, Mesh.faceSum, if_pos ht]
    exact C25_triangle_integrals_partial _ _ _ i h3 h4 h5
  · have htri : f.isTri = false := by simpa [Face.isTri] using ht
    simp only [Mesh.faceIntegrals, htri, Bool.false_eq_true, if_false, Mesh.quadIntegralsOf, Pi.add_apply,
      Mesh.faceSum, if_neg ht]
    rw [C25_triangle_integrals_partial _ _ _ i h3 h4 h5, C25_triangle_integrals_partial _ _ _ i h3 h4 h5]

theorem shell_area (m : Mesh ℝ) : m.totalArea = m.shellIntegral (fun _ => 1) := by
  rw [totalArea_eq, Mesh.shellIntegral, Mesh.surfaceSum]
  congr 1
  apply List.map_congr_left
  intro f _
  by_cases ht : f.a = f.d
  · have htri : f.isTri = true := by simpa [Face.isTri] using ht
    simp only [Mesh.faceProps, htri, if_true, Mesh.triPropsOf, Mesh.faceSum, if_pos ht, triangleIntegral_one]
    rfl
  · have htri : f.isTri = false := by simpa [Face.isTri] using ht
    simp only [Mesh.faceProps, htri, Bool.false_eq_true, if_false, Mesh.quadPropsOf,
      Mesh.faceSum, if_neg ht, triangleIntegral_one]
    generalize m.vert f.a = p, m.vert f.b = q, m.vert f.c = r, m.vert f.d = s
    show ((q - p).cross (r - p)).norm * (1 / 2) + ((s - p).cross (r - p)).norm * (1 / 2) =
      ((q - p).cross (r - p)).norm / 2 + ((r - p).cross (s - p)).norm / 2
    rw [V3.norm_cross_comm (s - p)]; ring

theorem triangle_sq_add (a b : V3 ℝ → ℝ)
    (ha : ∀ p q r : V3 ℝ, ∀ u v : ℝ, a (p + u • (q - p) + v • (r - p)) = a p + u * (a q - a p) + v * (a r - a p))
    (hb : ∀ p q r : V3 ℝ, ∀ u v : ℝ, b (p + u • (q - p) + v • (r - p)) = b p + u * (b q - b p) + v * (b r - b p))
    (p q r : V3 ℝ) :
    triangleIntegral (fun x => a x ^ 2 + b x ^ 2) p q r =
      triangleIntegral (fun x => a x ^ 2) p q r + triangleIntegral (fun x => b x ^ 2) p q r := by
  have h1 := triangleIntegral_affine3 a a (fun _ => 1) ha ha affine_one p q r
  have h2 := triangleIntegral_affine3 b b (fun _ => 1) hb hb affine_one p q r
  simp only [← sq, mul_one] at h1 h2
  rw [h1, h2, triangleIntegral]
  simp only [ha, hb]
  rw [triangle_cubic (a p ^ 2 + b p ^ 2) (2 * (a q - a p) * a p + 2 * (b q - b p) * b p)
    (2 * (a r - a p) * a p + 2 * (b r - b p) * b p) ((a q - a p) ^ 2 + (b q - b p) ^ 2)
    (2 * (a q - a p) * (a r - a p) + 2 * (b q - b p) * (b r - b p)) ((a r - a p) ^ 2 + (b r - b p) ^ 2)
    0 0 0 0 (fun u v => by ring)]
  show triDelta p q r * _ = _
  ring

theorem shell_sq_add (m : Mesh ℝ) (a b : V3 ℝ → ℝ)
    (ha : ∀ p q r : V3 ℝ, ∀ u v : ℝ, a (p + u • (q - p) + v • (r - p)) = a p + u * (a q - a p) + v * (a r - a p))
    (hb : ∀ p q r : V3 ℝ, ∀ u v : ℝ, b (p + u • (q - p) + v • (r - p)) = b p + u * (b q - b p) + v * (b r - b p)) :
    m.shellIntegral (fun x => a x ^ 2 + b x ^ 2) =
      m.shellIntegral (fun x => a x ^ 2) + m.shellIntegral (fun x => b x ^ 2) := by
  unfold Mesh.shellIntegral
  rw [← surfaceSum_add]
  congr 1; funext p q r
  exact triangle_sq_add a b ha hb p q r

/-- **C28** (all but the products of inertia). For every mesh of non-zero area,
`eval_shell_mesh_inertias(ρ, thickness)` has the mass, the centre of gravity and the diagonal moments about
the origin of a homogeneous thin shell of surface density `ρ * thickness` on the faces.  Missing: the
products of inertia, which are wrong, see `C28_fails`. -/
theorem C28_shell_inertia_partial (m : Mesh ℝ) (hA : m.totalArea ≠ 0) (ρ th : ℝ) :
    (m.evalShell ρ th).mass = ρ * th * m.shellIntegral (fun _ => 1) ∧
    (m.shellIntegral (fun _ => 1)) • (m.evalShell ρ th).cog =
      ⟨m.shellIntegral (fun p => p.x), m.shellIntegral (fun p => p.y), m.shellIntegral (fun p => p.z)⟩ ∧
    (m.evalShell ρ th).xx = (inertiaMatrix (fun g => ρ * th * m.shellIntegral g)).r0.x ∧
    (m.evalShell ρ th).yy = (inertiaMatrix (fun g => ρ * th * m.shellIntegral g)).r1.y ∧
    (m.evalShell ρ th).zz = (inertiaMatrix (fun g => ρ * th * m.shellIntegral g)).r2.z ∧
    (m.evalShell ρ th).point = 0 := by
  have r0 : m.totalIntegrals 0 = m.shellIntegral (fun p => p.x) := shell_row m 0 (by decide) (by decide) (by decide)
  have r1 : m.totalIntegrals 1 = m.shellIntegral (fun p => p.y) := shell_row m 1 (by decide) (by decide) (by decide)
  have r2 : m.totalIntegrals 2 = m.shellIntegral (fun p => p.z) := shell_row m 2 (by decide) (by decide) (by decide)
  have r6 : m.totalIntegrals 6 = m.shellIntegral (fun p => p.x ^ 2) := shell_row m 6 (by decide) (by decide) (by decide)
  have r7 : m.totalIntegrals 7 = m.shellIntegral (fun p => p.y ^ 2) := shell_row m 7 (by decide) (by decide) (by decide)
  have r8 : m.totalIntegrals 8 = m.shellIntegral (fun p => p.z ^ 2) := shell_row m 8 (by decide) (by decide) (by decide)
  refine ⟨?_, ?_, ?_, ?_, ?_, rfl⟩
  · rw [← shell_area]; rfl
  · rw [← shell_area]
    show m.totalArea • ((1 / m.totalArea) • _ : V3 ℝ) = _
    rw [smul_smul, mul_one_div_cancel hA, one_smul, r0, r1, r2]
  · simp only [Mesh.evalShell, Inertia.init, Inertia.xx, inertiaMatrix, r7, r8,
      shell_sq_add m (·.y) (·.z) affine_y affine_z]
  · simp only [Mesh.evalShell, Inertia.init, Inertia.yy, inertiaMatrix, r6, r8,
      shell_sq_add m (·.x) (·.z) affine_x affine_z]
  · simp only [Mesh.evalShell, Inertia.init, Inertia.zz, inertiaMatrix, r6, r7,
      shell_sq_add m (·.x) (·.y) affine_x affine_y]

/-- A plate in the plane `z = 0`: the triangle `(0,0,0) (1,0,0) (0,1,0)`. -/
def plate : Mesh ℝ := ⟨[⟨0, 0, 0⟩, ⟨1, 0, 0⟩, ⟨0, 1, 0⟩], [⟨0, 1, 2, 0⟩]⟩

theorem plate_area : plate.totalArea = 1 / 2 := by
  rw [shell_area]
  simp [Mesh.shellIntegral, Mesh.surfaceSum, Mesh.faceSum, plate, Mesh.vert, triangleIntegral_one, triDelta,
    V3.norm, V3.normSq, V3.dot, V3.cross]

example : plate.totalArea ≠ 0 := by rw [plate_area]; norm_num

/-- The products of inertia of a shell are wrong: for the triangular plate the code returns `xy = 0`,
the shell has `∫ xy = 1/24`. -/
theorem C28_fails :
    (plate.evalShell 1 1).xy = 0 ∧ plate.shellIntegral (fun p => p.x * p.y) = 1 / 24 := by
  constructor
  · have : plate.totalIntegrals 5 = 0 := by
      rw [totalIntegrals_eq]
      simp [plate, Mesh.faceIntegrals, Face.isTri, Mesh.triIntegralsOf, Mesh.vert, triIntegrals, pf1]
    show - -(1 * 1 * plate.totalIntegrals 5) = 0
    rw [this]; ring
  · have := C25_fails.2.2.2
    simpa [Mesh.shellIntegral, Mesh.surfaceSum, Mesh.faceSum, plate, Mesh.vert, integrand] using this

/-! ## C38 -/

/-- The parallel axis term `mass (d·d 1 - d dᵀ)`. -/
def steiner (mass : ℝ) (d : V3 ℝ) : M3 ℝ :=
  M3.smul mass ((M3.smul (d.dot d) M3.one).add
    (M3.smul (-1) ⟨d.x • d, d.y • d, d.z • d⟩))

theorem huygens_eq (I : Inertia) : I.huygens = steiner I.mass (I.cog - I.point) := by
  simp only [Inertia.huygens, steiner, M3.smul, M3.add, M3.one]
  ext <;> simp <;> ring

/-- **C38** (one move). An inertia expressed at its centre of gravity, moved to any point `P`, becomes the
inertia at the centre of gravity plus the parallel axis term; mass and centre of gravity are unchanged.
Missing: coming back to the centre of gravity and longer histories, see `C38_history` for what the code does
and `C38_fails`. -/
theorem C38_transport_partial (I : Inertia) (h : I.isAtCog) (P : V3 ℝ) :
    (I.setReductionPoint P).mat = I.mat.add (steiner I.mass (I.cog - P)) ∧
    (I.setReductionPoint P).mass = I.mass ∧ (I.setReductionPoint P).cog = I.cog ∧
    (I.setReductionPoint P).point = P := by
  refine ⟨?_, rfl, rfl, rfl⟩
  have h0 : I.huygens = ⟨0, 0, 0⟩ := by
    rw [huygens_eq, h, sub_self]
    simp only [steiner, M3.smul, M3.add, M3.one]
    ext <;> simp
  simp only [Inertia.setReductionPoint, Inertia.atCog, Inertia.shiftAtCog, huygens_eq, h0]
  rw [huygens_eq] at h0
  rw [h0]
  ext <;> simp [M3.add]

example : (Inertia.init 2 ⟨1, 2, 3⟩ 4 5 6 1 2 3).isAtCog := rfl

/-- Sum of the parallel axis terms of a list of points. -/
def steinerSum (mass : ℝ) (g : V3 ℝ) (ps : List (V3 ℝ)) : M3 ℝ :=
  ps.foldr (fun p a => (steiner mass (g - p)).add a) ⟨0, 0, 0⟩

theorem M3.add_assoc' (a b c : M3 ℝ) : (a.add b).add c = a.add (b.add c) := by
  ext <;> simp [M3.add] <;> ring
theorem M3.add_comm' (a b : M3 ℝ) : a.add b = b.add a := by ext <;> simp [M3.add] <;> ring

/-- What the code computes along a history: starting at the centre of gravity and going through the points
`ps` and then `P`, the matrix is the one at the centre of gravity plus the term of `P`, plus twice the terms
of all the intermediate points. -/
theorem C38_history (I : Inertia) (h : I.isAtCog) (ps : List (V3 ℝ)) (P : V3 ℝ) :
    ((ps ++ [P]).foldl Inertia.setReductionPoint I).mat =
      (I.mat.add (steiner I.mass (I.cog - P))).add (M3.smul 2 (steinerSum I.mass I.cog ps)) := by
  have gen : ∀ (ps : List (V3 ℝ)) (J : Inertia),
      ((ps ++ [P]).foldl Inertia.setReductionPoint J).mat =
        ((J.mat.add (steiner J.mass (J.cog - J.point))).add (steiner J.mass (J.cog - P))).add
          (M3.smul 2 (steinerSum J.mass J.cog ps)) := by
    intro ps
    induction ps with
    | nil =>
      intro J
      simp only [List.nil_append, List.foldl_cons, List.foldl_nil, Inertia.setReductionPoint, Inertia.atCog,
        Inertia.shiftAtCog, huygens_eq, steinerSum, List.foldr_nil]
      ext <;> simp [M3.add, M3.smul]
    | cons p ps ih =>
      intro J
      rw [List.cons_append, List.foldl_cons, ih]
      simp only [Inertia.setReductionPoint, Inertia.atCog, Inertia.shiftAtCog, huygens_eq, steinerSum,
        List.foldr_cons]
      generalize List.foldr (fun p a => (steiner J.mass (J.cog - p)).add a) ⟨0, 0, 0⟩ ps = S
      generalize steiner J.mass (J.cog - p) = A, steiner J.mass (J.cog - J.point) = B,
        steiner J.mass (J.cog - P) = C
      ext <;> simp [M3.add, M3.smul] <;> ring
  rw [gen, h, sub_self]
  have h0 : steiner I.mass 0 = ⟨0, 0, 0⟩ := by
    simp only [steiner, M3.smul, M3.add, M3.one]; ext <;> simp
  rw [h0]
  ext <;> simp [M3.add, M3.smul]

/-- Going to a point and back does not restore the matrix, and the result depends on the history: a unit
mass with zero inertia at its centre of gravity, moved to `(1,0,0)` and back, gets `Iyy = 2`. -/
theorem C38_fails :
    ∃ I : Inertia, ∃ P : V3 ℝ, I.isAtCog ∧
      ((I.setReductionPoint P).setReductionPoint I.cog).mat ≠ I.mat ∧
      (I.setReductionPoint P).atCog.mat ≠ I.mat ∧
      (I.setReductionPoint P).shiftAtCog.mat ≠ I.mat := by
  refine ⟨Inertia.init 1 0 0 0 0 0 0 0, ⟨1, 0, 0⟩, rfl, ?_, ?_, ?_⟩
  · intro h
    have := congrArg (fun m : M3 ℝ => m.r1.y) h
    simp [Inertia.init, Inertia.setReductionPoint, Inertia.atCog, Inertia.shiftAtCog, Inertia.huygens, M3.add,
      V3.dot] at this
  · intro h
    have := congrArg (fun m : M3 ℝ => m.r1.y) h
    simp [Inertia.init, Inertia.setReductionPoint, Inertia.atCog, Inertia.shiftAtCog, Inertia.huygens, M3.add,
      V3.dot] at this
  · intro h
    have := congrArg (fun m : M3 ℝ => m.r1.y) h
    simp [Inertia.init, Inertia.setReductionPoint, Inertia.atCog, Inertia.shiftAtCog, Inertia.huygens, M3.add,
      V3.dot] at this

end MM
