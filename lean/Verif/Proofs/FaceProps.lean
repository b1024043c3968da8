import Verif.Spec.Closed
import Verif.Proofs.Vec

/-!
# Lemmas on face properties, surface integrals and closed surfaces
-/

namespace MM

set_option linter.unusedSectionVars false

/-- Properties of one face of a mesh, by its kind. -/
noncomputable def Mesh.faceProps (m : Mesh ℝ) (f : Face) : FP :=
  if f.isTri then m.triPropsOf f else m.quadPropsOf f

/-- Integrals of one face of a mesh, by its kind. -/
noncomputable def Mesh.faceIntegrals (m : Mesh ℝ) (f : Face) : Fin 15 → ℝ :=
  if f.isTri then m.triIntegralsOf f else m.quadIntegralsOf f

/-! ### Scatter loops -/

theorem scatter_length {β : Type*} (ids : List ℕ) (v : ℕ → β) (base : List β) :
    (ids.foldl (fun l k => l.set k (v k)) base).length = base.length := by
  induction ids generalizing base with
  | nil => rfl
  | cons a ids ih => simp [ih]

theorem scatter_getElem? {β : Type*} (ids : List ℕ) (v : ℕ → β) (base : List β) (i : ℕ)
    (hi : i < base.length) :
    (ids.foldl (fun l k => l.set k (v k)) base)[i]? =
      if i ∈ ids then some (v i) else base[i]? := by
  induction ids generalizing base with
  | nil => simp
  | cons a ids ih =>
    rw [List.foldl_cons, ih _ (by simpa using hi)]
    by_cases h : i ∈ ids
    · simp [h]
    · by_cases h2 : a = i
      · subst h2; simp [h, hi]
      · have h3 : ¬ i = a := fun h => h2 h.symm
        simp [h, h2, h3]

/-- The two passes over triangles and quadrangles fill each line with the right formula. -/
theorem scatter_eq_map {K β : Type*} (m : Mesh K) (g h : Face → β) (z : β) :
    m.quadranglesIds.foldl (fun l k => l.set k (h (m.faceAt k)))
      (m.trianglesIds.foldl (fun l k => l.set k (g (m.faceAt k))) (List.replicate m.nf z)) =
    m.faces.map (fun f => if f.isTri then g f else h f) := by
  apply List.ext_getElem?
  intro i
  by_cases hi : i < m.nf
  · have hi' : i < m.faces.length := hi
    rw [scatter_getElem? _ _ _ _ (by simpa [scatter_length] using hi),
      scatter_getElem? _ _ _ _ (by simpa using hi)]
    have hat : m.faceAt i = m.faces[i] := by simp [Mesh.faceAt, hi']
    simp only [Mesh.quadranglesIds, Mesh.trianglesIds, List.mem_filter, List.mem_range, hi, true_and,
      List.getElem?_map, List.getElem?_eq_getElem hi', Option.map_some, Option.getD_some, hat]
    by_cases ht : m.faces[i].isTri <;> simp [ht]
  · have h1 : m.faces.length ≤ i := not_lt.1 hi
    rw [List.getElem?_eq_none, List.getElem?_eq_none]
    · simpa using h1
    · simpa [scatter_length, Mesh.nf] using h1

theorem facesProperties_eq (m : Mesh ℝ) : m.facesProperties = m.faces.map m.faceProps :=
  scatter_eq_map m m.triPropsOf m.quadPropsOf FP.zero

theorem surfaceIntegrals_eq (m : Mesh ℝ) : m.surfaceIntegrals = m.faces.map m.faceIntegrals :=
  scatter_eq_map m m.triIntegralsOf m.quadIntegralsOf 0

theorem normalWeighted_eq (m : Mesh ℝ) (i0 i1 i2 : Fin 15) :
    Mesh.normalWeighted m.facesProperties m.surfaceIntegrals i0 i1 i2 =
      (m.faces.map (fun f => (⟨(m.faceProps f).normal.x * m.faceIntegrals f i0,
        (m.faceProps f).normal.y * m.faceIntegrals f i1,
        (m.faceProps f).normal.z * m.faceIntegrals f i2⟩ : V3 ℝ))).sum := by
  rw [facesProperties_eq, surfaceIntegrals_eq, Mesh.normalWeighted]
  congr 1
  induction m.faces with
  | nil => rfl
  | cons f l ih => simp only [List.map_cons, List.zip_cons_cons, ih]

theorem volume_eq (m : Mesh ℝ) :
    m.volume = (m.faces.map (fun f => ((m.faceProps f).normal.x * m.faceIntegrals f 0 +
        (m.faceProps f).normal.y * m.faceIntegrals f 1 +
        (m.faceProps f).normal.z * m.faceIntegrals f 2) / 3)).sum := by
  rw [Mesh.volume, Mesh.volumeWith, normalWeighted_eq]
  simp only [V3.list_sum_x, V3.list_sum_y, V3.list_sum_z, List.map_map]
  induction m.faces with
  | nil => simp
  | cons f l ih => simp only [List.map_cons, List.sum_cons, Function.comp] at ih ⊢; rw [← ih]; ring

theorem totalArea_eq (m : Mesh ℝ) :
    m.totalArea = (m.faces.map (fun f => (m.faceProps f).area)).sum := by
  rw [Mesh.totalArea, facesProperties_eq, List.map_map]; rfl

theorem totalIntegrals_eq (m : Mesh ℝ) : m.totalIntegrals = (m.faces.map m.faceIntegrals).sum := by
  rw [Mesh.totalIntegrals, surfaceIntegrals_eq]

/-! ### Norm -/

namespace V3

theorem norm_nonneg (v : V3 ℝ) : 0 ≤ v.norm := Real.sqrt_nonneg _
theorem norm_sq (v : V3 ℝ) : v.norm ^ 2 = v.normSq := Real.sq_sqrt (normSq_nonneg v)
theorem norm_mul_self (v : V3 ℝ) : v.norm * v.norm = v.normSq := by rw [← sq, norm_sq]
@[simp] theorem norm_neg (v : V3 ℝ) : (-v).norm = v.norm := by simp [norm]
theorem norm_eq_zero {v : V3 ℝ} : v.norm = 0 ↔ v = 0 := by
  rw [norm, Real.sqrt_eq_zero (normSq_nonneg v), normSq_eq_zero]
theorem norm_pos {v : V3 ℝ} (h : v ≠ 0) : 0 < v.norm :=
  lt_of_le_of_ne (norm_nonneg v) (fun h' => h (norm_eq_zero.1 h'.symm))
theorem norm_smul (a : ℝ) (v : V3 ℝ) : (a • v).norm = |a| * v.norm := by
  rw [norm, normSq_smul, Real.sqrt_mul (sq_nonneg a), Real.sqrt_sq_eq_abs, norm]
theorem norm_smul_of_nonneg {a : ℝ} (h : 0 ≤ a) (v : V3 ℝ) : (a • v).norm = a * v.norm := by
  rw [norm_smul, abs_of_nonneg h]
theorem norm_sub_comm (u v : V3 ℝ) : (u - v).norm = (v - u).norm := by
  rw [norm, norm, normSq_sub_comm]
theorem norm_cross_comm (u v : V3 ℝ) : (u.cross v).norm = (v.cross u).norm := by
  rw [cross_anticomm, norm_neg]
@[simp] theorem norm_zero : (0 : V3 ℝ).norm = 0 := by simp [norm]
theorem norm_of_sq {v : V3 ℝ} {a : ℝ} (ha : 0 ≤ a) (h : v.normSq = a ^ 2) : v.norm = a := by
  rw [norm, h, Real.sqrt_sq ha]

end V3

theorem M3.IsRotation.norm_mulVec {m : M3 ℝ} (h : m.IsRotation) (u : V3 ℝ) :
    (m.mulVec u).norm = u.norm := by rw [V3.norm, h.normSq_mulVec, V3.norm]

/-! ### Mapped vertices -/

theorem vert_mapVertices {K : Type*} [CommRing K] (m : Mesh K) (g : V3 K → V3 K) (i : ℕ) (hi : i < m.nv) :
    (m.mapVertices g).vert i = g (m.vert i) := by
  have : i < m.vertices.length := hi
  simp [Mesh.vert, Mesh.mapVertices, this]

theorem Face.mem_toList (f : Face) :
    f.a ∈ f.toList ∧ f.b ∈ f.toList ∧ f.c ∈ f.toList ∧ f.d ∈ f.toList := by
  simp [Face.toList]

theorem Mesh.WF.corner {K : Type*} {m : Mesh K} (h : m.WF) {f : Face} (hf : f ∈ m.faces) :
    f.a < m.nv ∧ f.b < m.nv ∧ f.c < m.nv ∧ f.d < m.nv := by
  obtain ⟨h1, h2, h3, h4⟩ := f.mem_toList
  exact ⟨h f hf _ h1, h f hf _ h2, h f hf _ h3, h f hf _ h4⟩

/-! ### Sums over closed surfaces -/

/-- An antisymmetric quantity summed over the directed edges of a closed oriented surface is zero. -/
theorem closed_sum_antisymm {L : List (ℕ × ℕ)} (hL : ∀ i j : ℕ, L.count (i, j) = L.count (j, i))
    (φ : ℕ → ℕ → ℝ) (hφ : ∀ i j, φ i j = - φ j i) : (L.map (fun e => φ e.1 e.2)).sum = 0 := by
  have hperm : (L.map Prod.swap).Perm L := by
    rw [List.perm_iff_count]
    rintro ⟨i, j⟩
    have := List.count_map_of_injective L Prod.swap Prod.swap_injective (j, i)
    simp only [Prod.swap_prod_mk] at this
    rw [this, hL]
  have h1 : ((L.map Prod.swap).map (fun e => φ e.1 e.2)).sum = (L.map (fun e => φ e.1 e.2)).sum :=
    (hperm.map _).sum_eq
  have h2 : ((L.map Prod.swap).map (fun e => φ e.1 e.2)).sum =
      - (L.map (fun e => φ e.1 e.2)).sum := by
    rw [List.map_map]
    induction L with
    | nil => simp
    | cons e l ih =>
      clear ih hperm h1 hL
      generalize e :: l = L
      induction L with
      | nil => simp
      | cons e l ih =>
        simp only [List.map_cons, List.sum_cons, ih, Function.comp, Prod.fst_swap, Prod.snd_swap]
        rw [hφ e.2 e.1]; ring
  linarith

/-- Twice the area vector of a face. -/
noncomputable def Mesh.faceAreaVec (m : Mesh ℝ) (f : Face) : V3 ℝ :=
  if f.a = f.d then areaVec (m.vert f.a) (m.vert f.b) (m.vert f.c)
  else areaVec (m.vert f.a) (m.vert f.b) (m.vert f.c) + areaVec (m.vert f.a) (m.vert f.c) (m.vert f.d)

theorem sum_flatMap_map {α β : Type*} (l : List α) (g : α → List β) (φ : β → ℝ) :
    ((l.flatMap g).map φ).sum = (l.map (fun a => ((g a).map φ).sum)).sum := by
  induction l with
  | nil => simp
  | cons a l ih => simp [ih]

theorem faceAreaVec_edges (m : Mesh ℝ) (f : Face) (w : V3 ℝ) :
    (m.faceAreaVec f).dot w =
      (f.directedEdges.map (fun e => ((m.vert e.1).cross (m.vert e.2)).dot w)).sum := by
  unfold Mesh.faceAreaVec Face.directedEdges areaVec
  split_ifs
  · simp [V3.dot, V3.cross]; ring
  · simp [V3.dot, V3.cross]; ring

/-- On a closed oriented surface the area vectors add up to zero. -/
theorem closed_areaVec_sum (m : Mesh ℝ) (h : m.ClosedOriented) (w : V3 ℝ) :
    (m.faces.map (fun f => (m.faceAreaVec f).dot w)).sum = 0 := by
  have := closed_sum_antisymm h (fun i j => ((m.vert i).cross (m.vert j)).dot w) (by
    intro i j; rw [V3.cross_anticomm, V3.neg_dot])
  rw [Mesh.directedEdges, sum_flatMap_map] at this
  rw [← this]
  congr 1
  apply List.map_congr_left
  intro f _
  exact faceAreaVec_edges m f w

/-! ### Normals of proper faces -/

theorem areaVec_cyc {K : Type*} [CommRing K] (p q r : V3 K) : areaVec q r p = areaVec p q r := by
  ext <;> simp [areaVec, V3.cross] <;> ring
theorem areaVec_swap {K : Type*} [CommRing K] (p q r : V3 K) : areaVec p r q = - areaVec p q r := by
  ext <;> simp [areaVec, V3.cross] <;> ring
theorem diag_cross {K : Type*} [CommRing K] (p q r s : V3 K) :
    (r - p).cross (s - q) = areaVec p q r + areaVec p r s := by
  ext <;> simp [areaVec, V3.cross] <;> ring

theorem FlatQuad.normal {p q r s : V3 ℝ} (h : FlatQuad p q r s) :
    triDelta p q r • (quadProps p q r s).normal = areaVec p q r ∧
    triDelta p r s • (quadProps p q r s).normal = areaVec p r s := by
  obtain ⟨n, α, β, hα, hβ, hαβ, hn, h1, h2⟩ := h
  have hn' := V3.norm_pos hn
  have hN : (r - p).cross (s - q) = (α + β) • n := by rw [diag_cross, h1, h2, add_smul]
  have hu : (quadProps p q r s).normal = (1 / n.norm) • n := by
    simp only [quadProps, hN]
    rw [V3.norm_smul_of_nonneg hαβ.le, smul_smul]
    congr 1; field_simp
  have e1 : triDelta p q r = α * n.norm := by
    show (areaVec p q r).norm = _
    rw [h1, V3.norm_smul_of_nonneg hα]
  have e2 : triDelta p r s = β * n.norm := by
    show (areaVec p r s).norm = _
    rw [h2, V3.norm_smul_of_nonneg hβ]
  rw [hu, e1, e2, h1, h2, smul_smul, smul_smul]
  constructor
  · congr 1; field_simp
  · congr 1; field_simp

theorem tri_normal {p q r : V3 ℝ} (h : areaVec p q r ≠ 0) :
    triDelta p q r • (triProps p q r).normal = areaVec p q r := by
  have := V3.norm_pos h
  show (areaVec p q r).norm • ((1 / (areaVec p q r).norm) • areaVec p q r) = _
  rw [smul_smul, mul_one_div_cancel this.ne', one_smul]

theorem ConvexQuad.flat {p q r s : V3 ℝ} (h : ConvexQuad p q r s) : FlatQuad p q r s := by
  obtain ⟨n, α, β, γ, δ, hα, hβ, hγ, hδ, h1, hn, e1, e2, e3, e4⟩ := h
  exact ⟨n, α, β, hα, hβ, h1, hn, e1, e2⟩

theorem Mesh.ConvexFaces.flat {m : Mesh ℝ} (h : m.ConvexFaces) : m.FlatFaces := by
  intro f hf
  have := h f hf
  split_ifs with ht
  · rwa [if_pos ht] at this
  · rw [if_neg ht] at this; exact this.flat

/-- The volume computed by the code is the sum of the signed cones over the faces. -/
theorem volume_eq_signedVolume (m : Mesh ℝ) (h : m.FlatFaces) : m.volume = m.signedVolume := by
  rw [volume_eq, Mesh.signedVolume]
  congr 1
  apply List.map_congr_left
  intro f hf
  have hp := h f hf
  by_cases ht : f.a = f.d
  · rw [if_pos ht] at hp
    have key := tri_normal hp
    have htri : f.isTri = true := by simpa [Face.isTri] using ht
    simp only [Mesh.faceSignedVolume, if_pos ht, Mesh.faceProps, Mesh.faceIntegrals, htri, if_true,
      Mesh.triPropsOf, Mesh.triIntegralsOf]
    generalize m.vert f.a = p, m.vert f.b = q, m.vert f.c = r at key ⊢
    have hx := congrArg V3.x key
    have hy := congrArg V3.y key
    have hz := congrArg V3.z key
    simp only [V3.smul_x, V3.smul_y, V3.smul_z] at hx hy hz
    show ((triProps p q r).normal.x * (triDelta p q r * pf1 p.x q.x r.x / 6) +
      (triProps p q r).normal.y * (triDelta p q r * pf1 p.y q.y r.y / 6) +
      (triProps p q r).normal.z * (triDelta p q r * pf1 p.z q.z r.z / 6)) / 3 = tetVol p q r
    have : ((triProps p q r).normal.x * (triDelta p q r * pf1 p.x q.x r.x / 6) +
      (triProps p q r).normal.y * (triDelta p q r * pf1 p.y q.y r.y / 6) +
      (triProps p q r).normal.z * (triDelta p q r * pf1 p.z q.z r.z / 6)) / 3 =
      ((areaVec p q r).x * pf1 p.x q.x r.x + (areaVec p q r).y * pf1 p.y q.y r.y
        + (areaVec p q r).z * pf1 p.z q.z r.z) / 18 := by
      rw [← hx, ← hy, ← hz]; ring
    rw [this]
    simp [areaVec, tetVol, V3.cross, V3.dot, pf1]; ring
  · rw [if_neg ht] at hp
    obtain ⟨k1, k2⟩ := hp.normal
    have htri : f.isTri = false := by simpa [Face.isTri] using ht
    simp only [Mesh.faceSignedVolume, if_neg ht, Mesh.faceProps, Mesh.faceIntegrals, htri,
      Bool.false_eq_true, if_false, Mesh.quadPropsOf, Mesh.quadIntegralsOf, Pi.add_apply]
    generalize m.vert f.a = p, m.vert f.b = q, m.vert f.c = r, m.vert f.d = s at k1 k2 ⊢
    have hx := congrArg V3.x k1
    have hy := congrArg V3.y k1
    have hz := congrArg V3.z k1
    have hx' := congrArg V3.x k2
    have hy' := congrArg V3.y k2
    have hz' := congrArg V3.z k2
    simp only [V3.smul_x, V3.smul_y, V3.smul_z] at hx hy hz hx' hy' hz'
    show ((quadProps p q r s).normal.x * (triDelta p q r * pf1 p.x q.x r.x / 6 +
        triDelta p r s * pf1 p.x r.x s.x / 6) +
      (quadProps p q r s).normal.y * (triDelta p q r * pf1 p.y q.y r.y / 6 +
        triDelta p r s * pf1 p.y r.y s.y / 6) +
      (quadProps p q r s).normal.z * (triDelta p q r * pf1 p.z q.z r.z / 6 +
        triDelta p r s * pf1 p.z r.z s.z / 6)) / 3 = tetVol p q r + tetVol p r s
    have : ((quadProps p q r s).normal.x * (triDelta p q r * pf1 p.x q.x r.x / 6 +
        triDelta p r s * pf1 p.x r.x s.x / 6) +
      (quadProps p q r s).normal.y * (triDelta p q r * pf1 p.y q.y r.y / 6 +
        triDelta p r s * pf1 p.y r.y s.y / 6) +
      (quadProps p q r s).normal.z * (triDelta p q r * pf1 p.z q.z r.z / 6 +
        triDelta p r s * pf1 p.z r.z s.z / 6)) / 3 =
      ((areaVec p q r).x * pf1 p.x q.x r.x + (areaVec p q r).y * pf1 p.y q.y r.y
        + (areaVec p q r).z * pf1 p.z q.z r.z) / 18 +
      ((areaVec p r s).x * pf1 p.x r.x s.x + (areaVec p r s).y * pf1 p.y r.y s.y
        + (areaVec p r s).z * pf1 p.z r.z s.z) / 18 := by
      rw [← hx, ← hy, ← hz, ← hx', ← hy', ← hz']; ring
    rw [this]
    simp [areaVec, tetVol, V3.cross, V3.dot, pf1]; ring

end MM
