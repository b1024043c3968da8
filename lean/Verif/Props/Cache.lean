import Verif.Spec.Cache
import Verif.Props.HealNormals
import Verif.Props.Motion
import Verif.Props.MeshIndex

/-!
# Property C17: cached values are never stale
-/

namespace MM

set_option linter.unusedSectionVars false
set_option linter.unusedSimpArgs false

open MeshObj

/-! ## Which steps keep the cache right -/

/-- The states in which an operation keeps the cached areas, normals, centres, ids and integrals right. -/
def SafeGeom (ord : List ℕ → List ℕ) (o : MeshObj) : Op → Prop
  | .scale _ | .scaleX _ | .scaleY _ | .scaleZ _ => o.cache.ints = none ∨ o.cache.props.isSome
  | .rotateMatrix r => r.IsRotation
  | .flipNormals => o.cache.props = none ∨ o.mesh.ConvexFaces
  | .mergeDuplicates _ => o.cache.props = none ∧ o.cache.ints = none ∧ o.cache.ids = none
  | .healTriangles => o.cache.props.isSome ∨ (o.cache.ints = none ∧ o.cache.ids = none)
  | .healNormals => o.cache.ints = none ∨ o.cache.props.isSome ∨
      (∀ c o', o.readConn ord = .ok (c, o') → c.isClosed = true)
  | _ => True

/-- The states in which an operation keeps the cached connectivity right. -/
def SafeConn (o : MeshObj) : Op → Prop
  | .flipNormals | .healTriangles | .removeDegeneratedFaces _ => o.cache.conn = none
  | .healNormals | .healMesh => False
  | _ => True

/-- A history all of whose steps satisfy a condition. -/
def SafeRun (srt : (ℕ → ℝ) → List ℕ → List ℕ) (ord : List ℕ → List ℕ) (safe : MeshObj → Op → Prop) :
    List Op → MeshObj → Prop
  | [], _ => True
  | op :: ops, o => safe o op ∧ ∀ o', step srt ord o op = .ok o' → SafeRun srt ord safe ops o'

/-! ## The invariants -/

/-- Every cached geometric value is the one of the arrays. -/
structure FreshGeom (o : MeshObj) : Prop where
  props : ∀ p, o.cache.props = some p → o.mesh.WF ∧ SameProps o.mesh.faces p o.mesh.facesProperties
  ints : ∀ p, o.cache.ints = some p → o.mesh.WF ∧ p = o.mesh.surfaceIntegrals
  ids : ∀ p, o.cache.ids = some p → p = (o.mesh.trianglesIds, o.mesh.quadranglesIds)

/-- The cached connectivity is the one of the arrays. -/
def FreshConn (ord : List ℕ → List ℕ) (o : MeshObj) : Prop :=
  ∀ c, o.cache.conn = some c → connectivity ord o.mesh.nv o.mesh.faces = .ok c

lemma SameProps.refl (faces : List Face) (p : List FP) : SameProps faces p p :=
  ⟨rfl, rfl, fun k f a b _ h1 h2 _ => by rw [h1] at h2; cases h2; rfl⟩

lemma FreshGeom.empty {o : MeshObj} (h1 : o.cache.props = none) (h2 : o.cache.ints = none)
    (h3 : o.cache.ids = none) : FreshGeom o :=
  ⟨fun p h => (by simp [h1] at h), fun p h => (by simp [h2] at h), fun p h => (by simp [h3] at h)⟩

lemma FreshGeom.new (m : Mesh ℝ) : FreshGeom (new m) := .empty rfl rfl rfl

lemma FreshConn.none {ord : List ℕ → List ℕ} {o : MeshObj} (h : o.cache.conn = none) : FreshConn ord o :=
  fun c hc => by simp [h] at hc

lemma FreshConn.of_same {ord : List ℕ → List ℕ} {o o' : MeshObj} (h : FreshConn ord o)
    (h1 : o'.cache.conn = o.cache.conn) (h2 : o'.mesh.nv = o.mesh.nv) (h3 : o'.mesh.faces = o.mesh.faces) :
    FreshConn ord o' := by
  intro c hc
  rw [h1] at hc; rw [h2, h3]; exact h c hc

/-- Ids only depend on the kinds of the faces. -/
lemma ids_congr {m m' : Mesh ℝ} (h : m'.faces.map Face.isTri = m.faces.map Face.isTri) :
    m'.trianglesIds = m.trianglesIds ∧ m'.quadranglesIds = m.quadranglesIds := by
  have hl : m'.nf = m.nf := by simpa [Mesh.nf] using congrArg List.length h
  have hk : ∀ i : ℕ, m'.faces[i]?.map Face.isTri = m.faces[i]?.map Face.isTri := by
    intro i; rw [← List.getElem?_map, h, List.getElem?_map]
  have hk' : ∀ i : ℕ, m'.faces[i]?.map (fun f => !f.isTri) = m.faces[i]?.map (fun f => !f.isTri) := by
    intro i
    have := congrArg (Option.map Bool.not) (hk i)
    simpa [Option.map_map, Function.comp_def] using this
  unfold Mesh.trianglesIds Mesh.quadranglesIds
  rw [hl]
  simp only [hk, hk', and_self]

lemma idsOk_fresh (m : Mesh ℝ) : idsOk m (m.trianglesIds, m.quadranglesIds) = true ↔ m.WF := by
  unfold idsOk
  have h1 : ((m.trianglesIds ++ m.quadranglesIds).all fun k => decide (k < m.nf)) = true := by
    rw [List.all_eq_true]
    intro k hk
    rcases List.mem_append.1 hk with hk | hk
    · simpa using List.mem_range.1 (List.mem_filter.1 hk).1
    · simpa using List.mem_range.1 (List.mem_filter.1 hk).1
  simp only [h1, Bool.true_and]
  rw [List.all_eq_true]
  constructor
  · intro h f hf i hi
    simpa using List.all_eq_true.1 (h f hf) i hi
  · intro h f hf
    rw [List.all_eq_true]; intro i hi; simpa using h f hf i hi

/-! ### Reading -/

lemma FreshGeom.readIds_fst {o : MeshObj} (h : FreshGeom o) :
    o.readIds.1 = (o.mesh.trianglesIds, o.mesh.quadranglesIds) := by
  unfold readIds
  cases hc : o.cache.ids with
  | none => rfl
  | some p => exact h.ids p hc

lemma readIds_mesh (o : MeshObj) : o.readIds.2.mesh = o.mesh ∧ o.readIds.2.cache.props = o.cache.props ∧
    o.readIds.2.cache.ints = o.cache.ints ∧ o.readIds.2.cache.conn = o.cache.conn := by
  unfold readIds
  cases o.cache.ids <;> exact ⟨rfl, rfl, rfl, rfl⟩

lemma FreshGeom.readIds_snd {o : MeshObj} (h : FreshGeom o) : FreshGeom o.readIds.2 := by
  unfold readIds
  cases hc : o.cache.ids with
  | none => exact ⟨h.props, h.ints, fun p hp => by simpa using hp.symm⟩
  | some p => exact h

lemma FreshGeom.readProps_spec {o : MeshObj} (h : FreshGeom o) :
    match o.readProps with
    | .ok (p, o') => o.mesh.WF ∧ SameProps o.mesh.faces p o.mesh.facesProperties ∧ o'.mesh = o.mesh ∧
        FreshGeom o' ∧ o'.cache.conn = o.cache.conn ∧ o'.cache.props = some p
    | .error e => e = .indexError ∧ ¬ o.mesh.WF := by
  unfold readProps
  cases hc : o.cache.props with
  | some p => exact ⟨(h.props p hc).1, (h.props p hc).2, rfl, h, rfl, hc⟩
  | none =>
    simp only [h.readIds_fst]
    by_cases hwf : o.mesh.WF
    · rw [if_pos ((idsOk_fresh _).2 hwf)]
      obtain ⟨h1, h2, h3, h4⟩ := readIds_mesh o
      refine ⟨hwf, SameProps.refl _ _, h1, ⟨?_, ?_, ?_⟩, h4, rfl⟩
      · intro p hp
        simp only [Option.some.injEq] at hp
        subst hp
        simp only [h1]
        exact ⟨hwf, SameProps.refl _ _⟩
      · intro p hp; exact h.readIds_snd.ints p hp
      · intro p hp; exact h.readIds_snd.ids p hp
    · rw [if_neg (by rw [idsOk_fresh]; exact hwf)]
      exact ⟨rfl, hwf⟩

lemma FreshGeom.readInts_spec {o : MeshObj} (h : FreshGeom o) :
    match o.readInts with
    | .ok (p, o') => o.mesh.WF ∧ p = o.mesh.surfaceIntegrals ∧ o'.mesh = o.mesh ∧
        FreshGeom o' ∧ o'.cache.conn = o.cache.conn
    | .error e => e = .indexError ∧ ¬ o.mesh.WF := by
  unfold readInts
  cases hc : o.cache.ints with
  | some p => exact ⟨(h.ints p hc).1, (h.ints p hc).2, rfl, h, rfl⟩
  | none =>
    simp only [h.readIds_fst]
    by_cases hwf : o.mesh.WF
    · rw [if_pos ((idsOk_fresh _).2 hwf)]
      obtain ⟨h1, h2, h3, h4⟩ := readIds_mesh o
      refine ⟨hwf, rfl, h1, ⟨?_, ?_, ?_⟩, h4⟩
      · intro p hp; exact h.readIds_snd.props p hp
      · intro p hp
        simp only [Option.some.injEq] at hp
        subst hp
        simp only [h1]
        exact ⟨hwf, rfl⟩
      · intro p hp; exact h.readIds_snd.ids p hp
    · rw [if_neg (by rw [idsOk_fresh]; exact hwf)]
      exact ⟨rfl, hwf⟩

/-- The volume only uses the normals and the integrals. -/
lemma volumeWith_congr {p q : List FP} (h : p.map FP.normal = q.map FP.normal) (i : List (Fin 15 → ℝ)) :
    Mesh.volumeWith p i = Mesh.volumeWith q i := by
  have key : ∀ (p q : List FP) (i : List (Fin 15 → ℝ)), p.map FP.normal = q.map FP.normal →
      Mesh.normalWeighted p i 0 1 2 = Mesh.normalWeighted q i 0 1 2 := by
    intro p
    induction p with
    | nil => intro q i h; cases q with
      | nil => rfl
      | cons => simp at h
    | cons a p ih =>
      intro q i h
      cases q with
      | nil => simp at h
      | cons b q =>
        simp only [List.map_cons, List.cons.injEq] at h
        cases i with
        | nil => rfl
        | cons c i =>
          have := ih q i h.2
          simp only [Mesh.normalWeighted, List.zip_cons_cons, List.map_cons, List.sum_cons, h.1] at this ⊢
          rw [this]
  simp only [Mesh.volumeWith, key p q i h]

lemma FreshGeom.readVolume_spec {o : MeshObj} (h : FreshGeom o) :
    match o.readVolume with
    | .ok (v, o') => o.mesh.WF ∧ v = o.mesh.volume ∧ o'.mesh = o.mesh ∧ FreshGeom o' ∧
        o'.cache.conn = o.cache.conn
    | .error e => e = .indexError ∧ ¬ o.mesh.WF := by
  unfold readVolume
  have h1 := h.readProps_spec
  cases hp : o.readProps with
  | error e => rw [hp] at h1; exact h1
  | ok r =>
    obtain ⟨p, o1⟩ := r
    rw [hp] at h1
    obtain ⟨hwf, hs, hm, hf, hconn, -⟩ := h1
    have h2 := hf.readInts_spec
    simp only
    cases hi : o1.readInts with
    | error e => rw [hi] at h2; rw [hm] at h2; exact absurd hwf h2.2
    | ok r =>
      obtain ⟨i, o2⟩ := r
      rw [hi] at h2
      obtain ⟨-, hs2, hm2, hf2, hconn2⟩ := h2
      refine ⟨hwf, ?_, hm2.trans hm, hf2, hconn2.trans hconn⟩
      rw [hs2, hm, volumeWith_congr hs.2.1]
      rfl

lemma FreshGeom.upToDate {o : MeshObj} (h : FreshGeom o) : GeometryUpToDate o := by
  have hn := FreshGeom.new o.mesh
  refine ⟨h.readIds_fst.trans hn.readIds_fst.symm, ?_, ?_, ?_⟩
  · have h1 := h.readProps_spec
    have h2 : (MeshObj.new o.mesh).readProps = if idsOk o.mesh (o.mesh.trianglesIds, o.mesh.quadranglesIds) then
        .ok (o.mesh.facesProperties, { MeshObj.new o.mesh with cache := { (MeshObj.new o.mesh).readIds.2.cache with
          props := some o.mesh.facesProperties } }) else .error .indexError := rfl
    rw [h2]
    unfold SameOutcome
    cases hp : o.readProps with
    | error e =>
      rw [hp] at h1
      rw [if_neg (by rw [idsOk_fresh]; exact h1.2)]
      exact h1.1
    | ok r =>
      rw [hp] at h1
      rw [if_pos ((idsOk_fresh _).2 h1.1)]
      exact h1.2.1
  · have h1 := h.readInts_spec
    have h2 := hn.readInts_spec
    unfold SameOutcome
    cases hp : o.readInts with
    | error e =>
      rw [hp] at h1
      cases hq : (MeshObj.new o.mesh).readInts with
      | error e' => rw [hq] at h2; exact h1.1.trans h2.1.symm
      | ok r => rw [hq] at h2; exact h1.2 h2.1
    | ok r =>
      rw [hp] at h1
      cases hq : (MeshObj.new o.mesh).readInts with
      | error e' => rw [hq] at h2; exact h2.2 h1.1
      | ok r' => rw [hq] at h2; exact h1.2.1.trans h2.2.1.symm
  · have h1 := h.readVolume_spec
    have h2 := hn.readVolume_spec
    unfold SameOutcome
    cases hp : o.readVolume with
    | error e =>
      rw [hp] at h1
      cases hq : (MeshObj.new o.mesh).readVolume with
      | error e' => rw [hq] at h2; exact h1.1.trans h2.1.symm
      | ok r => rw [hq] at h2; exact h1.2 h2.1
    | ok r =>
      rw [hp] at h1
      cases hq : (MeshObj.new o.mesh).readVolume with
      | error e' => rw [hq] at h2; exact h2.2 h1.1
      | ok r' => rw [hq] at h2; exact h1.2.1.trans h2.2.1.symm

lemma FreshConn.readConn_spec {ord : List ℕ → List ℕ} {o : MeshObj} (h : FreshConn ord o) :
    match o.readConn ord with
    | .ok (c, o') => connectivity ord o.mesh.nv o.mesh.faces = .ok c ∧ o'.mesh = o.mesh ∧ FreshConn ord o'
    | .error e => connectivity ord o.mesh.nv o.mesh.faces = .error e := by
  unfold readConn
  cases hc : o.cache.conn with
  | some c => exact ⟨h c hc, rfl, h⟩
  | none =>
    cases hk : connectivity ord o.mesh.nv o.mesh.faces with
    | error e => simp only [hk]
    | ok c =>
      simp only [hk]
      refine ⟨trivial, trivial, ?_⟩
      intro c' hc'
      simp only [Option.some.injEq] at hc'
      subst hc'; exact hk

lemma FreshConn.upToDate {ord : List ℕ → List ℕ} {o : MeshObj} (h : FreshConn ord o) :
    ConnectivityUpToDate ord o := by
  have h1 := h.readConn_spec
  unfold ConnectivityUpToDate SameOutcome
  have h2 : (MeshObj.new o.mesh).readConn ord = match connectivity ord o.mesh.nv o.mesh.faces with
    | .error e => .error e
    | .ok c => .ok (c, { MeshObj.new o.mesh with cache := { (MeshObj.new o.mesh).cache with conn := some c } }) := rfl
  rw [h2]
  cases hp : o.readConn ord with
  | error e => rw [hp] at h1; simp only at h1; rw [h1]
  | ok r => rw [hp] at h1; simp only at h1; rw [h1.1]

/-! ### Moving -/

lemma quad_center_translate (t p q r s : V3 ℝ) (h : (quadProps p q r s).area ≠ 0) :
    (quadProps (p + t) (q + t) (r + t) (s + t)).center = (quadProps p q r s).center + t := by
  have h' : quadA1 p q r + quadA2 p r s ≠ 0 := h
  simp only [quadProps, quadA1, quadA2, add_sub_add_right_eq_sub] at h' ⊢
  set a := ((q - p).cross (r - p)).norm * (1 / 2) with ha
  set b := ((s - p).cross (r - p)).norm * (1 / 2) with hb
  ext <;> simp only [V3.smul_x, V3.smul_y, V3.smul_z, V3.add_x, V3.add_y, V3.add_z] <;> field_simp <;> ring

lemma SameProps.translate {m : Mesh ℝ} (hwf : m.WF) (t : V3 ℝ) {p : List FP}
    (h : SameProps m.faces p m.facesProperties) :
    SameProps m.faces (p.map (fun a => ⟨a.area, a.normal, a.center + t⟩)) (m.translate t).facesProperties := by
  obtain ⟨-, -, -, h1, h2, -⟩ := C18_translate t m hwf
  refine ⟨?_, ?_, ?_⟩
  · rw [h1, ← h.1, List.map_map]; rfl
  · rw [h2, ← h.2.1, List.map_map]; rfl
  · intro k f a b hf ha hb hnz
    rw [List.getElem?_map, Option.map_eq_some_iff] at ha
    obtain ⟨a0, ha0, rfl⟩ := ha
    rw [facesProperties_eq, List.getElem?_map] at hb
    have hf' : (m.translate t).faces[k]? = some f := hf
    rw [hf'] at hb
    simp only [Option.map_some, Option.some.injEq] at hb
    have hfm : f ∈ m.faces := List.mem_of_getElem? hf
    have hb0 : m.facesProperties[k]? = some (m.faceProps f) := by
      rw [facesProperties_eq, List.getElem?_map, hf]; rfl
    obtain ⟨hia, hib, hic, hid⟩ := hwf.corner (f := f) hfm
    have hmove : ((m.translate t).faceProps f).area = (m.faceProps f).area ∧
        ((f.a = f.d ∨ (m.faceProps f).area ≠ 0) →
          ((m.translate t).faceProps f).center = (m.faceProps f).center + t) := by
      simp only [Mesh.faceProps, Mesh.triPropsOf, Mesh.quadPropsOf, Mesh.translate, vert_mapVertices m _ _ hia,
        vert_mapVertices m _ _ hib, vert_mapVertices m _ _ hic, vert_mapVertices m _ _ hid]
      split_ifs with htri
      · refine ⟨by simp [triProps], fun _ => ?_⟩
        ext <;> simp [triProps] <;> ring
      · refine ⟨by simp [quadProps, quadA1, quadA2], fun hz => ?_⟩
        apply quad_center_translate
        rcases hz with hz | hz
        · exact absurd (Face.isTri_iff.2 hz) htri
        · exact hz
    subst hb
    rw [hmove.1] at hnz
    rw [hmove.2 hnz]
    simp only
    rw [h.2.2 k f a0 _ hf ha0 hb0 hnz]

lemma quad_center_rotate {R : M3 ℝ} (hR : R.IsRotation) (p q r s : V3 ℝ) :
    (quadProps (R.mulVec p) (R.mulVec q) (R.mulVec r) (R.mulVec s)).center = R.mulVec (quadProps p q r s).center := by
  simp only [quadProps, quadA1, quadA2, ← M3.mulVec_sub, hR.cross_mulVec, hR.norm_mulVec, ← M3.mulVec_add,
    ← M3.mulVec_smul]

lemma SameProps.rotate {m : Mesh ℝ} (hwf : m.WF) {R : M3 ℝ} (hR : R.IsRotation) {p : List FP}
    (h : SameProps m.faces p m.facesProperties) :
    SameProps m.faces (p.map (fun a => ⟨a.area, R.mulVec a.normal, R.mulVec a.center⟩))
      (m.rotateMatrix R).facesProperties := by
  obtain ⟨-, -, -, h1, h2, -⟩ := C18_rotate_matrix R hR m hwf
  refine ⟨?_, ?_, ?_⟩
  · rw [h1, ← h.1, List.map_map]; rfl
  · rw [h2, List.map_map]
    have := congrArg (List.map R.mulVec) h.2.1
    simpa [List.map_map, Function.comp_def] using this
  · intro k f a b hf ha hb hnz
    rw [List.getElem?_map, Option.map_eq_some_iff] at ha
    obtain ⟨a0, ha0, rfl⟩ := ha
    rw [facesProperties_eq, List.getElem?_map] at hb
    have hf' : (m.rotateMatrix R).faces[k]? = some f := hf
    rw [hf'] at hb
    simp only [Option.map_some, Option.some.injEq] at hb
    have hfm : f ∈ m.faces := List.mem_of_getElem? hf
    have hb0 : m.facesProperties[k]? = some (m.faceProps f) := by
      rw [facesProperties_eq, List.getElem?_map, hf]; rfl
    obtain ⟨hia, hib, hic, hid⟩ := hwf.corner (f := f) hfm
    have hmove : ((m.rotateMatrix R).faceProps f).area = (m.faceProps f).area ∧
          ((m.rotateMatrix R).faceProps f).center = R.mulVec (m.faceProps f).center := by
      simp only [Mesh.faceProps, Mesh.triPropsOf, Mesh.quadPropsOf, Mesh.rotateMatrix, vert_mapVertices m _ _ hia,
        vert_mapVertices m _ _ hib, vert_mapVertices m _ _ hic, vert_mapVertices m _ _ hid]
      split_ifs with htri
      · simp only [triProps, ← M3.mulVec_sub, hR.cross_mulVec, hR.norm_mulVec, ← M3.mulVec_add, ← M3.mulVec_smul,
          and_self]
      · refine ⟨?_, quad_center_rotate hR _ _ _ _⟩
        simp only [quadProps, quadA1, quadA2, ← M3.mulVec_sub, hR.cross_mulVec, hR.norm_mulVec]
    subst hb
    rw [hmove.1] at hnz
    rw [hmove.2]
    simp only
    rw [h.2.2 k f a0 _ hf ha0 hb0 hnz]

/-- The weighted corners of a plane quadrangle. -/
lemma convex_corners {p q r s n : V3 ℝ} {α β γ δ : ℝ} (hs : 0 < α + β) (hn : n ≠ 0)
    (e1 : areaVec p q r = α • n) (e2 : areaVec p r s = β • n) (e3 : areaVec p q s = γ • n)
    (e4 : areaVec q r s = δ • n) : γ + δ = α + β ∧ δ • p + γ • r = α • s + β • q := by
  have hsum' : γ + δ = α + β := by
    have hsum : (γ + δ) • n = (α + β) • n := by
      rw [add_smul, add_smul, ← e1, ← e2, ← e3, ← e4]
      ext <;> simp [areaVec, V3.cross] <;> ring
    have h0 : ((γ + δ) - (α + β)) • n = 0 := by rw [sub_smul, hsum, sub_self]
    have := (V3.norm_eq_zero).2 h0
    rw [V3.norm_smul] at this
    rcases mul_eq_zero.1 this with h | h
    · linarith [abs_eq_zero.1 h]
    · exact absurd (V3.norm_eq_zero.1 h) hn
  refine ⟨hsum', ?_⟩
  have hnn : n.dot n ≠ 0 := by
    intro h
    apply hn
    apply V3.norm_eq_zero.1
    unfold V3.norm
    rw [show n.normSq = n.dot n from rfl, h, Real.sqrt_zero]
  have f1 := fun k : V3 ℝ => congrArg (V3.dot k) e1
  have f2 := fun k : V3 ℝ => congrArg (V3.dot k) e2
  have hun : α * (q - p).dot n = 0 := by
    have := f1 (q - p)
    have z : (q - p).dot (areaVec p q r) = 0 := by simp [areaVec, V3.dot, V3.cross]; ring
    rw [z] at this
    rw [this]; simp [V3.dot]; ring
  have hwn : β * (s - p).dot n = 0 := by
    have := f2 (s - p)
    have z : (s - p).dot (areaVec p r s) = 0 := by simp [areaVec, V3.dot, V3.cross]; ring
    rw [z] at this
    rw [this]; simp [V3.dot]; ring
  have hdet : (q - p).dot (areaVec p r s) = 0 := by
    have g1 : (q - p).dot (areaVec p r s) = β * (q - p).dot n := by rw [e2]; simp [V3.dot]; ring
    have g2 : (q - p).dot (areaVec p r s) = α * (s - p).dot n := by
      have : (q - p).dot (areaVec p r s) = (s - p).dot (areaVec p q r) := by
        simp [areaVec, V3.dot, V3.cross]; ring
      rw [this, e1]; simp [V3.dot]; ring
    have : (α + β) * (q - p).dot (areaVec p r s) = 0 := by
      rw [add_mul]; nth_rw 1 [g1]; rw [g2]
      have : α * (β * (q - p).dot n) + β * (α * (s - p).dot n) =
        β * (α * (q - p).dot n) + α * (β * (s - p).dot n) := by ring
      rw [this, hun, hwn]; ring
    rcases mul_eq_zero.1 this with h | h
    · linarith
    · exact h
  have key : (n.dot n) • (α • (s - p) + β • (q - p) - γ • (r - p)) = 0 := by
    have id1 : ((areaVec p q r).dot n) • (s - p) + ((areaVec p r s).dot n) • (q - p) -
        ((areaVec p q s).dot n) • (r - p) = ((q - p).dot (areaVec p r s)) • n := by
      ext <;> simp [areaVec, V3.dot, V3.cross] <;> ring
    rw [hdet, e1, e2, e3] at id1
    have z : (0 : ℝ) • n = 0 := by simp
    rw [z] at id1
    rw [← id1]
    ext <;> simp [V3.dot] <;> ring
  have key2 : α • (s - p) + β • (q - p) - γ • (r - p) = 0 := by
    have := congrArg V3.norm key
    rw [V3.norm_smul, V3.norm_zero] at this
    rcases mul_eq_zero.1 this with h | h
    · exact absurd (abs_eq_zero.1 h) hnn
    · exact V3.norm_eq_zero.1 h
  have hx := congrArg V3.x key2
  have hy := congrArg V3.y key2
  have hz := congrArg V3.z key2
  simp at hx hy hz
  have hδ : δ = α + β - γ := by linarith
  subst hδ
  ext <;> simp <;> linarith

lemma quadProps_flip {p q r s : V3 ℝ} (h : ConvexQuad p q r s) :
    (quadProps s r q p).area = (quadProps p q r s).area ∧
    (quadProps s r q p).normal = -(quadProps p q r s).normal ∧
    (quadProps s r q p).center = (quadProps p q r s).center := by
  obtain ⟨n, α, β, γ, δ, hα, hβ, hγ, hδ, hs, hn0, e1, e2, e3, e4⟩ := h
  obtain ⟨hsum, hc⟩ := convex_corners hs hn0 e1 e2 e3 e4
  have a1 : quadA1 p q r = α * (n.norm / 2) := by
    unfold quadA1
    rw [show (q - p).cross (r - p) = α • n from e1, V3.norm_smul_of_nonneg hα]; ring
  have a2 : quadA2 p r s = β * (n.norm / 2) := by
    unfold quadA2
    rw [V3.norm_cross_comm, show (r - p).cross (s - p) = β • n from e2, V3.norm_smul_of_nonneg hβ]; ring
  have a1' : quadA1 s r q = δ * (n.norm / 2) := by
    unfold quadA1
    have : (r - s).cross (q - s) = -(δ • n) := by
      rw [← e4]; ext <;> simp [areaVec, V3.cross] <;> ring
    rw [this, V3.norm_neg, V3.norm_smul_of_nonneg hδ]; ring
  have a2' : quadA2 s q p = γ * (n.norm / 2) := by
    unfold quadA2
    have : (p - s).cross (q - s) = γ • n := by
      rw [← e3]; ext <;> simp [areaVec, V3.cross] <;> ring
    rw [this, V3.norm_smul_of_nonneg hγ]; ring
  have hnorm := V3.norm_pos hn0
  have hsum2 : δ * (n.norm / 2) + γ * (n.norm / 2) = α * (n.norm / 2) + β * (n.norm / 2) := by
    have : (γ + δ) * (n.norm / 2) = (α + β) * (n.norm / 2) := by rw [hsum]
    linarith
  have hnn : (q - s).cross (p - r) = -((r - p).cross (s - q)) := by
    ext <;> simp [V3.cross] <;> ring
  refine ⟨?_, ?_, ?_⟩
  · simp only [quadProps, a1, a2, a1', a2', hsum2]
  · simp only [quadProps, hnn, V3.norm_neg]
    ext <;> simp
  · simp only [quadProps, a1, a2, a1', a2', hsum2]
    congr 1
    have hx := congrArg V3.x hc
    have hy := congrArg V3.y hc
    have hz := congrArg V3.z hc
    simp only [V3.add_x, V3.add_y, V3.add_z, V3.smul_x, V3.smul_y, V3.smul_z] at hx hy hz
    have hδ' : δ = α + β - γ := by linarith
    subst hδ'
    ext <;> simp only [V3.add_x, V3.add_y, V3.add_z, V3.smul_x, V3.smul_y, V3.smul_z]
    · linear_combination (-(n.norm / 6)) * hx
    · linear_combination (-(n.norm / 6)) * hy
    · linear_combination (-(n.norm / 6)) * hz

lemma faceProps_flip {m : Mesh ℝ} (hc : m.ConvexFaces) {f : Face} (hf : f ∈ m.faces) :
    (m.flipNormals.faceProps f.flip).area = (m.faceProps f).area ∧
    (m.flipNormals.faceProps f.flip).normal = -(m.faceProps f).normal ∧
    (m.flipNormals.faceProps f.flip).center = (m.faceProps f).center := by
  have hcf := hc f hf
  unfold Mesh.faceProps
  rw [Face.isTri_flip]
  by_cases ht : f.isTri
  · rw [if_pos ht, if_pos ht]
    have had := Face.isTri_iff.1 ht
    have hn : (m.vert f.c - m.vert f.a).cross (m.vert f.b - m.vert f.a) =
        -((m.vert f.b - m.vert f.a).cross (m.vert f.c - m.vert f.a)) := by
      ext <;> simp [V3.cross] <;> ring
    have hd : m.flipNormals.triPropsOf f.flip = triProps (m.vert f.a) (m.vert f.c) (m.vert f.b) := by
      rw [had]; rfl
    rw [hd]
    refine ⟨?_, ?_, ?_⟩
    · simp only [Mesh.triPropsOf, triProps, hn, V3.norm_neg]
    · simp only [Mesh.triPropsOf, triProps, hn, V3.norm_neg]
      ext <;> simp
    · simp only [Mesh.triPropsOf, triProps]
      ext <;> simp <;> ring
  · rw [if_neg ht, if_neg ht]
    rw [if_neg (fun h => ht (Face.isTri_iff.2 h))] at hcf
    exact quadProps_flip hcf

lemma SameProps.flip {m : Mesh ℝ} (hc : m.ConvexFaces) {p : List FP}
    (h : SameProps m.faces p m.facesProperties) :
    SameProps m.flipNormals.faces (p.map (fun a => ⟨a.area, -a.normal, a.center⟩)) m.flipNormals.facesProperties := by
  have hP : m.flipNormals.facesProperties = m.faces.map (fun f => m.flipNormals.faceProps f.flip) := by
    rw [facesProperties_eq]
    simp [Mesh.flipNormals, List.map_map, Function.comp_def]
  refine ⟨?_, ?_, ?_⟩
  · rw [hP, List.map_map, List.map_map]
    have := h.1
    rw [facesProperties_eq, List.map_map] at this
    calc p.map (FP.area ∘ _) = p.map FP.area := rfl
      _ = _ := this
      _ = _ := List.map_congr_left fun f hf => (faceProps_flip hc hf).1.symm
  · rw [hP, List.map_map, List.map_map]
    have := congrArg (List.map Neg.neg) h.2.1
    rw [facesProperties_eq, List.map_map, List.map_map, List.map_map] at this
    calc p.map (FP.normal ∘ _) = p.map (Neg.neg ∘ FP.normal) := rfl
      _ = _ := this
      _ = _ := List.map_congr_left fun f hf => (faceProps_flip hc hf).2.1.symm
  · intro k f a b hf ha hb hnz
    rw [List.getElem?_map, Option.map_eq_some_iff] at ha
    obtain ⟨a0, ha0, rfl⟩ := ha
    have hf' : (m.faces.map Face.flip)[k]? = some f := hf
    rw [List.getElem?_map, Option.map_eq_some_iff] at hf'
    obtain ⟨f0, hf0, rfl⟩ := hf'
    rw [hP, List.getElem?_map, hf0] at hb
    simp only [Option.map_some, Option.some.injEq] at hb
    subst hb
    have hfm : f0 ∈ m.faces := List.mem_of_getElem? hf0
    obtain ⟨g1, g2, g3⟩ := faceProps_flip hc hfm
    have hb0 : m.facesProperties[k]? = some (m.faceProps f0) := by
      rw [facesProperties_eq, List.getElem?_map, hf0]; rfl
    rw [g1] at hnz
    rw [g3]
    refine h.2.2 k f0 a0 _ hf0 ha0 hb0 ?_
    rcases hnz with hz | hz
    · left; exact hz.symm
    · right; exact hz

/-- Renumbering the vertices without changing the corners changes neither properties nor integrals. -/
lemma renumbered_same {m m' : Mesh ℝ} {g : ℕ → ℕ} (hfaces : m'.faces = m.faces.map (Face.map g))
    (hv : ∀ f ∈ m.faces, ∀ i ∈ f.toList, m'.vert (g i) = m.vert i)
    (htri : ∀ f ∈ m.faces, (f.map g).isTri = f.isTri) :
    m'.facesProperties = m.facesProperties ∧ m'.surfaceIntegrals = m.surfaceIntegrals ∧
    m'.trianglesIds = m.trianglesIds ∧ m'.quadranglesIds = m.quadranglesIds := by
  have hids : m'.trianglesIds = m.trianglesIds ∧ m'.quadranglesIds = m.quadranglesIds := by
    apply ids_congr
    rw [hfaces, List.map_map]
    exact List.map_congr_left fun f hf => htri f hf
  refine ⟨?_, ?_, hids⟩
  · rw [facesProperties_eq, facesProperties_eq, hfaces, List.map_map]
    apply List.map_congr_left
    intro f hf
    have hv' := hv f hf
    simp only [Face.toList, List.mem_cons, List.not_mem_nil, or_false, forall_eq_or_imp, forall_eq] at hv'
    obtain ⟨h1, h2, h3, h4⟩ := hv'
    simp only [Function.comp, Mesh.faceProps, htri f hf]
    simp only [Mesh.triPropsOf, Mesh.quadPropsOf, Face.map, h1, h2, h3, h4]
  · rw [surfaceIntegrals_eq, surfaceIntegrals_eq, hfaces, List.map_map]
    apply List.map_congr_left
    intro f hf
    have hv' := hv f hf
    simp only [Face.toList, List.mem_cons, List.not_mem_nil, or_false, forall_eq_or_imp, forall_eq] at hv'
    obtain ⟨h1, h2, h3, h4⟩ := hv'
    simp only [Function.comp, Mesh.faceIntegrals, htri f hf]
    simp only [Mesh.triIntegralsOf, Mesh.quadIntegralsOf, Face.map, h1, h2, h3, h4]

lemma removeUnused_same {m m' : Mesh ℝ} (h : m.removeUnusedVertices = .ok m') :
    m.WF ∧ m'.WF ∧ m'.facesProperties = m.facesProperties ∧ m'.surfaceIntegrals = m.surfaceIntegrals ∧
    m'.trianglesIds = m.trianglesIds ∧ m'.quadranglesIds = m.quadranglesIds ∧
    m'.faces.map Face.isTri = m.faces.map Face.isTri := by
  have hwf : m.WF := by
    unfold Mesh.removeUnusedVertices at h
    simp only at h
    split_ifs at h with h1 h2
    · intro f hf i hi
      simpa using List.all_eq_true.1 h1 i (List.mem_flatMap.2 ⟨f, hf, hi⟩)
    · intro f hf i hi
      simpa using List.all_eq_true.1 h1 i (List.mem_flatMap.2 ⟨f, hf, hi⟩)
  obtain ⟨m1, e1, -, -, -, hwf1, -⟩ := C08_remove_unused_vertices m hwf
  rw [h] at e1
  cases e1
  refine ⟨hwf, hwf1, ?_⟩
  unfold Mesh.removeUnusedVertices at h
  simp only at h
  split_ifs at h with h1 h2
  · simp only [Except.ok.injEq] at h
    set idv := Mesh.idV m.nv (m.faces.flatMap Face.toList) with hidv
    have hren : ∀ f ∈ m.faces, ∀ i ∈ f.toList, ∃ k, (Mesh.newIds m.nv idv).getD i 0 = k ∧
        idv[k]? = some i ∧ (idv.map m.vert)[k]? = m.vertices[i]? := fun f hf i hi =>
      renumber_spec m _ i (hwf f hf i hi) (List.mem_flatMap.2 ⟨f, hf, hi⟩)
    have hv : ∀ f ∈ m.faces, ∀ i ∈ f.toList, m'.vert ((Mesh.newIds m.nv idv).getD i 0) = m.vert i := by
      intro f hf i hi
      obtain ⟨k, hk1, -, hk3⟩ := hren f hf i hi
      rw [hk1, ← h]
      simp only [Mesh.vert, List.getD_eq_getElem?_getD]
      rw [hk3]
    have htri : ∀ f ∈ m.faces, (f.map (fun i => (Mesh.newIds m.nv idv).getD i 0)).isTri = f.isTri := by
      intro f hf
      obtain ⟨k1, a1, b1, -⟩ := hren f hf f.a (by simp [Face.toList])
      obtain ⟨k2, a2, b2, -⟩ := hren f hf f.d (by simp [Face.toList])
      by_cases had : f.a = f.d
      · rw [Face.isTri_iff.2 had, Face.isTri_iff]
        simp only [Face.map, had]
      · have h3 : f.isTri = false := by
          rw [← Bool.not_eq_true, Face.isTri_iff]; exact had
        rw [h3, ← Bool.not_eq_true, Face.isTri_iff]
        intro he
        apply had
        simp only [Face.map] at he
        rw [a1, a2] at he
        rw [he, b2] at b1
        exact (Option.some.inj b1).symm
    have hfaces : m'.faces = m.faces.map (Face.map (fun i => (Mesh.newIds m.nv idv).getD i 0)) := by rw [← h]
    obtain ⟨r1, r2, r3, r4⟩ := renumbered_same hfaces hv htri
    refine ⟨r1, r2, r3, r4, ?_⟩
    rw [hfaces, List.map_map]
    exact List.map_congr_left fun f hf => htri f hf
  · cases h
    exact ⟨rfl, rfl, rfl, rfl, rfl⟩

/-! ### The faces after the flooding of `heal_normals` -/

lemma floodAdj_kinds {ord : List ℕ → List ℕ} {iface g : ℕ} {face : Face} {st st' : FloodState}
    (h : floodAdj ord iface face st g = .ok st') : st'.faces.map Face.isTri = st.faces.map Face.isTri := by
  unfold floodAdj at h
  split_ifs at h with h1 h2
  · cases h; rfl
  · simp only at h
    split at h
    · cases h
      simp only
      split_ifs
      · rw [List.map_set, Face.isTri_flip]
        apply List.ext_getElem?
        intro i
        by_cases hi : g = i
        · subst hi
          by_cases hl : g < st.faces.length
          · rw [List.getElem?_set_self (by simpa using hl)]
            simp [hl]
          · rw [List.getElem?_eq_none (by simpa using hl), List.getElem?_eq_none (by simpa using hl)]
        · rw [List.getElem?_set_ne hi]
      · rfl
    · cases h; rfl

lemma floodLoop_kinds {ord : List ℕ → List ℕ} {iface : ℕ} {face : Face} : ∀ (gs : List ℕ) {st st' : FloodState},
    floodLoop ord iface face gs st = .ok st' → st'.faces.map Face.isTri = st.faces.map Face.isTri := by
  intro gs
  induction gs with
  | nil => intro st st' h; simp [floodLoop] at h; subst h; rfl
  | cons g gs ih =>
    intro st st' h
    unfold floodLoop at h
    cases h1 : floodAdj ord iface face st g with
    | error e => rw [h1] at h; simp at h
    | ok st1 => rw [h1] at h; exact (ih h).trans (floodAdj_kinds h1)

lemma floodPop_kinds {ord : List ℕ → List ℕ} {st st' : FloodState} {iface : ℕ} {rest : List ℕ}
    (h : floodPop ord st iface rest = .ok st') : st'.faces.map Face.isTri = st.faces.map Face.isTri := by
  unfold floodPop at h
  have := floodLoop_kinds _ h
  exact this

lemma flood_kinds {ord : List ℕ → List ℕ} {nf : ℕ} : ∀ (fuel : ℕ) {st st' : FloodState},
    flood ord nf fuel st = .ok st' → st'.faces.map Face.isTri = st.faces.map Face.isTri := by
  intro fuel
  induction fuel with
  | zero => intro st st' h; simp [flood] at h; subst h; rfl
  | succ n ih =>
    intro st st' h
    unfold flood at h
    split at h
    · rename_i iface rest hst
      cases h1 : floodPop ord st iface rest with
      | error e => rw [h1] at h; simp at h
      | ok st1 => rw [h1] at h; exact (ih h).trans (floodPop_kinds h1)
    · split at h
      · cases h; rfl
      · rename_i k0 hk0
        cases h1 : floodPop ord { st with vis := fun i => if i = k0 then true else st.vis i } k0 [] with
        | error e => rw [h1] at h; simp at h
        | ok st1 => rw [h1] at h; exact (ih h).trans ((floodPop_kinds h1 :))

lemma healFlood_kinds {ord : List ℕ → List ℕ} {ff ff' : ℕ → List ℕ} {faces faces' : List Face}
    (h : healFlood ord ff faces = .ok (faces', ff')) : faces'.map Face.isTri = faces.map Face.isTri := by
  unfold healFlood at h
  split_ifs at h with hl
  cases hfl : flood ord faces.length (faces.length + 1) ⟨ff, faces, fun k => k == 0, [0]⟩ with
  | error e => rw [hfl] at h; simp at h
  | ok st =>
    rw [hfl] at h
    simp only [Except.ok.injEq, Prod.mk.injEq] at h
    rw [← h.1]; exact flood_kinds _ hfl

/-! ### One step -/

lemma FreshGeom.dropProps {o : MeshObj} {m' : Mesh ℝ} : FreshGeom ⟨m', MeshObj.dropProps o.cache⟩ :=
  .empty rfl rfl rfl

lemma FreshGeom.scaled {o : MeshObj} (h : FreshGeom o) (hs : o.cache.ints = none ∨ o.cache.props.isSome)
    {alpha : ℝ} {m' : Mesh ℝ} (hfaces : m'.faces = o.mesh.faces) {o' : MeshObj}
    (hst : o.doScale alpha m' = .ok o') : FreshGeom o' := by
  unfold doScale at hst
  split_ifs at hst
  cases hst
  unfold dropPropsIfAny
  split_ifs with hp
  · exact .empty rfl rfl rfl
  · have hnone : o.cache.props = none := by simpa using hp
    refine ⟨fun p hp' => by simp [hnone] at hp', fun p hi => ?_, fun p hi => ?_⟩
    · rcases hs with hs | hs
      · simp [hs] at hi
      · exact absurd hs hp
    · rw [h.ids p hi]
      have := ids_congr (m := o.mesh) (m' := m') (by rw [hfaces])
      simp only [this.1, this.2]

lemma FreshGeom.translated {o : MeshObj} (h : FreshGeom o) (t : V3 ℝ) {m' : Mesh ℝ} (hm : m' = o.mesh.translate t) :
    FreshGeom (o.doTranslate t m') := by
  subst hm
  unfold doTranslate
  refine ⟨?_, ?_, ?_⟩
  · intro p hp
    simp only [Option.map_eq_some_iff] at hp
    obtain ⟨p0, hp0, rfl⟩ := hp
    obtain ⟨hwf, hsame⟩ := h.props p0 hp0
    exact ⟨by intro f hf i hi; simpa [Mesh.nv, Mesh.translate, Mesh.mapVertices] using hwf f hf i hi,
      hsame.translate hwf t⟩
  · intro p hp; simp [dropInts] at hp
  · intro p hp
    rw [h.ids p hp]; rfl

lemma translateX_eq (m : Mesh ℝ) (t : ℝ) : m.translateX t = m.translate ⟨t, 0, 0⟩ := by
  unfold Mesh.translateX Mesh.translate; congr 1; funext v; ext <;> simp
lemma translateY_eq (m : Mesh ℝ) (t : ℝ) : m.translateY t = m.translate ⟨0, t, 0⟩ := by
  unfold Mesh.translateY Mesh.translate; congr 1; funext v; ext <;> simp
lemma translateZ_eq (m : Mesh ℝ) (t : ℝ) : m.translateZ t = m.translate ⟨0, 0, t⟩ := by
  unfold Mesh.translateZ Mesh.translate; congr 1; funext v; ext <;> simp

lemma FreshGeom.rotated {o : MeshObj} (h : FreshGeom o) {R : M3 ℝ} (hR : R.IsRotation) :
    FreshGeom (o.doRotate R) := by
  unfold doRotate
  refine ⟨?_, ?_, ?_⟩
  · intro p hp
    simp only [Option.map_eq_some_iff] at hp
    obtain ⟨p0, hp0, rfl⟩ := hp
    obtain ⟨hwf, hsame⟩ := h.props p0 hp0
    exact ⟨by intro f hf i hi; simpa [Mesh.nv, Mesh.rotateMatrix, Mesh.mapVertices] using hwf f hf i hi,
      hsame.rotate hwf hR⟩
  · intro p hp; simp [dropInts] at hp
  · intro p hp
    rw [h.ids p hp]; rfl

lemma flip_WF {m : Mesh ℝ} (h : m.WF) : m.flipNormals.WF := by
  intro f hf i hi
  obtain ⟨g, hg, rfl⟩ := List.mem_map.1 hf
  refine h g hg i ?_
  simp [Face.flip, Face.toList] at hi ⊢; tauto

lemma FreshGeom.flipped {o : MeshObj} (h : FreshGeom o) (hs : o.cache.props = none ∨ o.mesh.ConvexFaces) :
    FreshGeom o.doFlip := by
  unfold doFlip
  refine ⟨?_, ?_, ?_⟩
  · intro p hp
    simp only [Option.map_eq_some_iff] at hp
    obtain ⟨p0, hp0, rfl⟩ := hp
    obtain ⟨hwf, hsame⟩ := h.props p0 hp0
    rcases hs with hs | hs
    · simp [hs] at hp0
    · exact ⟨flip_WF hwf, hsame.flip hs⟩
  · intro p hp; simp [dropInts] at hp
  · intro p hp
    rw [h.ids p hp]
    obtain ⟨-, -, h1, h2, -⟩ := C12_flip_normals_structure o.mesh
    simp only [h1, h2]

lemma FreshGeom.healNormals {ord : List ℕ → List ℕ} {o o' : MeshObj} (h : FreshGeom o)
    (hs : o.cache.ints = none ∨ o.cache.props.isSome ∨ (∀ c o', o.readConn ord = .ok (c, o') → c.isClosed = true))
    (hst : o.doHealNormals ord = .ok o') : FreshGeom o' := by
  unfold doHealNormals at hst
  cases hc : o.readConn ord with
  | error e => rw [hc] at hst; simp at hst
  | ok r =>
    obtain ⟨c, o1⟩ := r
    rw [hc] at hst
    simp only at hst
    have ho1 : o1.mesh = o.mesh ∧ o1.cache.props = o.cache.props ∧ o1.cache.ints = o.cache.ints ∧
        o1.cache.ids = o.cache.ids := by
      unfold readConn at hc
      split at hc
      · cases hc; exact ⟨rfl, rfl, rfl, rfl⟩
      · split at hc
        · cases hc
        · cases hc; exact ⟨rfl, rfl, rfl, rfl⟩
    have hf1 : FreshGeom o1 := ⟨by rw [ho1.1, ho1.2.1]; exact h.props, by rw [ho1.1, ho1.2.2.1]; exact h.ints,
      by rw [ho1.1, ho1.2.2.2]; exact h.ids⟩
    have hf2 := hf1.readIds_snd
    obtain ⟨g1, g2, g3, g4⟩ := readIds_mesh o1
    cases hh : healFlood ord c.ff o1.readIds.2.mesh.faces with
    | error e => rw [hh] at hst; simp at hst
    | ok r =>
      obtain ⟨faces, ff'⟩ := r
      rw [hh] at hst
      simp only at hst
      split_ifs at hst with hcl
      · cases hp : MeshObj.readProps ⟨⟨o1.readIds.2.mesh.vertices, faces⟩,
            { o1.readIds.2.cache with conn := some { c with ff := ff' } }⟩ with
        | error e => rw [hp] at hst; simp at hst
        | ok r =>
          obtain ⟨p, o4⟩ := r
          rw [hp] at hst
          simp only [Except.ok.injEq] at hst
          have hp4 : o4.cache.props.isSome := by
            unfold readProps at hp
            split at hp
            · rename_i q hq; cases hp; simpa using congrArg Option.isSome hq
            · simp only at hp
              split_ifs at hp
              cases hp; rfl
          rw [← hst]
          split_ifs
          · have : o4.doFlip.cache.props.isSome := by unfold doFlip; simpa using hp4
            unfold dropPropsIfAny; rw [if_pos this]; exact .empty rfl rfl rfl
          · unfold dropPropsIfAny; rw [if_pos hp4]; exact .empty rfl rfl rfl
      · simp only [Except.ok.injEq] at hst
        rw [← hst]
        unfold dropPropsIfAny
        simp only
        split_ifs with hp
        · exact .empty rfl rfl rfl
        · have hnone : o1.readIds.2.cache.props = none := by simpa using hp
          have hints : o1.readIds.2.cache.ints = none := by
            rw [g3, ho1.2.2.1]
            rcases hs with hs | hs | hs
            · exact hs
            · rw [g2, ho1.2.1] at hnone; simp [hnone] at hs
            · exact absurd (hs c o1 hc) hcl
          refine ⟨fun q hq => by simp [hnone] at hq, fun q hq => by simp [hints] at hq, fun q hq => ?_⟩
          rw [hf2.ids q hq]
          have := ids_congr (m := o1.readIds.2.mesh) (m' := ⟨o1.readIds.2.mesh.vertices, faces⟩) (healFlood_kinds hh)
          simp only [this.1, this.2]

lemma dropPropsIfAny_fresh {o : MeshObj} (h : FreshGeom o) : FreshGeom ⟨o.mesh, dropPropsIfAny o.cache⟩ := by
  unfold dropPropsIfAny
  split_ifs
  · exact .empty rfl rfl rfl
  · exact h

lemma FreshGeom.removeUnused {o o' : MeshObj} (h : FreshGeom o) (hst : o.doRemoveUnused = .ok o') : FreshGeom o' := by
  unfold doRemoveUnused at hst
  cases hr : o.mesh.removeUnusedVertices with
  | error e => rw [hr] at hst; simp at hst
  | ok m' =>
    rw [hr] at hst
    simp only [Except.ok.injEq] at hst
    rw [← hst]
    obtain ⟨hwf, hwf', r1, r2, r3, r4, r5⟩ := removeUnused_same hr
    refine ⟨?_, ?_, ?_⟩
    · intro p hp
      obtain ⟨-, s1, s2, s3⟩ := h.props p hp
      refine ⟨hwf', ?_, ?_, ?_⟩
      · simp only [r1]; exact s1
      · simp only [r1]; exact s2
      · simp only [r1]
        intro k f a b hf ha hb hnz
        have hk := congrArg (fun l : List Bool => l[k]?) r5
        simp only [List.getElem?_map] at hk
        rw [hf] at hk
        cases hf0 : o.mesh.faces[k]? with
        | none => rw [hf0] at hk; simp at hk
        | some f0 =>
          rw [hf0] at hk
          simp only [Option.map_some, Option.some.injEq] at hk
          refine s3 k f0 a b hf0 ha hb ?_
          rcases hnz with hz | hz
          · left
            rw [Face.isTri_iff.2 hz] at hk
            exact Face.isTri_iff.1 hk.symm
          · right; exact hz
    · intro p hp
      simp only [r2]
      exact ⟨hwf', (h.ints p hp).2⟩
    · intro p hp
      simp only [r3, r4]
      exact h.ids p hp

lemma FreshGeom.removeDegenerated {rtol : ℝ} {o o' : MeshObj} (hst : o.doRemoveDegenerated rtol = .ok o') :
    o'.cache.props = none ∧ o'.cache.ints = none ∧ o'.cache.ids = none := by
  unfold doRemoveDegenerated at hst
  split_ifs at hst
  split at hst
  · cases hst
  · cases hst; exact ⟨rfl, rfl, rfl⟩

/-- Each step in a safe state keeps the geometric values right. -/
theorem FreshGeom.step {srt : (ℕ → ℝ) → List ℕ → List ℕ} {ord : List ℕ → List ℕ} {o o' : MeshObj} {op : Op}
    (h : FreshGeom o) (hs : SafeGeom ord o op) (hst : step srt ord o op = .ok o') : FreshGeom o' := by
  cases op <;> simp only [MeshObj.step] at hst
  case setVertices v => cases hst; exact .new _
  case setFaces v => cases hst; exact .new _
  case readIds => cases hst; exact h.readIds_snd
  case readProps =>
    have h1 := h.readProps_spec
    cases hp : o.readProps with
    | error e => rw [hp] at hst; cases hst
    | ok r => rw [hp] at hst h1; cases hst; exact h1.2.2.2.1
  case readInts =>
    have h1 := h.readInts_spec
    cases hp : o.readInts with
    | error e => rw [hp] at hst; cases hst
    | ok r => rw [hp] at hst h1; cases hst; exact h1.2.2.2.1
  case readVolume =>
    have h1 := h.readVolume_spec
    cases hp : o.readVolume with
    | error e => rw [hp] at hst; cases hst
    | ok r => rw [hp] at hst h1; cases hst; exact h1.2.2.2.1
  case readConn =>
    unfold readConn at hst
    split at hst
    · cases hst; exact h
    · split at hst
      · cases hst
      · cases hst; exact ⟨h.props, h.ints, h.ids⟩
  case translate t => cases hst; exact h.translated t rfl
  case translateX t => cases hst; exact h.translated _ (translateX_eq _ _)
  case translateY t => cases hst; exact h.translated _ (translateY_eq _ _)
  case translateZ t => cases hst; exact h.translated _ (translateZ_eq _ _)
  case rotate a b c => cases hst; exact h.rotated (cardan_isRotation a b c)
  case rotateMatrix r => cases hst; exact h.rotated hs
  case scale a => exact h.scaled hs (m' := o.mesh.scaleBy a) rfl hst
  case scaleX a => exact h.scaled hs (m' := o.mesh.scaleXBy a) rfl hst
  case scaleY a => exact h.scaled hs (m' := o.mesh.scaleYBy a) rfl hst
  case scaleZ a => exact h.scaled hs (m' := o.mesh.scaleZBy a) rfl hst
  case flipNormals => cases hst; exact h.flipped hs
  case mergeDuplicates atol =>
    unfold doMerge at hst
    split at hst
    · cases hst
    · cases hst; exact .empty hs.1 hs.2.1 hs.2.2
  case removeUnusedVertices => exact h.removeUnused hst
  case healTriangles =>
    cases hst
    unfold doHealTriangles dropPropsIfAny
    split_ifs with hp
    · exact .empty rfl rfl rfl
    · rcases hs with hs | hs
      · exact absurd hs hp
      · exact .empty (by simpa using hp) hs.1 hs.2
  case removeDegeneratedFaces rtol =>
    obtain ⟨h1, h2, h3⟩ := FreshGeom.removeDegenerated hst
    exact .empty h1 h2 h3
  case triangulateQuadrangles =>
    unfold doTriangulate at hst
    simp only at hst
    split_ifs at hst
    cases hst; exact .new _
  case symmetrize p =>
    unfold doSymmetrize at hst
    split at hst
    · cases hst
    · cases hst; exact .new _
  case mirror p => cases hst; exact .new _
  case healNormals => exact h.healNormals hs hst
  case healMesh =>
    unfold doHealMesh at hst
    cases h1 : doRemoveUnused ⟨o.mesh, dropPropsIfAny o.cache⟩ with
    | error e => rw [h1] at hst; cases hst
    | ok o1 =>
      rw [h1] at hst
      simp only [bind, Except.bind] at hst
      cases h2 : doRemoveDegenerated (1 / 100000) o1 with
      | error e => rw [h2] at hst; cases hst
      | ok o2 =>
        rw [h2] at hst
        simp only at hst
        obtain ⟨e1, e2, e3⟩ := FreshGeom.removeDegenerated h2
        cases h3 : doMerge srt Mesh.defaultAtol o2 with
        | error e => rw [h3] at hst; cases hst
        | ok o3 =>
          rw [h3] at hst
          simp only at hst
          have h3' : o3.cache.props = none ∧ o3.cache.ints = none ∧ o3.cache.ids = none := by
            unfold doMerge at h3
            split at h3
            · cases h3
            · cases h3; exact ⟨e1, e2, e3⟩
          have h4 : (doHealTriangles o3).cache = o3.cache := by
            unfold doHealTriangles dropPropsIfAny; simp [h3'.1]
          refine FreshGeom.healNormals (o := doHealTriangles o3) ?_ (Or.inl ?_) hst
          · exact .empty (by rw [h4]; exact h3'.1) (by rw [h4]; exact h3'.2.1) (by rw [h4]; exact h3'.2.2)
          · rw [h4]; exact h3'.2.1

theorem FreshConn.step {srt : (ℕ → ℝ) → List ℕ → List ℕ} {ord : List ℕ → List ℕ} {o o' : MeshObj} {op : Op}
    (h : FreshConn ord o) (hs : SafeConn o op) (hst : step srt ord o op = .ok o') : FreshConn ord o' := by
  have hids : ∀ o : MeshObj, FreshConn ord o → FreshConn ord o.readIds.2 := by
    intro o h
    obtain ⟨h1, -, -, h4⟩ := readIds_mesh o
    exact h.of_same h4 (by rw [h1]) (by rw [h1])
  have hprops : ∀ (o : MeshObj) p o', FreshConn ord o → o.readProps = .ok (p, o') → FreshConn ord o' := by
    intro o p o' h hst
    unfold MeshObj.readProps at hst
    split at hst
    · cases hst; exact h
    · simp only at hst
      split_ifs at hst
      cases hst
      exact (hids o h).of_same rfl rfl rfl
  have hints : ∀ (o : MeshObj) p o', FreshConn ord o → o.readInts = .ok (p, o') → FreshConn ord o' := by
    intro o p o' h hst
    unfold MeshObj.readInts at hst
    split at hst
    · cases hst; exact h
    · simp only at hst
      split_ifs at hst
      cases hst
      exact (hids o h).of_same rfl rfl rfl
  have hscale : ∀ (a : ℝ) (m' : Mesh ℝ), m'.nv = o.mesh.nv → m'.faces = o.mesh.faces →
      o.doScale a m' = .ok o' → FreshConn ord o' := by
    intro a m' h1 h2 hst
    unfold doScale at hst
    split_ifs at hst
    cases hst
    refine h.of_same ?_ h1 h2
    simp only [dropPropsIfAny]; split_ifs <;> rfl
  cases op <;> simp only [MeshObj.step] at hst
  case setVertices v => cases hst; exact .none rfl
  case setFaces v => cases hst; exact .none rfl
  case readIds => cases hst; exact hids o h
  case readProps =>
    cases hp : o.readProps with
    | error e => rw [hp] at hst; cases hst
    | ok r => rw [hp] at hst; cases hst; exact hprops o _ _ h hp
  case readInts =>
    cases hp : o.readInts with
    | error e => rw [hp] at hst; cases hst
    | ok r => rw [hp] at hst; cases hst; exact hints o _ _ h hp
  case readVolume =>
    unfold readVolume at hst
    cases hp : o.readProps with
    | error e => rw [hp] at hst; cases hst
    | ok r =>
      obtain ⟨p, o1⟩ := r
      rw [hp] at hst
      simp only at hst
      cases hi : o1.readInts with
      | error e => rw [hi] at hst; cases hst
      | ok r => rw [hi] at hst; cases hst; exact hints o1 _ _ (hprops o _ _ h hp) hi
  case readConn =>
    have h1 := h.readConn_spec
    cases hp : o.readConn ord with
    | error e => rw [hp] at hst; cases hst
    | ok r => rw [hp] at hst h1; cases hst; exact h1.2.2
  case translate t => cases hst; exact h.of_same rfl (by simp [doTranslate, Mesh.nv, Mesh.translate, Mesh.mapVertices]) rfl
  case translateX t => cases hst; exact h.of_same rfl (by simp [doTranslate, Mesh.nv, Mesh.translateX, Mesh.mapVertices]) rfl
  case translateY t => cases hst; exact h.of_same rfl (by simp [doTranslate, Mesh.nv, Mesh.translateY, Mesh.mapVertices]) rfl
  case translateZ t => cases hst; exact h.of_same rfl (by simp [doTranslate, Mesh.nv, Mesh.translateZ, Mesh.mapVertices]) rfl
  case rotate a b c => cases hst; exact h.of_same rfl (by simp [doRotate, Mesh.nv, Mesh.rotateMatrix, Mesh.mapVertices]) rfl
  case rotateMatrix r => cases hst; exact h.of_same rfl (by simp [doRotate, Mesh.nv, Mesh.rotateMatrix, Mesh.mapVertices]) rfl
  case scale a => exact hscale a (o.mesh.scaleBy a) (by simp [Mesh.nv, Mesh.scaleBy, Mesh.mapVertices]) rfl hst
  case scaleX a => exact hscale a (o.mesh.scaleXBy a) (by simp [Mesh.nv, Mesh.scaleXBy, Mesh.mapVertices]) rfl hst
  case scaleY a => exact hscale a (o.mesh.scaleYBy a) (by simp [Mesh.nv, Mesh.scaleYBy, Mesh.mapVertices]) rfl hst
  case scaleZ a => exact hscale a (o.mesh.scaleZBy a) (by simp [Mesh.nv, Mesh.scaleZBy, Mesh.mapVertices]) rfl hst
  case flipNormals => cases hst; exact .none hs
  case mergeDuplicates atol =>
    unfold doMerge at hst
    split at hst
    · cases hst
    · cases hst; exact .none rfl
  case removeUnusedVertices =>
    unfold doRemoveUnused at hst
    split at hst
    · cases hst
    · cases hst; exact .none rfl
  case healTriangles =>
    cases hst
    apply FreshConn.none
    simp only [doHealTriangles, dropPropsIfAny]
    split_ifs <;> exact hs
  case removeDegeneratedFaces rtol =>
    unfold doRemoveDegenerated at hst
    split_ifs at hst
    cases hp : o.readProps with
    | error e => rw [hp] at hst; cases hst
    | ok r =>
      obtain ⟨p, o1⟩ := r
      rw [hp] at hst; cases hst
      apply FreshConn.none
      show o1.cache.conn = Option.none
      unfold MeshObj.readProps at hp
      split at hp
      · cases hp; exact hs
      · simp only at hp
        split_ifs at hp
        cases hp
        show o.readIds.2.cache.conn = Option.none
        rw [(readIds_mesh o).2.2.2]; exact hs
  case triangulateQuadrangles =>
    unfold doTriangulate at hst
    simp only at hst
    split_ifs at hst
    cases hst; exact .none rfl
  case symmetrize p =>
    unfold doSymmetrize at hst
    split at hst
    · cases hst
    · cases hst; exact .none rfl
  case mirror p => cases hst; exact .none rfl
  case healNormals => exact absurd hs id
  case healMesh => exact absurd hs id

/-! ## Histories -/

/-- **C17, geometry, partial.** After any history of a mesh whose steps are taken in states satisfying `SafeGeom`,
areas, normals, centres, ids, surface integrals and the volume are those of a freshly built mesh. Missing: the
steps excluded by `SafeGeom`, for which the claim is false of the code (`C17_scale_stale`, `C17_merge_stale`,
`C17_heal_triangles_stale`, `C17_flip_stale`). -/
theorem C17_geometry_partial (srt : (ℕ → ℝ) → List ℕ → List ℕ) (ord : List ℕ → List ℕ) (m : Mesh ℝ) (ops : List Op)
    (hs : SafeRun srt ord (SafeGeom ord) ops (new m)) (o : MeshObj) (hr : run srt ord ops (new m) = .ok o) :
    GeometryUpToDate o := by
  have key : ∀ (ops : List Op) (o0 : MeshObj), FreshGeom o0 → SafeRun srt ord (SafeGeom ord) ops o0 →
      run srt ord ops o0 = .ok o → FreshGeom o := by
    intro ops
    induction ops with
    | nil => intro o0 h _ hr; simp [run] at hr; subst hr; exact h
    | cons op ops ih =>
      intro o0 h hs hr
      unfold run at hr
      cases hst : MeshObj.step srt ord o0 op with
      | error e => rw [hst] at hr; simp at hr
      | ok o1 => rw [hst] at hr; exact ih o1 (h.step hs.1 hst) (hs.2 o1 hst) hr
  exact (key ops _ (.new m) hs hr).upToDate

/-- **C17, connectivity, partial.** Same for `vv`, `vf`, `ff` and `boundaries`. Missing: the steps excluded by
`SafeConn` (`C17_flip_boundaries_stale`, `C17_remove_degenerated_stale`, `C17_heal_triangles_conn_stale`,
`C17_heal_normals_stale`). -/
theorem C17_connectivity_partial (srt : (ℕ → ℝ) → List ℕ → List ℕ) (ord : List ℕ → List ℕ) (m : Mesh ℝ)
    (ops : List Op) (hs : SafeRun srt ord SafeConn ops (new m)) (o : MeshObj)
    (hr : run srt ord ops (new m) = .ok o) : ConnectivityUpToDate ord o := by
  have key : ∀ (ops : List Op) (o0 : MeshObj), FreshConn ord o0 → SafeRun srt ord SafeConn ops o0 →
      run srt ord ops o0 = .ok o → FreshConn ord o := by
    intro ops
    induction ops with
    | nil => intro o0 h _ hr; simp [run] at hr; subst hr; exact h
    | cons op ops ih =>
      intro o0 h hs hr
      unfold run at hr
      cases hst : MeshObj.step srt ord o0 op with
      | error e => rw [hst] at hr; simp at hr
      | ok o1 => rw [hst] at hr; exact ih o1 (h.step hs.1 hst) (hs.2 o1 hst) hr
  exact (key ops _ (.none rfl) hs hr).upToDate

/-- The operations that keep every cached value right whatever was cached: setters, queries, translations,
rotations by angles, removal of unused vertices, triangulation, symmetrization, mirroring. -/
def Op.alwaysSafe : Op → Prop
  | .setVertices _ | .setFaces _ | .readIds | .readProps | .readInts | .readConn | .readVolume | .translate _
  | .translateX _ | .translateY _ | .translateZ _ | .rotate _ _ _ | .removeUnusedVertices
  | .triangulateQuadrangles | .symmetrize _ | .mirror _ => True
  | _ => False

/-- **C17 for the operations that are always safe**: any history of them, with any queries in between. -/
theorem C17_always_safe_partial (srt : (ℕ → ℝ) → List ℕ → List ℕ) (ord : List ℕ → List ℕ) (m : Mesh ℝ)
    (ops : List Op) (hops : ∀ op ∈ ops, Op.alwaysSafe op) (o : MeshObj) (hr : run srt ord ops (new m) = .ok o) :
    GeometryUpToDate o ∧ ConnectivityUpToDate ord o := by
  have hsafe : ∀ (o : MeshObj) op, Op.alwaysSafe op → SafeGeom ord o op ∧ SafeConn o op := by
    intro o op h
    cases op <;> first | exact ⟨trivial, trivial⟩ | exact absurd h id
  have hrun : ∀ (ops : List Op) (o : MeshObj), (∀ op ∈ ops, Op.alwaysSafe op) →
      SafeRun srt ord (SafeGeom ord) ops o ∧ SafeRun srt ord SafeConn ops o := by
    intro ops
    induction ops with
    | nil => intro o _; exact ⟨trivial, trivial⟩
    | cons op ops ih =>
      intro o h
      have h1 := hsafe o op (h op (by simp))
      exact ⟨⟨h1.1, fun o' _ => (ih o' fun op' hop' => h op' (by simp [hop'])).1⟩,
        ⟨h1.2, fun o' _ => (ih o' fun op' hop' => h op' (by simp [hop'])).2⟩⟩
  exact ⟨C17_geometry_partial srt ord m ops (hrun ops _ hops).1 o hr,
    C17_connectivity_partial srt ord m ops (hrun ops _ hops).2 o hr⟩

/-! ## The excluded steps do leave stale values -/

/-- One triangle in the plane z = 0. -/
noncomputable def cacheTri : Mesh ℝ := ⟨[⟨0, 0, 0⟩, ⟨1, 0, 0⟩, ⟨0, 1, 0⟩], [⟨0, 1, 2, 0⟩]⟩

lemma cacheTri_WF : cacheTri.WF := by
  intro f hf i hi
  simp [cacheTri, Face.toList] at hf hi ⊢
  subst hf
  simp at hi
  simp [Mesh.nv]; omega

lemma readProps_new {m : Mesh ℝ} (h : m.WF) :
    (new m).readProps = .ok (m.facesProperties,
      ⟨m, { props := some m.facesProperties, ids := some (m.trianglesIds, m.quadranglesIds) }⟩) := by
  unfold MeshObj.readProps
  simp only [new, MeshObj.readIds]
  simp only [(idsOk_fresh m).2 h, if_true]
  rfl

lemma readInts_new {m : Mesh ℝ} (h : m.WF) :
    (new m).readInts = .ok (m.surfaceIntegrals,
      ⟨m, { ints := some m.surfaceIntegrals, ids := some (m.trianglesIds, m.quadranglesIds) }⟩) := by
  unfold MeshObj.readInts
  simp only [new, MeshObj.readIds]
  simp only [(idsOk_fresh m).2 h, if_true]
  rfl

/-- `get_surface_integrals()` then `scale(2)`: the integrals are those before the scaling. -/
theorem C17_scale_stale (srt : (ℕ → ℝ) → List ℕ → List ℕ) (ord : List ℕ → List ℕ) :
    ∃ o, run srt ord [.readInts, .scale 2] (new cacheTri) = .ok o ∧ ¬ GeometryUpToDate o := by
  refine ⟨⟨cacheTri.scaleBy 2, { ints := some cacheTri.surfaceIntegrals, ids := some (cacheTri.trianglesIds, cacheTri.quadranglesIds) }⟩, ?_, ?_⟩
  · simp only [run, MeshObj.step, readInts_new cacheTri_WF, Except.map, doScale, dropPropsIfAny]
    rw [if_pos (by norm_num)]
    simp
  · rintro ⟨-, -, h, -⟩
    have hwf : (cacheTri.scaleBy 2).WF := by
      intro f hf i hi
      simpa [Mesh.nv, Mesh.scaleBy, Mesh.mapVertices] using cacheTri_WF f hf i hi
    rw [readInts_new hwf] at h
    simp only [MeshObj.readInts, SameOutcome] at h
    rw [surfaceIntegrals_eq, surfaceIntegrals_eq] at h
    have h0 := congrArg (fun l : List (Fin 15 → ℝ) => (l.getD 0 0) 0) h
    simp [cacheTri, Mesh.scaleBy, Mesh.mapVertices, Mesh.faceIntegrals, Face.isTri, Mesh.triIntegralsOf, Mesh.vert,
      triIntegrals, pf1, triDelta, V3.norm, V3.normSq, V3.dot, V3.cross] at h0
    norm_num at h0

/-- `triangles_ids` then `heal_triangles()`: a triangle written `[0, 0, 1, 2]` is still reported as a quadrangle. -/
theorem C17_heal_triangles_stale (srt : (ℕ → ℝ) → List ℕ → List ℕ) (ord : List ℕ → List ℕ) :
    ∃ o, run srt ord [.readIds, .healTriangles] (new ⟨cacheTri.vertices, [⟨0, 0, 1, 2⟩]⟩) = .ok o ∧
      o.readIds.1 = ([], [0]) ∧ (new o.mesh).readIds.1 = ([0], []) := by
  refine ⟨_, rfl, ?_, ?_⟩
  · simp only [doHealTriangles, dropPropsIfAny, new, MeshObj.readIds]
    decide
  · simp only [doHealTriangles, dropPropsIfAny, new, MeshObj.readIds]
    decide

/-- `triangles_ids` then `merge_duplicates()`: a quadrangle that the merging turns into a triangle is still reported
as a quadrangle. -/
theorem C17_merge_stale (srt : (ℕ → ℝ) → List ℕ → List ℕ) (hsrt : IsArgsort srt) (ord : List ℕ → List ℕ) :
    ∃ o, run srt ord [.readIds, .mergeDuplicates (1 / 100000000)]
        (new ⟨cacheTri.vertices ++ [⟨0, 0, 0⟩], [⟨0, 1, 2, 3⟩]⟩) = .ok o ∧
      o.readIds.1 = ([], [0]) ∧ (new o.mesh).readIds.1 = ([0], []) := by
  set m : Mesh ℝ := ⟨cacheTri.vertices ++ [⟨0, 0, 0⟩], [⟨0, 1, 2, 3⟩]⟩ with hm
  have hne' : m.vertices.map V3.coord ≠ [] := by simp [hm]
  obtain ⟨r, hr, hlen, hrange, -, -⟩ :=
    (C03_renumbering_total_in_range_onto srt hsrt (1 / 100000000) (by norm_num) (m.vertices.map V3.coord)).2 hne'
  have hdup := (C02_exact_duplicates_merged srt hsrt _ (by norm_num) _ r hr).1 0 3 (V3.coord ⟨0, 0, 0⟩)
    (by simp [hm, cacheTri]) (by simp [hm, cacheTri])
  have hids : ((m.trianglesIds, m.quadranglesIds) : List ℕ × List ℕ) = ([], [0]) := by
    simp only [hm]; decide
  have hmerge : m.mergeDuplicates srt (1 / 100000000) =
      .ok (⟨r.rows.map V3.ofCoord, m.faces.map (Face.map (fun i => r.newID.getD i 0))⟩, r.newID) := by
    have hall : m.faces.all (fun f => f.toList.all (fun i => decide (i < m.nv))) = true := by
      simp [hm, Face.toList, Mesh.nv, cacheTri]
    simp only [Mesh.mergeDuplicates, hr, hall, if_true]
  refine ⟨⟨⟨r.rows.map V3.ofCoord, m.faces.map (Face.map (fun i => r.newID.getD i 0))⟩,
    { ids := some (m.trianglesIds, m.quadranglesIds) }⟩, ?_, hids, ?_⟩
  · simp only [run, MeshObj.step, MeshObj.readIds, new, doMerge, hmerge, dropConn]
  · simp only [new, MeshObj.readIds]
    have hk := ids_congr (m := ⟨cacheTri.vertices, [⟨0, 1, 2, 0⟩]⟩)
      (m' := ⟨r.rows.map V3.ofCoord, m.faces.map (Face.map (fun i => r.newID.getD i 0))⟩) (by
        simp only [hm, List.map_cons, List.map_nil, Face.map, Face.isTri]
        rw [List.getD_eq_getElem?_getD, List.getD_eq_getElem?_getD, hdup]
        simp)
    rw [hk.1, hk.2]
    decide

/-- A quadrangle that is not plane. -/
noncomputable def warpedQuad : Mesh ℝ :=
  ⟨[⟨0, 0, 0⟩, ⟨1, 0, 0⟩, ⟨1, 1, 1⟩, ⟨0, 1, 0⟩], [⟨0, 1, 2, 3⟩]⟩

lemma warpedQuad_WF : warpedQuad.WF := by
  intro f hf i hi
  simp [warpedQuad, Face.toList] at hf hi ⊢
  subst hf
  simp at hi
  simp [Mesh.nv]; omega

/-- `faces_areas` then `flip_normals()`: the area of a quadrangle that is not plane is computed with the other
diagonal by a fresh mesh. -/
theorem C17_flip_stale (srt : (ℕ → ℝ) → List ℕ → List ℕ) (ord : List ℕ → List ℕ) :
    ∃ o, run srt ord [.readProps, .flipNormals] (new warpedQuad) = .ok o ∧ ¬ GeometryUpToDate o := by
  refine ⟨(⟨warpedQuad, { props := some warpedQuad.facesProperties, ids := some (warpedQuad.trianglesIds, warpedQuad.quadranglesIds) }⟩ : MeshObj).doFlip, ?_, ?_⟩
  · simp only [run, MeshObj.step, readProps_new warpedQuad_WF, Except.map]
  · rintro ⟨-, h, -, -⟩
    rw [show ((⟨warpedQuad, { props := some warpedQuad.facesProperties, ids := some (warpedQuad.trianglesIds, warpedQuad.quadranglesIds) }⟩ : MeshObj).doFlip).mesh =
        warpedQuad.flipNormals from rfl, readProps_new (flip_WF warpedQuad_WF)] at h
    simp only [MeshObj.readProps, doFlip, Option.map_some, SameOutcome] at h
    have h1 := congrArg (fun l : List ℝ => l.getD 0 0) h.1
    rw [facesProperties_eq, facesProperties_eq] at h1
    simp [warpedQuad, Mesh.flipNormals, Mesh.faceProps, Face.flip, Face.isTri, Mesh.quadPropsOf, quadProps, quadA1,
      quadA2, Mesh.vert, V3.norm, V3.normSq, V3.dot, V3.cross] at h1
    norm_num at h1
    have e2 : Real.sqrt 2 ^ 2 = 2 := Real.sq_sqrt (by norm_num)
    have e3 : Real.sqrt 3 ^ 2 = 3 := Real.sq_sqrt (by norm_num)
    have e4 : Real.sqrt 3 = 2 * Real.sqrt 2 - 1 := by linarith
    have e5 : Real.sqrt 2 = 3 / 2 := by rw [e4] at e3; linarith
    rw [e5] at e2; norm_num at e2

/-- `boundaries` then `flip_normals()`: the boundary keeps its direction, a fresh mesh has the reverse one. -/
theorem C17_flip_boundaries_stale (srt : (ℕ → ℝ) → List ℕ → List ℕ) :
    ∃ o, run srt id [.readConn, .flipNormals] (new cacheTri) = .ok o ∧ ¬ ConnectivityUpToDate id o := by
  obtain ⟨c, hc⟩ : ∃ c, connectivity id 3 [⟨0, 1, 2, 0⟩] = .ok c := ⟨_, rfl⟩
  obtain ⟨c', hc'⟩ : ∃ c, connectivity id 3 [(⟨0, 1, 2, 0⟩ : Face).flip] = .ok c := ⟨_, rfl⟩
  refine ⟨(⟨cacheTri, { conn := some c }⟩ : MeshObj).doFlip, ?_, ?_⟩
  · have : connectivity id cacheTri.nv cacheTri.faces = .ok c := hc
    simp only [run, MeshObj.step, MeshObj.readConn, new, this, Except.map]
  · intro h
    have h2 : connectivity id cacheTri.flipNormals.nv cacheTri.flipNormals.faces = .ok c' := hc'
    simp only [ConnectivityUpToDate, MeshObj.readConn, doFlip, dropInts, new, h2, SameOutcome] at h
    have b1 : (connectivity id 3 [⟨0, 1, 2, 0⟩]).toOption.map Conn.boundaries = some [[2, 1, 0, 2]] := by
      decide +kernel
    have b2 : (connectivity id 3 [(⟨0, 1, 2, 0⟩ : Face).flip]).toOption.map Conn.boundaries = some [[1, 2, 0, 1]] := by
      decide +kernel
    rw [hc] at b1
    rw [hc'] at b2
    simp [Except.toOption] at b1 b2
    rw [h, b2] at b1
    simp at b1

/-- `vv` then `heal_triangles()`: two triangles written `[0, 0, 1, 2]` and `[0, 0, 2, 1]`; vertex 0 remains its own
neighbour. -/
theorem C17_heal_triangles_conn_stale (srt : (ℕ → ℝ) → List ℕ → List ℕ) :
    ∃ o, run srt id [.readConn, .healTriangles] (new ⟨cacheTri.vertices, [⟨0, 0, 1, 2⟩, ⟨0, 0, 2, 1⟩]⟩) = .ok o ∧
      ¬ ConnectivityUpToDate id o := by
  set m : Mesh ℝ := ⟨cacheTri.vertices, [⟨0, 0, 1, 2⟩, ⟨0, 0, 2, 1⟩]⟩ with hm
  obtain ⟨c, hc⟩ : ∃ c, connectivity id 3 [⟨0, 0, 1, 2⟩, ⟨0, 0, 2, 1⟩] = .ok c := ⟨_, rfl⟩
  obtain ⟨c', hc'⟩ : ∃ c, connectivity id 3 [⟨0, 1, 2, 0⟩, ⟨0, 2, 1, 0⟩] = .ok c := ⟨_, rfl⟩
  refine ⟨(⟨m, { conn := some c }⟩ : MeshObj).doHealTriangles, ?_, ?_⟩
  · have : connectivity id m.nv m.faces = .ok c := hc
    simp only [run, MeshObj.step, MeshObj.readConn, new, this, Except.map]
  · intro h
    have h2 : connectivity id m.healTriangles.nv m.healTriangles.faces = .ok c' := hc'
    simp only [ConnectivityUpToDate, MeshObj.readConn, doHealTriangles, dropPropsIfAny, new, h2, SameOutcome] at h
    have b1 : (connectivity id 3 [⟨0, 0, 1, 2⟩, ⟨0, 0, 2, 1⟩]).toOption.map (fun c => decide (0 ∈ c.vv 0)) = some true := by
      decide +kernel
    have b2 : (connectivity id 3 [⟨0, 1, 2, 0⟩, ⟨0, 2, 1, 0⟩]).toOption.map (fun c => decide (0 ∈ c.vv 0)) = some false := by
      decide +kernel
    rw [hc] at b1
    rw [hc'] at b2
    simp [Except.toOption] at b1 b2
    simp [m] at h
    rw [h] at b1
    exact b2 b1

/-- A triangle and a flat triangle on one of its sides. -/
noncomputable def flatSide : Mesh ℝ :=
  ⟨[⟨0, 0, 0⟩, ⟨1, 0, 0⟩, ⟨0, 1, 0⟩, ⟨2, 0, 0⟩], [⟨0, 1, 2, 0⟩, ⟨1, 0, 3, 1⟩]⟩

lemma flatSide_WF : flatSide.WF := by
  intro f hf i hi
  simp [flatSide, Face.toList] at hf hi ⊢
  rcases hf with rfl | rfl <;> simp at hi <;> simp [Mesh.nv] <;> omega

/-- `ff` then `remove_degenerated_faces()`: the removed face remains a neighbour. -/
theorem C17_remove_degenerated_stale (srt : (ℕ → ℝ) → List ℕ → List ℕ) :
    ∃ o, run srt id [.readConn, .removeDegeneratedFaces (1 / 100000)] (new flatSide) = .ok o ∧
      o.mesh.faces = [⟨0, 1, 2, 0⟩] ∧ ¬ ConnectivityUpToDate id o := by
  obtain ⟨c, hc⟩ : ∃ c, connectivity id 4 [⟨0, 1, 2, 0⟩, ⟨1, 0, 3, 1⟩] = .ok c := ⟨_, rfl⟩
  obtain ⟨c', hc'⟩ : ∃ c, connectivity id 4 [⟨0, 1, 2, 0⟩] = .ok c := ⟨_, rfl⟩
  have hareas : flatSide.facesProperties.map FP.area = [1 / 2, 0] := by
    rw [facesProperties_eq]
    simp [flatSide, Mesh.faceProps, Face.isTri, Mesh.triPropsOf, triProps, Mesh.vert, V3.norm, V3.normSq, V3.dot, V3.cross]
  have hkeep : keepFaces flatSide.faces [1 / 2, 0] (areaThreshold [1 / 2, 0] (1 / 100000)) = [⟨0, 1, 2, 0⟩] := by
    unfold keepFaces areaThreshold flatSide
    simp only [List.zip_cons_cons, List.zip_nil_right, List.filter_cons, List.filter_nil, List.sum_cons,
      List.sum_nil, List.length_cons, List.length_nil]
    norm_num
  refine ⟨⟨⟨flatSide.vertices, [⟨0, 1, 2, 0⟩]⟩, { conn := some c }⟩, ?_, rfl, ?_⟩
  · have : connectivity id flatSide.nv flatSide.faces = .ok c := hc
    simp only [run, MeshObj.step, MeshObj.readConn, new, this, Except.map, doRemoveDegenerated]
    rw [if_pos (by norm_num)]
    simp only [MeshObj.readProps, MeshObj.readIds]
    simp only [(idsOk_fresh flatSide).2 flatSide_WF, if_true, dropProps]
    rw [show flatSide.facesPropertiesWith flatSide.trianglesIds flatSide.quadranglesIds = flatSide.facesProperties from rfl,
      hareas, hkeep]
  · intro h
    have h2 : connectivity id (⟨flatSide.vertices, [⟨0, 1, 2, 0⟩]⟩ : Mesh ℝ).nv [⟨0, 1, 2, 0⟩] = .ok c' := hc'
    simp only [ConnectivityUpToDate, MeshObj.readConn, new, h2, SameOutcome] at h
    have b1 : (connectivity id 4 [⟨0, 1, 2, 0⟩, ⟨1, 0, 3, 1⟩]).toOption.map (fun c => c.ff 0) = some [1] := by
      decide +kernel
    have b2 : (connectivity id 4 [⟨0, 1, 2, 0⟩]).toOption.map (fun c => c.ff 0) = some [] := by
      decide +kernel
    rw [hc] at b1
    rw [hc'] at b2
    simp [Except.toOption] at b1 b2
    rw [h, b2] at b1
    simp at b1

/-- `heal_normals()` then `ff`: the adjacency consumed by the flooding is returned. -/
theorem C17_heal_normals_stale (srt : (ℕ → ℝ) → List ℕ → List ℕ) :
    ∃ o, run srt id [.healNormals] (new flatSide) = .ok o ∧ o.mesh = flatSide ∧ ¬ ConnectivityUpToDate id o := by
  obtain ⟨c, hc⟩ : ∃ c, connectivity id 4 [⟨0, 1, 2, 0⟩, ⟨1, 0, 3, 1⟩] = .ok c := ⟨_, rfl⟩
  have b1 : (connectivity id 4 [⟨0, 1, 2, 0⟩, ⟨1, 0, 3, 1⟩]).toOption.map (fun c => (c.ff 1, c.isClosed)) =
      some ([0], false) := by decide +kernel
  have b2 : (connectivity id 4 [⟨0, 1, 2, 0⟩, ⟨1, 0, 3, 1⟩]).toOption.bind (fun c =>
      (healFlood id c.ff [⟨0, 1, 2, 0⟩, ⟨1, 0, 3, 1⟩]).toOption.map (fun r => (r.1, r.2 1))) =
      some ([⟨0, 1, 2, 0⟩, ⟨1, 0, 3, 1⟩], []) := by decide +kernel
  rw [hc] at b1 b2
  simp only [Except.toOption, Option.map_some, Option.some.injEq, Prod.mk.injEq, Option.bind_some] at b1 b2
  obtain ⟨r, hr⟩ : ∃ r, healFlood id c.ff [⟨0, 1, 2, 0⟩, ⟨1, 0, 3, 1⟩] = .ok r := by
    cases hh : healFlood id c.ff [⟨0, 1, 2, 0⟩, ⟨1, 0, 3, 1⟩] with
    | error e => rw [hh] at b2; simp at b2
    | ok r => exact ⟨r, rfl⟩
  obtain ⟨F, ff'⟩ := r
  rw [hr] at b2
  simp only [Option.map_some, Option.some.injEq, Prod.mk.injEq] at b2
  obtain ⟨rfl, b3⟩ := b2
  have hc2 : connectivity id flatSide.nv flatSide.faces = .ok c := hc
  have hr2 : healFlood id c.ff flatSide.faces = .ok (flatSide.faces, ff') := hr
  refine ⟨⟨flatSide, { ids := some (flatSide.trianglesIds, flatSide.quadranglesIds), conn := some { c with ff := ff' } }⟩, ?_, rfl, ?_⟩
  · simp only [run, MeshObj.step, doHealNormals, MeshObj.readConn, new, hc2, MeshObj.readIds, hr2, b1.2,
      dropPropsIfAny]
    simp
  · intro h
    simp only [ConnectivityUpToDate, MeshObj.readConn, new, hc2, SameOutcome] at h
    have := congrArg (fun c : Conn => c.ff 1) h
    simp only [b3, b1.1] at this
    simp at this

/-! ## The guarded histories exist -/

lemma readProps_isSome {o o' : MeshObj} {p : List FP} (h : o.readProps = .ok (p, o')) : o'.cache.props.isSome := by
  unfold MeshObj.readProps at h
  split at h
  · rename_i q hq; cases h; simpa using congrArg Option.isSome hq
  · simp only at h
    split_ifs at h
    cases h; rfl

/-- A history in which cached values survive a translation, a rotation, a scaling and a reversal. -/
example : SafeRun (fun _ l => l) id (SafeGeom id) [.readProps, .readInts, .translate ⟨1, 2, 3⟩, .rotate 1 2 3,
    .scale 2, .flipNormals, .readProps, .healNormals] (new cacheTri) := by
  refine ⟨trivial, fun o1 h1 => ⟨trivial, fun o2 h2 => ⟨trivial, fun o3 h3 => ⟨trivial, fun o4 h4 =>
    ⟨Or.inr ?_, fun o5 h5 => ⟨Or.inl ?_, fun o6 h6 => ⟨trivial, fun o7 h7 =>
      ⟨Or.inr (Or.inl ?_), fun _ _ => trivial⟩⟩⟩⟩⟩⟩⟩⟩
  · simp only [MeshObj.step, readProps_new cacheTri_WF, Except.map, Except.ok.injEq] at h1
    subst h1
    simp only [MeshObj.step, MeshObj.readInts, MeshObj.readIds, (idsOk_fresh _).2 cacheTri_WF, if_true, Except.map,
      Except.ok.injEq] at h2
    subst h2
    cases h3; cases h4; rfl
  · simp only [MeshObj.step, readProps_new cacheTri_WF, Except.map, Except.ok.injEq] at h1
    subst h1
    simp only [MeshObj.step, MeshObj.readInts, MeshObj.readIds, (idsOk_fresh _).2 cacheTri_WF, if_true, Except.map,
      Except.ok.injEq] at h2
    subst h2
    cases h3; cases h4
    simp only [MeshObj.step, doScale] at h5
    rw [if_pos (by norm_num)] at h5
    cases h5; rfl
  · simp only [MeshObj.step] at h7
    cases hp : o6.readProps with
    | error e => rw [hp] at h7; cases h7
    | ok r =>
      rw [hp] at h7; cases h7
      exact readProps_isSome hp

/-- And the connectivity one. -/
example : SafeRun (fun _ l => l) id SafeConn [.readConn, .translate ⟨1, 2, 3⟩, .scale 2, .setFaces [⟨0, 1, 2, 0⟩],
    .flipNormals, .readConn] (new cacheTri) := by
  refine ⟨trivial, fun o1 h1 => ⟨trivial, fun o2 h2 => ⟨trivial, fun o3 h3 => ⟨trivial, fun o4 h4 =>
    ⟨?_, fun o5 h5 => ⟨trivial, fun _ _ => trivial⟩⟩⟩⟩⟩⟩
  cases h4; rfl

end MM
