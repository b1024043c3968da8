import Verif.Spec.Watertight
import Verif.Spec.Witness
import Verif.Proofs.Watertight
import Verif.Props.Merge
import Verif.Props.Cache

/-!
# C130, C131: watertight meshes
-/

namespace MM

open MeshObj

section Pure
variable {K : Type*}

lemma Mesh.ClosedOriented.map {m : Mesh K} (h : m.ClosedOriented) (φ : ℕ → ℕ) (v : List (V3 K)) :
    (⟨v, m.faces.map (Face.map φ)⟩ : Mesh K).ClosedOriented := by
  rw [closedOriented_iff] at h ⊢
  intro g hg
  rw [edgeSums_map (fun f => Face.edgeSum_map hg φ f)]
  exact h _ (hg.comp φ)

lemma Mesh.ClosedOriented.flip {m : Mesh K} (h : m.ClosedOriented) : m.flipNormals.ClosedOriented := by
  rw [closedOriented_iff] at h ⊢
  intro g hg
  have hn : AntiSymm fun i j => - g i j := fun i j => by beta_reduce; rw [hg i j]
  have e : ∀ f : Face, f.flip.edgeSum g = f.edgeSum fun i j => - g i j := by
    intro f
    rw [Face.edgeSum_flip hg, Face.edgeSum_eq hg, Face.edgeSum_eq hn]; ring
  show edgeSums g (m.faces.map Face.flip) = 0
  rw [edgeSums_map e]
  exact h _ hn

lemma edgeSum_healStep {g : ℕ → ℕ → ℤ} (hg : AntiSymm g) (f : Face) : (Mesh.healStep f).edgeSum g = f.edgeSum g := by
  unfold Mesh.healStep
  split
  · rfl
  · exact Face.edgeSum_roll hg f

lemma Mesh.ClosedOriented.healTriangles {m : Mesh K} (h : m.ClosedOriented) : m.healTriangles.ClosedOriented := by
  rw [closedOriented_iff] at h ⊢
  intro g hg
  show edgeSums g (((m.faces.map Mesh.healStep).map Mesh.healStep).map Mesh.healStep) = 0
  rw [edgeSums_map (edgeSum_healStep hg), edgeSums_map (edgeSum_healStep hg), edgeSums_map (edgeSum_healStep hg)]
  exact h g hg

lemma Mesh.ClosedOriented.removeUnused [CommRing K] {m m' : Mesh K} (h : m.ClosedOriented)
    (e : m.removeUnusedVertices = .ok m') : m'.ClosedOriented := by
  unfold Mesh.removeUnusedVertices at e
  dsimp only at e
  split_ifs at e
  · cases e; exact h.map _ _
  · cases e; exact h

lemma Mesh.ClosedOriented.merge [Field K] [LinearOrder K] {srt : (ℕ → K) → List ℕ → List ℕ} {atol : K} {m m' : Mesh K}
    {ids : List ℕ} (h : m.ClosedOriented) (e : m.mergeDuplicates srt atol = .ok (m', ids)) : m'.ClosedOriented := by
  unfold Mesh.mergeDuplicates at e
  split at e
  · cases e
  · split_ifs at e
    cases e
    exact h.map _ _

lemma Mesh.ClosedOriented.concat [Field K] [LinearOrder K] {m n : Mesh K} (h : m.ClosedOriented) (h' : n.ClosedOriented) :
    (m.concat n).ClosedOriented := by
  rw [closedOriented_iff] at h h' ⊢
  intro g hg
  show edgeSums g (m.faces ++ n.faces.map (Face.map (· + m.nv))) = 0
  rw [edgeSums_append, edgeSums_map (fun f => Face.edgeSum_map hg _ f), h g hg, h' _ (hg.comp _), add_zero]

/-- **C130.** The sum of two watertight meshes is watertight. -/
theorem C130_sum [Field K] [LinearOrder K] (srt : (ℕ → K) → List ℕ → List ℕ) (m n s : Mesh K) (hm : m.ClosedOriented)
    (hn : n.ClosedOriented) (h : Mesh.add srt m n = .ok s) : s.ClosedOriented := by
  unfold Mesh.add at h
  cases e : (m.concat n).mergeDuplicates srt Mesh.defaultAtol with
  | error => rw [e] at h; cases h
  | ok r => rw [e] at h; cases h; exact (hm.concat hn).merge (ids := r.2) e

lemma edgeSums_symmetrizeRaw [CommRing K] {g : ℕ → ℕ → ℤ} (hg : AntiSymm g) (p : Plane K) (m : Mesh K) :
    edgeSums g (m.symmetrizeRaw p).faces = edgeSums (fun i j => g i j - g (i + m.nv) (j + m.nv)) m.faces := by
  have hn : AntiSymm fun i j => g i j - g (i + m.nv) (j + m.nv) := fun i j => by
    beta_reduce; rw [hg i j, hg (i + m.nv) (j + m.nv)]; ring
  show edgeSums g (m.faces ++ m.faces.map (fun f => (f.map (· + m.nv)).flip)) = _
  rw [edgeSums_append]
  unfold edgeSums
  rw [List.map_map]
  generalize m.faces = l
  induction l with
  | nil => rfl
  | cons f l ih =>
    simp only [List.map_cons, List.sum_cons, Function.comp] at ih ⊢
    rw [Face.edgeSum_flip hg, Face.edgeSum_map hg, Face.edgeSum_eq hg, Face.edgeSum_eq (hg.comp (· + m.nv)), Face.edgeSum_eq hn]
    linear_combination ih

/-- **C131.** If a mesh is open along the plane only (half a hull), its symmetrisation about the plane is watertight. -/
theorem C131_half_hull [Field K] [LinearOrder K] [IsStrictOrderedRing K] (srt : (ℕ → K) → List ℕ → List ℕ)
    (hsrt : IsArgsort srt) (p : Plane K) (m s : Mesh K) (hwf : m.WF) (hopen : m.OpenAlong p) (h : m.symmetrize srt p = .ok s) : s.ClosedOriented := by
  unfold Mesh.symmetrize at h
  cases e : (m.symmetrizeRaw p).mergeDuplicates srt Mesh.defaultAtol with
  | error => rw [e] at h; cases h
  | ok r =>
  rw [e] at h
  cases h
  unfold Mesh.mergeDuplicates at e
  split at e
  · cases e
  rename_i q hq
  split_ifs at e
  cases e
  obtain ⟨hdup, -, -⟩ := C02_exact_duplicates_merged srt hsrt Mesh.defaultAtol (by unfold Mesh.defaultAtol; positivity) _ q hq
  rw [closedOriented_iff]
  intro g hg
  show edgeSums g ((m.symmetrizeRaw p).faces.map (Face.map fun i => q.newID.getD i 0)) = 0
  rw [edgeSums_map (fun f => Face.edgeSum_map hg _ f), edgeSums_symmetrizeRaw (hg.comp _), ← sum_edges]
  refine sum_antisymm_zero (g := fun i j => g (q.newID.getD i 0) (q.newID.getD j 0) -
    g (q.newID.getD (i + m.nv) 0) (q.newID.getD (j + m.nv) 0)) (fun i j => ?_) ?_
  · beta_reduce
    rw [hg (q.newID.getD i 0), hg (q.newID.getD (i + m.nv) 0)]; ring
  intro i j hij
  obtain ⟨hi, hj⟩ := hopen i j hij
  have hmem : ∃ f ∈ m.faces, i ∈ f.toList ∧ j ∈ f.toList := by
    have : (i, j) ∈ m.directedEdges ∨ (j, i) ∈ m.directedEdges := by
      by_contra hc
      push Not at hc
      exact hij ((List.count_eq_zero_of_not_mem hc.1).trans (List.count_eq_zero_of_not_mem hc.2).symm)
    have aux : ∀ i j, (i, j) ∈ m.directedEdges → ∃ f ∈ m.faces, i ∈ f.toList ∧ j ∈ f.toList := by
      intro i j hm
      obtain ⟨f, hf, he⟩ := List.mem_flatMap.1 hm
      refine ⟨f, hf, ?_⟩
      unfold Face.directedEdges at he
      split_ifs at he <;> simp at he <;> simp [Face.toList] <;> omega
    rcases this with h | h
    · exact aux _ _ h
    · obtain ⟨f, hf, a, b⟩ := aux _ _ h; exact ⟨f, hf, b, a⟩
  obtain ⟨f, hf, hif, hjf⟩ := hmem
  have key : ∀ k, k < m.nv → (m.vert k).dot p.normal = p.c → q.newID.getD (k + m.nv) 0 = q.newID.getD k 0 := by
    intro k hk hd
    have hr : p.reflect (m.vert k) = m.vert k := by
      unfold Plane.reflect
      rw [hd, sub_self, mul_zero]
      ext <;> simp
    have hv : m.vertices[k]? = some (m.vert k) := by
      unfold Mesh.vert
      rw [List.getD_eq_getElem?_getD, List.getElem?_eq_getElem hk]; rfl
    have h1 : ((m.symmetrizeRaw p).vertices.map V3.coord)[k]? = some (m.vert k).coord := by
      simp only [Mesh.symmetrizeRaw, List.getElem?_map]
      rw [List.getElem?_append_left hk, hv]; rfl
    have h2 : ((m.symmetrizeRaw p).vertices.map V3.coord)[k + m.nv]? = some (m.vert k).coord := by
      simp only [Mesh.symmetrizeRaw, List.getElem?_map]
      rw [List.getElem?_append_right (by simp [Mesh.nv]), show k + m.nv - m.vertices.length = k by simp [Mesh.nv],
        List.getElem?_map, hv]
      simp [hr]
    simp only [List.getD_eq_getElem?_getD, hdup _ _ _ h1 h2]
  beta_reduce
  rw [key i (hwf f hf i hif) hi, key j (hwf f hf j hjf) hj, sub_self]

end Pure

/-! ### Histories -/

/-- What is kept by the operations: the mesh is watertight, and no quadrangle is twice in the cached list of quadrangles. -/
def Tight (o : MeshObj) : Prop := o.mesh.ClosedOriented ∧ ∀ p, o.cache.ids = some p → p.2.Nodup

lemma quadranglesIds_nodup {K : Type*} (m : Mesh K) : m.quadranglesIds.Nodup := List.nodup_range.filter _

lemma closed_sameFaces {K : Type*} {m m' : Mesh K} (h : m.ClosedOriented) (e : m'.faces = m.faces) : m'.ClosedOriented := by
  unfold Mesh.ClosedOriented Mesh.directedEdges at *
  rw [e]; exact h

lemma Tight.new {m : Mesh ℝ} (h : m.ClosedOriented) : Tight (MeshObj.new m) := ⟨h, fun _ hp => by cases hp⟩

lemma Tight.sub {o o' : MeshObj} (h : Tight o) (hm : o'.mesh.ClosedOriented)
    (hc : o'.cache.ids = o.cache.ids ∨ o'.cache.ids = none) : Tight o' := by
  refine ⟨hm, fun p hp => ?_⟩
  rcases hc with hc | hc
  · exact h.2 p (hc ▸ hp)
  · rw [hc] at hp; cases hp

lemma dropPropsIfAny_ids (c : Cache) : (dropPropsIfAny c).ids = c.ids ∨ (dropPropsIfAny c).ids = none := by
  unfold dropPropsIfAny
  split
  · exact .inr rfl
  · exact .inl rfl

lemma Tight.readIds {o : MeshObj} (h : Tight o) : Tight o.readIds.2 ∧ o.readIds.1.2.Nodup := by
  unfold MeshObj.readIds
  split
  · rename_i p hp; exact ⟨h, h.2 p hp⟩
  · exact ⟨⟨h.1, fun p hp => by cases hp; exact quadranglesIds_nodup _⟩, quadranglesIds_nodup _⟩

lemma Tight.readProps {o : MeshObj} (h : Tight o) {p : List FP} {o' : MeshObj} (e : o.readProps = .ok (p, o')) : Tight o' := by
  unfold MeshObj.readProps at e
  split at e
  · cases e; exact h
  · dsimp only at e
    split_ifs at e
    cases e
    exact ⟨h.readIds.1.1, h.readIds.1.2⟩

lemma Tight.readInts {o : MeshObj} (h : Tight o) {p : List (Fin 15 → ℝ)} {o' : MeshObj} (e : o.readInts = .ok (p, o')) :
    Tight o' := by
  unfold MeshObj.readInts at e
  split at e
  · cases e; exact h
  · dsimp only at e
    split_ifs at e
    cases e
    exact ⟨h.readIds.1.1, h.readIds.1.2⟩

lemma Tight.readConn {ord : List ℕ → List ℕ} {o : MeshObj} (h : Tight o) {c : Conn} {o' : MeshObj}
    (e : o.readConn ord = .ok (c, o')) : Tight o' := by
  unfold MeshObj.readConn at e
  split at e
  · cases e; exact h
  · split at e
    · cases e
    · cases e; exact ⟨h.1, h.2⟩

lemma edgeSums_set {g : ℕ → ℕ → ℤ} (l : List Face) (k : ℕ) (f x : Face) (hk : l[k]? = some f) :
    edgeSums g (l.set k x) = edgeSums g l - f.edgeSum g + x.edgeSum g := by
  induction l generalizing k with
  | nil => simp at hk
  | cons y l ih =>
    cases k with
    | zero => simp at hk; subst hk; simp [edgeSums]; ring
    | succ k =>
      have := ih k (by simpa using hk)
      simp only [edgeSums, List.set_cons_succ, List.map_cons, List.sum_cons] at this ⊢
      rw [this]; ring

lemma edgeSum_split {g : ℕ → ℕ → ℤ} (hg : AntiSymm g) (f : Face) :
    Face.edgeSum g ⟨f.a, f.c, f.d, f.a⟩ + (Mesh.firstTri f).edgeSum g = f.edgeSum g := by
  rw [Face.edgeSum_eq hg, Face.edgeSum_eq hg, Face.edgeSum_eq hg]
  simp only [Mesh.firstTri]
  rw [hg.self, hg f.a f.c]; ring

lemma Mesh.ClosedOriented.triangulateWith {m : Mesh ℝ} (h : m.ClosedOriented) {q : List ℕ} (hq : q.Nodup)
    (hin : ∀ k ∈ q, k < m.nf) : (triangulateWith q m).ClosedOriented := by
  rw [closedOriented_iff] at h ⊢
  intro g hg
  unfold MeshObj.triangulateWith
  rw [edgeSums_append, ← h g hg]
  have key : ∀ (q : List ℕ) (l : List Face), q.Nodup → (∀ k ∈ q, l[k]? = some (m.faceAt k)) →
      edgeSums g (q.foldl (fun l k => l.set k ((fun f : Face => ⟨f.a, f.c, f.d, f.a⟩) (m.faceAt k))) l) +
        edgeSums g (q.map fun k => Mesh.firstTri (m.faceAt k)) = edgeSums g l := by
    intro q
    induction q with
    | nil => intro l _ _; simp [edgeSums]
    | cons k q ih =>
      intro l hn hl
      rw [List.nodup_cons] at hn
      have h1 := ih (l.set k ((fun f : Face => ⟨f.a, f.c, f.d, f.a⟩) (m.faceAt k))) hn.2 (by
        intro j hj
        rw [List.getElem?_set_ne (by rintro rfl; exact hn.1 hj)]
        exact hl j (by simp [hj]))
      rw [edgeSums_set l k _ _ (hl k (by simp))] at h1
      have h2 := edgeSum_split hg (m.faceAt k)
      rw [List.foldl_cons]
      simp only [edgeSums, List.map_cons, List.sum_cons] at h1 h2 ⊢
      linarith
  refine key q m.faces hq fun k hk => ?_
  have := hin k hk
  unfold Mesh.faceAt
  rw [List.getD_eq_getElem?_getD, List.getElem?_eq_getElem this]; rfl

lemma Tight.step {srt : (ℕ → ℝ) → List ℕ → List ℕ} {ord : List ℕ → List ℕ} {o o' : MeshObj} (h : Tight o) {op : Op}
    (hop : op.KeepsSurface) (e : o.step srt ord op = .ok o') : Tight o' := by
  cases op <;> simp only [MeshObj.step] at e
  case setVertices => cases e; exact .new (closed_sameFaces h.1 rfl)
  case setFaces => exact hop.elim
  case readIds => cases e; exact h.readIds.1
  case readProps =>
    cases hr : o.readProps with
    | error => rw [hr] at e; cases e
    | ok r => rw [hr] at e; cases e; exact h.readProps (p := r.1) hr
  case readInts =>
    cases hr : o.readInts with
    | error => rw [hr] at e; cases e
    | ok r => rw [hr] at e; cases e; exact h.readInts (p := r.1) hr
  case readConn =>
    cases hr : o.readConn ord with
    | error => rw [hr] at e; cases e
    | ok r => rw [hr] at e; cases e; exact h.readConn (c := r.1) hr
  case readVolume =>
    unfold MeshObj.readVolume at e
    cases hr : o.readProps with
    | error => rw [hr] at e; cases e
    | ok r =>
      rw [hr] at e
      dsimp only at e
      cases hi : r.2.readInts with
      | error => rw [hi] at e; cases e
      | ok i => rw [hi] at e; cases e; exact (h.readProps (p := r.1) hr).readInts (p := i.1) hi
  case translate => cases e; exact h.sub (closed_sameFaces h.1 rfl) (.inl rfl)
  case translateX => cases e; exact h.sub (closed_sameFaces h.1 rfl) (.inl rfl)
  case translateY => cases e; exact h.sub (closed_sameFaces h.1 rfl) (.inl rfl)
  case translateZ => cases e; exact h.sub (closed_sameFaces h.1 rfl) (.inl rfl)
  case rotate => cases e; exact h.sub (closed_sameFaces h.1 rfl) (.inl rfl)
  case rotateMatrix => cases e; exact h.sub (closed_sameFaces h.1 rfl) (.inl rfl)
  case scale =>
    unfold MeshObj.doScale at e
    split_ifs at e
    cases e
    exact h.sub (closed_sameFaces h.1 rfl) (dropPropsIfAny_ids _)
  case scaleX =>
    unfold MeshObj.doScale at e
    split_ifs at e
    cases e
    exact h.sub (closed_sameFaces h.1 rfl) (dropPropsIfAny_ids _)
  case scaleY =>
    unfold MeshObj.doScale at e
    split_ifs at e
    cases e
    exact h.sub (closed_sameFaces h.1 rfl) (dropPropsIfAny_ids _)
  case scaleZ =>
    unfold MeshObj.doScale at e
    split_ifs at e
    cases e
    exact h.sub (closed_sameFaces h.1 rfl) (dropPropsIfAny_ids _)
  case flipNormals => cases e; exact h.sub h.1.flip (.inl rfl)
  case mergeDuplicates =>
    unfold MeshObj.doMerge at e
    split at e
    · cases e
    · rename_i hm; cases e; exact h.sub (h.1.merge hm) (.inl rfl)
  case removeUnusedVertices =>
    unfold MeshObj.doRemoveUnused at e
    split at e
    · cases e
    · rename_i hm; cases e; exact h.sub (h.1.removeUnused hm) (.inl rfl)
  case healTriangles => cases e; exact h.sub h.1.healTriangles (dropPropsIfAny_ids _)
  case removeDegeneratedFaces => exact hop.elim
  case triangulateQuadrangles =>
    unfold MeshObj.doTriangulate at e
    dsimp only at e
    split_ifs at e with hall
    cases e
    exact .new (h.1.triangulateWith h.readIds.2 (by simpa using hall))
  case symmetrize p =>
    unfold MeshObj.doSymmetrize at e
    split at e
    · cases e
    · rename_i m' hm
      cases e
      refine .new ?_
      unfold Mesh.symmetrize at hm
      cases hr : (o.mesh.symmetrizeRaw p).mergeDuplicates srt Mesh.defaultAtol with
      | error => rw [hr] at hm; cases hm
      | ok r =>
        rw [hr] at hm
        cases hm
        refine Mesh.ClosedOriented.merge ?_ (ids := r.2) hr
        rw [closedOriented_iff]
        intro g hg
        rw [edgeSums_symmetrizeRaw hg]
        exact (closedOriented_iff _).1 h.1 _ fun i j => by
          beta_reduce; rw [hg i j, hg (i + o.mesh.nv) (j + o.mesh.nv)]; ring
  case mirror => cases e; exact .new (closed_sameFaces h.1.flip rfl)
  case healNormals => exact hop.elim
  case healMesh => exact hop.elim

/-- **C130.** A watertight mesh (each edge is traversed by the faces as often in one direction as in the other) stays watertight:
whatever the history of operations and queries on it, in any order and any number, except the replacement of its faces,
`remove_degenerated_faces`, `heal_normals` and `heal_mesh`. -/
theorem C130_watertight (srt : (ℕ → ℝ) → List ℕ → List ℕ) (ord : List ℕ → List ℕ) (m : Mesh ℝ) (hm : m.ClosedOriented)
    (ops : List Op) (hops : ∀ op ∈ ops, op.KeepsSurface) (o : MeshObj) (h : run srt ord ops (new m) = .ok o) :
    o.mesh.ClosedOriented := by
  have : ∀ (ops : List Op) (a : MeshObj), Tight a → (∀ op ∈ ops, op.KeepsSurface) → run srt ord ops a = .ok o → Tight o := by
    intro ops
    induction ops with
    | nil => intro a ha _ e; cases e; exact ha
    | cons op ops ih =>
      intro a ha hk e
      unfold MeshObj.run at e
      cases hs : a.step srt ord op with
      | error => rw [hs] at e; cases e
      | ok b =>
        rw [hs] at e
        exact ih b (ha.step (hk op (by simp)) hs) (fun x hx => hk x (by simp [hx])) e
  exact (this ops _ (.new hm) hops h).1

/-! ### Cases -/

/-- The unit cube meets the hypotheses of `C130_watertight` for this history, at the end of which it has twelve triangles. -/
theorem cube_meets_C130 (srt : (ℕ → ℝ) → List ℕ → List ℕ) (hsrt : IsArgsort srt) (ord : List ℕ → List ℕ) :
    (cubeMesh ℝ).ClosedOriented ∧
    (∀ op ∈ [Op.translateX 1, .readIds, .healTriangles, .triangulateQuadrangles, .flipNormals, .mergeDuplicates (1 / 100)],
      op.KeepsSurface) ∧
    ∃ o, run srt ord [.translateX 1, .readIds, .healTriangles, .triangulateQuadrangles, .flipNormals, .mergeDuplicates (1 / 100)]
      (new (cubeMesh ℝ)) = .ok o ∧ o.mesh.faces.length = 12 := by
  refine ⟨cubeMesh_closed ℝ, by simp [Op.KeepsSurface], ?_⟩
  obtain ⟨o, ho, hv, hf⟩ : ∃ o, run srt ord [.translateX 1, .readIds, .healTriangles, .triangulateQuadrangles, .flipNormals]
      (new (cubeMesh ℝ)) = .ok o ∧ o.mesh.vertices.length = 8 ∧ (o.mesh.faces.length = 12 ∧
        o.mesh.faces.all (fun f => f.toList.all (fun i => decide (i < 8))) = true) := by
    refine ⟨_, rfl, rfl, rfl, rfl⟩
  obtain ⟨r, hr, -⟩ := (C03_renumbering_total_in_range_onto srt hsrt (1 / 100) (by norm_num)
    (o.mesh.vertices.map V3.coord)).2 (by intro e; have := congrArg List.length e; simp [hv] at this)
  have e : o.mesh.mergeDuplicates srt (1 / 100) = .ok (⟨r.rows.map V3.ofCoord,
      o.mesh.faces.map (Face.map (fun i => r.newID.getD i 0))⟩, r.newID) := by
    unfold Mesh.mergeDuplicates
    rw [hr]
    dsimp only
    rw [if_pos (by rw [Mesh.nv, hv]; exact hf.2)]
  have app : ∀ (ops : List Op) (a : MeshObj), run srt ord ops a = .ok o →
      run srt ord (ops ++ [.mergeDuplicates (1 / 100)]) a = o.doMerge srt (1 / 100) := by
    intro ops
    induction ops with
    | nil =>
      intro a ha; cases ha
      simp only [List.nil_append, MeshObj.run, MeshObj.step]
      cases o.doMerge srt (1 / 100) <;> rfl
    | cons op ops ih =>
      intro a ha
      rw [MeshObj.run] at ha
      rw [List.cons_append, MeshObj.run]
      cases hs : a.step srt ord op with
      | error => rw [hs] at ha; cases ha
      | ok b => rw [hs] at ha; exact ih b ha
  refine ⟨⟨⟨r.rows.map V3.ofCoord, o.mesh.faces.map (Face.map (fun i => r.newID.getD i 0))⟩, dropConn o.cache⟩,
    (app _ _ ho).trans (by simp only [MeshObj.doMerge, e]), ?_⟩
  simp [hf.1]

lemma OpenAlong.of_edges {K : Type*} [CommRing K] {m : Mesh K} {p : Plane K}
    (h : ∀ e ∈ m.directedEdges, m.directedEdges.count e ≠ m.directedEdges.count e.swap →
      (m.vert e.1).dot p.normal = p.c ∧ (m.vert e.2).dot p.normal = p.c) : m.OpenAlong p := by
  intro i j hij
  by_cases h1 : (i, j) ∈ m.directedEdges
  · exact h _ h1 hij
  · by_cases h2 : (j, i) ∈ m.directedEdges
    · exact (h _ h2 (Ne.symm hij)).symm
    · exact absurd ((List.count_eq_zero_of_not_mem h1).trans (List.count_eq_zero_of_not_mem h2).symm) hij

/-- A box without its face in the plane `y = 0`. -/
def halfBox : Mesh ℚ where
  vertices := [⟨0, 0, 0⟩, ⟨1, 0, 0⟩, ⟨1, 1, 0⟩, ⟨0, 1, 0⟩, ⟨0, 0, 1⟩, ⟨1, 0, 1⟩, ⟨1, 1, 1⟩, ⟨0, 1, 1⟩]
  faces := [⟨0, 3, 2, 1⟩, ⟨4, 5, 6, 7⟩, ⟨1, 2, 6, 5⟩, ⟨2, 3, 7, 6⟩, ⟨3, 0, 4, 7⟩]

/-- The box open along `y = 0` meets the hypotheses of `C131_half_hull`; the result has ten faces and twelve vertices. -/
theorem halfBox_meets_C131 : halfBox.WF ∧ halfBox.OpenAlong ⟨⟨0, 1, 0⟩, 0⟩ ∧ ¬ halfBox.ClosedOriented ∧
    ∃ s, halfBox.symmetrize insArgsort ⟨⟨0, 1, 0⟩, 0⟩ = .ok s ∧ s.faces.length = 10 ∧ s.vertices.length = 12 := by
  refine ⟨by decide +kernel, OpenAlong.of_edges (by decide +kernel), fun h => ?_, ?_⟩
  · have := h 0 4
    revert this
    decide +kernel
  · have h : (match halfBox.symmetrize insArgsort ⟨⟨0, 1, 0⟩, 0⟩ with
        | .ok s => decide (s.faces.length = 10 ∧ s.vertices.length = 12)
        | .error _ => false) = true := by decide +kernel
    cases e : halfBox.symmetrize insArgsort ⟨⟨0, 1, 0⟩, 0⟩ with
    | error => rw [e] at h; cases h
    | ok s => rw [e] at h; exact ⟨s, rfl, by simpa using h⟩

/-- A tetrahedron, one edge of which is closed by a flat triangle: its middle is a vertex for one of the two faces along it. -/
noncomputable def needle : Mesh ℝ where
  vertices := [⟨0, 0, 0⟩, ⟨2, 0, 0⟩, ⟨0, 2, 0⟩, ⟨0, 0, 2⟩, ⟨1, 0, 0⟩]
  faces := [⟨0, 2, 4, 0⟩, ⟨4, 2, 1, 4⟩, ⟨0, 4, 1, 0⟩, ⟨0, 1, 3, 0⟩, ⟨1, 2, 3, 1⟩, ⟨0, 3, 2, 0⟩]

lemma needle_WF : needle.WF := by
  intro f hf i hi
  simp [needle, Face.toList] at hf hi ⊢
  rcases hf with rfl | rfl | rfl | rfl | rfl | rfl <;> simp at hi <;> simp [Mesh.nv] <;> omega

/-- The removal of degenerated faces is left out of C130 for a reason: it opens this watertight mesh. -/
theorem C130_remove_degenerated_fails (srt : (ℕ → ℝ) → List ℕ → List ℕ) (ord : List ℕ → List ℕ) :
    needle.ClosedOriented ∧
    ∃ o, run srt ord [.removeDegeneratedFaces (1 / 100000)] (new needle) = .ok o ∧ ¬ o.mesh.ClosedOriented := by
  constructor
  · rw [closedOriented_iff]
    intro g hg
    simp only [edgeSums, needle, List.map_cons, List.map_nil, List.sum_cons, List.sum_nil, Face.edgeSum_eq hg]
    have := hg 0 2; have := hg 0 4; have := hg 2 4; have := hg 1 4; have := hg 1 2; have := hg 0 1; have := hg 1 3
    have := hg 2 3; have := hg 0 3
    have := hg.self 0; have := hg.self 4; have := hg.self 1
    omega
  · have hareas : needle.facesProperties.map FP.area = [1, 1, 0, 2, √12, 2] := by
      rw [facesProperties_eq]
      simp [needle, Mesh.faceProps, Face.isTri, Mesh.triPropsOf, triProps, Mesh.vert, V3.norm, V3.normSq, V3.dot, V3.cross]
      refine ⟨by norm_num, ?_⟩
      rw [show (2 * 2 * (2 * 2) + 2 * 2 * (2 * 2) + 2 * 2 * (2 * 2) : ℝ) = 2 ^ 2 * 12 by norm_num,
        Real.sqrt_mul (by norm_num), Real.sqrt_sq (by norm_num)]
      ring
    have h12 : (0 : ℝ) ≤ √12 ∧ √12 ≤ 4 := ⟨Real.sqrt_nonneg _, Real.sqrt_le_iff.2 (by norm_num)⟩
    have h12' : (3 : ℝ) ≤ √12 := Real.le_sqrt_of_sq_le (by norm_num)
    have hkeep : keepFaces needle.faces [1, 1, 0, 2, √12, 2] (areaThreshold [1, 1, 0, 2, √12, 2] (1 / 100000)) =
        [⟨0, 2, 4, 0⟩, ⟨4, 2, 1, 4⟩, ⟨0, 1, 3, 0⟩, ⟨1, 2, 3, 1⟩, ⟨0, 3, 2, 0⟩] := by
      have ht : areaThreshold [1, 1, 0, 2, √12, 2] (1 / 100000) = (6 + √12) / 600000 := by
        simp [areaThreshold]; ring
      rw [ht]
      unfold keepFaces needle
      simp only [List.zip_cons_cons, List.zip_nil_right, List.filter_cons, List.filter_nil]
      rw [if_pos (by simp; linarith), if_pos (by simp; linarith), if_neg (by simp; linarith), if_pos (by simp; linarith),
        if_pos (by simp; linarith), if_pos (by simp; linarith)]
      rfl
    refine ⟨⟨⟨needle.vertices, [⟨0, 2, 4, 0⟩, ⟨4, 2, 1, 4⟩, ⟨0, 1, 3, 0⟩, ⟨1, 2, 3, 1⟩, ⟨0, 3, 2, 0⟩]⟩, {}⟩, ?_, ?_⟩
    · simp only [run, MeshObj.step, new, doRemoveDegenerated]
      rw [if_pos (by norm_num)]
      simp only [MeshObj.readProps, MeshObj.readIds]
      simp only [(idsOk_fresh needle).2 needle_WF, if_true, dropProps]
      rw [show needle.facesPropertiesWith needle.trianglesIds needle.quadranglesIds = needle.facesProperties from rfl,
        hareas, hkeep]
    · intro h
      have := h 0 1
      revert this
      unfold Mesh.directedEdges
      decide +kernel

end MM
