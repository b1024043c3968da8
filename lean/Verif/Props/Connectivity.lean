import Verif.Proofs.Connectivity
import Verif.Spec.Witness

/-!
# C19-C23: connectivity, boundaries, closedness, conformity
-/

set_option linter.unusedSectionVars false

namespace MM

/-- Every corner of every face is the number of a vertex. -/
def InRange (nv : ℕ) (faces : List Face) : Prop := ∀ f ∈ faces, ∀ i ∈ f.corners, i < nv

instance (nv : ℕ) (faces : List Face) : Decidable (InRange nv faces) := by unfold InRange; infer_instance

lemma inRange_iff {nv : ℕ} {faces : List Face} :
    (faces.all (fun f => f.corners.all (· < nv))) = true ↔ InRange nv faces := by
  simp [InRange]

lemma connectivity_inRange {ord : List ℕ → List ℕ} {nv : ℕ} {faces : List Face} {c : Conn}
    (h : connectivity ord nv faces = .ok c) : InRange nv faces := by
  unfold connectivity at h
  split_ifs at h with hr
  exact inRange_iff.1 hr

lemma connectivity_ok {ord : List ℕ → List ℕ} {nv : ℕ} {faces : List Face} {c : Conn}
    (h : connectivity ord nv faces = .ok c) :
    ∃ acts, mapE (connClassify ord faces (buildVF faces)) (adjVisits ord nv (buildVV faces)) = .ok acts ∧
      c = ⟨buildVV faces, buildVF faces, acts.foldl addAdj (fun _ => []), acts.foldl addBnd [],
        extractBoundaries (acts.foldl addBnd []).length (acts.foldl addBnd [])⟩ := by
  unfold connectivity at h
  split_ifs at h with hr
  cases hm : mapE (connClassify ord faces (buildVF faces)) (adjVisits ord nv (buildVV faces)) with
  | error e => simp only [hm] at h; simp at h
  | ok acts =>
    simp only [hm] at h
    exact ⟨acts, rfl, by simpa using h.symm⟩

/-- **C19.** `vv[i]` is the set of the vertices joined to `i` by an edge, a symmetric relation; `vf[i]` is the
set of the faces having `i` as a corner; no element is repeated.  An index that is not a vertex raises
`KeyError`. -/
theorem C19_vertex_adjacency {ord : List ℕ → List ℕ} {nv : ℕ} {faces : List Face} :
    (∀ c, connectivity ord nv faces = .ok c →
      (∀ i j, j ∈ c.vv i ↔ Joined faces i j) ∧
      (∀ i j, j ∈ c.vv i ↔ i ∈ c.vv j) ∧
      (∀ i k, k ∈ c.vf i ↔ ∃ f, faces[k]? = some f ∧ i ∈ f.corners) ∧
      (∀ i, (c.vv i).Nodup ∧ (c.vf i).Nodup)) ∧
    (¬ InRange nv faces → connectivity ord nv faces = .error .keyError) := by
  constructor
  · intro c h
    obtain ⟨acts, -, rfl⟩ := connectivity_ok h
    refine ⟨fun i j => mem_buildVV, fun i j => ?_, fun i k => mem_buildVF,
      fun i => ⟨nodup_buildVV faces i, nodup_buildVF faces i⟩⟩
    change j ∈ buildVV faces i ↔ i ∈ buildVV faces j
    rw [mem_buildVV, mem_buildVV]
    exact ⟨Joined.symm, Joined.symm⟩
  · intro h
    unfold connectivity
    rw [if_neg (by rwa [inRange_iff])]

/-- The iteration order used in the examples: order of insertion. -/
lemma isSetOrder_id : IsSetOrder id := fun _ => List.Perm.refl _

/-- The iteration order opposite to the order of insertion. -/
lemma isSetOrder_reverse : IsSetOrder List.reverse := fun s => List.reverse_perm s

/-- Non-vacuity: the six quadrangles of a cube and two triangles of an open mesh have a connectivity, for two
different iteration orders. -/
example :
    ((connectivity id 8 cubeFaces).toOption.map (fun c => (c.vv 0).length)) = some 3 ∧
    ((connectivity List.reverse 4 [⟨0, 1, 2, 0⟩, ⟨0, 2, 3, 0⟩]).toOption.map (fun c => (c.vv 0).length)) = some 3 := by
  decide +kernel

lemma perm_pair {l : List ℕ} {f g : ℕ} (h : l.Perm [f, g]) : l = [f, g] ∨ l = [g, f] := by
  obtain ⟨x, y, rfl⟩ := List.length_eq_two.1 (by simpa using h.length_eq)
  have hx : x = f ∨ x = g := by simpa using h.mem_iff.1 (List.mem_cons_self (a := x) (l := [y]))
  rcases hx with rfl | rfl
  · left
    have := List.singleton_perm.1 ((List.perm_cons x).1 h)
    simp at this; rw [this]
  · right
    have := List.singleton_perm.1 ((List.perm_cons x).1 (h.trans (List.Perm.swap _ _ _)))
    simp at this; rw [this]

section
variable {ord : List ℕ → List ℕ} (ho : IsSetOrder ord) {nv : ℕ} {faces : List Face}
include ho

lemma visits_iff (hr : InRange nv faces) {i j : ℕ} :
    (i, j) ∈ adjVisits ord nv (buildVV faces) ↔ Joined faces i j := by
  rw [mem_adjVisits ho, mem_buildVV]
  constructor
  · exact fun h => h.2
  · rintro ⟨f, hf, he⟩
    exact ⟨hr f hf i he.corners.1, f, hf, he⟩

lemma acts_bnd (hr : InRange nv faces) (hp : ProperFaces faces) {acts : List ConnAct}
    (h : mapE (connClassify ord faces (buildVF faces)) (adjVisits ord nv (buildVV faces)) = .ok acts) {o t : ℕ} :
    .bnd o t ∈ acts ↔ ∃ k f, through faces o t = [k] ∧ faces[k]? = some f ∧ (t, o) ∈ f.directedEdges := by
  rw [mapE_ok h]
  constructor
  · rintro ⟨⟨i, j⟩, hv, hc⟩
    rw [visits_iff ho hr] at hv
    obtain ⟨k, f, hk, hf, he, hij⟩ := (classify_bnd ho hp hv).1 hc
    rcases hij with ⟨rfl, rfl⟩ | ⟨rfl, rfl⟩
    · exact ⟨k, f, hk, hf, he⟩
    · refine ⟨k, f, ?_, hf, he⟩
      apply List.perm_singleton.1
      rw [← hk, List.perm_ext_iff_of_nodup (nodup_through _ _ _) (nodup_through _ _ _)]
      intro a
      simp only [mem_through]
      exact ⟨fun ⟨f, a, b, c⟩ => ⟨f, a, c, b⟩, fun ⟨f, a, b, c⟩ => ⟨f, a, c, b⟩⟩
  · rintro ⟨k, f, hk, hf, he⟩
    have hj : Joined faces o t := ⟨f, List.mem_of_getElem? hf, Or.inr he⟩
    exact ⟨(o, t), (visits_iff ho hr).2 hj, (classify_bnd ho hp hj).2 ⟨k, f, hk, hf, he, Or.inl ⟨rfl, rfl⟩⟩⟩

lemma acts_adj (hr : InRange nv faces) {acts : List ConnAct}
    (h : mapE (connClassify ord faces (buildVF faces)) (adjVisits ord nv (buildVV faces)) = .ok acts) {f g : ℕ} :
    (.adj f g ∈ acts ∨ .adj g f ∈ acts) ↔ ∃ i j, Joined faces i j ∧ (through faces i j).Perm [f, g] := by
  simp only [mapE_ok h]
  constructor
  · rintro (⟨⟨i, j⟩, hv, hc⟩ | ⟨⟨i, j⟩, hv, hc⟩)
    · rw [classify_adj ho] at hc
      exact ⟨i, j, (visits_iff ho hr).1 hv, hc ▸ (ho _).symm⟩
    · rw [classify_adj ho] at hc
      exact ⟨i, j, (visits_iff ho hr).1 hv, (hc ▸ (ho _).symm : (through faces i j).Perm [g, f]).trans
        (List.Perm.swap _ _ _)⟩
  · rintro ⟨i, j, hj, hpm⟩
    have h2 := (ho (through faces i j)).trans hpm
    rcases perm_pair h2 with h3 | h3
    · exact Or.inl ⟨(i, j), (visits_iff ho hr).2 hj, (classify_adj ho).2 h3⟩
    · exact Or.inr ⟨(i, j), (visits_iff ho hr).2 hj, (classify_adj ho).2 h3⟩

/-- **C20 (errors).** For a mesh whose faces have distinct corners, the connectivity cannot be computed exactly
when more than two faces contain two adjacent vertices; the error is then a `RuntimeError`. -/
theorem C20_errors (hr : InRange nv faces) (hp : ProperFaces faces) :
    ((∃ e, connectivity ord nv faces = .error e) ↔ ∃ i j, Joined faces i j ∧ 2 < facesThrough faces i j) ∧
    ∀ e, connectivity ord nv faces = .error e → e = .runtimeError := by
  have key : (∃ acts, mapE (connClassify ord faces (buildVF faces)) (adjVisits ord nv (buildVV faces)) = .ok acts) ↔
      ∀ i j, Joined faces i j → facesThrough faces i j ≤ 2 := by
    rw [mapE_isOk]
    constructor
    · intro h i j hj
      exact (classify_isOk ho hp hj).1 (h (i, j) ((visits_iff ho hr).2 hj))
    · rintro h ⟨i, j⟩ hv
      have hj := (visits_iff ho hr).1 hv
      exact (classify_isOk ho hp hj).2 (h i j hj)
  refine ⟨?_, ?_⟩
  rotate_left
  · intro e he
    unfold connectivity at he
    rw [if_pos (inRange_iff.2 hr)] at he
    cases hm : mapE (connClassify ord faces (buildVF faces)) (adjVisits ord nv (buildVV faces)) with
    | ok acts => simp [hm] at he
    | error e' =>
      simp [hm] at he; subst he
      obtain ⟨⟨i, j⟩, hv, hc⟩ := mapE_error hm
      exact classify_error ho hp ((visits_iff ho hr).1 hv) hc
  unfold connectivity
  rw [if_pos (inRange_iff.2 hr)]
  cases hm : mapE (connClassify ord faces (buildVF faces)) (adjVisits ord nv (buildVV faces)) with
  | ok acts =>
    have := key.1 ⟨acts, hm⟩
    constructor
    · rintro ⟨e, he⟩; simp [hm] at he
    · rintro ⟨i, j, hj, h2⟩; have := this i j hj; omega
  | error e =>
    have : ¬ ∀ i j, Joined faces i j → facesThrough faces i j ≤ 2 := by
      rw [← key]; rintro ⟨acts, h⟩; rw [hm] at h; simp at h
    push Not at this
    constructor
    · intro _
      obtain ⟨i, j, hj, h2⟩ := this
      exact ⟨i, j, hj, h2⟩
    · intro _; exact ⟨e, by simp [hm]⟩

lemma ok_through_le {c : Conn} (hp : ProperFaces faces) (h : connectivity ord nv faces = .ok c) {i j : ℕ}
    (hj : Joined faces i j) : facesThrough faces i j ≤ 2 := by
  by_contra hlt
  obtain ⟨e, he⟩ := (C20_errors ho (connectivity_inRange h) hp).1.2 ⟨i, j, hj, by omega⟩
  rw [h] at he; simp at he

/-- **C20 (adjacency, every mesh).** For a mesh whose faces have distinct corners, `g ∈ ff[f]` exactly when `f`
and `g` are two different faces that both have, among their corners, two vertices joined by an edge of the
mesh. -/
theorem C20_corners {c : Conn} (hp : ProperFaces faces) (h : connectivity ord nv faces = .ok c) (f g : ℕ) :
    g ∈ c.ff f ↔ f ≠ g ∧ ∃ F G, faces[f]? = some F ∧ faces[g]? = some G ∧
      ∃ i j, Joined faces i j ∧ i ∈ F.corners ∧ j ∈ F.corners ∧ i ∈ G.corners ∧ j ∈ G.corners := by
  obtain ⟨acts, hm, rfl⟩ := connectivity_ok h
  have hr := connectivity_inRange h
  change g ∈ acts.foldl addAdj (fun _ => []) f ↔ _
  rw [foldl_addAdj]
  simp only [List.not_mem_nil, false_or]
  rw [acts_adj ho hr hm]
  constructor
  · rintro ⟨i, j, hj, hpm⟩
    have hnd := (hpm.nodup_iff).1 (nodup_through faces i j)
    have hf : f ∈ through faces i j := hpm.mem_iff.2 (by simp)
    have hg : g ∈ through faces i j := hpm.mem_iff.2 (by simp)
    obtain ⟨F, hF, h1, h2⟩ := mem_through.1 hf
    obtain ⟨G, hG, h3, h4⟩ := mem_through.1 hg
    exact ⟨by simpa using hnd, F, G, hF, hG, i, j, hj, h1, h2, h3, h4⟩
  · rintro ⟨hne, F, G, hF, hG, i, j, hj, h1, h2, h3, h4⟩
    refine ⟨i, j, hj, ?_⟩
    have hlen : (through faces i j).length ≤ 2 := by
      rw [length_through]; exact ok_through_le ho hp h hj
    have hsub : [f, g].Subperm (through faces i j) := by
      apply List.subperm_of_subset (by simpa using hne)
      intro x hx
      simp at hx
      rcases hx with rfl | rfl
      · exact mem_through.2 ⟨F, hF, h1, h2⟩
      · exact mem_through.2 ⟨G, hG, h3, h4⟩
    exact (hsub.perm_of_length_le (by simpa using hlen)).symm

/-- **C20, partial.** `ff[f]` is the set of the other faces sharing an edge with `f`, and this relation is
symmetric, for a mesh whose faces have distinct corners and in which no edge of a face is a diagonal of
another one; missing: meshes with such a diagonal, for which it fails (`C20_fails`). -/
theorem C20_face_adjacency_partial {c : Conn} (hp : ProperFaces faces) (hc : NoChord faces)
    (h : connectivity ord nv faces = .ok c) (f g : ℕ) :
    (g ∈ c.ff f ↔ f ≠ g ∧ ShareEdge faces f g) ∧ (g ∈ c.ff f ↔ f ∈ c.ff g) := by
  constructor
  · rw [C20_corners ho hp h]
    constructor
    · rintro ⟨hne, F, G, hF, hG, i, j, hj, h1, h2, h3, h4⟩
      exact ⟨hne, F, G, hF, hG, i, j, hc F (List.mem_of_getElem? hF) i h1 j h2 hj,
        hc G (List.mem_of_getElem? hG) i h3 j h4 hj⟩
    · rintro ⟨hne, F, G, hF, hG, i, j, h1, h2⟩
      exact ⟨hne, F, G, hF, hG, i, j, ⟨F, List.mem_of_getElem? hF, h1⟩, h1.corners.1, h1.corners.2,
        h2.corners.1, h2.corners.2⟩
  · rw [C20_corners ho hp h, C20_corners ho hp h]
    constructor <;>
      (rintro ⟨hne, F, G, hF, hG, i, j, hj, h1, h2, h3, h4⟩
       exact ⟨hne.symm, G, F, hG, hF, i, j, hj, h3, h4, h1, h2⟩)

/-! ## C21 -/

lemma through_comm (i j : ℕ) : (through faces i j).Perm (through faces j i) := by
  rw [List.perm_ext_iff_of_nodup (nodup_through _ _ _) (nodup_through _ _ _)]
  intro a
  simp only [mem_through]
  exact ⟨fun ⟨f, a, b, c⟩ => ⟨f, a, c, b⟩, fun ⟨f, a, b, c⟩ => ⟨f, a, c, b⟩⟩

omit ho in
lemma facesOnEdge_le (faces : List Face) (i j : ℕ) : facesOnEdge faces i j ≤ facesThrough faces i j := by
  unfold facesOnEdge facesThrough
  apply List.countP_mono_left
  intro f _ hf
  simp only [decide_eq_true_eq] at hf ⊢
  exact hf.corners

omit ho in
lemma facesOnEdge_pos {faces : List Face} {i j : ℕ} (h : Joined faces i j) : 0 < facesOnEdge faces i j := by
  obtain ⟨f, hf, he⟩ := h
  unfold facesOnEdge
  exact List.countP_pos_iff.2 ⟨f, hf, by simpa using he⟩

omit ho in
lemma facesOnEdge_comm (faces : List Face) (i j : ℕ) : facesOnEdge faces i j = facesOnEdge faces j i := by
  unfold facesOnEdge
  congr 1
  funext f
  exact decide_eq_decide.2 ⟨Face.HasEdge.symm, Face.HasEdge.symm⟩

omit ho in
lemma facesThrough_comm (faces : List Face) (i j : ℕ) : facesThrough faces i j = facesThrough faces j i := by
  unfold facesThrough
  congr 1
  funext f
  exact decide_eq_decide.2 ⟨And.symm, And.symm⟩

omit ho in
lemma facesOnEdge_eq {faces : List Face} (hc : NoChord faces) {i j : ℕ} (h : Joined faces i j) :
    facesOnEdge faces i j = facesThrough faces i j := by
  unfold facesOnEdge facesThrough
  apply List.countP_congr
  intro f hf
  simp only [decide_eq_true_eq]
  exact ⟨fun h => h.corners, fun ⟨h1, h2⟩ => hc f hf i h1 j h2 h⟩

/-- The entries of the dict of boundary edges are boundary edges, traversed backwards. -/
lemma edges_sound {c : Conn} (hp : ProperFaces faces) (h : connectivity ord nv faces = .ok c) {o t : ℕ}
    (he : (o, t) ∈ c.edges) : IsBoundary faces t o := by
  obtain ⟨acts, hm, rfl⟩ := connectivity_ok h
  rcases foldl_addBnd_sub acts [] (o, t) he with h1 | h1
  · simp at h1
  · obtain ⟨k, f, hk, hf, hd⟩ := (acts_bnd ho (connectivity_inRange h) hp hm).1 h1
    have hj : Joined faces t o := ⟨f, List.mem_of_getElem? hf, Or.inl hd⟩
    refine ⟨⟨f, List.mem_of_getElem? hf, hd⟩, ?_⟩
    have h1 := facesOnEdge_pos hj
    have h2 := facesOnEdge_le faces t o
    rw [facesThrough_comm, ← length_through, hk] at h2
    simp at h2; omega

lemma acts_complete (hr : InRange nv faces) (hp : ProperFaces faces) (hc : NoChord faces) {acts : List ConnAct}
    (h : mapE (connClassify ord faces (buildVF faces)) (adjVisits ord nv (buildVV faces)) = .ok acts) {o t : ℕ} :
    .bnd o t ∈ acts ↔ IsBoundary faces t o := by
  rw [acts_bnd ho hr hp h]
  constructor
  · rintro ⟨k, f, hk, hf, hd⟩
    have hj : Joined faces t o := ⟨f, List.mem_of_getElem? hf, Or.inl hd⟩
    refine ⟨⟨f, List.mem_of_getElem? hf, hd⟩, ?_⟩
    rw [facesOnEdge_eq hc hj, facesThrough_comm, ← length_through, hk]; rfl
  · rintro ⟨⟨f, hf, hd⟩, h1⟩
    have hj : Joined faces t o := ⟨f, hf, Or.inl hd⟩
    rw [facesOnEdge_eq hc hj, facesThrough_comm, ← length_through] at h1
    obtain ⟨k, hk⟩ := List.length_eq_one_iff.1 h1
    obtain ⟨k', hk'⟩ := List.mem_iff_getElem?.1 hf
    have : k' ∈ through faces o t := mem_through.2 ⟨f, hk', (Face.directed_corners hd).symm⟩
    rw [hk] at this; simp at this; subst this
    exact ⟨k', f, hk, hk', hd⟩

lemma edges_nodup {c : Conn} (h : connectivity ord nv faces = .ok c) : (c.edges.map Prod.fst).Nodup := by
  obtain ⟨acts, hm, rfl⟩ := connectivity_ok h
  exact foldl_addBnd_nodup acts [] (by simp)

/-- **C21 (soundness).** Each list of `boundaries` is a closed chain: at least one edge, ending where it starts;
consecutive vertices are the ends of an edge belonging to exactly one face, traversed in the direction opposite
to that of its face; no vertex is left twice, hence no boundary edge appears twice. -/
theorem C21_boundaries_sound {c : Conn} (hp : ProperFaces faces) (h : connectivity ord nv faces = .ok c) :
    (∀ b ∈ c.boundaries, ∃ v l, b = v :: l ∧ l ≠ [] ∧ l.getLast? = some v) ∧
    (∀ b ∈ c.boundaries, ∀ o t, (o, t) ∈ chainPairs b → IsBoundary faces t o) ∧
    ((c.boundaries.flatMap chainPairs).map Prod.fst).Nodup := by
  have hnd := edges_nodup ho h
  have hb : c.boundaries = extractBoundaries c.edges.length c.edges := by
    obtain ⟨acts, hm, rfl⟩ := connectivity_ok h; rfl
  obtain ⟨h1, dropped, h2⟩ := extractBoundaries_spec c.edges.length c.edges hnd
  rw [hb]
  refine ⟨h1, ?_, ?_⟩
  · intro b hbm o t hot
    apply edges_sound ho hp h
    apply h2.mem_iff.2
    exact List.mem_append_left _ (List.mem_flatMap.2 ⟨b, hbm, hot⟩)
  · have := (h2.map Prod.fst).nodup_iff.1 hnd
    rw [List.map_append] at this
    exact (List.nodup_append.1 this).1

/-- **C21 (completeness).** If each origin (end) of a boundary edge is the end (origin) of exactly one boundary
edge, then every boundary edge appears in some chain. Missing: meshes in which an edge of a face is a diagonal of
another one, for which it fails (`C21_completeness_fails`). -/
theorem C21_boundaries_complete_partial {c : Conn} (hp : ProperFaces faces) (hc : NoChord faces)
    (h : connectivity ord nv faces = .ok c)
    (hout : ∀ i j, IsBoundary faces i j → ∃! k, IsBoundary faces j k)
    (hin : ∀ i j, IsBoundary faces i j → ∃! k, IsBoundary faces k i) :
    ∀ i j, IsBoundary faces i j → ∃ b ∈ c.boundaries, (j, i) ∈ chainPairs b := by
  have hnd := edges_nodup ho h
  have hr := connectivity_inRange h
  have hmem : ∀ o t, (o, t) ∈ c.edges ↔ IsBoundary faces t o := by
    intro o t
    obtain ⟨acts, hm, rfl⟩ := connectivity_ok h
    constructor
    · exact edges_sound ho hp h
    · intro hb
      apply foldl_addBnd_sup
      · intro t' ht'
        rw [acts_complete ho hr hp hc hm] at ht'
        obtain ⟨x, hx⟩ := hout t o hb
        obtain ⟨y, hy1, hy2⟩ := hin o x hx.1
        exact (hy2 t' ht').trans (hy2 t hb).symm
      · exact Or.inr ((acts_complete ho hr hp hc hm).2 hb)
  have hbal : (c.edges.map Prod.snd).Perm (c.edges.map Prod.fst) := by
    have hn2 : (c.edges.map Prod.snd).Nodup := by
      refine (List.nodup_map_iff_inj_on (List.Nodup.of_map _ hnd)).2 ?_
      rintro ⟨o, t⟩ h1 ⟨o', t'⟩ h2 heq
      simp only at heq; subst heq
      have b1 := (hmem o t).1 h1
      have b2 := (hmem o' t).1 h2
      obtain ⟨x, hx⟩ := hin t o b1
      obtain ⟨y, hy1, hy2⟩ := hout x t hx.1
      rw [hy2 o b1, hy2 o' b2]
    rw [List.perm_ext_iff_of_nodup hn2 hnd]
    intro a
    simp only [List.mem_map, Prod.exists, exists_eq_right, hmem]
    constructor
    · rintro ⟨o, ho⟩
      obtain ⟨x, hx⟩ := hin a o ho
      exact ⟨a, x, hx.1, rfl⟩
    · rintro ⟨x, y, hx, rfl⟩
      obtain ⟨z, hz⟩ := hout y x hx
      exact ⟨z, hz.1⟩
  have hb : c.boundaries = extractBoundaries c.edges.length c.edges := by
    obtain ⟨acts, hm, rfl⟩ := connectivity_ok h; rfl
  intro i j hij
  have := (extractBoundaries_balanced c.edges.length c.edges hnd le_rfl hbal).mem_iff.1 ((hmem j i).2 hij)
  rw [hb]
  obtain ⟨b, hb1, hb2⟩ := List.mem_flatMap.1 this
  exact ⟨b, hb1, hb2⟩

/-! ## consistently oriented meshes -/

omit ho in
lemma Face.count_directed {f : Face} (hp : f.corners.Nodup) (i j : ℕ) :
    f.directedEdges.count (i, j) + f.directedEdges.count (j, i) = if f.HasEdge i j then 1 else 0 := by
  obtain ⟨a, b, c, d⟩ := f
  unfold Face.HasEdge
  simp only [Face.corners, Face.isTri, Face.directedEdges] at hp ⊢
  by_cases h' : a = d
  · subst h'
    simp only [beq_self_eq_true, if_true, List.nodup_cons, List.mem_cons, List.not_mem_nil, or_false,
      not_or] at hp
    obtain ⟨⟨h1, h2⟩, h3, -⟩ := hp
    simp only [if_true, List.count_cons, List.count_nil, List.mem_cons, List.not_mem_nil, or_false, beq_iff_eq,
      Prod.mk.injEq]
    split_ifs <;> grind
  · simp only [beq_iff_eq, h', if_false, List.nodup_cons, List.mem_cons, List.not_mem_nil, or_false,
      not_or, not_false_eq_true] at hp
    obtain ⟨⟨h1, h2⟩, ⟨h4, h5⟩, h6, -⟩ := hp
    simp only [h', if_false, List.count_cons, List.count_nil, List.mem_cons, List.not_mem_nil, or_false, beq_iff_eq,
      Prod.mk.injEq]
    split_ifs <;> grind

omit ho in
lemma facesOnEdge_eq_count {faces : List Face} (hp : ProperFaces faces) (i j : ℕ) :
    facesOnEdge faces i j = (faces.flatMap Face.directedEdges).count (i, j) +
      (faces.flatMap Face.directedEdges).count (j, i) := by
  induction faces with
  | nil => rfl
  | cons f faces ih =>
    have h1 := Face.count_directed (hp f (by simp)) i j
    have h2 := ih (fun g hg => hp g (by simp [hg]))
    simp only [facesOnEdge, List.countP_cons, List.flatMap_cons, List.count_append] at h2 ⊢
    rw [h2]
    simp only [decide_eq_true_eq]
    omega

omit ho in
lemma isBoundary_iff_of_oriented {faces : List Face} (hp : ProperFaces faces)
    (hor : (faces.flatMap Face.directedEdges).Nodup) (i j : ℕ) :
    IsBoundary faces i j ↔ (i, j) ∈ faces.flatMap Face.directedEdges ∧
      (j, i) ∉ faces.flatMap Face.directedEdges := by
  unfold IsBoundary
  rw [facesOnEdge_eq_count hp]
  have e : (∃ f ∈ faces, (i, j) ∈ f.directedEdges) ↔ (i, j) ∈ faces.flatMap Face.directedEdges := by
    rw [List.mem_flatMap]
  rw [e]
  constructor
  · rintro ⟨h1, h2⟩
    refine ⟨h1, ?_⟩
    rw [← List.count_pos_iff] at h1 ⊢
    omega
  · rintro ⟨h1, h2⟩
    refine ⟨h1, ?_⟩
    rw [List.count_eq_one_of_mem hor h1, List.count_eq_zero_of_not_mem h2]

omit ho in
lemma directed_heads_tails (faces : List Face) :
    ((faces.flatMap Face.directedEdges).map Prod.snd).Perm ((faces.flatMap Face.directedEdges).map Prod.fst) := by
  induction faces with
  | nil => simp
  | cons f faces ih =>
    simp only [List.flatMap_cons, List.map_append]
    refine List.Perm.append ?_ ih
    unfold Face.directedEdges
    split_ifs with h
    · simp only [List.map_cons, List.map_nil]
      exact (List.perm_append_singleton f.a [f.b, f.c])
    · simp only [List.map_cons, List.map_nil]
      exact (List.perm_append_singleton f.a [f.b, f.c, f.d])

omit ho in
/-- In a consistently oriented mesh as many boundary edges arrive at a vertex as leave it. -/
lemma boundary_balanced {D : List (ℕ × ℕ)} (hD : D.Nodup) (hb : (D.map Prod.snd).Perm (D.map Prod.fst)) :
    ((D.filter (fun e => e.swap ∉ D)).map Prod.snd).Perm ((D.filter (fun e => e.swap ∉ D)).map Prod.fst) := by
  have hsplit : D.Perm (D.filter (fun e => e.swap ∈ D) ++ D.filter (fun e => e.swap ∉ D)) := by
    have := List.filter_append_perm (fun e : ℕ × ℕ => decide (e.swap ∈ D)) D
    refine this.symm.trans (List.Perm.of_eq ?_)
    congr 1
    apply List.filter_congr
    intro x _
    simp
  have hP : ((D.filter (fun e => e.swap ∈ D)).map Prod.swap).Perm (D.filter (fun e => e.swap ∈ D)) := by
    rw [List.perm_ext_iff_of_nodup ((hD.filter _).map Prod.swap_injective) (hD.filter _)]
    rintro ⟨x, y⟩
    simp only [List.mem_map, List.mem_filter, decide_eq_true_eq, Prod.exists, Prod.swap_prod_mk, Prod.mk.injEq]
    constructor
    · rintro ⟨a, b, ⟨h1, h2⟩, rfl, rfl⟩; exact ⟨h2, h1⟩
    · rintro ⟨h1, h2⟩; exact ⟨y, x, ⟨h2, h1⟩, rfl, rfl⟩
  have hP' : ((D.filter (fun e => e.swap ∈ D)).map Prod.snd).Perm ((D.filter (fun e => e.swap ∈ D)).map Prod.fst) := by
    have := hP.map Prod.fst
    rw [List.map_map] at this
    exact this
  have h1 := (hsplit.map Prod.snd).symm.trans (hb.trans (hsplit.map Prod.fst))
  rw [List.map_append, List.map_append] at h1
  exact (List.perm_append_left_iff _).1 ((List.Perm.append_right _ hP'.symm).trans h1)

/-- **C21 (completeness for oriented meshes).** If no two faces traverse an edge in the same direction and no
vertex is the end of two boundary edges, then every boundary edge appears in some chain. Missing: as above. -/
theorem C21_boundaries_complete_oriented_partial {c : Conn} (hp : ProperFaces faces) (hc : NoChord faces)
    (h : connectivity ord nv faces = .ok c)
    (hor : (faces.flatMap Face.directedEdges).Nodup)
    (hin : ∀ i i' j, IsBoundary faces i j → IsBoundary faces i' j → i = i') :
    ∀ i j, IsBoundary faces i j → ∃ b ∈ c.boundaries, (j, i) ∈ chainPairs b := by
  have hnd := edges_nodup ho h
  have hr := connectivity_inRange h
  have hmem : ∀ o t, (o, t) ∈ c.edges ↔ IsBoundary faces t o := by
    intro o t
    obtain ⟨acts, hm, rfl⟩ := connectivity_ok h
    constructor
    · exact edges_sound ho hp h
    · intro hb
      apply foldl_addBnd_sup
      · intro t' ht'
        rw [acts_complete ho hr hp hc hm] at ht'
        exact hin _ _ _ ht' hb
      · exact Or.inr ((acts_complete ho hr hp hc hm).2 hb)
  set D := faces.flatMap Face.directedEdges with hDdef
  have hE : (c.edges.map Prod.swap).Perm (D.filter (fun e => e.swap ∉ D)) := by
    rw [List.perm_ext_iff_of_nodup ((List.Nodup.of_map _ hnd).map Prod.swap_injective) (hor.filter _)]
    rintro ⟨x, y⟩
    simp only [List.mem_map, List.mem_filter, decide_eq_true_eq, Prod.exists, Prod.swap_prod_mk, Prod.mk.injEq]
    rw [hDdef, ← isBoundary_iff_of_oriented hp hor]
    constructor
    · rintro ⟨a, b, h1, rfl, rfl⟩; exact (hmem _ _).1 h1
    · intro h1; exact ⟨y, x, (hmem _ _).2 h1, rfl, rfl⟩
  have hbal : (c.edges.map Prod.snd).Perm (c.edges.map Prod.fst) := by
    have h1 := boundary_balanced hor (directed_heads_tails faces)
    have h2 := hE.map Prod.fst
    have h3 := hE.map Prod.snd
    rw [List.map_map] at h2 h3
    exact h2.trans (h1.symm.trans h3.symm)
  have hb : c.boundaries = extractBoundaries c.edges.length c.edges := by
    obtain ⟨acts, hm, rfl⟩ := connectivity_ok h; rfl
  intro i j hij
  have := (extractBoundaries_balanced c.edges.length c.edges hnd le_rfl hbal).mem_iff.1 ((hmem j i).2 hij)
  rw [hb]
  obtain ⟨b, hb1, hb2⟩ := List.mem_flatMap.1 this
  exact ⟨b, hb1, hb2⟩

/-! ## C22 -/

/-- **C22 (one direction, every mesh).** A mesh in which each edge belongs to two faces is reported closed. -/
theorem C22_closed_of_two_faces {c : Conn} (hp : ProperFaces faces) (h : connectivity ord nv faces = .ok c)
    (h2 : ∀ i j, Joined faces i j → facesOnEdge faces i j = 2) : c.isClosed = true := by
  have hs := C21_boundaries_sound ho hp h
  unfold Conn.isClosed
  cases hb : c.boundaries with
  | nil => rfl
  | cons b bs =>
    exfalso
    obtain ⟨v, l, rfl, hl, -⟩ := hs.1 b (by rw [hb]; simp)
    obtain ⟨w, l, rfl⟩ := List.exists_cons_of_ne_nil hl
    have := hs.2.1 (v :: w :: l) (by rw [hb]; simp) v w (by simp [chainPairs])
    obtain ⟨⟨f, hf, he⟩, h1⟩ := this
    have := h2 w v ⟨f, hf, Or.inl he⟩
    omega

/-- **C22, partial.** For a consistently oriented mesh in which no edge is a diagonal of a face and no vertex is
the end of two boundary edges, `is_mesh_closed` is true exactly when each edge belongs to two faces; missing:
meshes that are not consistently oriented or have such a vertex, for which it fails (`C22_fails`). -/
theorem C22_closed_partial {c : Conn} (hp : ProperFaces faces) (hc : NoChord faces)
    (h : connectivity ord nv faces = .ok c)
    (hor : (faces.flatMap Face.directedEdges).Nodup)
    (hin : ∀ i i' j, IsBoundary faces i j → IsBoundary faces i' j → i = i') :
    c.isClosed = true ↔ ∀ i j, Joined faces i j → facesOnEdge faces i j = 2 := by
  refine ⟨?_, C22_closed_of_two_faces ho hp h⟩
  intro hcl i j hj
  have hle : facesOnEdge faces i j ≤ 2 := (facesOnEdge_le faces i j).trans (ok_through_le ho hp h hj)
  have hpos := facesOnEdge_pos hj
  by_contra hne
  have h1 : facesOnEdge faces i j = 1 := by omega
  have hcomp := C21_boundaries_complete_oriented_partial ho hp hc h hor hin
  have hnil : c.boundaries = [] := by
    unfold Conn.isClosed at hcl
    simpa using hcl
  obtain ⟨f, hf, he | he⟩ := hj
  · obtain ⟨b, hb, -⟩ := hcomp i j ⟨⟨f, hf, he⟩, h1⟩
    rw [hnil] at hb; simp at hb
  · obtain ⟨b, hb, -⟩ := hcomp j i ⟨⟨f, hf, he⟩, by rw [facesOnEdge_comm]; exact h1⟩
    rw [hnil] at hb; simp at hb

/-- **C21 (completeness) fails with a diagonal.** The cube and a triangle standing on the diagonal `0 3` of its lower
face: the three edges of the triangle are the boundary edges of the mesh, each corner ends one of them and begins
one, but no boundary is reported. -/
theorem C21_completeness_fails :
    ProperFaces (cubeFaces ++ [⟨0, 3, 8, 0⟩]) ∧
    (∀ i j, IsBoundary (cubeFaces ++ [⟨0, 3, 8, 0⟩]) i j ↔ (i, j) ∈ [(0, 3), (3, 8), (8, 0)]) ∧
    (connectivity id 9 (cubeFaces ++ [⟨0, 3, 8, 0⟩])).toOption.map (fun c => c.boundaries) = some [] := by
  refine ⟨by decide +kernel, ?_, by decide +kernel⟩
  have hE : ∀ e ∈ (cubeFaces ++ [(⟨0, 3, 8, 0⟩ : Face)]).flatMap Face.directedEdges,
      (IsBoundary (cubeFaces ++ [⟨0, 3, 8, 0⟩]) e.1 e.2 ↔ (e.1, e.2) ∈ [(0, 3), (3, 8), (8, 0)]) := by decide +kernel
  intro i j
  constructor
  · intro h
    obtain ⟨f, hf, he⟩ := h.1
    exact (hE (i, j) (List.mem_flatMap.2 ⟨f, hf, he⟩)).1 h
  · intro h
    refine (hE (i, j) ?_).2 h
    revert h
    simp only [List.mem_cons, List.not_mem_nil, or_false, Prod.mk.injEq]
    rintro (⟨rfl, rfl⟩ | ⟨rfl, rfl⟩ | ⟨rfl, rfl⟩) <;> decide +kernel

/-- **C22 fails.** Two triangles sharing an edge that both traverse in the same direction: the mesh is reported
closed, for every iteration order, although four of its five edges belong to one face only. -/
theorem C22_fails {c : Conn} (h : connectivity ord 4 [⟨0, 1, 2, 0⟩, ⟨0, 1, 3, 0⟩] = .ok c) :
    c.isClosed = true ∧ facesOnEdge [⟨0, 1, 2, 0⟩, ⟨0, 1, 3, 0⟩] 1 2 = 1 := by
  refine ⟨?_, by decide +kernel⟩
  have hp : ProperFaces [⟨0, 1, 2, 0⟩, ⟨0, 1, 3, 0⟩] := by decide +kernel
  have hs := C21_boundaries_sound ho hp h
  -- the boundary edges do not form any cycle
  have hE : ∀ o t, IsBoundary [⟨0, 1, 2, 0⟩, ⟨0, 1, 3, 0⟩] t o →
      (o = 0 ∧ (t = 2 ∨ t = 3)) ∨ (t = 1 ∧ (o = 2 ∨ o = 3)) := by
    rintro o t ⟨⟨f, hf, he⟩, h1⟩
    have hcases : (t, o) = (0, 1) ∨ (t, o) = (1, 2) ∨ (t, o) = (2, 0) ∨ (t, o) = (1, 3) ∨ (t, o) = (3, 0) := by
      rcases List.mem_cons.1 hf with rfl | hf
      · simp only [Face.directedEdges, if_true] at he
        simp only [List.mem_cons, List.not_mem_nil, or_false] at he
        tauto
      · simp only [List.mem_singleton] at hf
        subst hf
        simp only [Face.directedEdges, if_true] at he
        simp only [List.mem_cons, List.not_mem_nil, or_false] at he
        tauto
    simp only [Prod.mk.injEq] at hcases
    rcases hcases with ⟨rfl, rfl⟩ | ⟨rfl, rfl⟩ | ⟨rfl, rfl⟩ | ⟨rfl, rfl⟩ | ⟨rfl, rfl⟩
    · exfalso; revert h1; decide +kernel
    all_goals simp
  unfold Conn.isClosed
  cases hb : c.boundaries with
  | nil => rfl
  | cons b bs =>
    exfalso
    obtain ⟨v, l, rfl, hl, hlast⟩ := hs.1 b (by rw [hb]; simp)
    have hpairs := hs.2.1 (v :: l) (by rw [hb]; simp)
    -- along a chain the rank 0 < {2, 3} < 1 increases
    have hrank : ∀ (l : List ℕ) (v : ℕ), (∀ o t, (o, t) ∈ chainPairs (v :: l) →
        (o = 0 ∧ (t = 2 ∨ t = 3)) ∨ (t = 1 ∧ (o = 2 ∨ o = 3))) → l ≠ [] → ∀ w, l.getLast? = some w →
        (if v = 0 then 0 else if v = 1 then 2 else 1) < (if w = 0 then 0 else if w = 1 then 2 else 1) := by
      intro l
      induction l with
      | nil => intro v _ h; exact absurd rfl h
      | cons x l ih =>
        intro v hE _ w hw
        have h0 := hE v x (by simp [chainPairs])
        have hvx : (if v = 0 then 0 else if v = 1 then 2 else 1) < (if x = 0 then 0 else if x = 1 then 2 else 1) := by
          rcases h0 with ⟨rfl, rfl | rfl⟩ | ⟨rfl, rfl | rfl⟩ <;> decide
        cases l with
        | nil => simp at hw; subst hw; exact hvx
        | cons y l =>
          refine hvx.trans (ih x ?_ (by simp) w ?_)
          · intro o t hot
            exact hE o t (by rw [chainPairs_cons_cons]; exact List.mem_cons_of_mem _ hot)
          · rwa [List.getLast?_cons_cons] at hw
    have := hrank l v (fun o t hot => hE o t (hpairs o t hot)) hl v hlast
    omega

end

/-- Non-vacuity of `C22_fails`: the connectivity of the two triangles is computed without error. -/
example : (connectivity id 4 [⟨0, 1, 2, 0⟩, ⟨0, 1, 3, 0⟩]).toOption.isSome = true := by decide +kernel

/-- A mesh of triangles with distinct corners has no edge that is a diagonal: the hypothesis `NoChord` of C20-C22
only excludes some meshes with quadrangles. -/
theorem noChord_of_triangles {faces : List Face} (ht : ∀ f ∈ faces, f.a = f.d) (hp : ProperFaces faces) :
    NoChord faces := by
  intro f hf i hi j hj hij
  have hne : i ≠ j := by
    obtain ⟨g, hg, he⟩ := hij
    exact he.ne (hp g hg)
  have h := ht f hf
  unfold Face.corners at hi hj
  rw [if_pos (Face.isTri_iff.2 h)] at hi hj
  unfold Face.HasEdge Face.directedEdges
  simp only [if_pos h]
  simp only [List.mem_cons, List.not_mem_nil, or_false, Prod.mk.injEq] at hi hj ⊢
  rcases hi with rfl | rfl | rfl <;> rcases hj with rfl | rfl | rfl <;> simp at hne ⊢

/-- **C20 fails.** The quadrangle 0 1 2 3 and a triangle having its diagonal 0 2 as an edge are reported adjacent
although they share no edge. -/
theorem C20_fails : ∃ c, connectivity id 5 [⟨0, 1, 2, 3⟩, ⟨0, 2, 4, 0⟩] = .ok c ∧
    1 ∈ c.ff 0 ∧ ¬ ShareEdge [⟨0, 1, 2, 3⟩, ⟨0, 2, 4, 0⟩] 0 1 := by
  have hp : ProperFaces [⟨0, 1, 2, 3⟩, ⟨0, 2, 4, 0⟩] := by decide +kernel
  cases h : connectivity id 5 [⟨0, 1, 2, 3⟩, ⟨0, 2, 4, 0⟩] with
  | error e =>
    exfalso
    have : (connectivity id 5 [⟨0, 1, 2, 3⟩, ⟨0, 2, 4, 0⟩]).toOption.isSome = true := by decide +kernel
    rw [h] at this; simp [Except.toOption] at this
  | ok c =>
    refine ⟨c, rfl, ?_, ?_⟩
    · rw [C20_corners isSetOrder_id hp h]
      exact ⟨by decide, _, _, rfl, rfl, 0, 2, by decide +kernel, by decide +kernel, by decide +kernel,
        by decide +kernel, by decide +kernel⟩
    · rintro ⟨F, G, hF, hG, i, j, h1, h2⟩
      simp at hF hG
      subst hF hG
      simp [Face.HasEdge, Face.directedEdges] at h1 h2
      omega

/-- Non-vacuity of the hypotheses of C20-C22: a cube without its top face. -/
example :
    (connectivity id 8 (cubeFaces.take 5)).toOption.isSome = true ∧
    ProperFaces (cubeFaces.take 5) ∧ NoChord (cubeFaces.take 5) ∧
    ((cubeFaces.take 5).flatMap Face.directedEdges).Nodup ∧
    (∀ i < 8, ∀ i' < 8, ∀ j < 8, IsBoundary (cubeFaces.take 5) i j → IsBoundary (cubeFaces.take 5) i' j → i = i') ∧
    ((connectivity id 8 (cubeFaces.take 5)).toOption.map (fun c => (c.isClosed, c.boundaries.map List.length))) =
      some (false, [5]) ∧
    ((connectivity id 8 cubeFaces).toOption.map (fun c => c.isClosed)) = some true ∧
    (∃ i j, Joined [⟨0, 1, 2, 0⟩, ⟨0, 1, 3, 0⟩, ⟨0, 1, 4, 0⟩] i j ∧
      2 < facesThrough [⟨0, 1, 2, 0⟩, ⟨0, 1, 3, 0⟩, ⟨0, 1, 4, 0⟩] i j) := by
  refine ⟨by decide +kernel, by decide +kernel, by decide +kernel, by decide +kernel, by decide +kernel,
    by decide +kernel, by decide +kernel, 0, 1, by decide +kernel, by decide +kernel⟩

/-! ## C23 -/

section
variable {K : Type*} [CommRing K]

lemma zipWith_mul_same {α : Type*} (f g : α → α → K) : ∀ (A B : List α),
    List.zipWith (· * ·) (List.zipWith f A B) (List.zipWith g A B) = List.zipWith (fun p q => f p q * g p q) A B
  | [], _ => by simp
  | _ :: _, [] => by simp
  | a :: A, b :: B => by simp [zipWith_mul_same f g A B]

lemma sum_zipWith_add_sub {α : Type*} (f : α → α → K) (g : α → K) : ∀ (A B : List α), A.length = B.length →
    (List.zipWith (fun p q => f p q + (g p - g q)) A B).sum =
      (List.zipWith f A B).sum + ((A.map g).sum - (B.map g).sum)
  | [], [], _ => by simp
  | a :: A, b :: B, h => by
    simp only [List.zipWith_cons_cons, List.sum_cons, List.map_cons,
      sum_zipWith_add_sub f g A B (by simpa using h)]
    ring

/-- The sum computed by the code is twice the signed area of the polygon. -/
lemma rollArea_eq_shoelace {α : Type*} (x y : α → K) (l : List α) :
    rollArea (l.map x) (l.map y) = shoelace (l.map (fun p => (x p, y p))) := by
  unfold rollArea shoelace
  rw [← List.map_rotate, ← List.map_rotate, ← List.map_rotate, List.zipWith_map, List.zipWith_map,
    zipWith_mul_same, List.zipWith_map]
  have h1 : (fun p q => (y p - y q) * (x p + x q)) =
      fun p q => (fun p q => x q * y p - x p * y q) p q + ((fun p => x p * y p) p - (fun p => x p * y p) q) := by
    funext p q; ring
  rw [h1, sum_zipWith_add_sub _ _ _ _ (by simp)]
  have h2 : ((l.rotate 1).map (fun p => x p * y p)).sum = (l.map (fun p => x p * y p)).sum :=
    ((List.rotate_perm l 1).map _).sum_eq
  rw [h2, sub_self, add_zero, List.zipWith_comm]

end

lemma rollArea_zero_right {K : Type*} [CommRing K] {α : Type*} (x y : α → K) (l : List α) (hy : ∀ p ∈ l, y p = 0) :
    rollArea (l.map x) (l.map y) = 0 := by
  rw [rollArea_eq_shoelace]
  unfold shoelace
  apply List.sum_eq_zero
  intro v hv
  rw [← List.map_rotate, List.zipWith_map] at hv
  obtain ⟨i, hi, rfl⟩ := List.mem_iff_getElem.1 hv
  simp only [List.getElem_zipWith]
  rw [hy _ (List.getElem_mem _), hy _ ((List.rotate_perm l 1).mem_iff.1 (List.getElem_mem _))]
  ring

lemma rollArea_zero_left {K : Type*} [CommRing K] {α : Type*} (x y : α → K) (l : List α) (hx : ∀ p ∈ l, x p = 0) :
    rollArea (l.map x) (l.map y) = 0 := by
  rw [rollArea_eq_shoelace]
  unfold shoelace
  apply List.sum_eq_zero
  intro v hv
  rw [← List.map_rotate, List.zipWith_map] at hv
  obtain ⟨i, hi, rfl⟩ := List.mem_iff_getElem.1 hv
  simp only [List.getElem_zipWith]
  rw [hx _ (List.getElem_mem _), hx _ ((List.rotate_perm l 1).mem_iff.1 (List.getElem_mem _))]
  ring

/-- Twice the signed area of the projection of the boundary on the horizontal plane. -/
def horizontalArea {K : Type*} [CommRing K] (m : Mesh K) (b : List ℕ) : K :=
  shoelace (b.map (fun i => ((m.vert i).x, (m.vert i).y)))

/-- **C23, partial.** When there is a boundary, the result is `True` exactly when the projection of the first
boundary on the horizontal plane has an area of at least half the tolerance; missing: the other boundaries, the
two other projections and meshes without boundary, for which the property fails (`C23_fails`). -/
theorem C23_conformal_partial {K : Type*} [Field K] [LinearOrder K] [IsStrictOrderedRing K] (tol : K) (ht : 0 < tol)
    (m : Mesh K) (b : List ℕ) (bs : List (List ℕ)) :
    isConformal tol m (b :: bs) = some (decide (tol ≤ |horizontalArea m b|)) := by
  have h0 : (boundaryAreas m b).1 = horizontalArea m b := by
    unfold boundaryAreas horizontalArea
    simp only [List.map_map]
    rw [rollArea_eq_shoelace]
    congr 1
    apply List.map_congr_left
    intro i _
    simp [Plane.project, Plane.dist, V3.dot]
  have h1 : (boundaryAreas m b).2.1 = 0 := by
    unfold boundaryAreas
    simp only [List.map_map]
    apply rollArea_zero_right
    intro i _
    simp [Plane.project, Plane.dist, V3.dot]
  have h2 : (boundaryAreas m b).2.2 = 0 := by
    unfold boundaryAreas
    simp only [List.map_map]
    apply rollArea_zero_left
    intro i _
    simp [Plane.project, Plane.dist, V3.dot]
  unfold isConformal
  simp only [h0, h1, h2, abs_zero, ht, decide_true, Bool.and_true]
  congr 1
  by_cases h : |horizontalArea m b| < tol
  · simp [h]
  · simp [h, not_lt.1 h]

/-- **C23 fails.** (1) Without boundary, in particular for every watertight mesh, the result is `None`.  (2) The
result does not depend on the boundaries after the first: a slit is not detected behind an ordinary hole. (3) A
vertical square hole is taken for a slit. -/
theorem C23_fails :
    (∀ (tol : ℚ) (m : Mesh ℚ), isConformal tol m [] = none) ∧
    (∃ m : Mesh ℚ, ∃ b slit : List ℕ, (boundaryAreas m slit) = (0, 0, 0) ∧
      (∀ p ∈ chainPairs slit, (p.2, p.1) ∈ chainPairs slit) ∧ isConformal (1 / 10 ^ 7) m [b, slit] = some true) ∧
    (∃ m : Mesh ℚ, ∃ b : List ℕ,
      shoelace (b.map (fun i => ((m.vert i).y, (m.vert i).z))) = 2 ∧ isConformal (1 / 10 ^ 7) m [b] = some false) := by
  refine ⟨fun _ _ => rfl, ⟨⟨[⟨0, 0, 0⟩, ⟨1, 0, 0⟩, ⟨0, 1, 0⟩, ⟨2, 2, 0⟩, ⟨3, 3, 0⟩], []⟩, [0, 1, 2, 0], [3, 4, 3],
    by decide +kernel, by decide +kernel, by decide +kernel⟩,
    ⟨⟨[⟨0, 0, 0⟩, ⟨0, 1, 0⟩, ⟨0, 1, 1⟩, ⟨0, 0, 1⟩], []⟩, [0, 1, 2, 3, 0], by decide +kernel, by decide +kernel⟩⟩

/-- Non-vacuity of C23: a unit square hole in a horizontal plane. -/
example : horizontalArea (⟨[⟨0, 0, 0⟩, ⟨1, 0, 0⟩, ⟨1, 1, 0⟩, ⟨0, 1, 0⟩], []⟩ : Mesh ℚ) [0, 1, 2, 3, 0] = 2 := by
  decide +kernel

/-- The `None` of C23 is really what a watertight mesh gives: the cube has a connectivity without boundary. -/
theorem C23_cube_none (tol : ℚ) : ((connectivity id 8 cubeFaces).toOption.map
    (fun c => isConformal tol (cubeMesh ℚ) c.boundaries)) = some none := by
  have : ((connectivity id 8 cubeFaces).toOption.map (fun c => c.boundaries)) = some [] := by decide +kernel
  cases h : (connectivity id 8 cubeFaces).toOption with
  | none => rw [h] at this; simp at this
  | some c =>
    rw [h] at this
    simp only [Option.map_some, Option.some.injEq] at this ⊢
    rw [this]; rfl

end MM
