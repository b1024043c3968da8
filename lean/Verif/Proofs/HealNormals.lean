import Verif.Model.HealNormals
import Verif.Props.Connectivity

/-! # Lemmas on `heal_normals` -/

set_option linter.unusedSectionVars false
set_option linter.unusedSimpArgs false

namespace MM

/-! ## flipped faces -/

lemma Face.flip_a_d {f : Face} : f.flip.a = f.flip.d ↔ f.a = f.d := by
  simp [Face.flip, eq_comm]

lemma Face.mem_directed_flip {f : Face} {i j : ℕ} : (i, j) ∈ f.flip.directedEdges ↔ (j, i) ∈ f.directedEdges := by
  unfold Face.directedEdges
  by_cases h : f.a = f.d
  · rw [if_pos (Face.flip_a_d.2 h), if_pos h]
    simp [Face.flip, ← h]; tauto
  · rw [if_neg (mt Face.flip_a_d.1 h), if_neg h]
    simp [Face.flip]; tauto

lemma Face.hasEdge_flip {f : Face} {i j : ℕ} : f.flip.HasEdge i j ↔ f.HasEdge i j := by
  unfold Face.HasEdge
  rw [Face.mem_directed_flip, Face.mem_directed_flip]; tauto

lemma Face.corners_flip (f : Face) : f.flip.corners.Perm f.corners := by
  unfold Face.corners
  by_cases h : f.a = f.d
  · rw [if_pos (Face.isTri_iff.2 (Face.flip_a_d.2 h)), if_pos (Face.isTri_iff.2 h)]
    simp only [Face.flip, ← h]
    exact List.Perm.cons _ (List.Perm.swap _ _ _)
  · rw [if_neg (by rw [Face.isTri_iff]; exact mt Face.flip_a_d.1 h), if_neg (by rwa [Face.isTri_iff])]
    exact List.reverse_perm [f.a, f.b, f.c, f.d]

lemma Face.mem_corners_iff {f : Face} {i : ℕ} : i ∈ f.corners ↔ i ∈ f.toList := by
  unfold Face.corners Face.toList
  by_cases h : f.a = f.d
  · rw [if_pos (Face.isTri_iff.2 h)]; simp [← h]; tauto
  · rw [if_neg (by rwa [Face.isTri_iff])]

lemma Face.flip_flip (f : Face) : f.flip.flip = f := rfl

/-- A face, reversed or not. -/
def Face.orient (b : Bool) (f : Face) : Face := if b then f.flip else f

@[simp] lemma Face.orient_false (f : Face) : f.orient false = f := rfl
@[simp] lemma Face.orient_true (f : Face) : f.orient true = f.flip := rfl

lemma Face.orient_corners (b : Bool) (f : Face) : (f.orient b).corners.Perm f.corners := by
  cases b
  · exact List.Perm.refl _
  · exact f.corners_flip

lemma Face.orient_hasEdge {b : Bool} {f : Face} {i j : ℕ} : (f.orient b).HasEdge i j ↔ f.HasEdge i j := by
  cases b
  · exact Iff.rfl
  · exact Face.hasEdge_flip

lemma Face.not_both {f : Face} (hp : f.corners.Nodup) {i j : ℕ} (h : (i, j) ∈ f.directedEdges) :
    (j, i) ∉ f.directedEdges := by
  intro h'
  have := Face.count_directed hp i j
  have h1 := List.count_pos_iff.2 h
  have h2 := List.count_pos_iff.2 h'
  split_ifs at this <;> omega

/-- The two faces traverse no edge in the same direction. -/
def Opp (F G : Face) : Prop := ∀ i j, (i, j) ∈ F.directedEdges → (i, j) ∉ G.directedEdges

lemma Opp.flip_flip {F G : Face} (h : Opp F G) : Opp F.flip G.flip := by
  intro i j h1 h2
  rw [Face.mem_directed_flip] at h1 h2
  exact h j i h1 h2

lemma Opp.xor {F G : Face} {a b : Bool} (h : Opp (F.orient a) (G.orient b)) (c : Bool) :
    Opp (F.orient (a ^^ c)) (G.orient (b ^^ c)) := by
  cases c
  · simpa using h
  · have := h.flip_flip
    cases a <;> cases b <;> simpa [Face.flip_flip] using this

/-! ## the orientation test -/

lemma cellRef_next {f : Face} (hp : f.corners.Nodup) {u v : ℕ} (hu : u ∈ f.corners) :
    (cellRef f u).getD 1 0 = v ↔ (u, v) ∈ f.directedEdges := by
  obtain ⟨a, b, c, d⟩ := f
  unfold cellRef
  simp only [Face.corners, Face.isTri, Face.directedEdges, Face.toList] at hp hu ⊢
  by_cases h' : a = d
  · subst h'
    simp only [beq_self_eq_true, if_true] at hp hu ⊢
    simp only [List.nodup_cons, List.mem_cons, List.not_mem_nil, or_false, not_or] at hp hu
    obtain ⟨⟨h1, h2⟩, h3, -⟩ := hp
    rcases hu with rfl | rfl | rfl
    · simp [List.idxOf_cons, h1, h2, h3, Ne.symm h1, Ne.symm h2, Ne.symm h3, eq_comm]
    · simp [List.idxOf_cons, h1, h2, h3, Ne.symm h1, Ne.symm h2, Ne.symm h3, eq_comm]
    · simp [List.idxOf_cons, h1, h2, h3, Ne.symm h1, Ne.symm h2, Ne.symm h3, eq_comm]
  · simp only [beq_iff_eq, h', if_false] at hp hu ⊢
    simp only [List.nodup_cons, List.mem_cons, List.not_mem_nil, or_false, not_or] at hp hu
    obtain ⟨⟨h1, h2, h3⟩, ⟨h4, h5⟩, h6, -⟩ := hp
    rcases hu with rfl | rfl | rfl | rfl <;>
    simp [List.idxOf_cons, h1, h2, h3, h4, h5, h6, Ne.symm h1, Ne.symm h2, Ne.symm h3, Ne.symm h4, Ne.symm h5,
        Ne.symm h6, eq_comm]

lemma cellRef_prev {f : Face} (hp : f.corners.Nodup) {u v : ℕ} (hu : u ∈ f.corners) :
    (cellRef f u).getLastD 0 = v ↔ (v, u) ∈ f.directedEdges := by
  obtain ⟨a, b, c, d⟩ := f
  unfold cellRef
  simp only [Face.corners, Face.isTri, Face.directedEdges, Face.toList] at hp hu ⊢
  by_cases h' : a = d
  · subst h'
    simp only [beq_self_eq_true, if_true] at hp hu ⊢
    simp only [List.nodup_cons, List.mem_cons, List.not_mem_nil, or_false, not_or] at hp hu
    obtain ⟨⟨h1, h2⟩, h3, -⟩ := hp
    rcases hu with rfl | rfl | rfl
    · simp [List.idxOf_cons, h1, h2, h3, Ne.symm h1, Ne.symm h2, Ne.symm h3, eq_comm]
    · simp [List.idxOf_cons, h1, h2, h3, Ne.symm h1, Ne.symm h2, Ne.symm h3, eq_comm]
    · simp [List.idxOf_cons, h1, h2, h3, Ne.symm h1, Ne.symm h2, Ne.symm h3, eq_comm]
  · simp only [beq_iff_eq, h', if_false] at hp hu ⊢
    simp only [List.nodup_cons, List.mem_cons, List.not_mem_nil, or_false, not_or] at hp hu
    obtain ⟨⟨h1, h2, h3⟩, ⟨h4, h5⟩, h6, -⟩ := hp
    rcases hu with rfl | rfl | rfl | rfl <;>
    simp [List.idxOf_cons, h1, h2, h3, h4, h5, h6, Ne.symm h1, Ne.symm h2, Ne.symm h3, Ne.symm h4, Ne.symm h5,
        Ne.symm h6, eq_comm]

lemma needsFlip_iff {F G : Face} (hF : F.corners.Nodup) (hG : G.corners.Nodup) {u v : ℕ} (h1 : F.HasEdge u v)
    (h2 : G.HasEdge u v) : needsFlip F G u v = true ↔
      ((u, v) ∈ F.directedEdges ∧ (u, v) ∈ G.directedEdges) ∨ ((v, u) ∈ F.directedEdges ∧ (v, u) ∈ G.directedEdges) := by
  unfold needsFlip
  have e1 := cellRef_next (v := v) hF h1.corners.1
  have e2 := cellRef_next (v := v) hG h2.corners.1
  have e3 := cellRef_prev (v := v) hG h2.corners.1
  split_ifs with h
  · rw [decide_eq_true_eq, e2]
    have := e1.1 h
    have := Face.not_both hF this
    tauto
  · rw [decide_eq_true_eq, e3]
    have h' := mt e1.2 h
    have : (v, u) ∈ F.directedEdges := by
      rcases h1 with h1 | h1
      · exact absurd h1 h'
      · exact h1
    tauto

lemma mem_commonVertices {F G : Face} {i : ℕ} : i ∈ commonVertices F G ↔ i ∈ F.corners ∧ i ∈ G.corners := by
  simp [commonVertices, Face.mem_corners_iff]

lemma nodup_commonVertices (F G : Face) : (commonVertices F G).Nodup := (List.nodup_dedup _).filter _

/-! ## the flooding loop -/

/-- Adjacency of faces: another face with a common edge. -/
def AdjF (F0 : List Face) (f g : ℕ) : Prop := f ≠ g ∧ ShareEdge F0 f g

lemma AdjF.symm {F0 : List Face} {f g : ℕ} (h : AdjF F0 f g) : AdjF F0 g f := by
  obtain ⟨hne, F, G, hF, hG, i, j, h1, h2⟩ := h
  exact ⟨hne.symm, G, F, hG, hF, i, j, h2, h1⟩

/-- Two faces with a common edge have no third common corner. -/
def TwoCommon (F0 : List Face) : Prop :=
  ∀ f < F0.length, ∀ g < F0.length, f ≠ g →
    (∃ e ∈ (F0.getD f ⟨0, 0, 0, 0⟩).directedEdges, (F0.getD g ⟨0, 0, 0, 0⟩).HasEdge e.1 e.2) →
    ((F0.getD f ⟨0, 0, 0, 0⟩).corners.filter (· ∈ (F0.getD g ⟨0, 0, 0, 0⟩).corners)).length = 2

instance (F0 : List Face) : Decidable (TwoCommon F0) := by unfold TwoCommon; infer_instance

lemma TwoCommon.length {F0 : List Face} (h : TwoCommon F0) {f g : ℕ} {F G : Face} (hne : f ≠ g)
    (hF : F0[f]? = some F) (hG : F0[g]? = some G) {i j : ℕ} (h1 : F.HasEdge i j) (h2 : G.HasEdge i j) :
    (F.corners.filter (· ∈ G.corners)).length = 2 := by
  have := h f (List.getElem?_eq_some_iff.1 hF).1 g (List.getElem?_eq_some_iff.1 hG).1 hne
  simp only [List.getD_eq_getElem?_getD, hF, hG, Option.getD_some] at this
  apply this
  rcases h1 with h1 | h1
  · exact ⟨(i, j), h1, h2⟩
  · exact ⟨(j, i), h1, h2.symm⟩

/-- The orientations `s` of the faces are consistent. -/
def Signs (F0 : List Face) (s : ℕ → Bool) : Prop :=
  ∀ (f g : ℕ) (F G : Face), f ≠ g → F0[f]? = some F → F0[g]? = some G → Opp (F.orient (s f)) (G.orient (s g))

/-- Invariant of the flooding loop; `p` is the face whose neighbours are being visited. -/
structure FloodInv (F0 : List Face) (s : ℕ → Bool) (p : Option ℕ) (st : FloodState) : Prop where
  signs : Signs F0 s
  len : st.faces.length = F0.length
  faces : ∀ (f : ℕ) (F : Face), F0[f]? = some F → st.faces[f]? = some (F.orient (st.vis f && s f))
  sub : ∀ f g, g ∈ st.ff f → AdjF F0 f g
  nodup : ∀ f, (st.ff f).Nodup
  unv : ∀ g f, st.vis g = false → AdjF F0 g f → f ∈ st.ff g
  rem : ∀ f g, AdjF F0 f g → g ∉ st.ff f → st.vis g = true
  stk : ∀ f ∈ st.stack, st.vis f = true
  closed : ∀ f, st.vis f = true → f ∉ st.stack → some f ≠ p → ∀ g, AdjF F0 f g → st.vis g = true

/-- Number of faces still to be taken from the stack. -/
def floodMeasure (nf : ℕ) (st : FloodState) : ℕ := ((List.range nf).filter (fun k => !st.vis k)).length + st.stack.length

lemma filter_update_length {nf g : ℕ} (hg : g < nf) {vis : ℕ → Bool} (hv : vis g = false) :
    ((List.range nf).filter (fun k => !(if k = g then true else vis k))).length + 1 =
      ((List.range nf).filter (fun k => !vis k)).length := by
  have h1 : ((List.range nf).filter (fun k => !vis k)).Perm
      (g :: (List.range nf).filter (fun k => !(if k = g then true else vis k))) := by
    rw [List.perm_ext_iff_of_nodup (List.nodup_range.filter _)
      (List.nodup_cons.2 ⟨by simp, List.nodup_range.filter _⟩)]
    intro a
    simp only [List.mem_filter, List.mem_range, List.mem_cons, Bool.not_eq_eq_eq_not, Bool.not_true]
    by_cases h : a = g
    · subst h; simp [hg, hv]
    · simp [h]
  have := h1.length_eq
  simp only [List.length_cons] at this
  omega

lemma AdjF.lt {F0 : List Face} {f g : ℕ} (h : AdjF F0 f g) : f < F0.length ∧ g < F0.length := by
  obtain ⟨-, F, G, hF, hG, -⟩ := h
  exact ⟨(List.getElem?_eq_some_iff.1 hF).1, (List.getElem?_eq_some_iff.1 hG).1⟩

lemma floodAdj_stack {ord : List ℕ → List ℕ} {n iface g : ℕ} {face : Face} {st st' : FloodState}
    (h : floodAdj ord iface face st g = .ok st') (hs : ∀ f ∈ st.stack, f < n) (hg : g < n) :
    ∀ f ∈ st'.stack, f < n := by
  unfold floodAdj at h
  split_ifs at h
  · cases h; exact hs
  · simp only at h
    split at h
    · cases h
      intro f hf
      rcases List.mem_cons.1 hf with rfl | hf
      · exact hg
      · exact hs f hf
    · cases h; exact hs

lemma floodLoop_stack {ord : List ℕ → List ℕ} {n iface : ℕ} {face : Face} : ∀ (gs : List ℕ) {st st' : FloodState},
    floodLoop ord iface face gs st = .ok st' → (∀ f ∈ st.stack, f < n) → (∀ g ∈ gs, g < n) →
    ∀ f ∈ st'.stack, f < n := by
  intro gs
  induction gs with
  | nil => intro st st' h hs _; simp [floodLoop] at h; subst h; exact hs
  | cons g gs ih =>
    intro st st' h hs hg
    unfold floodLoop at h
    cases h1 : floodAdj ord iface face st g with
    | error e => rw [h1] at h; simp at h
    | ok st1 =>
      rw [h1] at h
      exact ih h (floodAdj_stack h1 hs (hg g (by simp))) (fun x hx => hg x (by simp [hx]))

section
variable {ord : List ℕ → List ℕ} (ho : IsSetOrder ord) {F0 : List Face}
include ho
lemma floodPop_stack {iface : ℕ} {rest : List ℕ} {st st' : FloodState}
    (h : floodPop ord st iface rest = .ok st') (hs : ∀ f ∈ rest, f < F0.length)
    (hsub : ∀ f g, g ∈ st.ff f → AdjF F0 f g) : ∀ f ∈ st'.stack, f < F0.length := by
  unfold floodPop at h
  exact floodLoop_stack _ h hs (fun g hg => (hsub iface g ((ho _).mem_iff.1 hg)).lt.2)
end

section
variable {ord : List ℕ → List ℕ} (ho : IsSetOrder ord) {F0 : List Face} (hp : ProperFaces F0) (h2 : TwoCommon F0)
include ho hp h2

lemma common_pair {F G : Face} (hF : F.corners.Nodup) (hG : G.corners.Nodup)
    (hlen : (F.corners.filter (· ∈ G.corners)).length = 2) {i j : ℕ} (h1 : F.HasEdge i j) (h3 : G.HasEdge i j)
    (a b : Bool) : ∃ u v, ord (commonVertices (F.orient a) (G.orient b)) = [u, v] ∧
      (F.orient a).HasEdge u v ∧ (G.orient b).HasEdge u v ∧
      ∀ x y, (F.orient a).HasEdge x y → (G.orient b).HasEdge x y → (x = u ∧ y = v) ∨ (x = v ∧ y = u) := by
  have hperm : (ord (commonVertices (F.orient a) (G.orient b))).Perm (F.corners.filter (· ∈ G.corners)) := by
    refine (ho _).trans ?_
    rw [List.perm_ext_iff_of_nodup (nodup_commonVertices _ _) (hF.filter _)]
    intro x
    rw [mem_commonVertices, (F.orient_corners a).mem_iff, (G.orient_corners b).mem_iff]
    simp
  obtain ⟨u, v, huv⟩ := List.length_eq_two.1 (hperm.length_eq.trans hlen)
  have hmem : ∀ x, x = u ∨ x = v ↔ x ∈ F.corners ∧ x ∈ G.corners := by
    intro x
    have := hperm.mem_iff (a := x)
    rw [huv] at this
    simpa using this
  have key : ∀ x y, F.HasEdge x y → G.HasEdge x y → (x = u ∧ y = v) ∨ (x = v ∧ y = u) := by
    intro x y hx hy
    have e1 := (hmem x).2 ⟨hx.corners.1, hy.corners.1⟩
    have e2 := (hmem y).2 ⟨hx.corners.2, hy.corners.2⟩
    have := hx.ne hF
    rcases e1 with rfl | rfl <;> rcases e2 with rfl | rfl <;> simp at this ⊢
  refine ⟨u, v, huv, ?_, ?_, ?_⟩
  · rw [Face.orient_hasEdge]
    rcases key i j h1 h3 with ⟨rfl, rfl⟩ | ⟨rfl, rfl⟩
    · exact h1
    · exact h1.symm
  · rw [Face.orient_hasEdge]
    rcases key i j h1 h3 with ⟨rfl, rfl⟩ | ⟨rfl, rfl⟩
    · exact h3
    · exact h3.symm
  · intro x y
    rw [Face.orient_hasEdge, Face.orient_hasEdge]
    exact key x y

/-- The decision of the code is the one imposed by a consistent orientation. -/
lemma needsFlip_eq {F G : Face} (hF : F.corners.Nodup) (hG : G.corners.Nodup) {u v : ℕ} {b : Bool}
    (h1 : F.HasEdge u v) (h3 : G.HasEdge u v) (ho' : Opp F (G.orient b)) : needsFlip F G u v = b := by
  cases b with
  | false =>
    rw [← Bool.not_eq_true, needsFlip_iff hF hG h1 h3]
    rintro (⟨a, b⟩ | ⟨a, b⟩)
    · exact ho' _ _ a b
    · exact ho' _ _ a b
  | true =>
    rw [needsFlip_iff hF hG h1 h3]
    rcases h1 with h1 | h1
    · left
      refine ⟨h1, ?_⟩
      have := ho' _ _ h1
      rw [Face.orient_true, Face.mem_directed_flip] at this
      rcases h3 with h3 | h3
      · exact h3
      · exact absurd h3 this
    · right
      refine ⟨h1, ?_⟩
      have := ho' _ _ h1
      rw [Face.orient_true, Face.mem_directed_flip] at this
      rcases h3 with h3 | h3
      · exact absurd h3 this
      · exact h3

lemma floodAdj_spec {s : ℕ → Bool} {iface g : ℕ} {F : Face} {st : FloodState} (hF : F0[iface]? = some F)
    (hinv : FloodInv F0 s (some iface) st) (hv : st.vis iface = true) (hA : AdjF F0 iface g) :
    ∃ st', floodAdj ord iface (F.orient (s iface)) st g = .ok st' ∧ FloodInv F0 s (some iface) st' ∧
      st'.vis g = true ∧ (∀ k, st.vis k = true → st'.vis k = true) ∧
      floodMeasure F0.length st' ≤ floodMeasure F0.length st := by
  unfold floodAdj
  by_cases hvg : st.vis g = true
  · rw [if_pos hvg]
    exact ⟨st, rfl, hinv, hvg, fun _ h => h, le_rfl⟩
  · have hvg' : st.vis g = false := by simpa using hvg
    rw [if_neg hvg, if_pos (hinv.unv g iface hvg' hA.symm)]
    obtain ⟨hne, F', G, hF', hG, i, j, e1, e2⟩ := hA
    rw [hF] at hF'; cases hF'
    have hFp := hp F (List.mem_of_getElem? hF)
    have hGp := hp G (List.mem_of_getElem? hG)
    have hgF : st.faces[g]? = some G := by
      have := hinv.faces g G hG
      simpa [hvg'] using this
    have hadj : st.faces.getD g ⟨0, 0, 0, 0⟩ = G := by simp [hgF]
    have hopp := hinv.signs iface g F G hne hF hG
    have hlen := h2.length hne hF hG e1 e2
    obtain ⟨u, v, huv, k1, k2, k3⟩ := common_pair ho hp h2 hFp hGp hlen e1 e2 (s iface) false
    rw [Face.orient_false] at huv k2
    have hFp' : (F.orient (s iface)).corners.Nodup := (F.orient_corners (s iface)).nodup_iff.2 hFp
    have hflip : needsFlip (F.orient (s iface)) G u v = s g := needsFlip_eq ho hp h2 hFp' hGp k1 k2 hopp
    have hgl : g < F0.length := (List.getElem?_eq_some_iff.1 hG).1
    simp only [hadj, huv, hflip]
    have hnf : (if s g = true then st.faces.set g G.flip else st.faces) = st.faces.set g (G.orient (s g)) := by
      cases s g with
      | false =>
        simp only [Bool.false_eq_true, if_false, Face.orient_false]
        apply List.ext_getElem?
        intro k
        rw [List.getElem?_set]
        split_ifs with hk hl
        · rw [← hk, hgF]
        · subst hk; rw [List.getElem?_eq_none (by omega)]
        · rfl
      | true => simp
    rw [hnf]
    refine ⟨_, rfl, ?_, by simp, ?_, ?_⟩
    · constructor
      · exact hinv.signs
      · simp [hinv.len]
      · intro f F1 hF1
        simp only
        rw [List.getElem?_set]
        by_cases hfg : g = f
        · subst hfg
          rw [hG] at hF1; cases hF1
          rw [if_pos rfl, if_pos (by rw [hinv.len]; exact hgl)]
          simp
        · rw [if_neg hfg, hinv.faces f F1 hF1]
          simp [Ne.symm hfg]
      · intro f k hk
        simp only at hk
        split_ifs at hk with hf
        · exact hinv.sub f k (List.mem_of_mem_erase hk)
        · exact hinv.sub f k hk
      · intro f
        simp only
        split_ifs
        · exact (hinv.nodup f).erase _
        · exact hinv.nodup f
      · intro x f hx hA
        simp only at hx ⊢
        split_ifs at hx ⊢ with hxg
        exact hinv.unv x f hx hA
      · intro f x hA hx
        simp only at hx ⊢
        split_ifs with hxg
        · rfl
        · split_ifs at hx with hf
          · by_cases hxi : x = iface
            · rw [hxi]; exact hv
            · rw [List.mem_erase_of_ne hxi] at hx
              exact hinv.rem f x hA hx
          · exact hinv.rem f x hA hx
      · intro f hf
        simp only at hf ⊢
        split_ifs with hfg
        · rfl
        · rcases List.mem_cons.1 hf with rfl | hf
          · exact absurd rfl hfg
          · exact hinv.stk f hf
      · intro f hf hs hfp x hA
        simp only at hf hs ⊢
        split_ifs with hxg
        · rfl
        · have hfg : f ≠ g := fun h => hs (by simp [h])
          rw [if_neg hfg] at hf
          exact hinv.closed f hf (fun h => hs (by simp [h])) hfp x hA
    · intro k hk
      simp only
      split_ifs
      · rfl
      · exact hk
    · unfold floodMeasure
      have := filter_update_length hgl hvg'
      simp only [List.length_cons]
      omega

lemma floodLoop_spec {s : ℕ → Bool} {iface : ℕ} {F : Face} (hF : F0[iface]? = some F) :
    ∀ (gs : List ℕ) (st : FloodState), FloodInv F0 s (some iface) st → st.vis iface = true →
      (∀ g ∈ gs, AdjF F0 iface g) →
      ∃ st', floodLoop ord iface (F.orient (s iface)) gs st = .ok st' ∧ FloodInv F0 s (some iface) st' ∧
        (∀ g ∈ gs, st'.vis g = true) ∧ (∀ k, st.vis k = true → st'.vis k = true) ∧
        floodMeasure F0.length st' ≤ floodMeasure F0.length st := by
  intro gs
  induction gs with
  | nil => intro st hinv _ _; exact ⟨st, rfl, hinv, by simp, fun _ h => h, le_rfl⟩
  | cons g gs ih =>
    intro st hinv hv hA
    obtain ⟨st1, e1, i1, v1, m1, l1⟩ := floodAdj_spec ho hp h2 hF hinv hv (hA g (by simp))
    obtain ⟨st2, e2, i2, v2, m2, l2⟩ := ih st1 i1 (m1 _ hv) (fun x hx => hA x (by simp [hx]))
    refine ⟨st2, ?_, i2, ?_, fun k hk => m2 k (m1 k hk), l2.trans l1⟩
    · unfold floodLoop; rw [e1]; exact e2
    · intro x hx
      rcases List.mem_cons.1 hx with rfl | hx
      · exact m2 _ v1
      · exact v2 x hx

lemma floodPop_spec {s : ℕ → Bool} {iface : ℕ} {rest : List ℕ} {st : FloodState}
    (hinv : FloodInv F0 s (some iface) { st with stack := rest }) (hv : st.vis iface = true)
    (hi : iface < F0.length) :
    ∃ st', floodPop ord st iface rest = .ok st' ∧ FloodInv F0 s none st' ∧
      (∀ k, st.vis k = true → st'.vis k = true) ∧
      floodMeasure F0.length st' ≤ floodMeasure F0.length { st with stack := rest } := by
  obtain ⟨F, hF⟩ : ∃ F, F0[iface]? = some F := ⟨F0[iface], List.getElem?_eq_getElem hi⟩
  have hface : st.faces.getD iface ⟨0, 0, 0, 0⟩ = F.orient (s iface) := by
    have := hinv.faces iface F hF
    simp only [hv, Bool.true_and] at this
    simp [this]
  have hgs : ∀ g ∈ ord (st.ff iface), AdjF F0 iface g := fun g hg => hinv.sub iface g ((ho _).mem_iff.1 hg)
  obtain ⟨st', e, i', v', m', l'⟩ := floodLoop_spec ho hp h2 hF (ord (st.ff iface)) { st with stack := rest }
    hinv hv hgs
  refine ⟨st', ?_, ?_, m', l'⟩
  · unfold floodPop; rw [hface]; exact e
  · exact { i' with
      closed := by
        intro f hf hs _ g hA
        by_cases hfi : f = iface
        · subst hfi
          by_cases hg : g ∈ st.ff f
          · exact v' g ((ho _).mem_iff.2 hg)
          · exact m' g (hinv.rem f g hA hg)
        · exact i'.closed f hf hs (by simpa using hfi) g hA }

/-- A visited set closed under adjacency lets the orientation of the rest be chosen. -/
lemma reseed {s : ℕ → Bool} {st : FloodState} (hinv : FloodInv F0 s none st) (hst : st.stack = []) (k : ℕ)
    (hk : st.vis k = false) :
    ∃ s', FloodInv F0 s' (some k) { st with vis := fun i => if i = k then true else st.vis i, stack := [] } := by
  refine ⟨fun f => if st.vis f then s f else (s f ^^ s k), ?_⟩
  have hcl : ∀ f, st.vis f = true → ∀ g, AdjF F0 f g → st.vis g = true := fun f hf g hA =>
    hinv.closed f hf (by simp [hst]) (by simp) g hA
  constructor
  · intro f g F G hne hF hG
    have h := hinv.signs f g F G hne hF hG
    by_cases hvf : st.vis f = true <;> by_cases hvg : st.vis g = true
    · simpa [hvf, hvg] using h
    · intro i j e1 e2
      exact hvg (hcl f hvf g ⟨hne, F, G, hF, hG, i, j, Face.orient_hasEdge.1 (Or.inl e1),
        Face.orient_hasEdge.1 (Or.inl e2)⟩)
    · intro i j e1 e2
      exact hvf (hcl g hvg f ⟨hne.symm, G, F, hG, hF, i, j, Face.orient_hasEdge.1 (Or.inl e2),
        Face.orient_hasEdge.1 (Or.inl e1)⟩)
    · have := h.xor (s k)
      simpa [hvf, hvg] using this
  · exact hinv.len
  · intro f F hF
    have h := hinv.faces f F hF
    simp only
    rw [h]
    by_cases hfk : f = k
    · subst hfk; simp [hk]
    · simp only [hfk, if_false]
      by_cases hvf : st.vis f = true
      · simp [hvf]
      · simp [hvf]
  · exact hinv.sub
  · exact hinv.nodup
  · intro g f hg hA
    simp only at hg
    split_ifs at hg with hgk
    exact hinv.unv g f hg hA
  · intro f g hA hg
    simp only
    split_ifs
    · rfl
    · exact hinv.rem f g hA hg
  · intro f hf; simp at hf
  · intro f hf _ hfk g hA
    simp only at hf ⊢
    split_ifs with hgk
    · rfl
    · have : f ≠ k := by simpa using hfk
      rw [if_neg this] at hf
      exact hcl f hf g hA

/-- The loop ends, without error, with all the faces visited and consistently oriented. -/
lemma flood_spec : ∀ (fuel : ℕ) (s : ℕ → Bool) (st : FloodState), FloodInv F0 s none st →
    (∀ f ∈ st.stack, f < F0.length) → floodMeasure F0.length st < fuel →
    ∃ st' s', flood ord F0.length fuel st = .ok st' ∧ FloodInv F0 s' none st' ∧
      (∀ k < F0.length, st'.vis k = true) ∧ (∀ k, st.vis k = true → st'.vis k = true) := by
  intro fuel
  induction fuel with
  | zero => intro s st _ _ h; omega
  | succ n ih =>
    intro s st hinv hstk hm
    unfold flood
    cases hst : st.stack with
    | cons iface rest =>
      simp only
      have hv : st.vis iface = true := hinv.stk iface (by simp [hst])
      have hi := hstk iface (by simp [hst])
      have hinv' : FloodInv F0 s (some iface) { st with stack := rest } :=
        { hinv with
          stk := fun f hf => hinv.stk f (by simp only at hf; simp [hst, hf])
          closed := by
            intro f hf hs hfp g hA
            refine hinv.closed f hf ?_ (by simp) g hA
            rw [hst]; simp only [List.mem_cons, not_or]
            exact ⟨by simpa using hfp, hs⟩ }
      obtain ⟨st1, e1, i1, m1, l1⟩ := floodPop_spec ho hp h2 hinv' hv hi
      rw [e1]
      have hl : floodMeasure F0.length st1 < n := by
        have h3 : floodMeasure F0.length { st with stack := rest } + 1 = floodMeasure F0.length st := by
          unfold floodMeasure; rw [hst]; simp; omega
        omega
      have hs1 : ∀ f ∈ st1.stack, f < F0.length := floodPop_stack ho e1 (fun f hf => hstk f (by simp [hst, hf])) hinv.sub
      obtain ⟨st2, s2, e2, i2, v2, m2⟩ := ih s st1 i1 hs1 hl
      exact ⟨st2, s2, e2, i2, v2, fun k hk => m2 k (m1 k hk)⟩
    | nil =>
      simp only
      cases hfind : (List.range F0.length).find? (fun k => !st.vis k) with
      | none =>
        refine ⟨st, s, rfl, hinv, ?_, fun _ h => h⟩
        intro k hk
        rw [List.find?_eq_none] at hfind
        simpa using hfind k (List.mem_range.2 hk)
      | some k =>
        simp only
        have hk1 : st.vis k = false := by simpa using List.find?_some hfind
        have hk2 : k < F0.length := List.mem_range.1 (List.mem_of_find?_eq_some hfind)
        obtain ⟨s', hs'⟩ := reseed ho hp h2 hinv hst k hk1
        obtain ⟨st1, e1, i1, m1, l1⟩ := floodPop_spec ho hp h2 (rest := [])
          (st := ⟨st.ff, st.faces, fun i => if i = k then true else st.vis i, []⟩) hs' (by simp) hk2
        rw [e1]
        have hl : floodMeasure F0.length st1 < n := by
          have h3 := filter_update_length hk2 hk1
          unfold floodMeasure at l1 hm ⊢
          rw [hst] at hm
          simp only [List.length_nil] at l1 hm
          omega
        have hs1 : ∀ f ∈ st1.stack, f < F0.length := floodPop_stack ho e1 (by simp) hinv.sub
        obtain ⟨st2, s2, e2, i2, v2, m2⟩ := ih s' st1 i1 hs1 hl
        exact ⟨st2, s2, e2, i2, v2, fun j hj => m2 j (m1 j (by simp only; split_ifs; rfl; exact hj))⟩

end

end MM
