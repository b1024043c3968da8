import Verif.Model.Connectivity
import Verif.Spec.Connectivity
import Mathlib.Data.List.Nodup
import Mathlib.Data.List.Perm.Basic
import Mathlib.Data.List.Dedup
import Mathlib.Data.Multiset.AddSub

/-! # Lemmas on the connectivity model -/

set_option linter.unusedSectionVars false

namespace MM

/-! ## sets and dicts of sets -/

lemma mem_sadd {s : List ℕ} {x y : ℕ} : y ∈ sadd s x ↔ y ∈ s ∨ y = x := by
  unfold sadd; split_ifs with h
  · constructor
    · exact Or.inl
    · rintro (h' | rfl) <;> assumption
  · simp

lemma nodup_sadd {s : List ℕ} {x : ℕ} (h : s.Nodup) : (sadd s x).Nodup := by
  unfold sadd; split_ifs with h'
  · exact h
  · rw [List.nodup_append]
    refine ⟨h, by simp, ?_⟩
    intro a ha b hb
    simp at hb; subst hb
    rintro rfl; exact h' ha

lemma mem_dadd {d : ℕ → List ℕ} {k x i y : ℕ} : y ∈ dadd d k x i ↔ y ∈ d i ∨ (i = k ∧ y = x) := by
  unfold dadd; split_ifs with h
  · simp [mem_sadd, h]
  · simp [h]

lemma nodup_dadd {d : ℕ → List ℕ} {k x : ℕ} (h : ∀ i, (d i).Nodup) (i : ℕ) : (dadd d k x i).Nodup := by
  unfold dadd; split_ifs
  · exact nodup_sadd (h i)
  · exact h i

/-! ## corners and edges -/

lemma Face.isTri_iff {f : Face} : f.isTri = true ↔ f.a = f.d := by simp [Face.isTri]

lemma Face.mem_prevPairs {f : Face} {e : ℕ × ℕ} : e ∈ f.prevPairs ↔ e ∈ f.directedEdges := by
  unfold Face.prevPairs Face.directedEdges
  by_cases h : f.a = f.d
  · simp only [Face.isTri_iff.2 h, if_true, h]; simp; tauto
  · have : f.isTri = false := by simpa [Face.isTri] using h
    simp only [this, h, if_false]; simp; tauto

lemma Face.prevPairs_snd {f : Face} : f.prevPairs.map Prod.snd = f.corners := by
  unfold Face.prevPairs Face.corners; split_ifs <;> rfl

lemma Face.HasEdge.symm {f : Face} {i j : ℕ} (h : f.HasEdge i j) : f.HasEdge j i := Or.symm h

lemma Joined.symm {faces : List Face} {i j : ℕ} (h : Joined faces i j) : Joined faces j i := by
  obtain ⟨f, hf, h⟩ := h; exact ⟨f, hf, h.symm⟩

lemma Face.directed_corners {f : Face} {i j : ℕ} (h : (i, j) ∈ f.directedEdges) :
    i ∈ f.corners ∧ j ∈ f.corners := by
  unfold Face.directedEdges at h
  unfold Face.corners
  by_cases h' : f.a = f.d
  · rw [if_pos h'] at h; rw [if_pos (Face.isTri_iff.2 h')]; simp at h ⊢; tauto
  · rw [if_neg h'] at h; rw [if_neg (by rwa [Face.isTri_iff])]; simp at h ⊢; tauto

lemma Face.HasEdge.corners {f : Face} {i j : ℕ} (h : f.HasEdge i j) : i ∈ f.corners ∧ j ∈ f.corners := by
  rcases h with h | h
  · exact Face.directed_corners h
  · exact (Face.directed_corners h).symm

lemma Face.HasEdge.ne {f : Face} {i j : ℕ} (hp : f.corners.Nodup) (h : f.HasEdge i j) : i ≠ j := by
  unfold Face.HasEdge Face.directedEdges at h
  unfold Face.corners at hp
  by_cases h' : f.a = f.d
  · rw [if_pos (Face.isTri_iff.2 h')] at hp
    simp only [if_pos h'] at h
    simp at h hp
    rintro rfl; grind
  · rw [if_neg (by rwa [Face.isTri_iff])] at hp
    simp only [if_neg h'] at h
    simp at h hp
    rintro rfl; grind

lemma mem_cornerVisits {faces : List Face} {p i k : ℕ} :
    (p, i, k) ∈ cornerVisits faces ↔ ∃ f, faces[k]? = some f ∧ (p, i) ∈ f.directedEdges := by
  unfold cornerVisits
  simp only [List.mem_flatMap, List.mem_map, Prod.exists, Prod.mk.injEq]
  constructor
  · rintro ⟨f, k', hf, p', i', h, rfl, rfl, rfl⟩
    exact ⟨f, by rwa [List.mem_zipIdx_iff_getElem?] at hf, Face.mem_prevPairs.1 h⟩
  · rintro ⟨f, hf, h⟩
    exact ⟨f, k, by rwa [List.mem_zipIdx_iff_getElem?], p, i, Face.mem_prevPairs.2 h, rfl, rfl, rfl⟩

lemma foldl_vf (ts : List (ℕ × ℕ × ℕ)) : ∀ (vf : ℕ → List ℕ) (i k : ℕ),
    k ∈ ts.foldl (fun vf t => dadd vf t.2.1 t.2.2) vf i ↔ k ∈ vf i ∨ ∃ p, (p, i, k) ∈ ts := by
  induction ts with
  | nil => simp
  | cons t ts ih =>
    intro vf i k
    obtain ⟨p, i', k'⟩ := t
    rw [List.foldl_cons, ih]
    simp only [mem_dadd, List.mem_cons, Prod.mk.injEq, or_assoc]
    constructor
    · rintro (h | ⟨rfl, rfl⟩ | ⟨q, h⟩)
      · exact Or.inl h
      · exact Or.inr ⟨p, Or.inl ⟨rfl, rfl, rfl⟩⟩
      · exact Or.inr ⟨q, Or.inr h⟩
    · rintro (h | ⟨q, ⟨rfl, rfl, rfl⟩ | h⟩)
      · exact Or.inl h
      · exact Or.inr (Or.inl ⟨rfl, rfl⟩)
      · exact Or.inr (Or.inr ⟨q, h⟩)

lemma foldl_vf_nodup (ts : List (ℕ × ℕ × ℕ)) : ∀ (vf : ℕ → List ℕ), (∀ i, (vf i).Nodup) → ∀ i,
    (ts.foldl (fun vf t => dadd vf t.2.1 t.2.2) vf i).Nodup := by
  induction ts with
  | nil => exact fun vf h => h
  | cons t ts ih => exact fun vf h => ih _ (nodup_dadd h)

lemma foldl_vv (ts : List (ℕ × ℕ × ℕ)) : ∀ (vv : ℕ → List ℕ) (i j : ℕ),
    j ∈ ts.foldl (fun vv t => dadd (dadd vv t.1 t.2.1) t.2.1 t.1) vv i ↔
      j ∈ vv i ∨ ∃ k, (i, j, k) ∈ ts ∨ (j, i, k) ∈ ts := by
  induction ts with
  | nil => simp
  | cons t ts ih =>
    intro vv i j
    obtain ⟨p, q, k'⟩ := t
    rw [List.foldl_cons, ih]
    simp only [mem_dadd, List.mem_cons, Prod.mk.injEq, or_assoc]
    constructor
    · rintro (h | ⟨rfl, rfl⟩ | ⟨rfl, rfl⟩ | ⟨k, h⟩)
      · exact Or.inl h
      · exact Or.inr ⟨k', Or.inl ⟨rfl, rfl, rfl⟩⟩
      · exact Or.inr ⟨k', Or.inr (Or.inr (Or.inl ⟨rfl, rfl, rfl⟩))⟩
      · exact Or.inr ⟨k, by tauto⟩
    · rintro (h | ⟨k, ⟨rfl, rfl, rfl⟩ | h | ⟨rfl, rfl, rfl⟩ | h⟩)
      · exact Or.inl h
      · exact Or.inr (Or.inl ⟨rfl, rfl⟩)
      · exact Or.inr (Or.inr (Or.inr ⟨k, Or.inl h⟩))
      · exact Or.inr (Or.inr (Or.inl ⟨rfl, rfl⟩))
      · exact Or.inr (Or.inr (Or.inr ⟨k, Or.inr h⟩))

lemma foldl_vv_nodup (ts : List (ℕ × ℕ × ℕ)) : ∀ (vv : ℕ → List ℕ), (∀ i, (vv i).Nodup) → ∀ i,
    (ts.foldl (fun vv t => dadd (dadd vv t.1 t.2.1) t.2.1 t.1) vv i).Nodup := by
  induction ts with
  | nil => exact fun vv h => h
  | cons t ts ih => exact fun vv h => ih _ (nodup_dadd (nodup_dadd h))

lemma Face.corner_prev {f : Face} {i : ℕ} : i ∈ f.corners ↔ ∃ p, (p, i) ∈ f.directedEdges := by
  rw [← Face.prevPairs_snd, List.mem_map]
  constructor
  · rintro ⟨⟨p, _⟩, h, rfl⟩; exact ⟨p, Face.mem_prevPairs.1 h⟩
  · rintro ⟨p, h⟩; exact ⟨(p, i), Face.mem_prevPairs.2 h, rfl⟩

lemma mem_buildVF {faces : List Face} {i k : ℕ} :
    k ∈ buildVF faces i ↔ ∃ f, faces[k]? = some f ∧ i ∈ f.corners := by
  unfold buildVF
  rw [foldl_vf]
  simp only [List.not_mem_nil, false_or, mem_cornerVisits, Face.corner_prev]
  exact ⟨fun ⟨p, f, h, h'⟩ => ⟨f, h, p, h'⟩, fun ⟨f, h, p, h'⟩ => ⟨p, f, h, h'⟩⟩

lemma nodup_buildVF (faces : List Face) (i : ℕ) : (buildVF faces i).Nodup :=
  foldl_vf_nodup _ _ (by simp) i

lemma nodup_buildVV (faces : List Face) (i : ℕ) : (buildVV faces i).Nodup :=
  foldl_vv_nodup _ _ (by simp) i

lemma joined_iff_getElem {faces : List Face} {i j : ℕ} :
    Joined faces i j ↔ ∃ (k : ℕ) (f : Face), faces[k]? = some f ∧ f.HasEdge i j := by
  unfold Joined
  constructor
  · rintro ⟨f, hf, h⟩
    obtain ⟨k, hk⟩ := List.mem_iff_getElem?.1 hf
    exact ⟨k, f, hk, h⟩
  · rintro ⟨k, f, hk, h⟩
    exact ⟨f, List.mem_of_getElem? hk, h⟩

lemma mem_buildVV {faces : List Face} {i j : ℕ} : j ∈ buildVV faces i ↔ Joined faces i j := by
  unfold buildVV
  rw [foldl_vv, joined_iff_getElem]
  simp only [List.not_mem_nil, false_or, mem_cornerVisits, Face.HasEdge]
  constructor
  · rintro ⟨k, ⟨f, h, h'⟩ | ⟨f, h, h'⟩⟩
    · exact ⟨k, f, h, Or.inl h'⟩
    · exact ⟨k, f, h, Or.inr h'⟩
  · rintro ⟨k, f, h, h' | h'⟩
    · exact ⟨k, Or.inl ⟨f, h, h'⟩⟩
    · exact ⟨k, Or.inr ⟨f, h, h'⟩⟩

/-! ## loops that may raise -/

lemma mapE_ok {α β ε : Type*} {g : α → Except ε β} : ∀ {l : List α} {r : List β},
    mapE g l = .ok r → ∀ b, b ∈ r ↔ ∃ a ∈ l, g a = .ok b := by
  intro l
  induction l with
  | nil => intro r h b; simp [mapE] at h; subst h; simp
  | cons a l ih =>
    intro r h b
    unfold mapE at h
    cases hga : g a with
    | error e => rw [hga] at h; simp at h
    | ok c =>
      rw [hga] at h
      cases hl : mapE g l with
      | error e => rw [hl] at h; simp at h
      | ok bs =>
        rw [hl] at h
        simp at h; subst h
        simp only [List.mem_cons, ih hl b, exists_eq_or_imp, hga, Except.ok.injEq]
        constructor
        · rintro (rfl | h)
          · exact Or.inl rfl
          · exact Or.inr h
        · rintro (rfl | h)
          · exact Or.inl rfl
          · exact Or.inr h

lemma mapE_isOk {α β ε : Type*} {g : α → Except ε β} : ∀ {l : List α},
    (∃ r, mapE g l = .ok r) ↔ ∀ a ∈ l, ∃ b, g a = .ok b := by
  intro l
  induction l with
  | nil => simp [mapE]
  | cons a l ih =>
    unfold mapE
    cases hga : g a with
    | error e => simp [hga]
    | ok c =>
      cases hl : mapE g l with
      | error e =>
        have : ¬ ∃ r, mapE g l = .ok r := by rw [hl]; simp
        rw [ih] at this
        constructor
        · rintro ⟨r, h⟩; simp at h
        · intro h; exact absurd (fun a ha => h a (List.mem_cons_of_mem _ ha)) this
      | ok bs =>
        have : ∃ r, mapE g l = .ok r := ⟨bs, hl⟩
        rw [ih] at this
        constructor
        · rintro _ x hx
          rcases List.mem_cons.1 hx with rfl | hx
          · exact ⟨c, hga⟩
          · exact this x hx
        · intro _; exact ⟨_, rfl⟩

lemma mapE_error {α β ε : Type*} {g : α → Except ε β} : ∀ {l : List α} {e : ε},
    mapE g l = .error e → ∃ a ∈ l, g a = .error e := by
  intro l
  induction l with
  | nil => intro e h; simp [mapE] at h
  | cons a l ih =>
    intro e h
    unfold mapE at h
    cases hga : g a with
    | error e' => rw [hga] at h; simp at h; subst h; exact ⟨a, by simp, hga⟩
    | ok c =>
      rw [hga] at h
      cases hl : mapE g l with
      | error e' =>
        rw [hl] at h; simp at h; subst h
        obtain ⟨x, hx, h⟩ := ih hl
        exact ⟨x, by simp [hx], h⟩
      | ok bs => rw [hl] at h; simp at h

/-! ## the set of iteration orders -/

/-- The only assumption on the order in which Python iterates over a set. -/
def IsSetOrder (ord : List ℕ → List ℕ) : Prop := ∀ s, (ord s).Perm s

lemma mem_adjVisits {ord : List ℕ → List ℕ} (ho : IsSetOrder ord) {nv : ℕ} {vv : ℕ → List ℕ} {i j : ℕ} :
    (i, j) ∈ adjVisits ord nv vv ↔ i < nv ∧ j ∈ vv i := by
  unfold adjVisits
  simp only [List.mem_flatMap, List.mem_range, List.mem_map, Prod.mk.injEq]
  constructor
  · rintro ⟨i', h, j', h', rfl, rfl⟩; exact ⟨h, (ho _).mem_iff.1 h'⟩
  · rintro ⟨h, h'⟩; exact ⟨i, h, j, (ho _).mem_iff.2 h', rfl, rfl⟩

/-- Faces, by number, through both `i` and `j`. -/
def through (faces : List Face) (i j : ℕ) : List ℕ := (buildVF faces i).filter (· ∈ buildVF faces j)

lemma mem_through {faces : List Face} {i j k : ℕ} :
    k ∈ through faces i j ↔ ∃ f, faces[k]? = some f ∧ i ∈ f.corners ∧ j ∈ f.corners := by
  unfold through
  simp only [List.mem_filter, mem_buildVF, decide_eq_true_eq]
  constructor
  · rintro ⟨⟨f, hf, hi⟩, g, hg, hj⟩
    rw [hf] at hg; cases hg
    exact ⟨f, hf, hi, hj⟩
  · rintro ⟨f, hf, hi, hj⟩; exact ⟨⟨f, hf, hi⟩, f, hf, hj⟩

lemma nodup_through (faces : List Face) (i j : ℕ) : (through faces i j).Nodup :=
  (nodup_buildVF faces i).filter _

lemma countP_eq_filter_range {α : Type*} (p : α → Bool) (l : List α) :
    l.countP p = ((List.range l.length).filter (fun k => (l[k]?).any p)).length := by
  induction l using List.reverseRecOn with
  | nil => simp
  | append_singleton l a ih =>
    rw [List.countP_append, ih, List.length_append, List.length_singleton, List.range_succ, List.filter_append,
      List.length_append]
    congr 1
    · congr 1
      apply List.filter_congr
      intro k hk
      rw [List.getElem?_append_left (List.mem_range.1 hk)]
    · by_cases h : p a <;> simp [h]

lemma length_eq_countP {α : Type*} {p : α → Bool} {l : List α} {s : List ℕ} (hs : s.Nodup)
    (h : ∀ k, k ∈ s ↔ ∃ a, l[k]? = some a ∧ p a = true) : s.length = l.countP p := by
  rw [countP_eq_filter_range]
  apply List.Perm.length_eq
  rw [List.perm_ext_iff_of_nodup hs (List.nodup_range.filter _)]
  intro k
  rw [h, List.mem_filter, List.mem_range]
  constructor
  · rintro ⟨a, ha, hp⟩
    exact ⟨(List.getElem?_eq_some_iff.1 ha).1, by rw [ha]; simpa using hp⟩
  · rintro ⟨hk, hp⟩
    rw [List.getElem?_eq_getElem hk] at hp
    exact ⟨l[k], List.getElem?_eq_getElem hk, by simpa using hp⟩

lemma length_through (faces : List Face) (i j : ℕ) :
    (through faces i j).length = facesThrough faces i j := by
  apply length_eq_countP (nodup_through faces i j)
  intro k; simp [mem_through]

/-! ## boundary edge of a face -/

lemma boundaryEdge_of_directed {f : Face} (hp : f.corners.Nodup) {s t : ℕ} (h : (s, t) ∈ f.directedEdges) :
    boundaryEdge f s t = .ok (t, s) ∧ boundaryEdge f t s = .ok (t, s) := by
  unfold Face.directedEdges at h
  unfold boundaryEdge
  obtain ⟨a, b, c, d⟩ := f
  simp only [Face.corners, Face.isTri] at h hp ⊢
  by_cases h' : a = d
  · subst h'
    simp only [beq_self_eq_true, if_true] at h hp ⊢
    simp only [List.nodup_cons, List.mem_cons, List.not_mem_nil, or_false, not_or] at hp
    obtain ⟨⟨h1, h2⟩, h3, -⟩ := hp
    simp only [List.mem_cons, Prod.mk.injEq, List.not_mem_nil, or_false] at h
    rcases h with ⟨rfl, rfl⟩ | ⟨rfl, rfl⟩ | ⟨rfl, rfl⟩ <;>
      simp [whereIds, List.range_succ, h1, h2, h3, Ne.symm h1, Ne.symm h2, Ne.symm h3]
  · simp only [beq_iff_eq, h', if_false] at h hp ⊢
    simp only [List.nodup_cons, List.mem_cons, List.not_mem_nil, or_false, not_or] at hp
    obtain ⟨⟨h1, h2, h3⟩, ⟨h4, h5⟩, h6, -⟩ := hp
    simp only [List.mem_cons, Prod.mk.injEq, List.not_mem_nil, or_false] at h
    rcases h with ⟨rfl, rfl⟩ | ⟨rfl, rfl⟩ | ⟨rfl, rfl⟩ | ⟨rfl, rfl⟩ <;>
      simp [whereIds, List.range_succ, h1, h2, h3, h4, h5, h6, Ne.symm h1, Ne.symm h2, Ne.symm h3,
        Ne.symm h4, Ne.symm h5, Ne.symm h6]

/-! ## one iteration -/

section
variable {ord : List ℕ → List ℕ} (ho : IsSetOrder ord) {faces : List Face}
include ho

lemma classify_adj {i j f g : ℕ} :
    connClassify ord faces (buildVF faces) (i, j) = .ok (.adj f g) ↔ ord (through faces i j) = [f, g] := by
  unfold connClassify
  change (match ord (through faces i j) with
    | [f, g] => _ | [k] => _ | _ => _) = _ ↔ _
  split
  · rename_i f' g' h; rw [h]; simp
  · rename_i k h
    rw [h]
    cases boundaryEdge (faces.getD k ⟨0, 0, 0, 0⟩) i j <;> simp [bind, Except.bind]
  · rename_i h1 h2
    constructor
    · intro h; simp at h
    · intro h; exact absurd h (h1 f g)

lemma classify_bnd {i j o t : ℕ} (hp : ProperFaces faces) (hj : Joined faces i j) :
    connClassify ord faces (buildVF faces) (i, j) = .ok (.bnd o t) ↔
      ∃ k f, through faces i j = [k] ∧ faces[k]? = some f ∧ (t, o) ∈ f.directedEdges ∧
        ((i = o ∧ j = t) ∨ (i = t ∧ j = o)) := by
  unfold connClassify
  change (match ord (through faces i j) with
    | [f, g] => _ | [k] => _ | _ => _) = _ ↔ _
  split
  · rename_i f' g' h
    constructor
    · intro h; simp at h
    · rintro ⟨k, f, hk, -⟩
      have := (ho (through faces i j)).length_eq
      rw [h, hk] at this; simp at this
  · rename_i k h
    have hk : through faces i j = [k] := by
      have := ho (through faces i j); rw [h] at this
      exact List.perm_singleton.1 this.symm
    obtain ⟨k', f, hf, he⟩ := joined_iff_getElem.1 hj
    have hk' : k' = k := by
      have : k' ∈ through faces i j := mem_through.2 ⟨f, hf, he.corners⟩
      rw [hk] at this; simpa using this
    subst hk'
    have hfp : f.corners.Nodup := hp f (List.mem_of_getElem? hf)
    have hget : faces.getD k' ⟨0, 0, 0, 0⟩ = f := by simp [hf]
    simp only [hget]
    rcases he with he | he
    · rw [(boundaryEdge_of_directed hfp he).1]
      simp only [bind, Except.bind, Except.ok.injEq, ConnAct.bnd.injEq]
      constructor
      · rintro ⟨rfl, rfl⟩; exact ⟨k', f, hk, hf, he, Or.inr ⟨rfl, rfl⟩⟩
      · rintro ⟨k2, f2, hk2, hf2, he2, h2⟩
        rw [hk] at hk2; simp at hk2; subst hk2
        rw [hf] at hf2; cases hf2
        rcases h2 with ⟨rfl, rfl⟩ | ⟨rfl, rfl⟩
        · have e1 := (boundaryEdge_of_directed hfp he).1
          have e2 := (boundaryEdge_of_directed hfp he2).2
          rw [e1] at e2; simp at e2; tauto
        · exact ⟨rfl, rfl⟩
    · rw [(boundaryEdge_of_directed hfp he).2]
      simp only [bind, Except.bind, Except.ok.injEq, ConnAct.bnd.injEq]
      constructor
      · rintro ⟨rfl, rfl⟩; exact ⟨k', f, hk, hf, he, Or.inl ⟨rfl, rfl⟩⟩
      · rintro ⟨k2, f2, hk2, hf2, he2, h2⟩
        rw [hk] at hk2; simp at hk2; subst hk2
        rw [hf] at hf2; cases hf2
        rcases h2 with ⟨rfl, rfl⟩ | ⟨rfl, rfl⟩
        · exact ⟨rfl, rfl⟩
        · have e1 := (boundaryEdge_of_directed hfp he).2
          have e2 := (boundaryEdge_of_directed hfp he2).1
          rw [e1] at e2; simp at e2; tauto
  · rename_i h1 h2
    constructor
    · intro h; simp at h
    · rintro ⟨k, f, hk, -⟩
      have := ho (through faces i j)
      have h3 : (ord (through faces i j)).Perm [k] := hk ▸ this
      exact absurd (List.perm_singleton.1 h3) (h2 k)

lemma classify_error {i j : ℕ} {e : PyErr} (hp : ProperFaces faces) (hj : Joined faces i j)
    (h : connClassify ord faces (buildVF faces) (i, j) = .error e) : e = .runtimeError := by
  unfold connClassify at h
  change (match ord (through faces i j) with
    | [f, g] => _ | [k] => _ | _ => _) = _ at h
  split at h
  · simp at h
  · rename_i k hk
    have hk : through faces i j = [k] := by
      have := ho (through faces i j); rw [hk] at this
      exact List.perm_singleton.1 this.symm
    obtain ⟨k', f, hf, he⟩ := joined_iff_getElem.1 hj
    have hk' : k' = k := by
      have : k' ∈ through faces i j := mem_through.2 ⟨f, hf, he.corners⟩
      rw [hk] at this; simpa using this
    subst hk'
    have hfp : f.corners.Nodup := hp f (List.mem_of_getElem? hf)
    have hget : faces.getD k' ⟨0, 0, 0, 0⟩ = f := by simp [hf]
    simp only [hget] at h
    rcases he with he | he
    · rw [(boundaryEdge_of_directed hfp he).1] at h
      simp [bind, Except.bind] at h
    · rw [(boundaryEdge_of_directed hfp he).2] at h
      simp [bind, Except.bind] at h
  · simpa using h.symm

lemma classify_isOk {i j : ℕ} (hp : ProperFaces faces) (hj : Joined faces i j) :
    (∃ a, connClassify ord faces (buildVF faces) (i, j) = .ok a) ↔ facesThrough faces i j ≤ 2 := by
  have hpos : 0 < (through faces i j).length := by
    obtain ⟨k', f, hf, he⟩ := joined_iff_getElem.1 hj
    exact List.length_pos_of_mem (mem_through.2 ⟨f, hf, he.corners⟩)
  have hlen := (ho (through faces i j)).length_eq
  rw [← length_through]
  constructor
  · rintro ⟨⟨f, g⟩ | ⟨o, t⟩, h⟩
    · rw [classify_adj ho] at h
      rw [h] at hlen; simp at hlen; omega
    · rw [classify_bnd ho hp hj] at h
      obtain ⟨k, f, hk, -⟩ := h
      rw [hk]; simp
  · intro h
    have : (through faces i j).length = 1 ∨ (through faces i j).length = 2 := by omega
    rcases this with h | h
    · obtain ⟨k, hk⟩ := List.length_eq_one_iff.1 h
      obtain ⟨k', f, hf, he⟩ := joined_iff_getElem.1 hj
      have hk' : k' = k := by
        have : k' ∈ through faces i j := mem_through.2 ⟨f, hf, he.corners⟩
        rw [hk] at this; simpa using this
      subst hk'
      rcases he with he | he
      · exact ⟨.bnd j i, (classify_bnd ho hp hj).2 ⟨k', f, hk, hf, he, Or.inr ⟨rfl, rfl⟩⟩⟩
      · exact ⟨.bnd i j, (classify_bnd ho hp hj).2 ⟨k', f, hk, hf, he, Or.inl ⟨rfl, rfl⟩⟩⟩
    · rw [h] at hlen
      obtain ⟨f, g, hfg⟩ := List.length_eq_two.1 hlen
      exact ⟨.adj f g, (classify_adj ho).2 hfg⟩

end

/-! ## accumulated updates -/

lemma foldl_addAdj (acts : List ConnAct) : ∀ (ff : ℕ → List ℕ) (f g : ℕ),
    g ∈ acts.foldl addAdj ff f ↔ g ∈ ff f ∨ .adj f g ∈ acts ∨ .adj g f ∈ acts := by
  induction acts with
  | nil => simp
  | cons a acts ih =>
    intro ff f g
    rw [List.foldl_cons, ih]
    cases a with
    | adj f' g' =>
      simp only [addAdj, mem_dadd, List.mem_cons, ConnAct.adj.injEq]
      tauto
    | bnd o t => simp [addAdj]

lemma mem_dictSet {d : List (ℕ × ℕ)} {k v : ℕ} {e : ℕ × ℕ} (h : e ∈ dictSet d k v) : e ∈ d ∨ e = (k, v) := by
  unfold dictSet at h
  split_ifs at h
  · rw [List.mem_map] at h
    obtain ⟨x, hx, rfl⟩ := h
    split_ifs
    · exact Or.inr rfl
    · exact Or.inl hx
  · simpa using h

lemma mem_dictSet_self (d : List (ℕ × ℕ)) (k v : ℕ) : (k, v) ∈ dictSet d k v := by
  unfold dictSet
  split_ifs with h
  · simp only [List.any_eq_true, beq_iff_eq] at h
    obtain ⟨x, hx, rfl⟩ := h
    exact List.mem_map.2 ⟨x, hx, by simp⟩
  · simp

lemma mem_dictSet_of_ne {d : List (ℕ × ℕ)} {k v : ℕ} {e : ℕ × ℕ} (h : e ∈ d) (hk : e.1 ≠ k) :
    e ∈ dictSet d k v := by
  unfold dictSet
  split_ifs
  · exact List.mem_map.2 ⟨e, h, by simp [hk]⟩
  · simp [h]

lemma nodup_dictSet {d : List (ℕ × ℕ)} {k v : ℕ} (h : (d.map Prod.fst).Nodup) :
    ((dictSet d k v).map Prod.fst).Nodup := by
  unfold dictSet
  split_ifs with h'
  · have : (d.map (fun e => if e.1 = k then (k, v) else e)).map Prod.fst = d.map Prod.fst := by
      rw [List.map_map]
      apply List.map_congr_left
      intro e _
      simp only [Function.comp]
      split_ifs with h2 <;> simp [h2]
    rw [this]; exact h
  · rw [List.map_append, List.nodup_append]
    refine ⟨h, by simp, ?_⟩
    intro a ha b hb
    simp only [List.map_cons, List.map_nil, List.mem_singleton] at hb
    subst hb
    rintro rfl
    apply h'
    obtain ⟨x, hx, hx'⟩ := List.mem_map.1 ha
    simp only [List.any_eq_true, beq_iff_eq]
    exact ⟨x, hx, hx'⟩

lemma foldl_addBnd_sub (acts : List ConnAct) : ∀ (d : List (ℕ × ℕ)) (e : ℕ × ℕ),
    e ∈ acts.foldl addBnd d → e ∈ d ∨ .bnd e.1 e.2 ∈ acts := by
  induction acts with
  | nil => intro d e h; exact Or.inl h
  | cons a acts ih =>
    intro d e h
    rw [List.foldl_cons] at h
    rcases ih _ e h with h | h
    · cases a with
      | adj f g => exact Or.inl h
      | bnd o t =>
        rcases mem_dictSet h with h | rfl
        · exact Or.inl h
        · exact Or.inr (by simp)
    · exact Or.inr (List.mem_cons_of_mem _ h)

lemma foldl_addBnd_nodup (acts : List ConnAct) : ∀ (d : List (ℕ × ℕ)), (d.map Prod.fst).Nodup →
    ((acts.foldl addBnd d).map Prod.fst).Nodup := by
  induction acts with
  | nil => exact fun d h => h
  | cons a acts ih =>
    intro d h
    rw [List.foldl_cons]
    apply ih
    cases a with
    | adj f g => exact h
    | bnd o t => exact nodup_dictSet h

lemma foldl_addBnd_sup (acts : List ConnAct) : ∀ (d : List (ℕ × ℕ)) (o t : ℕ),
    (∀ t', ConnAct.bnd o t' ∈ acts → t' = t) → ((o, t) ∈ d ∨ .bnd o t ∈ acts) →
    (o, t) ∈ acts.foldl addBnd d := by
  induction acts with
  | nil => intro d o t _ h; simpa using h
  | cons a acts ih =>
    intro d o t hf h
    rw [List.foldl_cons]
    apply ih
    · exact fun t' h' => hf t' (List.mem_cons_of_mem _ h')
    · rcases h with h | h
      · cases a with
        | adj f g => exact Or.inl h
        | bnd o' t' =>
          left
          by_cases ho : o = o'
          · subst ho
            rw [hf t' (by simp)]
            exact mem_dictSet_self _ _ _
          · exact mem_dictSet_of_ne h ho
      · rcases List.mem_cons.1 h with rfl | h
        · exact Or.inl (mem_dictSet_self _ _ _)
        · exact Or.inr h

/-! ## extraction of the chains -/

lemma dictPop_some {d : List (ℕ × ℕ)} (hd : (d.map Prod.fst).Nodup) {k w : ℕ} {d' : List (ℕ × ℕ)}
    (h : dictPop d k = some (w, d')) : d.Perm ((k, w) :: d') ∧ k ∉ d'.map Prod.fst := by
  unfold dictPop at h
  rw [Option.map_eq_some_iff] at h
  obtain ⟨e, he, h⟩ := h
  simp only [Prod.mk.injEq] at h
  obtain ⟨rfl, rfl⟩ := h
  have hm := List.mem_of_find?_eq_some he
  have hk : e.1 = k := by simpa using List.find?_some he
  subst hk
  refine ⟨?_, by simp⟩
  have hnd : d.Nodup := List.Nodup.of_map _ hd
  refine (List.perm_cons_erase hm).trans (List.Perm.cons _ ?_)
  rw [hnd.erase_eq_filter]
  apply List.Perm.of_eq
  apply List.filter_congr
  intro x hx
  have hinj : x.1 = e.1 → x = e := by
    intro h1
    exact List.inj_on_of_nodup_map hd hx hm h1
  by_cases h : x = e
  · subst h; simp
  · have : x.1 ≠ e.1 := fun h' => h (hinj h')
    rw [bne_iff_ne.2 h, bne_iff_ne.2 this]

lemma dictPop_none {d : List (ℕ × ℕ)} {k : ℕ} : dictPop d k = none ↔ k ∉ d.map Prod.fst := by
  unfold dictPop
  rw [Option.map_eq_none_iff, List.find?_eq_none]
  simp only [List.mem_map, not_exists, not_and, beq_iff_eq]

lemma chainPairs_cons_cons {α : Type*} (a b : α) (l : List α) :
    chainPairs (a :: b :: l) = (a, b) :: chainPairs (b :: l) := rfl

lemma follow_perm : ∀ (fuel : ℕ) (d : List (ℕ × ℕ)) (v : ℕ), (d.map Prod.fst).Nodup →
    d.Perm (chainPairs (v :: (follow fuel d v).1) ++ (follow fuel d v).2) := by
  intro fuel
  induction fuel with
  | zero => intro d v _; simp [follow, chainPairs]
  | succ n ih =>
    intro d v hd
    unfold follow
    cases h : dictPop d v with
    | none => simp [chainPairs]
    | some r =>
      obtain ⟨w, d'⟩ := r
      have hp := dictPop_some hd h
      have hd' : (d'.map Prod.fst).Nodup := by
        have := (hp.1.map Prod.fst).nodup_iff.1 hd
        simp only [List.map_cons, List.nodup_cons] at this
        exact this.2
      simp only [chainPairs_cons_cons, List.cons_append]
      exact hp.1.trans (List.Perm.cons _ (ih d' w hd'))

/-- If the ends of the edges, together with `v`, are their origins together with `v0`, then the chain
from `v` ends in `v0` and leaves a balanced set of edges. -/
lemma follow_balanced : ∀ (fuel : ℕ) (d : List (ℕ × ℕ)) (v v0 : ℕ), (d.map Prod.fst).Nodup → d.length ≤ fuel →
    (v :: d.map Prod.snd).Perm (v0 :: d.map Prod.fst) →
    (v :: (follow fuel d v).1).getLast (by simp) = v0 ∧
      ((follow fuel d v).2.map Prod.snd).Perm ((follow fuel d v).2.map Prod.fst) := by
  intro fuel
  induction fuel with
  | zero =>
    intro d v v0 _ hl hb
    have : d = [] := List.length_eq_zero_iff.1 (by omega)
    subst this
    simp [follow] at hb ⊢
    exact hb
  | succ n ih =>
    intro d v v0 hd hl hb
    cases h : dictPop d v with
    | none =>
      simp only [follow, h]
      rw [dictPop_none] at h
      have : v ∈ v0 :: d.map Prod.fst := hb.mem_iff.1 (by simp)
      rcases List.mem_cons.1 this with rfl | h'
      · exact ⟨by simp, (List.perm_cons v).1 hb⟩
      · exact absurd h' h
    | some r =>
      obtain ⟨w, d'⟩ := r
      have hp := dictPop_some hd h
      have hd' : (d'.map Prod.fst).Nodup := by
        have := (hp.1.map Prod.fst).nodup_iff.1 hd
        simp only [List.map_cons, List.nodup_cons] at this
        exact this.2
      have hl' : d'.length ≤ n := by
        have := hp.1.length_eq
        simp at this; omega
      have hb' : (w :: d'.map Prod.snd).Perm (v0 :: d'.map Prod.fst) := by
        have h1 : (v :: d.map Prod.snd).Perm (v :: w :: d'.map Prod.snd) :=
          List.Perm.cons _ (hp.1.map Prod.snd)
        have h2 : (v0 :: d.map Prod.fst).Perm (v :: v0 :: d'.map Prod.fst) :=
          (List.Perm.cons _ (hp.1.map Prod.fst)).trans (List.Perm.swap _ _ _)
        exact (List.perm_cons v).1 (h1.symm.trans (hb.trans h2))
      have := ih d' w v0 hd' hl' hb'
      simp only [follow, h]
      refine ⟨?_, this.2⟩
      rw [List.getLast_cons (by simp)]
      exact this.1

lemma follow_length : ∀ (fuel : ℕ) (d : List (ℕ × ℕ)) (v : ℕ), (follow fuel d v).2.length ≤ d.length := by
  intro fuel
  induction fuel with
  | zero => intro d v; simp [follow]
  | succ n ih =>
    intro d v
    unfold follow
    cases h : dictPop d v with
    | none => simp
    | some r =>
      obtain ⟨w, d'⟩ := r
      simp only
      refine (ih d' w).trans ?_
      unfold dictPop at h
      rw [Option.map_eq_some_iff] at h
      obtain ⟨e, he, h⟩ := h
      simp only [Prod.mk.injEq] at h
      rw [← h.2]
      exact List.length_filter_le _ _

/-- More fuel than edges changes nothing: the loop always stops by itself. -/
lemma follow_fuel : ∀ (fuel : ℕ) (d : List (ℕ × ℕ)) (v : ℕ), (d.map Prod.fst).Nodup → d.length ≤ fuel →
    dictPop (follow fuel d v).2 ((v :: (follow fuel d v).1).getLast (by simp)) = none := by
  intro fuel
  induction fuel with
  | zero =>
    intro d v _ hl
    have : d = [] := List.length_eq_zero_iff.1 (by omega)
    subst this
    simp [follow, dictPop]
  | succ n ih =>
    intro d v hd hl
    cases h : dictPop d v with
    | none => simpa [follow, h] using h
    | some r =>
      obtain ⟨w, d'⟩ := r
      have hp := dictPop_some hd h
      have hd' : (d'.map Prod.fst).Nodup := by
        have := (hp.1.map Prod.fst).nodup_iff.1 hd
        simp only [List.map_cons, List.nodup_cons] at this
        exact this.2
      have hl' : d'.length ≤ n := by
        have := hp.1.length_eq
        simp at this; omega
      have := ih d' w hd' hl'
      simp only [follow, h]
      rw [List.getLast_cons (by simp)]
      exact this

lemma getLast?_perm {α : Type*} {d : List α} {e : α} (h : d.getLast? = some e) :
    d = d.dropLast ++ [e] := by
  obtain ⟨hne, rfl⟩ := List.getLast?_eq_some_iff.1 h
  simp

/-- The chains are closed, of at least two vertices, and use each edge at most once. -/
lemma extractBoundaries_spec : ∀ (fuel : ℕ) (d : List (ℕ × ℕ)), (d.map Prod.fst).Nodup →
    (∀ b ∈ extractBoundaries fuel d, ∃ v l, b = v :: l ∧ l ≠ [] ∧ l.getLast? = some v) ∧
    ∃ dropped, d.Perm ((extractBoundaries fuel d).flatMap chainPairs ++ dropped) := by
  intro fuel
  induction fuel with
  | zero => intro d _; exact ⟨by simp [extractBoundaries], d, by simp [extractBoundaries]⟩
  | succ n ih =>
    intro d hd
    unfold extractBoundaries
    cases h : d.getLast? with
    | none => exact ⟨by simp, d, by simp⟩
    | some e =>
      obtain ⟨v0, v1⟩ := e
      have hsplit := getLast?_perm h
      have hperm : d.Perm ((v0, v1) :: d.dropLast) := by
        conv_lhs => rw [hsplit]
        exact List.perm_append_singleton _ _
      have hnd := (hperm.map Prod.fst).nodup_iff.1 hd
      simp only [List.map_cons, List.nodup_cons] at hnd
      have hf := follow_perm d.length d.dropLast v1 hnd.2
      set r := follow d.length d.dropLast v1 with hr
      have hnr : (r.2.map Prod.fst).Nodup := by
        have := (hf.map Prod.fst).nodup_iff.1 hnd.2
        rw [List.map_append] at this
        exact (List.nodup_append.1 this).2.1
      obtain ⟨ih1, dropped, ih2⟩ := ih r.2 hnr
      have htot : d.Perm (chainPairs (v0 :: v1 :: r.1) ++ r.2) :=
        hperm.trans (List.Perm.cons _ hf)
      simp only
      split_ifs with hc
      · refine ⟨?_, dropped, ?_⟩
        · intro b hb
          rcases List.mem_cons.1 hb with rfl | hb
          · refine ⟨v0, v1 :: r.1, rfl, by simp, ?_⟩
            rw [List.getLastD_eq_getLast?] at hc
            rw [List.getLast?_cons_cons] at hc
            rw [List.getLast?_eq_some_getLast (by simp)] at hc ⊢
            simpa using hc
          · exact ih1 b hb
        · rw [List.flatMap_cons, List.append_assoc]
          exact htot.trans (List.Perm.append_left _ ih2)
      · refine ⟨ih1, chainPairs (v0 :: v1 :: r.1) ++ dropped, ?_⟩
        refine htot.trans ((List.Perm.append_left _ ih2).trans ?_)
        rw [← List.append_assoc, ← List.append_assoc]
        exact List.Perm.append_right _ List.perm_append_comm

/-- Balanced edges are all in the chains. -/
lemma extractBoundaries_balanced : ∀ (fuel : ℕ) (d : List (ℕ × ℕ)), (d.map Prod.fst).Nodup → d.length ≤ fuel →
    (d.map Prod.snd).Perm (d.map Prod.fst) → d.Perm ((extractBoundaries fuel d).flatMap chainPairs) := by
  intro fuel
  induction fuel with
  | zero =>
    intro d _ hl _
    have : d = [] := List.length_eq_zero_iff.1 (by omega)
    subst this; simp [extractBoundaries]
  | succ n ih =>
    intro d hd hl hb
    unfold extractBoundaries
    cases h : d.getLast? with
    | none => rw [List.getLast?_eq_none_iff] at h; subst h; simp
    | some e =>
      obtain ⟨v0, v1⟩ := e
      have hsplit := getLast?_perm h
      have hperm : d.Perm ((v0, v1) :: d.dropLast) := by
        conv_lhs => rw [hsplit]
        exact List.perm_append_singleton _ _
      have hnd := (hperm.map Prod.fst).nodup_iff.1 hd
      simp only [List.map_cons, List.nodup_cons] at hnd
      have hf := follow_perm d.length d.dropLast v1 hnd.2
      have hbal := follow_balanced d.length d.dropLast v1 v0 hnd.2 (by simp)
        ((hperm.map Prod.snd).symm.trans (hb.trans (hperm.map Prod.fst)))
      have hlen := follow_length d.length d.dropLast v1
      set r := follow d.length d.dropLast v1 with hr
      have hnr : (r.2.map Prod.fst).Nodup := by
        have := (hf.map Prod.fst).nodup_iff.1 hnd.2
        rw [List.map_append] at this
        exact (List.nodup_append.1 this).2.1
      have hdl : d.length = d.dropLast.length + 1 := by
        have := hperm.length_eq; simpa using this
      have htot : d.Perm (chainPairs (v0 :: v1 :: r.1) ++ r.2) :=
        hperm.trans (List.Perm.cons _ hf)
      have hc : (v0 :: v1 :: r.1).getLastD v0 = v0 := by
        rw [List.getLastD_eq_getLast?, List.getLast?_cons_cons, List.getLast?_eq_some_getLast (by simp)]
        simpa using hbal.1
      simp only
      rw [if_pos hc, List.flatMap_cons]
      exact htot.trans (List.Perm.append_left _ (ih r.2 hnr (by omega) hbal.2))

end MM
