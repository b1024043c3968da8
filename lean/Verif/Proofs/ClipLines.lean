import Verif.Props.ClipFace

/-!
# The loop that orders the intersection edges in lines
-/

namespace MM
namespace Clipper

set_option linter.unusedSectionVars false
set_option linter.unusedSimpArgs false

lemma chainPairs_append {α : Type*} (l : List α) (a : α) (l2 : List α) :
    chainPairs (l ++ a :: l2) = chainPairs (l ++ [a]) ++ chainPairs (a :: l2) := by
  induction l with
  | nil => simp [chainPairs]
  | cons b l ih =>
    cases l with
    | nil => simp [chainPairs]
    | cons c l =>
      simp only [List.cons_append] at ih ⊢
      rw [chainPairs_cons_cons, chainPairs_cons_cons, ih, List.cons_append]

lemma queueBack_spec : ∀ (fuel : ℕ) (d inv : List (ℕ × ℕ)) (v0 : ℕ), (d.map Prod.fst).Nodup →
    (∀ x y w, (x, y) ∈ inv → (y, w) ∈ d → w = x) →
    d.Perm (chainPairs ((queueBack fuel d inv v0).1.reverse ++ [v0]) ++ (queueBack fuel d inv v0).2) ∧
      ∀ y ∈ (queueBack fuel d inv v0).1, y ∈ d.map Prod.fst := by
  intro fuel
  induction fuel with
  | zero => intro d inv v0 _ _; simp [queueBack, chainPairs]
  | succ n ih =>
    intro d inv v0 hd hinv
    unfold queueBack
    cases he : inv.find? (fun e => e.1 == v0) with
    | none => simp [chainPairs]
    | some e =>
      simp only
      cases hp : dictPop d e.2 with
      | none => simp [chainPairs]
      | some r =>
        obtain ⟨w, d'⟩ := r
        simp only
        have he1 : e.1 = v0 := by simpa using List.find?_some he
        have hem := List.mem_of_find?_eq_some he
        obtain ⟨hperm, hnot⟩ := dictPop_some hd hp
        have hmem : (e.2, w) ∈ d := hperm.mem_iff.2 (by simp)
        have hw : w = v0 := by
          have := hinv e.1 e.2 w (by simpa using hem) hmem
          rw [this, he1]
        subst hw
        have hnd := (hperm.map Prod.fst).nodup_iff.1 hd
        simp only [List.map_cons, List.nodup_cons] at hnd
        obtain ⟨i1, i2⟩ := ih d' inv e.2 hnd.2 (fun x y w h1 h2 => hinv x y w h1 (hperm.mem_iff.2 (List.mem_cons_of_mem _ h2)))
        constructor
        · rw [List.reverse_cons, List.append_assoc, List.singleton_append, chainPairs_append]
          refine hperm.trans ((List.Perm.cons _ i1).trans ?_)
          rw [show chainPairs [e.2, w] = [(e.2, w)] from rfl, List.append_assoc, List.singleton_append]
          exact List.perm_middle.symm
        · intro y hy
          rcases List.mem_cons.1 hy with rfl | hy
          · exact List.mem_map.2 ⟨_, hmem, rfl⟩
          · have := i2 y hy
            obtain ⟨z, hz, rfl⟩ := List.mem_map.1 this
            exact List.mem_map.2 ⟨z, hperm.mem_iff.2 (List.mem_cons_of_mem _ hz), rfl⟩

/-- The lines use each edge exactly once; the closed ones are closed, the open ones are not; when the edges are
balanced there are only closed lines. -/
lemma extractLines_spec (inv : List (ℕ × ℕ)) : ∀ (fuel : ℕ) (d : List (ℕ × ℕ)), (d.map Prod.fst).Nodup → d.length ≤ fuel →
    (∀ x y w, (x, y) ∈ inv → (y, w) ∈ d → w = x) →
    d.Perm (((extractLines inv fuel d).1 ++ (extractLines inv fuel d).2).flatMap chainPairs) ∧
    (∀ b ∈ (extractLines inv fuel d).1, ∃ v l, b = v :: l ∧ l ≠ [] ∧ l.getLast? = some v) ∧
    (∀ b ∈ (extractLines inv fuel d).2, 2 ≤ b.length ∧ b.head? ≠ b.getLast?) ∧
    ((d.map Prod.snd).Perm (d.map Prod.fst) → (extractLines inv fuel d).2 = []) := by
  intro fuel
  induction fuel with
  | zero =>
    intro d _ hl _
    have : d = [] := List.length_eq_zero_iff.1 (by omega)
    subst this
    simp [extractLines]
  | succ n ih =>
    intro d hd hl hinv
    unfold extractLines
    cases h : d.getLast? with
    | none => rw [List.getLast?_eq_none_iff] at h; subst h; simp
    | some e =>
      obtain ⟨v0, v1⟩ := e
      have hsplit := getLast?_perm h
      have hperm : d.Perm ((v0, v1) :: d.dropLast) := by
        conv_lhs => rw [hsplit]
        exact List.perm_append_singleton _ _
      have hnd := (hperm.map Prod.fst).nodup_iff.1 hd
      simp only [List.map_cons, List.nodup_cons] at hnd
      have hf := follow_perm d.length d.dropLast v1 hnd.2
      have hlen := follow_length d.length d.dropLast v1
      have hfuel := follow_fuel d.length d.dropLast v1 hnd.2 (by simp)
      have hbal := fun hb => follow_balanced d.length d.dropLast v1 v0 hnd.2 (by simp) hb
      set r := follow d.length d.dropLast v1 with hr
      have hnr : (r.2.map Prod.fst).Nodup := by
        have := (hf.map Prod.fst).nodup_iff.1 hnd.2
        rw [List.map_append] at this
        exact (List.nodup_append.1 this).2.1
      have hdl : d.length = d.dropLast.length + 1 := by
        have := hperm.length_eq; simpa using this
      have htot : d.Perm (chainPairs (v0 :: v1 :: r.1) ++ r.2) :=
        hperm.trans (List.Perm.cons _ hf)
      have hinv' : ∀ x y w, (x, y) ∈ inv → (y, w) ∈ r.2 → w = x := fun x y w h1 h2 =>
        hinv x y w h1 (htot.mem_iff.2 (List.mem_append_right _ h2))
      have hlast : (v0 :: v1 :: r.1).getLastD v0 = (v1 :: r.1).getLast (by simp) := by
        rw [List.getLastD_eq_getLast?, List.getLast?_cons_cons, List.getLast?_eq_some_getLast (by simp)]
        rfl
      simp only
      split_ifs with hc
      · -- an open line
        obtain ⟨q1, q2⟩ := queueBack_spec r.2.length r.2 inv v0 hnr hinv'
        set q := queueBack r.2.length r.2 inv v0 with hq
        have hnq : (q.2.map Prod.fst).Nodup := by
          have := (q1.map Prod.fst).nodup_iff.1 hnr
          rw [List.map_append] at this
          exact (List.nodup_append.1 this).2.1
        have hlq : q.2.length ≤ r.2.length := by
          have := q1.length_eq; rw [List.length_append] at this; omega
        obtain ⟨i1, i2, i3, _⟩ := ih q.2 hnq (by omega) (fun x y w h1 h2 =>
          hinv' x y w h1 (q1.mem_iff.2 (List.mem_append_right _ h2)))
        set rest := extractLines inv n q.2 with hrest
        refine ⟨?_, i2, ?_, ?_⟩
        · rw [List.flatMap_append, List.flatMap_cons, chainPairs_append]
          rw [List.flatMap_append] at i1
          refine htot.trans ((List.Perm.append_left _ (q1.trans (List.Perm.append_left _ i1))).trans ?_)
          generalize chainPairs (v0 :: v1 :: r.1) = A
          generalize chainPairs (q.1.reverse ++ [v0]) = B
          generalize List.flatMap chainPairs rest.1 = C
          generalize List.flatMap chainPairs rest.2 = D
          have h1 : (A ++ (B ++ (C ++ D))).Perm ((B ++ A) ++ (C ++ D)) := by
            rw [← List.append_assoc]; exact List.Perm.append_right _ List.perm_append_comm
          have h2 : ((B ++ A) ++ (C ++ D)).Perm (C ++ ((B ++ A) ++ D)) := by
            rw [← List.append_assoc, ← List.append_assoc]
            exact List.Perm.append_right _ List.perm_append_comm
          exact h1.trans h2
        · intro b hb
          rcases List.mem_cons.1 hb with rfl | hb
          · refine ⟨by simp; omega, ?_⟩
            have hl2 : (q.1.reverse ++ v0 :: v1 :: r.1).getLast? = some ((v1 :: r.1).getLast (by simp)) := by
              rw [List.getLast?_append_of_ne_nil _ (by simp), List.getLast?_cons_cons,
                List.getLast?_eq_some_getLast (by simp)]
            rw [hl2]
            rw [hlast] at hc
            cases hrev : q.1.reverse with
            | nil => simp only [List.nil_append, List.head?_cons, ne_eq, Option.some.injEq]; exact fun h => hc h.symm
            | cons y ys =>
              simp only [List.cons_append, List.head?_cons, ne_eq, Option.some.injEq]
              intro hy
              have hyq : y ∈ q.1 := by
                have : y ∈ q.1.reverse := by rw [hrev]; simp
                simpa using this
              have := q2 y hyq
              rw [hy] at this
              exact (dictPop_none.1 hfuel) this
          · exact i3 b hb
        · intro hb
          exfalso
          have := (hbal ((hperm.map Prod.snd).symm.trans (hb.trans (hperm.map Prod.fst)))).1
          rw [hlast] at hc
          exact hc this
      · rw [not_not] at hc
        obtain ⟨i1, i2, i3, i4⟩ := ih r.2 hnr (by omega) hinv'
        refine ⟨?_, ?_, i3, ?_⟩
        · rw [List.cons_append, List.flatMap_cons]
          exact htot.trans (List.Perm.append_left _ i1)
        · intro b hb
          rcases List.mem_cons.1 hb with rfl | hb
          · refine ⟨v0, v1 :: r.1, rfl, by simp, ?_⟩
            rw [hlast] at hc
            rw [List.getLast?_eq_some_getLast (by simp), hc]
          · exact i2 b hb
        · intro hb
          exact i4 (hbal ((hperm.map Prod.snd).symm.trans (hb.trans (hperm.map Prod.fst)))).2

/-- A closed chain has balanced edges. -/
lemma closed_balanced {b : List ℕ} (h : ∃ v l, b = v :: l ∧ l ≠ [] ∧ l.getLast? = some v) :
    ((chainPairs b).map Prod.snd).Perm ((chainPairs b).map Prod.fst) := by
  obtain ⟨v, l, rfl, hl, hv⟩ := h
  have hs : ∀ (l : List ℕ) (a : ℕ), (chainPairs (a :: l)).map Prod.snd = l ∧
      (chainPairs (a :: l)).map Prod.fst = (a :: l).dropLast := by
    intro l
    induction l with
    | nil => intro a; simp [chainPairs]
    | cons b l ih => intro a; rw [chainPairs_cons_cons]; simp [ih b]
  rw [(hs l v).1, (hs l v).2]
  have h2 := getLast?_perm hv
  have h3 : (v :: l).dropLast = v :: l.dropLast := by
    cases l with
    | nil => exact absurd rfl hl
    | cons => rfl
  rw [h3]
  conv_lhs => rw [h2]
  exact List.perm_append_singleton _ _

lemma foldl_dictSet_nodup : ∀ (es d : List (ℕ × ℕ)), ((d ++ es).map Prod.fst).Nodup →
    es.foldl (fun d e => dictSet d e.1 e.2) d = d ++ es := by
  intro es
  induction es with
  | nil => intro d _; simp
  | cons e es ih =>
    intro d h
    have hset : dictSet d e.1 e.2 = d ++ [e] := by
      unfold dictSet
      rw [if_neg]
      intro h'
      simp only [List.any_eq_true, beq_iff_eq] at h'
      obtain ⟨x, hx, hx'⟩ := h'
      rw [List.map_append, List.nodup_append] at h
      exact h.2.2 x.1 (List.mem_map_of_mem hx) e.1 (by simp) hx'
    rw [List.foldl_cons, hset, ih]
    · simp
    · simpa using h

lemma foldl_dictSet_sub : ∀ (es d : List (ℕ × ℕ)) (e : ℕ × ℕ), e ∈ es.foldl (fun d e => dictSet d e.1 e.2) d → e ∈ d ∨ e ∈ es := by
  intro es
  induction es with
  | nil => intro d e h; exact .inl h
  | cons a es ih =>
    intro d e h
    rw [List.foldl_cons] at h
    rcases ih _ e h with h | h
    · rcases mem_dictSet h with h | rfl
      · exact .inl h
      · exact .inr (by simp)
    · exact .inr (List.mem_cons_of_mem _ h)

lemma foldl_dictSet_keys : ∀ (es d : List (ℕ × ℕ)), (d.map Prod.fst).Nodup →
    ((es.foldl (fun d e => dictSet d e.1 e.2) d).map Prod.fst).Nodup := by
  intro es
  induction es with
  | nil => intro d h; exact h
  | cons a es ih => intro d h; rw [List.foldl_cons]; exact ih _ (nodup_dictSet h)

/-- Renumbered edge. -/
def renEdge (newId : List ℕ) (e : ℕ × ℕ) : ℕ × ℕ := (newId.getD e.1 0, newId.getD e.2 0)

/-- The lines obtained from the edges `es` of the faces, numbered by `newId`, when no two of them start at the same
vertex. -/
theorem lines_of_edges (newId : List ℕ) (es : List (ℕ × ℕ)) (hstart : ((es.map (renEdge newId)).map Prod.fst).Nodup)
    {direct inv : List (ℕ × ℕ)} (hd : direct = remap newId (es.foldl (fun d e => dictSet d e.1 e.2) []))
    (hi : inv = remap newId (es.foldl (fun d e => dictSet d e.2 e.1) [])) :
    direct = es.map (renEdge newId) ∧
    (((extractLines inv direct.length direct).1 ++ (extractLines inv direct.length direct).2).flatMap chainPairs).Perm
      (es.map (renEdge newId)) ∧
    ((extractLines inv direct.length direct).2 = [] ↔
      ((es.map (renEdge newId)).map Prod.snd).Perm ((es.map (renEdge newId)).map Prod.fst)) := by
  have hraw : (es.map Prod.fst).Nodup := by
    rw [List.map_map] at hstart
    have : (Prod.fst ∘ renEdge newId) = (fun i => newId.getD i 0) ∘ Prod.fst := rfl
    rw [this, ← List.map_map] at hstart
    exact List.Nodup.of_map _ hstart
  have h1 : es.foldl (fun d e => dictSet d e.1 e.2) [] = es := by
    rw [foldl_dictSet_nodup es [] (by simpa using hraw)]; simp
  have hdir : direct = es.map (renEdge newId) := by
    rw [hd, h1]
    show (es.map (renEdge newId)).foldl (fun d e => dictSet d e.1 e.2) [] = _
    rw [foldl_dictSet_nodup _ [] (by simpa using hstart)]; simp
  have hinv : ∀ x y w, (x, y) ∈ inv → (y, w) ∈ direct → w = x := by
    intro x y w hx hy
    have hmem : (x, y) ∈ (es.map (renEdge newId)).map Prod.swap := by
      rw [hi] at hx
      unfold remap at hx
      rcases foldl_dictSet_sub _ _ _ hx with h | h
      · simp at h
      · obtain ⟨e, he, hee⟩ := List.mem_map.1 h
        have hsw : es.foldl (fun d e => dictSet d e.2 e.1) [] =
            (es.map Prod.swap).foldl (fun d e => dictSet d e.1 e.2) [] := by
          rw [List.foldl_map]; rfl
        rw [hsw] at he
        rcases foldl_dictSet_sub _ _ _ he with h | h
        · simp at h
        · obtain ⟨e', he', rfl⟩ := List.mem_map.1 h
          refine List.mem_map.2 ⟨renEdge newId e', List.mem_map_of_mem he', ?_⟩
          rw [← hee]; rfl
    obtain ⟨e, he, hee⟩ := List.mem_map.1 hmem
    rw [Prod.swap_eq_iff_eq_swap] at hee
    subst hee
    rw [hdir] at hy
    have := List.inj_on_of_nodup_map hstart hy he (by simp)
    simpa using congrArg Prod.snd this
  have hkeys : (direct.map Prod.fst).Nodup := by rw [hdir]; exact hstart
  obtain ⟨s1, s2, s3, s4⟩ := extractLines_spec inv direct.length direct hkeys le_rfl hinv
  rw [← hdir]
  refine ⟨rfl, s1.symm, ?_, s4⟩
  intro ho
  rw [ho, List.append_nil] at s1
  refine ((s1.map Prod.snd).trans ?_).trans (s1.map Prod.fst).symm
  rw [List.map_flatMap, List.map_flatMap]
  exact List.Perm.flatMap_left _ (fun b hb => closed_balanced (s2 b hb))

end Clipper
end MM
