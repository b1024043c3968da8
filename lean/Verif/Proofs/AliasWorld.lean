import Verif.Proofs.AliasStep

/-!
# Lemmas for C108 and C109: programs with several meshes
-/

namespace MM
namespace Alias

set_option linter.unusedSimpArgs false

/-- No array belongs to two meshes, or to a mesh and to the program. -/
structure WfW (w : World) : Prop where
  mesh : ∀ (k : ℕ) (m : MeshRef), w.meshes[k]? = some m → Wf (w.heap, m)
  sep : ∀ (j k : ℕ) (m n : MeshRef), w.meshes[j]? = some m → w.meshes[k]? = some n → j ≠ k →
    ∀ (r r' : Role) (a : ℕ), m.at r = some a → n.at r' ≠ some a
  vars : ∀ (i a : ℕ), w.vars[i]? = some a → a < w.heap.length
  varsInj : ∀ (i j a : ℕ), w.vars[i]? = some a → w.vars[j]? = some a → i = j
  varsSep : ∀ (i a k : ℕ) (m : MeshRef) (r : Role), w.vars[i]? = some a → w.meshes[k]? = some m → m.at r ≠ some a

lemma WfW.empty : WfW {} := by
  constructor <;> simp

lemma set_cases {α : Type*} {l : List α} {k j : ℕ} {x y : α} (h : (l.set k x)[j]? = some y) :
    (j = k ∧ y = x) ∨ (j ≠ k ∧ l[j]? = some y) := by
  rw [List.getElem?_set] at h
  split at h
  · rename_i e
    split at h
    · exact .inl ⟨e.symm, by simpa using h.symm⟩
    · cases h
  · rename_i e
    exact .inr ⟨fun e' => e e'.symm, h⟩

lemma push_cases {α : Type*} {l : List α} {j : ℕ} {x y : α} (h : (l ++ [x])[j]? = some y) :
    (j = l.length ∧ y = x) ∨ (j < l.length ∧ l[j]? = some y) := by
  rcases lt_trichotomy j l.length with hj | hj | hj
  · exact .inr ⟨hj, by rwa [List.getElem?_append_left hj] at h⟩
  · subst hj
    exact .inl ⟨rfl, by simpa using h.symm⟩
  · rw [List.getElem?_append_right (by omega)] at h
    rw [List.getElem?_eq_none (by simp; omega)] at h
    cases h

lemma map_set_view {h h' : Heap} {l : List MeshRef} {k : ℕ} {m : MeshRef}
    (H : ∀ (j : ℕ) (n : MeshRef), l[j]? = some n → j ≠ k → view h' n = view h n) :
    (l.set k m).map (view h') = (l.map (view h)).set k (view h' m) := by
  apply List.ext_getElem?
  intro j
  rw [List.map_set, List.getElem?_set, List.getElem?_set]
  by_cases e : k = j
  · simp [e]
  · simp only [e, if_false, List.getElem?_map]
    rcases hj : l[j]? with _ | n
    · rfl
    · simp [H j n hj (fun e' => e e'.symm)]

lemma values_map_congr {h h' : Heap} {l : List MeshRef}
    (H : ∀ (j : ℕ) (n : MeshRef), l[j]? = some n → view h' n = view h n) :
    l.map (view h') = l.map (view h) := by
  apply List.map_congr_left
  intro n hn
  obtain ⟨j, hj⟩ := List.mem_iff_getElem?.mp hn
  exact H j n hj

lemma vars_congr {h h' : Heap} {l : List ℕ} (H : ∀ (i a : ℕ), l[i]? = some a → h'[a]? = h[a]?) :
    l.map (fun a => h'.getD a (.reals [])) = l.map (fun a => h.getD a (.reals [])) := by
  apply List.map_congr_left
  intro a ha
  obtain ⟨i, hi⟩ := List.mem_iff_getElem?.mp ha
  simp [List.getD, H i a hi]

/-- A method of one mesh. -/
lemma put_good {w : World} (hw : WfW w) {k : ℕ} {m : MeshRef} (hm : w.meshes[k]? = some m) {T : List Role}
    {s : St} (g : Good T (w.heap, m) s) :
    WfW (w.put k s) ∧ (w.put k s).values = { w.values with meshes := w.values.meshes.set k s.view } := by
  have fr : ∀ (j : ℕ) (n : MeshRef), w.meshes[j]? = some n → j ≠ k → ∀ r a, n.at r = some a →
      s.1[a]? = w.heap[a]? := by
    intro j n hn hj r a ha
    exact g.frame a ((hw.mesh j n hn).bound r a ha) (fun r' _ e => hw.sep j k n m hn hm hj r r' a ha e)
  have frv : ∀ i a : ℕ, w.vars[i]? = some a → s.1[a]? = w.heap[a]? := by
    intro i a ha
    exact g.frame a (hw.vars i a ha) (fun r _ => hw.varsSep i a k m r ha hm)
  have len : w.heap.length ≤ s.1.length := g.len
  refine ⟨⟨?_, ?_, ?_, hw.varsInj, ?_⟩, ?_⟩
  · intro j n hn
    rcases set_cases hn with ⟨rfl, rfl⟩ | ⟨hj, hn'⟩
    · exact g.wf
    · have := hw.mesh j n hn'
      exact ⟨fun r a ha => lt_of_lt_of_le (this.bound r a ha) len, this.inj⟩
  · intro i j n n' hn hn' hij r r' a ha ha'
    rcases set_cases hn with ⟨rfl, rfl⟩ | ⟨hi, h1⟩
    · rcases set_cases hn' with ⟨rfl, rfl⟩ | ⟨hj, h2⟩
      · exact hij rfl
      · rcases g.old r a ha with h | h
        · exact hw.sep i j m n' hm h2 hij r r' a h ha'
        · have := (hw.mesh j n' h2).bound r' a ha'
          simp only at this h; omega
    · rcases set_cases hn' with ⟨rfl, rfl⟩ | ⟨hj, h2⟩
      · rcases g.old r' a ha' with h | h
        · exact hw.sep i j n m h1 hm hij r r' a ha h
        · have := (hw.mesh i n h1).bound r a ha
          simp only at this h; omega
      · exact hw.sep i j n n' h1 h2 hij r r' a ha ha'
  · intro i a ha
    exact lt_of_lt_of_le (hw.vars i a ha) len
  · intro i a j n r ha hn he
    rcases set_cases hn with ⟨rfl, rfl⟩ | ⟨hj, h1⟩
    · rcases g.old r a he with h | h
      · exact hw.varsSep i a j m r ha hm h
      · have := hw.vars i a ha
        simp only at this h; omega
    · exact hw.varsSep i a j n r ha h1 he
  · simp only [World.values, World.put, Values.mk.injEq]
    refine ⟨map_set_view (fun j n hn hj => view_congr (fr j n hn hj)), vars_congr frv⟩

/-- A new mesh whose arrays are all new. -/
structure Fresh (h : Heap) (s : St) : Prop where
  len : h.length ≤ s.1.length
  frame : ∀ a < h.length, s.1[a]? = h[a]?
  new : ∀ r a, s.2.at r = some a → h.length ≤ a
  wf : Wf s

lemma Fresh.good {h : Heap} {s s' : St} {T : List Role} (f : Fresh h s) (g : Good T s s') : Fresh h s' := by
  refine ⟨f.len.trans g.len, ?_, ?_, g.wf⟩
  · intro a ha
    rw [g.frame a (lt_of_lt_of_le ha f.len), f.frame a ha]
    intro r _ e
    have := f.new r a e; omega
  · intro r a ha
    rcases g.old r a ha with e | e
    · exact f.new r a e
    · exact f.len.trans e

lemma push_good {w : World} (hw : WfW w) {s : St} (f : Fresh w.heap s) :
    WfW (w.push s) ∧ (w.push s).values = { w.values with meshes := w.values.meshes ++ [s.view] } := by
  refine ⟨⟨?_, ?_, ?_, hw.varsInj, ?_⟩, ?_⟩
  · intro j n hn
    rcases push_cases hn with ⟨rfl, rfl⟩ | ⟨hj, hn'⟩
    · exact f.wf
    · have := hw.mesh j n hn'
      exact ⟨fun r a ha => lt_of_lt_of_le (this.bound r a ha) f.len, this.inj⟩
  · intro i j n n' hn hn' hij r r' a ha ha'
    rcases push_cases hn with ⟨rfl, rfl⟩ | ⟨hi, h1⟩
    · rcases push_cases hn' with ⟨rfl, rfl⟩ | ⟨hj, h2⟩
      · exact hij rfl
      · have h3 := (hw.mesh j n' h2).bound r' a ha'
        have h4 := f.new r a ha
        simp only at h3; omega
    · rcases push_cases hn' with ⟨rfl, rfl⟩ | ⟨hj, h2⟩
      · have h3 := (hw.mesh i n h1).bound r a ha
        have h4 := f.new r' a ha'
        simp only at h3; omega
      · exact hw.sep i j n n' h1 h2 hij r r' a ha ha'
  · intro i a ha
    exact lt_of_lt_of_le (hw.vars i a ha) f.len
  · intro i a j n r ha hn he
    rcases push_cases hn with ⟨rfl, rfl⟩ | ⟨hj, h1⟩
    · have h3 := hw.vars i a ha
      have h4 := f.new r a he
      omega
    · exact hw.varsSep i a j n r ha h1 he
  · simp only [World.values, World.push, Values.mk.injEq, List.map_append, List.map_cons, List.map_nil]
    refine ⟨?_, vars_congr (fun i a ha => f.frame a (hw.vars i a ha))⟩
    rw [values_map_congr (h := w.heap) (fun j n hn => view_congr
      (fun r a ha => f.frame a ((hw.mesh j n hn).bound r a ha)))]
    rfl

lemma newMesh_fresh (h : Heap) (v : List (V3 ℝ)) (f : List Face) : Fresh h (World.newMesh h v f) := by
  refine ⟨by simp [World.newMesh], ?_, ?_, .of_explicit ?_⟩
  · intro a ha; simp [World.newMesh, List.getElem?_append_left ha]
  · rw [Role.forall]; simp [World.newMesh, MeshRef.at]
  · simp [World.newMesh]

lemma newMesh_view (h : Heap) (v : List (V3 ℝ)) (f : List Face) :
    (World.newMesh h v f).view = MeshObj.new ⟨v, f⟩ := by
  simp [World.newMesh, St.view, view, vecsAt, facesAt, getElem?_tail, MeshObj.new]

lemma copyMesh_fresh (h : Heap) (m : MeshRef) : Fresh h (World.copyMesh h m) := by
  unfold World.copyMesh
  rcases hp : m.props with _ | p
  · refine ⟨by simp, ?_, ?_, .of_explicit ?_⟩
    · intro a ha; simp [List.getElem?_append_left ha]
    · rw [Role.forall]; simp [MeshRef.at, hp]
    · simp [hp]
  · refine ⟨by simp, ?_, ?_, .of_explicit ?_⟩
    · intro a ha; simp [List.getElem?_append_left ha]
    · rw [Role.forall]; simp [MeshRef.at, hp]
    · simp [hp]

lemma copyMesh_view (h : Heap) (m : MeshRef) : (World.copyMesh h m).view = view h m := by
  unfold World.copyMesh
  rcases hp : m.props with _ | p
  · simp [St.view, view, vecsAt, facesAt, getElem?_tail, hp]
  · simp only [St.view, view, hp, Option.map_some]
    generalize vecsAt h m.v = x1
    generalize facesAt h m.f = x2
    generalize realsAt h p.1 = x3
    generalize vecsAt h p.2.1 = x4
    generalize vecsAt h p.2.2 = x5
    simp [vecsAt, facesAt, realsAt, getElem?_tail]

/-! ## Arguments -/

lemma vecsArg_values {w : World} (hw : WfW w) (s : Src) : w.vecsArg s = w.values.vecsArg s := by
  cases s with
  | var i =>
    simp only [World.vecsArg, Values.vecsArg, World.values, List.getElem?_map]
    rcases hi : w.vars[i]? with _ | a
    · rfl
    · have := hw.vars i a hi
      simp only [Option.map_some, List.getD, List.getElem?_eq_getElem this, Option.getD_some]
      rcases w.heap[a] <;> rfl
  | vertices k =>
    simp only [World.vecsArg, Values.vecsArg, World.values, List.getElem?_map]
    rcases w.meshes[k]? with _ | m <;> rfl
  | faces k =>
    simp only [World.vecsArg, Values.vecsArg, World.values, List.getElem?_map]
    rcases w.meshes[k]? with _ | m <;> rfl

lemma facesArg_values {w : World} (hw : WfW w) (s : Src) : w.facesArg s = w.values.facesArg s := by
  cases s with
  | var i =>
    simp only [World.facesArg, Values.facesArg, World.values, List.getElem?_map]
    rcases hi : w.vars[i]? with _ | a
    · rfl
    · have := hw.vars i a hi
      simp only [Option.map_some, List.getD, List.getElem?_eq_getElem this, Option.getD_some]
      rcases w.heap[a] <;> rfl
  | vertices k =>
    simp only [World.facesArg, Values.facesArg, World.values, List.getElem?_map]
    rcases w.meshes[k]? with _ | m <;> rfl
  | faces k =>
    simp only [World.facesArg, Values.facesArg, World.values, List.getElem?_map]
    rcases w.meshes[k]? with _ | m <;> rfl

/-! ## One action -/

lemma values_meshes (w : World) (k : ℕ) : w.values.meshes[k]? = w.meshes[k]?.map (view w.heap) := by
  simp [World.values]

/-- The result of an action is a well formed world with the values of the specification. -/
def Agree (r : Except PyErr World) (v : Except PyErr Values) : Prop :=
  r.map World.values = v ∧ ∀ w', r = .ok w' → WfW w'

lemma Agree.ok {w : World} {v : Values} (h : WfW w ∧ w.values = v) : Agree (.ok w) (.ok v) :=
  ⟨by simp [Except.map, h.2], fun _ e => by cases e; exact h.1⟩

lemma Agree.error (e : PyErr) : Agree (.error e) (.error e) := ⟨rfl, fun _ h => by cases h⟩

theorem step_agree (srt : (ℕ → ℝ) → List ℕ → List ℕ) (ord : List ℕ → List ℕ) {w : World} (hw : WfW w) (a : Act) :
    Agree (w.step srt ord a) (w.values.step srt ord a) := by
  cases a with
  | array x =>
    apply Agree.ok
    have frame : ∀ a < w.heap.length, (w.heap ++ [x])[a]? = w.heap[a]? :=
      fun a ha => by rw [List.getElem?_append_left ha]
    refine ⟨⟨?_, hw.sep, ?_, ?_, ?_⟩, ?_⟩
    · intro k m hm
      have := hw.mesh k m hm
      exact ⟨fun r a ha => by have := this.bound r a ha; simp at this ⊢; omega, this.inj⟩
    · intro i a ha
      rcases push_cases ha with ⟨_, rfl⟩ | ⟨_, h⟩
      · simp
      · have := hw.vars i a h; simp; omega
    · intro i j a hi hj
      rcases push_cases hi with ⟨e1, rfl⟩ | ⟨_, h1⟩ <;> rcases push_cases hj with ⟨e2, h2⟩ | ⟨_, h2⟩
      · omega
      · have := hw.vars j _ h2; omega
      · have := hw.vars i _ h1; omega
      · exact hw.varsInj i j a h1 h2
    · intro i a k m r hi hm he
      rcases push_cases hi with ⟨_, rfl⟩ | ⟨_, h⟩
      · have := (hw.mesh k m hm).bound r _ he; simp at this
      · exact hw.varsSep i a k m r h hm he
    · simp only [World.values, Values.mk.injEq, List.map_append, List.map_cons, List.map_nil]
      refine ⟨values_map_congr (fun j n hn => view_congr (fun r a ha => frame a ((hw.mesh j n hn).bound r a ha))), ?_⟩
      rw [vars_congr (h := w.heap) (fun i a ha => frame a (hw.vars i a ha))]
      simp
  | write i x =>
    simp only [World.step, Values.step]
    have e : w.values.vars[i]? = w.vars[i]?.map (fun a => w.heap.getD a (.reals [])) := by simp [World.values]
    rw [e]
    rcases hi : w.vars[i]? with _ | a
    · exact .error _
    · have frame : ∀ b, b ≠ a → (w.heap.set a x)[b]? = w.heap[b]? :=
        fun b hb => by rw [List.getElem?_set_ne (fun e => hb e.symm)]
      refine .ok ⟨⟨?_, hw.sep, ?_, hw.varsInj, hw.varsSep⟩, ?_⟩
      · intro k m hm
        have := hw.mesh k m hm
        exact ⟨fun r a ha => by have := this.bound r a ha; simpa using this, this.inj⟩
      · intro j b hb
        have := hw.vars j b hb; simpa using this
      · simp only [World.values, Values.mk.injEq]
        refine ⟨values_map_congr (fun j n hn => view_congr (fun r b hb => frame b ?_)), ?_⟩
        · rintro rfl; exact hw.varsSep i b j n r hi hn hb
        · apply List.ext_getElem?
          intro j
          rw [List.getElem?_set]
          by_cases e : i = j
          · subst e
            have h1 := hw.vars i a hi
            have h2 : i < w.vars.length := by
              by_contra hc; rw [List.getElem?_eq_none (by omega)] at hi; cases hi
            have h3 : w.vars[i] = a := by rw [List.getElem?_eq_getElem h2] at hi; simpa using hi
            simp [h1, h2, h3, List.getD]
          · simp only [e, if_false, List.getElem?_map]
            rcases hj : w.vars[j]? with _ | b
            · rfl
            · have : b ≠ a := by rintro rfl; exact e (hw.varsInj i j b hi hj)
              simp [List.getD, frame b this]
  | new v f =>
    simp only [World.step, Values.step, vecsArg_values hw, facesArg_values hw]
    rcases w.values.vecsArg v with e | lv
    · exact .error _
    rcases w.values.facesArg f with e | lf
    · exact .error _
    have := push_good hw (newMesh_fresh w.heap lv lf)
    rw [newMesh_view] at this
    exact .ok this
  | setVertices k s =>
    simp only [World.step, Values.step, vecsArg_values hw, values_meshes]
    rcases w.values.vecsArg s with e | l
    · exact .error _
    rcases hk : w.meshes[k]? with _ | m
    · exact .error _
    have g1 := St.storeV_good (hw.mesh k m hk) l
    have := put_good hw hk (g1.trans (St.clear_good g1.wf))
    rw [St.clear_view, St.storeV_view (hw.mesh k m hk)] at this
    exact .ok this
  | setFaces k s =>
    simp only [World.step, Values.step, facesArg_values hw, values_meshes]
    rcases w.values.facesArg s with e | l
    · exact .error _
    rcases hk : w.meshes[k]? with _ | m
    · exact .error _
    have g1 := St.storeF_good (hw.mesh k m hk) l
    have := put_good hw hk (g1.trans (St.clear_good g1.wf))
    rw [St.clear_view, St.storeF_view (hw.mesh k m hk)] at this
    exact .ok this
  | copy k =>
    simp only [World.step, Values.step, values_meshes]
    rcases hk : w.meshes[k]? with _ | m
    · exact .error _
    have := push_good hw (copyMesh_fresh w.heap m)
    rw [copyMesh_view] at this
    exact .ok this
  | add i j =>
    simp only [World.step, Values.step, values_meshes]
    rcases hi : w.meshes[i]? with _ | m
    · exact .error _
    rcases hj : w.meshes[j]? with _ | n
    · exact .error _
    simp only [Option.map_some]
    have f1 := newMesh_fresh w.heap (Mesh.concat (view w.heap m).mesh (view w.heap n).mesh).vertices
      (Mesh.concat (view w.heap m).mesh (view w.heap n).mesh).faces
    have hv := St.mergeDuplicates_view f1.wf srt Mesh.defaultAtol
    rw [newMesh_view] at hv
    unfold MeshObj.doMerge at hv
    unfold Mesh.add
    rcases hs : (World.newMesh w.heap (Mesh.concat (view w.heap m).mesh (view w.heap n).mesh).vertices
      (Mesh.concat (view w.heap m).mesh (view w.heap n).mesh).faces).mergeDuplicates srt Mesh.defaultAtol with e | s
    all_goals
      rw [hs] at hv
      rcases hq : Mesh.mergeDuplicates srt Mesh.defaultAtol
        (Mesh.concat (view w.heap m).mesh (view w.heap n).mesh) with e' | ⟨m', ids⟩
      all_goals
        have hq' := hq
        rw [show (Mesh.concat (view w.heap m).mesh (view w.heap n).mesh) =
          (MeshObj.new ⟨(Mesh.concat (view w.heap m).mesh (view w.heap n).mesh).vertices,
            (Mesh.concat (view w.heap m).mesh (view w.heap n).mesh).faces⟩).mesh from rfl] at hq'
        rw [hq'] at hv
    · simp only [Except.map, Except.error.injEq] at hv ⊢
      subst hv; exact .error _
    · simp [Except.map] at hv
    · simp [Except.map] at hv
    · simp only [Except.map, Except.ok.injEq] at hv ⊢
      have := push_good hw (f1.good (St.mergeDuplicates_good f1.wf hs))
      rw [hv] at this
      exact .ok this
  | extract k ids =>
    simp only [World.step, Values.step, values_meshes]
    rcases hk : w.meshes[k]? with _ | m
    · exact .error _
    simp only [Option.map_some]
    rcases (view w.heap m).mesh.extractFaces ids with e | r
    · exact .error _
    have := push_good hw (newMesh_fresh w.heap r.1.vertices r.1.faces)
    rw [newMesh_view] at this
    exact .ok this
  | call k op =>
    simp only [World.step, Values.step, values_meshes]
    rcases hk : w.meshes[k]? with _ | m
    · exact .error _
    simp only [Option.map_some]
    have hv := St.step_view srt ord (hw.mesh k m hk) op
    rw [show view w.heap m = St.view (w.heap, m) from rfl, ← hv]
    rcases hs : St.step srt ord (w.heap, m) op with e | s
    · exact .error _
    · exact .ok (put_good hw hk (St.step_good (hw.mesh k m hk) hs))
  | pokeVertices k l =>
    simp only [World.step, Values.step, values_meshes]
    rcases hk : w.meshes[k]? with _ | m
    · exact .error _
    simp only [Option.map_some]
    split
    · have := put_good hw hk (St.writeV_good (hw.mesh k m hk) l)
      rw [St.writeV_view (hw.mesh k m hk)] at this
      exact .ok this
    · exact .error _
  | pokeFaces k l =>
    simp only [World.step, Values.step, values_meshes]
    rcases hk : w.meshes[k]? with _ | m
    · exact .error _
    simp only [Option.map_some]
    split
    · have := put_good hw hk (St.writeF_good (hw.mesh k m hk) l)
      rw [St.writeF_view (hw.mesh k m hk)] at this
      exact .ok this
    · exact .error _

theorem run_agree (srt : (ℕ → ℝ) → List ℕ → List ℕ) (ord : List ℕ → List ℕ) : ∀ (as : List Act) {w : World},
    WfW w → Agree (w.run srt ord as) (w.values.run srt ord as)
  | [], w, hw => .ok ⟨hw, rfl⟩
  | a :: as, w, hw => by
    obtain ⟨h1, h2⟩ := step_agree srt ord hw a
    simp only [World.run, Values.run]
    rw [← h1]
    rcases hs : w.step srt ord a with e | w'
    · exact .error _
    · exact run_agree srt ord as (h2 w' hs)

end Alias
end MM
