import Verif.Spec.Session
import Verif.Proofs.Io
import Verif.Props.IoPnl

/-!
# Numbers and names of meshes over a session (C113)
-/

namespace MM.Sess

open MM MM.Io

/-! ### The numbers -/

lemma construct_objs (name : Option Str) (s : State) :
    ∃ n, construct name s = ⟨s.next + 1, s.objs ++ [⟨s.next, n⟩]⟩ := by
  unfold construct; exact ⟨_, rfl⟩

lemma set_id {l : List Obj} {i : ℕ} {o : Obj} (h : l[i]? = some o) (n : Str) :
    (l.set i ⟨o.id, n⟩).map Obj.id = l.map Obj.id := by
  rw [List.map_set]
  obtain ⟨hi, rfl⟩ := List.getElem?_eq_some_iff.1 h
  apply List.ext_getElem
  · simp
  · intro k h1 h2
    rw [List.getElem_set]
    split
    · subst_vars; simp
    · rfl

lemma step_ids (s : State) (op : Op) :
    ((step s op).objs.map Obj.id = s.objs.map Obj.id ∧ (step s op).next = s.next) ∨
    ((step s op).objs.map Obj.id = s.objs.map Obj.id ++ [s.next] ∧ (step s op).next = s.next + 1) ∨
    (∃ i o, op = .copy i ∧ s.objs[i]? = some o ∧ step s op = ⟨s.next, s.objs ++ [o]⟩) := by
  cases op with
  | make name =>
    right; left
    obtain ⟨n, h⟩ := construct_objs name s
    simp [step, h]
  | copy i =>
    cases h : s.objs[i]? with
    | none => left; simp [step, h]
    | some o => right; right; exact ⟨i, o, rfl, h, by simp [step, h]⟩
  | rename i name =>
    left
    cases h : s.objs[i]? with
    | none => simp [step, h]
    | some o => simp only [step, h]; exact ⟨set_id h name, trivial⟩
  | add i j =>
    cases h : s.objs[i]? with
    | none => left; simp [step, h]
    | some a =>
      cases h' : s.objs[j]? with
      | none => left; simp [step, h, h']
      | some b =>
        right; left
        obtain ⟨n, hc⟩ := construct_objs (some (a.name ++ '_' :: b.name)) s
        simp [step, h, h', hc]
  | extract i =>
    cases h : s.objs[i]? with
    | none => left; simp [step, h]
    | some o =>
      right; left
      obtain ⟨n, hc⟩ := construct_objs none s
      simp [step, h, hc]

lemma run_append (ops : List Op) (op : Op) : run (ops ++ [op]) = step (run ops) op := by
  simp [run, List.foldl_append]

/-- **C113 (numbers).** In every session without copies, the meshes are numbered 0, 1, 2, ... in the order of their
creation: no two meshes have the same number. -/
theorem C113_numbers (ops : List Op) (h : NoCopy ops) :
    (run ops).objs.map Obj.id = List.range (run ops).objs.length := by
  have key : (run ops).objs.map Obj.id = List.range (run ops).next := by
    induction ops using List.reverseRecOn with
    | nil => rfl
    | append_singleton ops op ih =>
      have ih := ih (fun o ho => h o (List.mem_append_left _ ho))
      rw [run_append]
      rcases step_ids (run ops) op with ⟨h1, h2⟩ | ⟨h1, h2⟩ | ⟨i, o, he, _, _⟩
      · rw [h1, h2, ih]
      · rw [h1, h2, ih, List.range_succ]
      · exact absurd he (h op (by simp) i)
  have hl : (run ops).objs.length = (run ops).next := by
    have := congrArg List.length key
    simpa using this
  rw [hl]; exact key

/-! ### The names -/

lemma isDigit_underscore : isDigit '_' = false := by decide

lemma natStr_isNumber (n : ℕ) : IsNumber (natStr n) := ⟨natStr_ne_nil n, natStr_digits n⟩

lemma autoName_inj {a b : ℕ} (h : autoName a = autoName b) : a = b := by
  have h1 : natStr a = natStr b := List.append_cancel_left h
  rw [← digitsVal_natStr a, ← digitsVal_natStr b, h1]

/-- A joined name looks automatic only when `mesh` is joined with a number. -/
lemma joined_automatic {a b : Str} (h : LooksAutomatic (a ++ '_' :: b)) : IsNumber b := by
  obtain ⟨d, he, hd⟩ := h
  have h4 : "mesh_".toList = "mesh".toList ++ ['_'] := by decide
  rw [h4, List.append_assoc] at he
  rcases List.append_eq_append_iff.1 he with ⟨x, h1, h2⟩ | ⟨x, h1, h2⟩
  · cases x with
    | nil => simp at h2; rw [h2]; exact hd
    | cons c x =>
      simp only [List.cons_append, List.cons.injEq] at h2
      have : '_' ∈ "mesh".toList := by rw [h1, h2.1]; simp
      exact absurd this (by decide)
  · cases x with
    | nil => simp at h2; rw [← h2]; exact hd
    | cons c x =>
      simp only [List.cons_append, List.nil_append, List.cons.injEq] at h2
      have : isDigit '_' = true := hd.2 '_' (by rw [h2.2]; simp)
      exact absurd this (by decide)

lemma not_number_of_mem {s : Str} {c : Char} (h : c ∈ s) (hc : isDigit c = false) : ¬ IsNumber s := by
  rintro ⟨_, h2⟩; rw [h2 c h] at hc; exact absurd hc (by decide)

lemma extracted_not_automatic (s : Str) : ¬ LooksAutomatic ("mesh_extracted_from_".toList ++ s) := by
  rintro ⟨d, he, hd⟩
  have h4 : "mesh_extracted_from_".toList = "mesh_".toList ++ "extracted_from_".toList := by decide
  rw [h4, List.append_assoc] at he
  have := List.append_cancel_left he
  exact not_number_of_mem (c := '_') (s := d) (by rw [← this]; simp) (by decide) hd

/-- Names are not numbers, and a name which looks automatic is the one of its number. -/
def Named (o : Obj) : Prop := ¬ IsNumber o.name ∧ (LooksAutomatic o.name → o.name = autoName o.id)

lemma autoName_named (n : ℕ) : Named ⟨n, autoName n⟩ :=
  ⟨not_number_of_mem (c := '_') (by simp [autoName]) (by decide), fun _ => rfl⟩

lemma construct_named {name : Option Str} {s : State}
    (hn : ∀ n, name = some n → ¬ IsNumber n ∧ ¬ LooksAutomatic n) (hs : ∀ o ∈ s.objs, Named o) :
    ∀ o ∈ (construct name s).objs, Named o := by
  intro o ho
  unfold construct at ho
  rcases List.mem_append.1 ho with ho | ho
  · exact hs o ho
  · rw [List.mem_singleton] at ho
    subst ho
    rcases name with _ | (_ | ⟨c, n⟩)
    · exact autoName_named _
    · exact autoName_named _
    · have := hn _ rfl
      exact ⟨this.1, fun h => absurd h this.2⟩

lemma step_named {s : State} (op : Op) (hn : ∀ n ∈ op.given, ¬ IsNumber n ∧ ¬ LooksAutomatic n)
    (hs : ∀ o ∈ s.objs, Named o) : ∀ o ∈ (step s op).objs, Named o := by
  cases op with
  | make name =>
    refine construct_named ?_ hs
    rintro n rfl
    exact hn n (by simp [Op.given])
  | copy i =>
    cases h : s.objs[i]? with
    | none => simpa [step, h] using hs
    | some o =>
      intro p hp
      simp only [step, h, List.mem_append, List.mem_singleton] at hp
      rcases hp with hp | rfl
      · exact hs p hp
      · exact hs p (List.mem_of_getElem? h)
  | rename i name =>
    cases h : s.objs[i]? with
    | none => simpa [step, h] using hs
    | some o =>
      intro p hp
      simp only [step, h] at hp
      rcases List.mem_or_eq_of_mem_set hp with hp | rfl
      · exact hs p hp
      · have := hn name (by simp [Op.given])
        exact ⟨this.1, fun h => absurd h this.2⟩
  | add i j =>
    cases h : s.objs[i]? with
    | none => simpa [step, h] using hs
    | some a =>
      cases h' : s.objs[j]? with
      | none => simpa [step, h, h'] using hs
      | some b =>
        simp only [step, h, h']
        refine construct_named ?_ hs
        intro n he
        obtain rfl := Option.some.inj he
        exact ⟨not_number_of_mem (c := '_') (by simp) (by decide),
          fun hl => (hs b (List.mem_of_getElem? h')).1 (joined_automatic hl)⟩
  | extract i =>
    cases h : s.objs[i]? with
    | none => simpa [step, h] using hs
    | some o =>
      intro p hp
      simp only [step, h] at hp
      rcases List.mem_or_eq_of_mem_set hp with hp | rfl
      · exact construct_named (by simp) hs p hp
      · exact ⟨not_number_of_mem (c := '_') (by simp) (by decide), fun hl => absurd hl (extracted_not_automatic _)⟩

lemma run_named (ops : List Op) (h : Unambiguous ops) : ∀ o ∈ (run ops).objs, Named o := by
  induction ops using List.reverseRecOn with
  | nil => intro o ho; cases ho
  | append_singleton ops op ih =>
    rw [run_append]
    exact step_named op (h op (by simp)) (ih (fun o ho => h o (List.mem_append_left _ ho)))

lemma run_below (ops : List Op) : ∀ o ∈ (run ops).objs, o.id < (run ops).next := by
  induction ops using List.reverseRecOn with
  | nil => intro o ho; cases ho
  | append_singleton ops op ih =>
    rw [run_append]
    have hm : ∀ k ∈ (run ops).objs.map Obj.id, k < (run ops).next := by
      intro k hk; obtain ⟨o, ho, rfl⟩ := List.mem_map.1 hk; exact ih o ho
    intro o ho
    rcases step_ids (run ops) op with ⟨h1, h2⟩ | ⟨h1, h2⟩ | ⟨i, p, _, hp, he⟩
    · rw [h2]; exact hm _ (h1 ▸ List.mem_map_of_mem ho)
    · have : o.id ∈ (run ops).objs.map Obj.id ++ [(run ops).next] := h1 ▸ List.mem_map_of_mem ho
      rw [h2]
      rcases List.mem_append.1 this with h | h
      · exact (hm _ h).trans (Nat.lt_succ_self _)
      · rw [List.mem_singleton] at h; omega
    · rw [he] at ho ⊢
      rcases List.mem_append.1 ho with h | h
      · exact ih o h
      · rw [List.mem_singleton] at h; subst h; exact ih o (List.mem_of_getElem? hp)

/-- **C113 (names).** In every session in which the user gives no name which is a number or `mesh_` followed by a number, a
mesh made without a name gets a name which no mesh of the session has. Copies, sums, extractions and renamings are
allowed. -/
theorem C113_fresh_name (ops : List Op) (h : Unambiguous ops) :
    ∃ o, (run (ops ++ [.make none])).objs = (run ops).objs ++ [o] ∧ ∀ p ∈ (run ops).objs, p.name ≠ o.name := by
  refine ⟨⟨(run ops).next, autoName (run ops).next⟩, by rw [run_append]; rfl, ?_⟩
  intro p hp he
  have h1 := (run_named ops h p hp).2 ⟨natStr (run ops).next, he, natStr_isNumber _⟩
  have h2 : p.id = (run ops).next := autoName_inj (h1.symm.trans he)
  have h3 := run_below ops p hp
  omega

/-- **C113 (two meshes).** In such a session without copies, two different meshes never share a name which looks
automatic. -/
theorem C113_automatic_names (ops : List Op) (h : Unambiguous ops) (hc : NoCopy ops) (i j : ℕ) (a b : Obj)
    (hi : (run ops).objs[i]? = some a) (hj : (run ops).objs[j]? = some b) (hl : LooksAutomatic a.name)
    (he : a.name = b.name) : i = j := by
  have h1 := (run_named ops h a (List.mem_of_getElem? hi)).2 hl
  have h2 := (run_named ops h b (List.mem_of_getElem? hj)).2 (he ▸ hl)
  have hid : a.id = b.id := autoName_inj (by rw [← h1, ← h2, he])
  have hn := C113_numbers ops hc
  have ha : ((run ops).objs.map Obj.id)[i]? = some a.id := by rw [List.getElem?_map, hi]; rfl
  have hb : ((run ops).objs.map Obj.id)[j]? = some b.id := by rw [List.getElem?_map, hj]; rfl
  rw [hn] at ha hb
  rw [List.getElem?_eq_some_iff] at ha hb
  obtain ⟨_, ha⟩ := ha
  obtain ⟨_, hb⟩ := hb
  rw [List.getElem_range] at ha hb
  omega

/-- A session with every operation. -/
def session : List Op :=
  [.make none, .make (some "hull".toList), .make (some []), .add 0 1, .extract 3, .rename 2 "mesh".toList]

lemma looksAutomatic_iff (s : Str) : LooksAutomatic s ↔ s.take 5 = "mesh_".toList ∧ IsNumber (s.drop 5) := by
  constructor
  · rintro ⟨d, rfl, hd⟩; exact ⟨by simp, by simpa using hd⟩
  · rintro ⟨h1, h2⟩; exact ⟨s.drop 5, by rw [← h1, List.take_append_drop], h2⟩

/-- The hypotheses of the theorems of C113 are met by a session, with these meshes. -/
theorem session_meets_C113 : Unambiguous session ∧ NoCopy session ∧
    (run session).objs = [⟨0, "mesh_0".toList⟩, ⟨1, "hull".toList⟩, ⟨2, "mesh".toList⟩, ⟨3, "mesh_0_hull".toList⟩,
      ⟨4, "mesh_extracted_from_mesh_0_hull".toList⟩] := by
  refine ⟨?_, ?_, by decide +kernel⟩
  · have : ∀ op ∈ session, ∀ n ∈ op.given, ¬ IsNumber n ∧ ¬ (n.take 5 = "mesh_".toList ∧ IsNumber (n.drop 5)) := by
      decide +kernel
    intro op ho n hn
    rw [looksAutomatic_iff]
    exact this op ho n hn
  · intro op ho i
    simp only [session, List.mem_cons, List.not_mem_nil, or_false] at ho
    rcases ho with rfl | rfl | rfl | rfl | rfl | rfl <;> simp

/-- A copy has the number and the name of the mesh it copies. -/
theorem C113_fails_for_copies (s : State) (i : ℕ) (o : Obj) (h : s.objs[i]? = some o) :
    (step s (.copy i)).objs = s.objs ++ [o] := by
  simp [step, h]

/-- Without the condition on the names given, an unnamed mesh can get the name of another one: the sum of a mesh named
`mesh` and of one named `3` has the name that the next unnamed mesh gets. -/
theorem C113_fails_for_numbers :
    (run [.make (some "mesh".toList), .make (some "3".toList), .add 0 1, .make none]).objs.map Obj.name =
      ["mesh".toList, "3".toList, "mesh_3".toList, "mesh_3".toList] := by decide +kernel

end MM.Sess
