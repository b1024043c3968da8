import Verif.Model.MmioIds
import Verif.Props.IoPnl
import Mathlib.Data.List.Forall2

/-!
# Node identifiers (C58), STL triangles (C56, C74), VTK conversions (C57)
-/

namespace MM.Io

open MM

/-! ### C58: node identifiers -/

theorem nodeDict_append (ids : List Str) (v w : Str) :
    nodeDict (ids ++ [v]) w = if v = w then some ids.length else nodeDict ids w := by
  simp [nodeDict, List.zipIdx_append]

theorem nodeDict_get (ids : List Str) (h : ids.Nodup) (i : ℕ) (w : Str) (hi : ids[i]? = some w) :
    nodeDict ids w = some i := by
  induction ids using List.reverseRecOn with
  | nil => simp at hi
  | append_singleton l v ih =>
    rw [nodeDict_append]
    rw [List.nodup_append] at h
    rcases Nat.lt_trichotomy i l.length with hlt | heq | hgt
    · have hl : l[i]? = some w := by rwa [List.getElem?_append_left hlt] at hi
      have hne : v ≠ w := by
        intro e
        have := h.2.2 w (List.mem_of_getElem? hl) v (by simp)
        exact this e.symm
      rw [if_neg hne]; exact ih h.1 hl
    · subst heq
      simp at hi
      rw [if_pos hi]
    · have : (l ++ [v])[i]? = none := by simp; omega
      rw [this] at hi; cases hi

/-- The line of a triangle names three nodes, whose coordinates are the given points. -/
def TriLine (nodes : List (Str × V3 ℚ)) (ws : List Str) (t : V3 ℚ × V3 ℚ × V3 ℚ) : Prop :=
  ∃ e a b c, ws = [e, a, b, c] ∧ (a, t.1) ∈ nodes ∧ (b, t.2.1) ∈ nodes ∧ (c, t.2.2) ∈ nodes

/-- The line of a quadrangle names four nodes, whose coordinates are the given points. -/
def QuadLine (nodes : List (Str × V3 ℚ)) (ws : List Str) (t : V3 ℚ × V3 ℚ × V3 ℚ × V3 ℚ) : Prop :=
  ∃ e a b c d, ws = [e, a, b, c, d] ∧ (a, t.1) ∈ nodes ∧ (b, t.2.1) ∈ nodes ∧ (c, t.2.2.1) ∈ nodes ∧ (d, t.2.2.2) ∈ nodes

/-- The face is a triangle with the given corners. -/
def IsTriangle (vs : List (V3 ℚ)) (t : V3 ℚ × V3 ℚ × V3 ℚ) (f : Face) : Prop :=
  f.isTri = true ∧ vs[f.a]? = some t.1 ∧ vs[f.b]? = some t.2.1 ∧ vs[f.c]? = some t.2.2

/-- The face has the given four corners. -/
def IsQuad (vs : List (V3 ℚ)) (t : V3 ℚ × V3 ℚ × V3 ℚ × V3 ℚ) (f : Face) : Prop :=
  vs[f.a]? = some t.1 ∧ vs[f.b]? = some t.2.1 ∧ vs[f.c]? = some t.2.2.1 ∧ vs[f.d]? = some t.2.2.2

theorem lookup_node (nodes : List (Str × V3 ℚ)) (h : (nodes.map Prod.fst).Nodup) {w : Str} {p : V3 ℚ}
    (hw : (w, p) ∈ nodes) : ∃ i, lookup (nodes.map Prod.fst) w = .ok i ∧ (nodes.map Prod.snd)[i]? = some p := by
  obtain ⟨i, hi, he⟩ := List.mem_iff_getElem.1 hw
  have h1 : (nodes.map Prod.fst)[i]? = some w := by simp [hi, he]
  refine ⟨i, ?_, by simp [hi, he]⟩
  unfold lookup
  rw [nodeDict_get _ h i w h1]

theorem mapAll_forall2 {α β γ : Type} (p : α → Except PyErr β) (P : α → γ → Prop) (Q : γ → β → Prop)
    (h : ∀ a c, P a c → ∃ b, p a = .ok b ∧ Q c b) (as : List α) (cs : List γ) (hf : List.Forall₂ P as cs) :
    ∃ bs, mapAll p as = .ok bs ∧ List.Forall₂ Q cs bs := by
  induction hf with
  | nil => exact ⟨[], rfl, .nil⟩
  | cons hab _ ih =>
    obtain ⟨b, h1, h2⟩ := h _ _ hab
    obtain ⟨bs, h3, h4⟩ := ih
    exact ⟨b :: bs, by simp [mapAll, h1, h3], .cons h2 h4⟩

/-- C58 for DAT files: whatever the identifiers of the nodes, provided they are distinct, every triangle line is loaded as a
triangle whose corners are the points of the nodes it names, and every quadrangle line as a face whose corners are the points
of the nodes it names. Triangles come first. -/
theorem C58_dat (nodes : List (Str × V3 ℚ)) (h : (nodes.map Prod.fst).Nodup) (tris quads : List (List Str))
    (tpts : List (V3 ℚ × V3 ℚ × V3 ℚ)) (qpts : List (V3 ℚ × V3 ℚ × V3 ℚ × V3 ℚ))
    (ht : List.Forall₂ (TriLine nodes) tris tpts) (hq : List.Forall₂ (QuadLine nodes) quads qpts) :
    ∃ m ft fq, loadDAT nodes tris quads = .ok m ∧ m.vertices = nodes.map Prod.snd ∧ m.faces = ft ++ fq ∧
      List.Forall₂ (IsTriangle m.vertices) tpts ft ∧ List.Forall₂ (IsQuad m.vertices) qpts fq := by
  obtain ⟨ft, h1, h2⟩ := mapAll_forall2 (datTriangle (nodes.map Prod.fst)) (TriLine nodes)
    (IsTriangle (nodes.map Prod.snd)) (by
      rintro ws ⟨p, q, r⟩ ⟨e, a, b, c, rfl, ha, hb, hc⟩
      obtain ⟨i, i1, i2⟩ := lookup_node nodes h ha
      obtain ⟨j, j1, j2⟩ := lookup_node nodes h hb
      obtain ⟨k, k1, k2⟩ := lookup_node nodes h hc
      exact ⟨⟨i, j, k, i⟩, by simp [datTriangle, i1, j1, k1], by simp [Face.isTri], i2, j2, k2⟩) tris tpts ht
  obtain ⟨fq, h3, h4⟩ := mapAll_forall2 (datQuad (nodes.map Prod.fst)) (QuadLine nodes)
    (IsQuad (nodes.map Prod.snd)) (by
      rintro ws ⟨p, q, r, s⟩ ⟨e, a, b, c, d, rfl, ha, hb, hc, hd⟩
      obtain ⟨i, i1, i2⟩ := lookup_node nodes h ha
      obtain ⟨j, j1, j2⟩ := lookup_node nodes h hb
      obtain ⟨k, k1, k2⟩ := lookup_node nodes h hc
      obtain ⟨l, l1, l2⟩ := lookup_node nodes h hd
      exact ⟨⟨i, j, k, l⟩, by simp [datQuad, i1, j1, k1, l1], i2, j2, k2, l2⟩) quads qpts hq
  exact ⟨⟨nodes.map Prod.snd, ft ++ fq⟩, ft, fq, by simp [loadDAT, h1, h3], rfl, rfl, h2, h4⟩

/-- Identifiers with gaps and out of order. -/
def datNodes : List (Str × V3 ℚ) :=
  [("7".toList, ⟨0, 0, 0⟩), ("3".toList, ⟨1, 0, 0⟩), ("12".toList, ⟨1, 1, 0⟩), ("5".toList, ⟨0, 1, 0⟩)]

example : loadDAT datNodes [["1".toList, "3".toList, "12".toList, "5".toList]]
    [["2".toList, "7".toList, "3".toList, "12".toList, "5".toList]] =
    .ok ⟨[⟨0, 0, 0⟩, ⟨1, 0, 0⟩, ⟨1, 1, 0⟩, ⟨0, 1, 0⟩], [⟨1, 2, 3, 1⟩, ⟨0, 1, 2, 3⟩]⟩ := by decide +kernel

example : (datNodes.map Prod.fst).Nodup ∧
    TriLine datNodes ["1".toList, "3".toList, "12".toList, "5".toList] (⟨1, 0, 0⟩, ⟨1, 1, 0⟩, ⟨0, 1, 0⟩) :=
  ⟨by decide, _, _, _, _, rfl, by decide +kernel, by decide +kernel, by decide +kernel⟩

/-- The corners of an element (a list of node identifiers) are right in the loaded arrays. -/
def CornersRight (nodes : List (ℕ × V3 ℚ)) (vs : List (V3 ℚ)) (e : List ℤ) (row : List ℤ) : Prop :=
  List.Forall₂ (fun (n q : ℤ) => 0 ≤ q ∧ ∃ p, (n.toNat, p) ∈ nodes ∧ vs[q.toNat]? = some p) e row

/-- C58 for HST, RAD and MSH files, what holds: if the nodes are numbered 1, 2, 3, … in the order of the file, the corners of
the faces are the points of the nodes they name. -/
theorem C58_sequential_partial (nodes : List (ℕ × V3 ℚ)) (h : ∀ i p, nodes[i]? = some p → p.1 = i + 1)
    (elems : List (List ℤ)) (he : ∀ e ∈ elems, ∀ n ∈ e, 1 ≤ n ∧ n ≤ nodes.length) :
    List.Forall₂ (CornersRight nodes (loadDropIds nodes elems).1) elems (loadDropIds nodes elems).2 := by
  unfold loadDropIds minusOne
  simp only
  induction elems with
  | nil => exact .nil
  | cons e elems ih =>
    refine .cons ?_ (ih (fun e h => he e (by simp [h])))
    have hh := he e (by simp)
    unfold CornersRight
    clear ih he
    induction e with
    | nil => exact .nil
    | cons n e ih =>
      refine .cons ?_ (ih (fun n h => hh n (by simp [h])))
      obtain ⟨h1, h2⟩ := hh n (by simp)
      refine ⟨by simp only; omega, ?_⟩
      obtain ⟨i, rfl⟩ : ∃ i : ℕ, n = (i : ℤ) + 1 := ⟨(n - 1).toNat, by omega⟩
      have hi : i < nodes.length := by omega
      have hp := h i nodes[i] (by simp [hi])
      refine ⟨nodes[i].2, ?_, by simp [hi]⟩
      have : ((i : ℤ) + 1).toNat = nodes[i].1 := by omega
      rw [this]
      exact List.getElem_mem hi

example : List.Forall₂ (CornersRight [(1, ⟨0, 0, 0⟩), (2, ⟨1, 0, 0⟩), (3, ⟨0, 1, 0⟩)] [⟨0, 0, 0⟩, ⟨1, 0, 0⟩, ⟨0, 1, 0⟩])
    [[3, 2, 1, 3]] [[2, 1, 0, 2]] :=
  C58_sequential_partial [(1, ⟨0, 0, 0⟩), (2, ⟨1, 0, 0⟩), (3, ⟨0, 1, 0⟩)] (by
    intro i p h
    match i, h with
    | 0, h => cases h; rfl
    | 1, h => cases h; rfl
    | 2, h => cases h; rfl
    | i + 3, h => simp at h) [[3, 2, 1, 3]] (by decide)

/-- C58 is violated by the MSH, HST and RAD loaders: the identifiers of the nodes are not read. Here the nodes 3, 1, 2 are
given in this order, and the triangle 1, 2, 3 gets the points of 3, 1, 2. -/
theorem C58_drop_fails :
    loadMSH22 [(3, ⟨0, 0, 1⟩), (1, ⟨1, 0, 0⟩), (2, ⟨0, 1, 0⟩)] [[1, 2, 2, 0, 1, 1, 2, 3]] [] =
      ([⟨0, 0, 1⟩, ⟨1, 0, 0⟩, ⟨0, 1, 0⟩], [[0, 1, 2, 0]]) ∧
    ¬ CornersRight [(3, ⟨0, 0, 1⟩), (1, ⟨1, 0, 0⟩), (2, ⟨0, 1, 0⟩)] [⟨0, 0, 1⟩, ⟨1, 0, 0⟩, ⟨0, 1, 0⟩]
      [1, 2, 3, 1] [0, 1, 2, 0] := by
  refine ⟨by decide +kernel, ?_⟩
  intro h
  have h1 := (List.forall₂_cons.1 h).1
  obtain ⟨-, p, h2, h3⟩ := h1
  simp at h2 h3
  rw [h2] at h3
  simp at h3

/-- Triangles of MSH files (three nodes at the end of the line) are loaded as triangles, quadrangles as they are. -/
theorem C73_msh (pre : List ℤ) (a b c d : ℤ) :
    mshElem true (pre ++ [a, b, c]) = [a, b, c, a] ∧ mshElem false (pre ++ [a, b, c, d]) = [a, b, c, d] := by
  simp [mshElem]

/-- A MAR file whose nodes are not numbered in order: the numbers are not read either. -/
theorem C58_mar_fails :
    loadMAR "2 0\n3 0 0 1\n1 1 0 0\n2 0 1 0\n0 0 0 0\n1 2 3 1\n0 0 0 0\n".toList =
      .ok ⟨[[0, 0, 1], [1, 0, 0], [0, 1, 0]], [[0, 1, 2, 0]]⟩ := by decide +kernel

/-! #### INP -/

theorem idNew_length (ids : List ℕ) : (idNew ids).length = ids.foldl max 0 + 1 := by
  have : ∀ (l : List (ℕ × ℕ)) (a : List ℤ), (l.foldl (fun a p => a.set p.1 ((p.2 : ℤ) + 1)) a).length = a.length := by
    intro l
    induction l with
    | nil => intro a; rfl
    | cons p l ih => intro a; simp [ih]
  unfold idNew
  rw [this]; simp

theorem le_foldl_max (l : List ℕ) : ∀ (a : ℕ), a ≤ l.foldl max a ∧ ∀ n ∈ l, n ≤ l.foldl max a := by
  induction l with
  | nil => intro a; simp
  | cons m l ih =>
    intro a
    obtain ⟨h1, h2⟩ := ih (max a m)
    simp only [List.foldl_cons]
    refine ⟨le_trans (le_max_left _ _) h1, ?_⟩
    intro n hn
    rcases List.mem_cons.1 hn with rfl | hn
    · exact le_trans (le_max_right _ _) h1
    · exact h2 n hn

theorem foldl_set_get (l : List ℕ) (k : ℕ) (a : List ℤ) (h : l.Nodup) (i n : ℕ) (hi : l[i]? = some n) (hn : n < a.length) :
    ((l.zipIdx k).foldl (fun a p => a.set p.1 ((p.2 : ℤ) + 1)) a)[n]? = some ((k : ℤ) + i + 1) := by
  induction l generalizing k a i with
  | nil => simp at hi
  | cons m l ih =>
    simp only [List.zipIdx_cons, List.foldl_cons]
    rw [List.nodup_cons] at h
    cases i with
    | zero =>
      simp only [List.getElem?_cons_zero, Option.some.injEq] at hi
      subst hi
      have key : ∀ (l : List ℕ) (k : ℕ) (a : List ℤ), m ∉ l →
          ((l.zipIdx k).foldl (fun a p => a.set p.1 ((p.2 : ℤ) + 1)) a)[m]? = a[m]? := by
        intro l
        induction l with
        | nil => intro k a _; rfl
        | cons x l ih =>
          intro k a hx
          simp only [List.mem_cons, not_or] at hx
          simp only [List.zipIdx_cons, List.foldl_cons]
          rw [ih _ _ hx.2, List.getElem?_set_ne (Ne.symm hx.1)]
      rw [key _ _ _ h.1]
      simp [hn]
    | succ i =>
      have := ih (k + 1) (a.set m ((k : ℤ) + 1)) h.2 i (by simpa using hi) (by simpa using hn)
      rw [this]; push_cast; congr 1; ring

theorem renum_node (nodes : List (ℕ × V3 ℚ)) (h : (nodes.map Prod.fst).Nodup) {n : ℕ} {p : V3 ℚ} (hn : (n, p) ∈ nodes) :
    ∃ i : ℕ, renum (nodes.map Prod.fst) n = .ok ((i : ℤ) + 1) ∧ nodes[i]? = some (n, p) := by
  obtain ⟨i, hi, he⟩ := List.mem_iff_getElem.1 hn
  refine ⟨i, ?_, by simp [hi, he]⟩
  unfold renum idNew
  have hm := (le_foldl_max (nodes.map Prod.fst) 0).2 n (List.mem_map.2 ⟨_, hn, rfl⟩)
  rw [foldl_set_get _ _ _ h i n (by simp [hi, he]) (by simp; omega)]
  simp

/-- C58 for an INP file which calls one DAT file with one section of quadrangles, then its elements: whatever the (distinct)
identifiers of the nodes, the corners of the faces are the points of the nodes they name, moved by the frame. -/
theorem C58_inp_single_partial (f : DatFile) (frame : V3 ℚ) (idx : ℕ) (inc : Bool) (elems : List (List ℕ))
    (hn : f.nodes ≠ []) (h : (f.nodes.map Prod.fst).Nodup) (hs : f.sections = [elems]) (hne : elems ≠ [])
    (h4 : ∀ e ∈ elems, e.length = 4) (he : ∀ e ∈ elems, ∀ n ∈ e, ∃ p, (n, p) ∈ f.nodes) :
    ∃ vs fs, loadINP (fun _ => f) idx [.node 0 frame inc, .element 0] = .ok (vs, fs) ∧
      List.Forall₂ (fun (e : List ℕ) (row : List ℤ) => List.Forall₂ (fun (n : ℕ) (q : ℤ) =>
        ∃ (i : ℕ) (p : V3 ℚ), q = i ∧ (n, p) ∈ f.nodes ∧ vs[i]? = some (p + frame)) e row) elems fs := by
  have key : ∀ e ∈ elems, ∃ row : List ℤ, inpElem (f.nodes.map Prod.fst) e = .ok row ∧
      List.Forall₂ (fun (n : ℕ) (q : ℤ) => ∃ (i : ℕ) (p : V3 ℚ), q = (i : ℤ) + 1 ∧ (n, p) ∈ f.nodes ∧
        f.nodes[i]? = some (n, p)) e row := by
    intro e hee
    have : ∀ l : List ℕ, (∀ n ∈ l, ∃ p, (n, p) ∈ f.nodes) → ∃ row, mapAll (renum (f.nodes.map Prod.fst)) l = .ok row ∧
        List.Forall₂ (fun (n : ℕ) (q : ℤ) => ∃ (i : ℕ) (p : V3 ℚ), q = (i : ℤ) + 1 ∧ (n, p) ∈ f.nodes ∧
          f.nodes[i]? = some (n, p)) l row := by
      intro l
      induction l with
      | nil => intro _; exact ⟨[], rfl, .nil⟩
      | cons n l ih =>
        intro hl
        obtain ⟨p, hp⟩ := hl n (by simp)
        obtain ⟨i, h1, h2⟩ := renum_node f.nodes h hp
        obtain ⟨row, h3, h5⟩ := ih (fun n h => hl n (by simp [h]))
        exact ⟨_ :: row, by simp [mapAll, h1, h3], .cons ⟨i, p, rfl, hp, h2⟩ h5⟩
    obtain ⟨row, h1, h2⟩ := this e (he e hee)
    have hl : row.length = 4 := by rw [← h2.length_eq, h4 e hee]
    exact ⟨row, by simp [inpElem, h1, hl], h2⟩
  have key2 : ∀ l : List (List ℕ), (∀ e ∈ l, e ∈ elems) → ∃ rows, mapAll (inpElem (f.nodes.map Prod.fst)) l = .ok rows ∧
      List.Forall₂ (fun e row => List.Forall₂ (fun (n : ℕ) (q : ℤ) => ∃ (i : ℕ) (p : V3 ℚ), q = (i : ℤ) + 1 ∧
        (n, p) ∈ f.nodes ∧ f.nodes[i]? = some (n, p)) e row) l rows := by
    intro l
    induction l with
    | nil => intro _; exact ⟨[], rfl, .nil⟩
    | cons e l ih =>
      intro hl
      obtain ⟨row, h1, h2⟩ := key e (hl e (by simp))
      obtain ⟨rows, h3, h5⟩ := ih (fun e h => hl e (by simp [h]))
      exact ⟨row :: rows, by simp [mapAll, h1, h3], .cons h2 h5⟩
  obtain ⟨rows, h1, h2⟩ := key2 elems (fun _ h => h)
  have hsec : inpSections f = .ok [rows] := by
    unfold inpSections
    rw [hs]
    simp [mapAll, h1]
  refine ⟨f.nodes.map (fun p => p.2 + frame), minusOne rows, ?_, ?_⟩
  · have hr : rows ≠ [] := by
      rintro rfl
      exact hne (by simpa using h2.length_eq)
    simp [loadINP, inpRun, inpStep, hsec, inpDone, hr]
  · clear h1 hsec key key2 hs h4 he hne
    unfold minusOne
    induction h2 with
    | nil => exact .nil
    | cons ha _ ih =>
      refine .cons ?_ ih
      clear ih
      induction ha with
      | nil => exact .nil
      | cons hb _ ih =>
        refine .cons ?_ ih
        obtain ⟨i, p, rfl, hp, hi⟩ := hb
        exact ⟨i, p, by ring, hp, by simp [hi]⟩

/-- C58 is violated by the INP loader when parts are appended (`INCREMENT=YES`): the elements which follow are shifted by the
number of nodes counted after the part was appended, so that all their numbers are out of the array of vertices. -/
theorem C58_inp_increment_fails (files : ℕ → DatFile) (idx : ℕ) (s s1 s2 : InpState) (file : ℕ) (frame : V3 ℚ)
    (hs : s.nbNodes ≠ 0) (h1 : inpStep files idx s (.node file frame true) = .ok s1)
    (h2 : inpStep files idx s1 (.element file) = .ok s2)
    (hpos : ∀ secs, inpSections (files file) = .ok secs → ∀ sec ∈ secs, ∀ e ∈ sec, ∀ n ∈ e, 1 ≤ n) :
    ∃ old new, s2.faces = old ++ new ∧ (∃ secs, inpSections (files file) = .ok secs ∧ ∃ sec ∈ secs, new.length = sec.length) ∧
      ∀ row ∈ minusOne new, ∀ q ∈ row, (s2.vertices.length : ℤ) ≤ q := by
  simp only [inpStep, if_neg hs, if_true, Except.ok.injEq] at h1
  subst h1
  simp only [inpStep] at h2
  cases hsec : inpSections (files file) with
  | error e => rw [hsec] at h2; cases h2
  | ok secs =>
    rw [hsec] at h2
    simp only at h2
    cases hu : secs[s.used file]? with
    | none => rw [hu] at h2; cases h2
    | some elems =>
      rw [hu] at h2
      simp only [Except.ok.injEq, if_true] at h2
      subst h2
      have hmem := List.mem_of_getElem? hu
      refine ⟨if s.nbElems = 0 then [] else s.faces,
        elems.map (fun e => e.map (· + ((s.vertices ++ (files file).nodes.map fun p => p.2 + frame).length : ℤ))), ?_,
        ⟨secs, rfl, elems, hmem, by simp⟩, ?_⟩
      · simp only
        split <;> rfl
      · intro row hrow q hq
        simp only [minusOne, List.mem_map] at hrow
        obtain ⟨r, ⟨e, he, rfl⟩, rfl⟩ := hrow
        simp only [List.mem_map] at hq
        obtain ⟨y, ⟨n, hn, rfl⟩, rfl⟩ := hq
        have := hpos secs hsec elems hmem e he n hn
        simp only
        omega

/-- Two parts of a triangle each, the second one appended. -/
def inpPart : DatFile := ⟨[(10, ⟨0, 0, 0⟩), (30, ⟨1, 0, 0⟩), (20, ⟨0, 1, 0⟩)], [[[10, 30, 20]]]⟩

example : loadINP (fun _ => inpPart) 20 [.node 0 ⟨0, 0, 0⟩ false, .element 0] =
    .ok ([⟨0, 0, 0⟩, ⟨1, 0, 0⟩, ⟨0, 1, 0⟩], [[0, 1, 2, 0]]) := by decide +kernel

/-- The second triangle should be `[3, 4, 5, 3]`; the vertices 6, 7, 8 do not exist. -/
example : loadINP (fun _ => inpPart) 20 [.node 0 ⟨0, 0, 0⟩ false, .element 0, .node 0 ⟨0, 0, 1⟩ true, .element 0] =
    .ok ([⟨0, 0, 0⟩, ⟨1, 0, 0⟩, ⟨0, 1, 0⟩, ⟨0, 0, 1⟩, ⟨1, 0, 1⟩, ⟨0, 1, 1⟩], [[0, 1, 2, 0], [6, 7, 8, 6]]) := by
  decide +kernel

example : ∃ vs fs, loadINP (fun _ => ⟨inpPart.nodes, [[[10, 30, 20, 10]]]⟩) 20 [.node 0 ⟨0, 0, 5⟩ false, .element 0] =
    .ok (vs, fs) ∧ fs.length = 1 := by
  obtain ⟨vs, fs, h1, h2⟩ := C58_inp_single_partial ⟨inpPart.nodes, [[[10, 30, 20, 10]]]⟩ ⟨0, 0, 5⟩ 20 false
    [[10, 30, 20, 10]] (by decide) (by decide) rfl (by decide) (by decide) (by
      simp [inpPart])
  exact ⟨vs, fs, h1, by rw [← h2.length_eq]; rfl⟩

/-! ### C56, C74: STL -/

/-- C56 is violated by `write_STL`: the faces of the caller are unchanged only if there is no quadrangle. -/
theorem C56_stl (faces : List Face) : (stlFaces faces).1 = faces ↔ ∀ f ∈ faces, f.isTri = true := by
  unfold stlFaces
  simp only
  constructor
  · intro h f hf
    by_contra hne
    have hne' : f.a ≠ f.d := by simpa [Face.isTri] using hne
    have : ∀ l : List Face, l.map (fun f => if f.a ≠ f.d then (⟨f.a, f.c, f.d, f.a⟩ : Face) else f) = l → f ∈ l → False := by
      intro l
      induction l with
      | nil => simp
      | cons g l ih =>
        intro hl hfl
        rw [List.map_cons, List.cons.injEq] at hl
        rcases List.mem_cons.1 hfl with rfl | hfl
        · rw [if_pos hne'] at hl
          have h1 := congrArg Face.d hl.1
          exact hne' h1
        · exact ih hl.2 hfl
    exact this faces h hf
  · intro h
    conv_rhs => rw [← List.map_id faces]
    apply List.map_congr_left
    intro f hf
    have : f.a = f.d := by simpa [Face.isTri] using h f hf
    rw [if_neg (by simpa using this)]; rfl

/-- A writer leaves the faces of its caller unchanged. -/
theorem C56_fails : ¬ ∀ faces : List Face, (stlFaces faces).1 = faces := by
  intro h
  have := (C56_stl [⟨0, 1, 2, 3⟩]).1 (h _) ⟨0, 1, 2, 3⟩ (by simp)
  exact absurd this (by decide)

/-- The triangles of a face: itself, or the two halves of a quadrangle. -/
def triangles (f : Face) : List Face := if f.isTri then [f] else [⟨f.a, f.b, f.c, f.a⟩, ⟨f.a, f.c, f.d, f.a⟩]

/-- C74: an STL file has, up to their order, the triangles of the faces of the mesh, quadrangles being cut along their
first diagonal; all are triangles, so the writer never refuses a mesh. -/
theorem C74_stl (faces : List Face) :
    ((stlFaces faces).2).Perm (faces.flatMap triangles) ∧ ∀ f ∈ (stlFaces faces).2, f.isTri = true := by
  constructor
  · unfold stlFaces
    simp only
    induction faces with
    | nil => rfl
    | cons f faces ih =>
      by_cases hf : f.a = f.d
      · have ht : f.isTri = true := by simpa [Face.isTri] using hf
        simp only [List.map_cons, List.flatMap_cons, triangles, ht, if_true, List.filter_cons, ne_eq, hf, not_true_eq_false,
          if_false, decide_false, Bool.false_eq_true, List.cons_append, List.nil_append] at ih ⊢
        exact ih.cons _
      · have ht : f.isTri = false := by simpa [Face.isTri] using hf
        simp only [List.map_cons, List.flatMap_cons, triangles, ht, List.filter_cons, ne_eq, hf, not_false_eq_true, if_true,
          decide_true, Bool.false_eq_true, if_false, List.cons_append, List.nil_append] at ih ⊢
        refine List.Perm.trans ?_ (List.Perm.swap _ _ _)
        refine List.Perm.cons _ ?_
        refine List.Perm.trans List.perm_middle ?_
        exact ih.cons _
  · intro f hf
    unfold stlFaces at hf
    simp only [List.mem_append, List.mem_map, List.mem_filter] at hf
    rcases hf with ⟨g, _, rfl⟩ | ⟨g, _, rfl⟩
    · split
      · simp [Face.isTri]
      · rename_i h; simpa [Face.isTri] using h
    · simp [Face.isTri]

example : stlFaces [⟨0, 1, 2, 3⟩, ⟨4, 5, 6, 4⟩] =
    ([⟨0, 2, 3, 0⟩, ⟨4, 5, 6, 4⟩], [⟨0, 2, 3, 0⟩, ⟨4, 5, 6, 4⟩, ⟨0, 1, 2, 0⟩]) := by decide

/-! ### C57: VTK -/

theorem dump_pd (f : Face) : dumpCell (pdCell f) = some f := by
  unfold pdCell
  split
  · rename_i h; simp [dumpCell]; ext <;> simp [h]
  · simp [dumpCell]

theorem mapM_some {α β : Type} (g : α → Option β) (k : α → β) (l : List α) (h : ∀ a ∈ l, g a = some (k a)) :
    l.mapM g = some (l.map k) := by
  induction l with
  | nil => rfl
  | cons a l ih =>
    rw [List.mapM_cons, h a (by simp), ih (fun a h' => h a (by simp [h']))]
    rfl

/-- C57: a mesh put into a `vtkPolyData` and read back has the same faces, whatever they are, and the vertices as the points
of vtk keep them. -/
theorem C57_polydata (store : V3 ℚ → V3 ℚ) (m : Mesh ℚ) :
    pdRoundTrip store m = some ⟨m.vertices.map store, m.faces⟩ := by
  unfold pdRoundTrip
  rw [mapM_some _ id _ (fun f _ => dump_pd f)]
  simp

/-- What is left of a face put into a `vtkUnstructuredGrid`. -/
def ugFace (f : Face) : Face := if f.d = f.b ∨ f.d = f.c then ⟨f.a, f.b, f.c, f.a⟩ else f

theorem dump_ug (f : Face) : dumpCell (ugCell f) = some (ugFace f) := by
  unfold ugCell ugFace
  by_cases h1 : f.d = f.b ∨ f.d = f.c
  · rw [if_pos (by simp; tauto), if_pos h1]; rfl
  · rw [if_neg h1]
    by_cases h2 : f.d = f.a
    · rw [if_pos (by simp [h2])]; simp [dumpCell]; ext <;> simp [h2]
    · rw [if_neg (by simp; tauto)]; rfl

/-- C57 for `vtkUnstructuredGrid`: with at least three vertices, the vertices are those of the mesh; the faces are the same
except those whose last vertex is the second or the third one, which become triangles. -/
theorem C57_unstructured (store : V3 ℚ → V3 ℚ) (junk : List (V3 ℚ)) (m : Mesh ℚ) (h : 3 ≤ m.nv) :
    ugRoundTrip store junk m = some ⟨m.vertices.map store, m.faces.map ugFace⟩ := by
  unfold ugRoundTrip
  rw [mapM_some _ ugFace _ (fun f _ => dump_ug f), Nat.sub_eq_zero_of_le h]
  simp

/-- The faces are unchanged for meshes in the form used by meshmagick: triangles repeat their first vertex, quadrangles have
four different vertices. -/
theorem C57_unstructured_faces (fs : List Face) (h : ∀ f ∈ fs, f.d ≠ f.b ∧ f.d ≠ f.c) : fs.map ugFace = fs := by
  conv_rhs => rw [← List.map_id fs]
  apply List.map_congr_left
  intro f hf
  unfold ugFace
  rw [if_neg (by have := h f hf; tauto)]; rfl

/-- With less than three vertices there are points which are in no mesh. -/
theorem C57_few_vertices_fails (store : V3 ℚ → V3 ℚ) (junk : List (V3 ℚ)) (hj : 3 ≤ junk.length) (m m' : Mesh ℚ)
    (h : m.nv < 3) (he : ugRoundTrip store junk m = some m') : m'.nv = 3 := by
  unfold ugRoundTrip at he
  rw [mapM_some _ ugFace _ (fun f _ => dump_ug f)] at he
  simp only [Option.map_some, Option.some.injEq] at he
  subst he
  unfold Mesh.nv at h ⊢
  simp
  omega

example : ugRoundTrip id [] ⟨sample.vertices, [⟨0, 1, 2, 3⟩, ⟨0, 1, 2, 0⟩, ⟨0, 1, 2, 2⟩]⟩ =
    some ⟨sample.vertices, [⟨0, 1, 2, 3⟩, ⟨0, 1, 2, 0⟩, ⟨0, 1, 2, 0⟩]⟩ := by decide +kernel

end MM.Io
