import Verif.Model.Cli
import Verif.Props.Formats
import Verif.Props.Cache
import Verif.Props.Equilibrium

/-!
# The command line program: C61 (order of the operations), C62 (planes), C63 (hydrostatics modes), C71 (options without
effect), C72 (inertia of the final mesh)
-/

namespace MM
namespace Cli

set_option linter.unusedSimpArgs false

open MeshObj

/-! ## C61 -/

/-- Elementary rotations around the fixed axes, angles in degrees. -/
noncomputable def turnX (deg : ℝ) (v : V3 ℝ) : V3 ℝ :=
  let t := deg * Real.pi / 180
  ⟨v.x, Real.cos t * v.y - Real.sin t * v.z, Real.sin t * v.y + Real.cos t * v.z⟩
noncomputable def turnY (deg : ℝ) (v : V3 ℝ) : V3 ℝ :=
  let t := deg * Real.pi / 180
  ⟨Real.cos t * v.x + Real.sin t * v.z, v.y, -Real.sin t * v.x + Real.cos t * v.z⟩
noncomputable def turnZ (deg : ℝ) (v : V3 ℝ) : V3 ℝ :=
  let t := deg * Real.pi / 180
  ⟨Real.cos t * v.x - Real.sin t * v.y, Real.sin t * v.x + Real.cos t * v.y, v.z⟩

/-- Where the documentation puts a point: it is translated (by the vector then along x, y, z), then rotated (by the vector of
angles, around x, then y, then z, then by the single angles), then scaled (globally, then along x, y, z). An option that is
not given changes nothing. -/
noncomputable def placed (a : Args) (p : V3 ℝ) : V3 ℝ :=
  let p := p + a.translate.getD ⟨0, 0, 0⟩
  let p : V3 ℝ := ⟨p.x + a.translateX.getD 0, p.y + a.translateY.getD 0, p.z + a.translateZ.getD 0⟩
  let r := a.rotate.getD ⟨0, 0, 0⟩
  let p := turnZ r.z (turnY r.y (turnX r.x p))
  let p := turnZ (a.rotateZ.getD 0) (turnY (a.rotateY.getD 0) (turnX (a.rotateX.getD 0) p))
  let s := a.scale.getD 1
  ⟨s * p.x * a.scaleX.getD 1, s * p.y * a.scaleY.getD 1, s * p.z * a.scaleZ.getD 1⟩

/-- All the scaling factors given are positive. -/
def ScalesPositive (a : Args) : Prop :=
  ∀ x, (a.scale = some x ∨ a.scaleX = some x ∨ a.scaleY = some x ∨ a.scaleZ = some x) → 0 < x

lemma turnX_zero (v : V3 ℝ) : turnX 0 v = v := by simp [turnX]
lemma turnY_zero (v : V3 ℝ) : turnY 0 v = v := by simp [turnY]
lemma turnZ_zero (v : V3 ℝ) : turnZ 0 v = v := by simp [turnZ]

lemma rotX_eq (t : ℝ) (v : V3 ℝ) : (cardanToRotmat (radians t) 0 0).mulVec v = turnX t v :=
  (C18_rotate ⟨[], []⟩ (radians t) 0 0 0).2.2.2.2.2.1 v
lemma rotY_eq (t : ℝ) (v : V3 ℝ) : (cardanToRotmat 0 (radians t) 0).mulVec v = turnY t v :=
  (C18_rotate ⟨[], []⟩ (radians t) 0 0 0).2.2.2.2.2.2.1 v
lemma rotZ_eq (t : ℝ) (v : V3 ℝ) : (cardanToRotmat 0 0 (radians t)).mulVec v = turnZ t v :=
  (C18_rotate ⟨[], []⟩ (radians t) 0 0 0).2.2.2.2.2.2.2 v

lemma rot_eq (r v : V3 ℝ) : (cardanToRotmat (radians r.x) (radians r.y) (radians r.z)).mulVec v =
    turnZ r.z (turnY r.y (turnX r.x v)) := by
  have h := (C18_rotate ⟨[v], []⟩ 0 (radians r.x) (radians r.y) (radians r.z)).2.2.2.2.1
  simp only [Mesh.rotate, Mesh.rotateX, Mesh.rotateY, Mesh.rotateZ, Mesh.rotateMatrix, Mesh.mapVertices, Mesh.mk.injEq,
    List.map_cons, List.map_nil, List.cons.injEq, and_true] at h
  rw [h, rotX_eq, rotY_eq, rotZ_eq]

lemma run_append (srt : (ℕ → ℝ) → List ℕ → List ℕ) (ord : List ℕ → List ℕ) (l1 l2 : List Op) (o : MeshObj) :
    run srt ord (l1 ++ l2) o = match run srt ord l1 o with | .error e => .error e | .ok o' => run srt ord l2 o' := by
  induction l1 generalizing o with
  | nil => rfl
  | cons op l1 ih =>
    simp only [List.cons_append, run]
    cases MeshObj.step srt ord o op with
    | error e => rfl
    | ok o' => exact ih o'

/-- The outcome of a list of moves: it maps the vertices. -/
def Maps (srt : (ℕ → ℝ) → List ℕ → List ℕ) (ord : List ℕ → List ℕ) (l : List Op) (f : V3 ℝ → V3 ℝ) : Prop :=
  ∀ o, ∃ o', run srt ord l o = .ok o' ∧ o'.mesh = o.mesh.mapVertices f

lemma Maps.append {srt : (ℕ → ℝ) → List ℕ → List ℕ} {ord : List ℕ → List ℕ} {l1 l2 : List Op} {f g : V3 ℝ → V3 ℝ}
    (h1 : Maps srt ord l1 f) (h2 : Maps srt ord l2 g) : Maps srt ord (l1 ++ l2) (fun v => g (f v)) := by
  intro o
  obtain ⟨o1, e1, m1⟩ := h1 o
  obtain ⟨o2, e2, m2⟩ := h2 o1
  refine ⟨o2, by rw [run_append, e1]; exact e2, ?_⟩
  rw [m2, m1]
  simp [Mesh.mapVertices, Function.comp_def]

lemma Maps.option {srt : (ℕ → ℝ) → List ℕ → List ℕ} {ord : List ℕ → List ℕ} {α : Type*} (x : Option α) (op : α → Op)
    (d : α) (f : α → V3 ℝ → V3 ℝ) (hd : ∀ v, f d v = v)
    (h : ∀ a, x = some a → ∀ o, ∃ o', MeshObj.step srt ord o (op a) = .ok o' ∧ o'.mesh = o.mesh.mapVertices (f a)) :
    Maps srt ord (x.toList.map op) (f (x.getD d)) := by
  intro o
  cases x with
  | none =>
    refine ⟨o, rfl, ?_⟩
    have : f d = id := funext hd
    simp [Mesh.mapVertices, this]
  | some a =>
    obtain ⟨o', h1, h2⟩ := h a rfl o
    exact ⟨o', by simp [run, h1], h2⟩

/-- C61: whatever the combination of the options, the vertices are translated, then rotated, then scaled, the faces are
kept; a scaling factor that is not positive raises `AssertionError`. -/
theorem C61_moves (srt : (ℕ → ℝ) → List ℕ → List ℕ) (ord : List ℕ → List ℕ) (a : Args) (o : MeshObj) :
    (ScalesPositive a → ∃ o', run srt ord (moves a) o = .ok o' ∧ o'.mesh = ⟨o.mesh.vertices.map (placed a), o.mesh.faces⟩) ∧
    (¬ ScalesPositive a → run srt ord (moves a) o = .error .assertionError) := by
  have t0 := Maps.option (srt := srt) (ord := ord) a.translate Op.translate ⟨0, 0, 0⟩ (fun t v => v + t)
    (fun v => by ext <;> simp) (fun t _ o => ⟨_, rfl, rfl⟩)
  have t1 := Maps.option (srt := srt) (ord := ord) a.translateX Op.translateX 0 (fun t v => ⟨v.x + t, v.y, v.z⟩)
    (fun v => by simp) (fun t _ o => ⟨_, rfl, rfl⟩)
  have t2 := Maps.option (srt := srt) (ord := ord) a.translateY Op.translateY 0 (fun t v => ⟨v.x, v.y + t, v.z⟩)
    (fun v => by simp) (fun t _ o => ⟨_, rfl, rfl⟩)
  have t3 := Maps.option (srt := srt) (ord := ord) a.translateZ Op.translateZ 0 (fun t v => ⟨v.x, v.y, v.z + t⟩)
    (fun v => by simp) (fun t _ o => ⟨_, rfl, rfl⟩)
  have r0 := Maps.option (srt := srt) (ord := ord) a.rotate
    (fun r => Op.rotate (radians r.x) (radians r.y) (radians r.z)) ⟨0, 0, 0⟩
    (fun r v => turnZ r.z (turnY r.y (turnX r.x v))) (fun v => by simp [turnX_zero, turnY_zero, turnZ_zero])
    (fun r _ o => ⟨_, rfl, by
      show o.mesh.mapVertices _ = _
      congr 1; funext v; exact rot_eq r v⟩)
  have r1 := Maps.option (srt := srt) (ord := ord) a.rotateX (fun t => Op.rotate (radians t) 0 0) 0 turnX turnX_zero
    (fun r _ o => ⟨_, rfl, by
      show o.mesh.mapVertices _ = _
      congr 1; funext v; exact rotX_eq r v⟩)
  have r2 := Maps.option (srt := srt) (ord := ord) a.rotateY (fun t => Op.rotate 0 (radians t) 0) 0 turnY turnY_zero
    (fun r _ o => ⟨_, rfl, by
      show o.mesh.mapVertices _ = _
      congr 1; funext v; exact rotY_eq r v⟩)
  have r3 := Maps.option (srt := srt) (ord := ord) a.rotateZ (fun t => Op.rotate 0 0 (radians t)) 0 turnZ turnZ_zero
    (fun r _ o => ⟨_, rfl, by
      show o.mesh.mapVertices _ = _
      congr 1; funext v; exact rotZ_eq r v⟩)
  have hpre := ((((((t0.append t1).append t2).append t3).append r0).append r1).append r2).append r3
  constructor
  · intro hs
    have s0 := Maps.option (srt := srt) (ord := ord) a.scale Op.scale 1 (fun s v => s • v)
      (fun v => by ext <;> simp)
      (fun s h o => ⟨_, by simp only [MeshObj.step, doScale, if_pos (hs s (.inl h))]; rfl, rfl⟩)
    have s1 := Maps.option (srt := srt) (ord := ord) a.scaleX Op.scaleX 1 (fun s v => ⟨s * v.x, v.y, v.z⟩)
      (fun v => by simp)
      (fun s h o => ⟨_, by simp only [MeshObj.step, doScale, if_pos (hs s (.inr (.inl h)))]; rfl, rfl⟩)
    have s2 := Maps.option (srt := srt) (ord := ord) a.scaleY Op.scaleY 1 (fun s v => ⟨v.x, s * v.y, v.z⟩)
      (fun v => by simp)
      (fun s h o => ⟨_, by simp only [MeshObj.step, doScale, if_pos (hs s (.inr (.inr (.inl h))))]; rfl, rfl⟩)
    have s3 := Maps.option (srt := srt) (ord := ord) a.scaleZ Op.scaleZ 1 (fun s v => ⟨v.x, v.y, s * v.z⟩)
      (fun v => by simp)
      (fun s h o => ⟨_, by simp only [MeshObj.step, doScale, if_pos (hs s (.inr (.inr (.inr h))))]; rfl, rfl⟩)
    obtain ⟨o', h1, h2⟩ := ((((hpre.append s0).append s1).append s2).append s3) o
    refine ⟨o', h1, ?_⟩
    rw [h2]
    simp only [Mesh.mapVertices, Mesh.mk.injEq, and_true]
    apply List.map_congr_left
    intro v _
    simp only [placed]
    ext <;> simp <;> ring
  · intro hs
    obtain ⟨o1, h1, -⟩ := hpre o
    have hm : moves a = (a.translate.toList.map Op.translate ++ a.translateX.toList.map Op.translateX ++
        a.translateY.toList.map Op.translateY ++ a.translateZ.toList.map Op.translateZ ++
        a.rotate.toList.map (fun r => Op.rotate (radians r.x) (radians r.y) (radians r.z)) ++
        a.rotateX.toList.map (fun t => Op.rotate (radians t) 0 0) ++
        a.rotateY.toList.map (fun t => Op.rotate 0 (radians t) 0) ++
        a.rotateZ.toList.map (fun t => Op.rotate 0 0 (radians t))) ++
        (a.scale.toList.map Op.scale ++ (a.scaleX.toList.map Op.scaleX ++ (a.scaleY.toList.map Op.scaleY ++
        a.scaleZ.toList.map Op.scaleZ))) := by
      simp only [moves, List.append_assoc]
    rw [hm, run_append, h1]
    simp only
    unfold ScalesPositive at hs
    generalize o1 = o2
    clear hm h1 hpre
    have st : ∀ (x : Option ℝ) (op : ℝ → Op) (rest : List Op) (o : MeshObj),
        (∀ s o, MeshObj.step srt ord o (op s) = o.doScale s (match op s with
          | .scale s => o.mesh.scaleBy s | .scaleX s => o.mesh.scaleXBy s | .scaleY s => o.mesh.scaleYBy s
          | .scaleZ s => o.mesh.scaleZBy s | _ => o.mesh)) →
        ((¬ ∀ s, x = some s → 0 < s) ∨ ∀ o, run srt ord rest o = .error .assertionError) →
        run srt ord (x.toList.map op ++ rest) o = .error .assertionError := by
      intro x op rest o hop h
      cases x with
      | none =>
        rcases h with h | h
        · exact absurd (fun s hs => by simp at hs) h
        · exact h o
      | some s =>
        simp only [Option.toList_some, List.map_cons, List.map_nil, List.cons_append, List.nil_append, run]
        rw [hop]
        unfold doScale
        by_cases hpos : 0 < s
        · rw [if_pos hpos]
          rcases h with h | h
          · exact absurd (fun t ht => by simp at ht; exact ht ▸ hpos) h
          · exact h _
        · rw [if_neg hpos]
    apply st _ _ _ _ (fun s o => rfl)
    by_cases h0 : ∀ s, a.scale = some s → 0 < s
    · right
      intro o
      apply st _ _ _ _ (fun s o => rfl)
      by_cases h1 : ∀ s, a.scaleX = some s → 0 < s
      · right
        intro o
        apply st _ _ _ _ (fun s o => rfl)
        by_cases h2 : ∀ s, a.scaleY = some s → 0 < s
        · right
          intro o
          have := st a.scaleZ Op.scaleZ [] o (fun s o => rfl) (.inl (fun h3 => hs (fun x hx => by
            rcases hx with h | h | h | h
            · exact h0 x h
            · exact h1 x h
            · exact h2 x h
            · exact h3 x h)))
          simpa using this
        · exact .inl h2
      · exact .inl h1
    · exact .inl h0

/-! ### The order of the options -/

/-- Which option it is, whatever its values. -/
def Opt.kind (x : Opt) : ℕ := x.ctorIdx

/-- Two command lines that have the same occurrences of each option, in the same order for each option; the different
options may be interleaved in any way. When no option is repeated this means that one is a permutation of the other. -/
def SameOptions (l l' : List Opt) : Prop :=
  ∀ k, l.filter (fun x => x.kind == k) = l'.filter (fun x => x.kind == k)

lemma sameOptions_of_perm {l l' : List Opt} (h : l.Perm l') (hn : (l.map Opt.kind).Nodup) : SameOptions l l' := by
  have one : ∀ (l : List Opt), (l.map Opt.kind).Nodup → ∀ k, (l.filter (fun x => x.kind == k)).length ≤ 1 := by
    intro l hn k
    induction l with
    | nil => simp
    | cons x l ih =>
      simp only [List.map_cons, List.nodup_cons] at hn
      rw [List.filter_cons]
      split
      · rename_i hx
        have hx' : x.kind = k := by simpa using hx
        have : l.filter (fun x => x.kind == k) = [] := by
          rw [List.filter_eq_nil_iff]
          intro y hy hyk
          have : y.kind = k := by simpa using hyk
          exact hn.1 (List.mem_map.2 ⟨y, hy, by rw [this, hx']⟩)
        simp [this]
      · exact ih hn.2
  intro k
  have hp := h.filter (fun x => x.kind == k)
  have h1 := one l hn k
  generalize l.filter (fun x => x.kind == k) = u at hp h1 ⊢
  generalize l'.filter (fun x => x.kind == k) = w at hp ⊢
  cases u with
  | nil => exact (List.nil_perm.1 hp).symm
  | cons x u =>
    have : u = [] := by simpa using h1
    subst this
    exact List.singleton_perm.1 hp

set_option maxHeartbeats 4000000 in
lemma set_comm (a : Args) (x y : Opt) (h : x.kind ≠ y.kind) : (a.set x).set y = (a.set y).set x := by
  cases x <;> cases y <;> first | exact absurd rfl h | (simp only [Args.set])

lemma foldl_move (p : List Opt) (x : Opt) (h : ∀ y ∈ p, y.kind ≠ x.kind) (a : Args) :
    p.foldl Args.set (a.set x) = (p.foldl Args.set a).set x := by
  induction p generalizing a with
  | nil => rfl
  | cons y p ih =>
    simp only [List.foldl_cons]
    rw [set_comm a x y (fun e => h y (by simp) e.symm)]
    exact ih (fun z hz => h z (by simp [hz])) _

lemma split_first (l : List Opt) (k : ℕ) (x : Opt) (r : List Opt)
    (h : l.filter (fun x => x.kind == k) = x :: r) :
    ∃ p q, l = p ++ x :: q ∧ (∀ y ∈ p, y.kind ≠ k) ∧ x.kind = k := by
  induction l with
  | nil => simp at h
  | cons y l ih =>
    rw [List.filter_cons] at h
    by_cases hy : y.kind = k
    · rw [if_pos (by simpa using hy)] at h
      simp only [List.cons.injEq] at h
      exact ⟨[], l, by simp [h.1], by simp, h.1 ▸ hy⟩
    · rw [if_neg (by simpa using hy)] at h
      obtain ⟨p, q, rfl, h1, h2⟩ := ih h
      exact ⟨y :: p, q, rfl, by
        intro z hz
        rcases List.mem_cons.1 hz with rfl | hz
        · exact hy
        · exact h1 z hz, h2⟩

/-- C61: the namespace built from a command line, hence everything the program does, only depends on the occurrences of
each option: the order in which different options are given does not matter. -/
theorem C61_order (l l' : List Opt) (h : SameOptions l l') : parse l = parse l' := by
  unfold parse
  generalize ({} : Args) = a
  induction l generalizing l' a with
  | nil =>
    have : l' = [] := by
      cases l' with
      | nil => rfl
      | cons x l' => have := h x.kind; simp at this
    rw [this]
  | cons x l ih =>
    have hx := h x.kind
    rw [List.filter_cons, if_pos (by simp)] at hx
    obtain ⟨p, q, rfl, h1, h2⟩ := split_first l' x.kind x _ hx.symm
    simp only [List.foldl_cons, List.foldl_append]
    rw [← foldl_move p x h1 a, ← List.foldl_append]
    apply ih
    intro k
    have hk := h k
    simp only [List.filter_cons, List.filter_append] at hk ⊢
    by_cases hxk : x.kind = k
    · subst hxk
      have hp : p.filter (fun y => y.kind == x.kind) = [] := by
        rw [List.filter_eq_nil_iff]; intro y hy; simpa using h1 y hy
      simp only [beq_self_eq_true, if_true, hp, List.nil_append, List.cons.injEq, true_and] at hk ⊢
      exact hk
    · have hb : (x.kind == k) = false := by simpa using hxk
      simpa [hb] using hk

/-! ### A run with moves only -/

/-- The options other than the moves, the formats and the file names are not given. -/
def OnlyMoves (a : Args) : Prop :=
  a.healNormals = false ∧ a.flipNormals = false ∧ a.healMesh = false ∧ a.plane = none ∧ a.clipByPlane = none ∧
  a.concatenate = none ∧ a.mergeDuplicates = none ∧ a.triangulate = false ∧ a.symmetrize = none ∧ a.mirror = none ∧
  a.plainInertia = false ∧ a.shellInertia = false ∧ a.hydrostatics = false

lemma output_mesh {E : Env} {infile : Str} {a : Args} {m : Mesh ℝ} {w : Option Written}
    (h : output E infile a m = .ok w) : ∀ x ∈ w, x.mesh = m := by
  unfold output at h
  simp only at h
  split at h
  · cases h; simp
  · split at h
    · cases h
    · cases h; simp

lemma bind_ok {ε α β : Type} {x : Except ε α} {f : α → Except ε β} {b : β} :
    (x >>= f) = .ok b ↔ ∃ a, x = .ok a ∧ f a = .ok b := by
  cases x with
  | error e =>
    constructor
    · intro h; cases h
    · rintro ⟨a, h, -⟩; cases h
  | ok a =>
    constructor
    · intro h; exact ⟨a, rfl, h⟩
    · rintro ⟨a', h, h'⟩; cases h; exact h'

/-- The stages of a run that ends without exception. -/
lemma main_ok {E : Env} {infile : Str} {a : Args} {out : Out} (h : main E infile a = .ok out) :
    ∃ fmt o1 o2 o3 planes o4 o5 o6 o7 o8 o9 i s y,
      inputFormat E infile a = .ok fmt ∧ loadObj E infile fmt = .ok o1 ∧ concatenate E fmt a o1 = .ok o2 ∧
      mergeDup E a o2 = .ok o3 ∧ definePlanes E a = .ok planes ∧ mirror E planes a o3 = .ok o4 ∧
      symmetrize E planes a o4 = .ok o5 ∧ heal E a o5 = .ok o6 ∧ run E.srt E.ord (moves a) o6 = .ok o7 ∧
      run E.srt E.ord (finish a) o7 = .ok o8 ∧ clipPlanes E planes a o8 = .ok o9 ∧ plain a o9 = .ok i ∧
      shell a i.2 = .ok s ∧ hydro E a s.2 = .ok y ∧ output E infile a y.2.mesh = .ok out.written ∧
      out.mesh = y.2.mesh ∧ out.plain = i.1 ∧ out.shell = s.1 ∧ out.hydro = y.1 := by
  unfold main prepare at h
  simp only [bind_ok] at h
  obtain ⟨p, ⟨fmt, e1, o1, e2, o2, e3, o3, e4, planes, e5, o4, e6, o5, e7, o6, e8, o7, e9, o8, e10, hp⟩, o9, e11, i, e12, s, e13,
    y, e14, w, e15, hout⟩ := h
  cases hp
  cases hout
  exact ⟨fmt, o1, o2, o3, planes, o4, o5, o6, o7, o8, o9, i, s, y, e1, e2, e3, e4, e5, e6, e7, e8, e9, e10, e11, e12, e13, e14,
    e15, rfl, rfl, rfl, rfl⟩

lemma loadObj_ok {E : Env} {name fmt : Str} {o : MeshObj} (h : loadObj E name fmt = .ok o) :
    ∃ m, loadMesh E.isFile E.load name fmt = .ok m ∧ o = (MeshObj.new m).doHealTriangles := by
  unfold loadObj at h
  split at h
  · cases hl : loadMesh E.isFile E.load name fmt with
    | error e => rw [hl] at h; cases h
    | ok m => rw [hl] at h; cases h; exact ⟨m, rfl, rfl⟩
  · cases h

/-- C61: a run with moves only ends with the mesh of the file, its vertices translated, rotated and scaled, and writes this
mesh if it writes one. -/
theorem C61_main (E : Env) (infile : Str) (l : List Opt) (hm : OnlyMoves (parse l)) (out : Out)
    (h : main E infile (parse l) = .ok out) :
    ∃ fmt m, inputFormat E infile (parse l) = .ok fmt ∧ loadMesh E.isFile E.load infile fmt = .ok m ∧
      ScalesPositive (parse l) ∧
      out.mesh = ⟨m.vertices.map (placed (parse l)), m.healTriangles.faces⟩ ∧ ∀ w ∈ out.written, w.mesh = out.mesh := by
  generalize parse l = a at *
  obtain ⟨h1, h2, h3, h4, h5, h6, h7, h8, h9, h10, h11, h12, h13⟩ := hm
  obtain ⟨fmt, o1, o2, o3, planes, o4, o5, o6, o7, o8, o9, i, s, y, e1, e2, e3, e4, e5, e6, e7, e8, e9, e10, e11, e12, e13,
    e14, e15, e16, -, -, -⟩ := main_ok h
  obtain ⟨m, hl, rfl⟩ := loadObj_ok e2
  simp only [concatenate, h6, mergeDup, h7, definePlanes, h4, mirror, h10, symmetrize, h9, heal, h3, h1, finish, h2, h8,
    run, List.append_nil, clipPlanes, h5, plain, h11, shell, h12, hydro, h13, bind, Except.bind, Bool.false_eq_true,
    if_false, Bool.and_self, Bool.false_and, Except.ok.injEq] at e3 e4 e5 e6 e7 e8 e10 e11 e12 e13 e14
  subst e3 e4 e6 e7 e8 e10 e11 e12 e13 e14
  by_cases hs : ScalesPositive a
  · obtain ⟨o', r1, r2⟩ := (C61_moves E.srt E.ord a (MeshObj.new m).doHealTriangles).1 hs
    rw [e9] at r1
    cases r1
    exact ⟨fmt, m, e1, hl, hs, e16.trans r2, fun w hw => (output_mesh e15 w hw).trans e16.symm⟩
  · rw [(C61_moves E.srt E.ord a (MeshObj.new m).doHealTriangles).2 hs] at e9
    cases e9

end Cli
end MM
