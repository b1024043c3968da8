import Verif.Props.CliHydro
import Verif.Props.Cache

/-!
# Properties C71 and C72: options without effect; the inertia printed by the program
-/

namespace MM
namespace Cli
open MeshObj

/-! ## C71 -/

/-- C71 fails: `--lpp` and `--orig-at-ap` have no effect at all, whatever the other options: the report is the same without
them. -/
theorem C71_lpp_fails (E : Env) (infile : Str) (a : Args) (l : Option ℝ) (b : Bool) :
    main E infile { a with lpp := l, origAtAp := b } = main E infile a := rfl

/-- C71: the length between perpendiculars of the report is the length of the waterline, and is marked as not to be
trusted. Missing from the full property: the length given with `--lpp` is never the one of the report. -/
theorem C71_lpp_partial (E : Env) (infile : Str) (a : Args) (ha : a.hydrostatics = true) (out : Out)
    (h : main E infile a = .ok out) :
    ∃ r, out.hydro = some r ∧ r.data.lpp = r.data.lengthAtWaterline ∧ r.data.trustLpp = false := by
  obtain ⟨m, r, h1, h2, h3, h4, -⟩ := C63_modes_partial E infile a ha out h
  obtain ⟨-, -, -, -, -, -, h5, h6⟩ := Cli.compute_fields h4
  exact ⟨r, h1, h6, h5⟩

/-! ## C72 -/

/-- Nothing of the geometry is cached, except right numbers of triangles and quadrangles. -/
def Clean (o : MeshObj) : Prop := FreshGeom o ∧ o.cache.props = none ∧ o.cache.ints = none

lemma Clean.new (m : Mesh ℝ) : Clean (MeshObj.new m) := ⟨.new m, rfl, rfl⟩

lemma Clean.of_none {o : MeshObj} (h1 : o.cache.props = none) (h2 : o.cache.ints = none) (h3 : o.cache.ids = none) :
    Clean o := ⟨.empty h1 h2 h3, h1, h2⟩

lemma healNormals_none {ord : List ℕ → List ℕ} {o o' : MeshObj} (h1 : o.cache.props = none) (h2 : o.cache.ints = none)
    (h : o.doHealNormals ord = .ok o') : o'.cache.props = none ∧ o'.cache.ints = none := by
  unfold doHealNormals at h
  cases hc : o.readConn ord with
  | error e => rw [hc] at h; simp at h
  | ok r =>
    obtain ⟨c, o1⟩ := r
    rw [hc] at h
    simp only at h
    have ho1 : o1.cache.props = none ∧ o1.cache.ints = none := by
      unfold readConn at hc
      split at hc
      · cases hc; exact ⟨h1, h2⟩
      · split at hc
        · cases hc
        · cases hc; exact ⟨h1, h2⟩
    obtain ⟨-, g2, g3, -⟩ := readIds_mesh o1
    cases hh : healFlood ord c.ff o1.readIds.2.mesh.faces with
    | error e => rw [hh] at h; simp at h
    | ok r =>
      obtain ⟨faces, ff'⟩ := r
      rw [hh] at h
      simp only at h
      split_ifs at h with hcl
      · cases hp : MeshObj.readProps ⟨⟨o1.readIds.2.mesh.vertices, faces⟩,
            { o1.readIds.2.cache with conn := some { c with ff := ff' } }⟩ with
        | error e => rw [hp] at h; simp at h
        | ok r =>
          obtain ⟨p, o4⟩ := r
          rw [hp] at h
          simp only [Except.ok.injEq] at h
          have hp4 := readProps_isSome hp
          rw [← h]
          split_ifs
          · have : o4.doFlip.cache.props.isSome := by unfold doFlip; simpa using hp4
            unfold dropPropsIfAny; rw [if_pos this]; exact ⟨rfl, rfl⟩
          · unfold dropPropsIfAny; rw [if_pos hp4]; exact ⟨rfl, rfl⟩
      · simp only [Except.ok.injEq] at h
        rw [← h]
        unfold dropPropsIfAny
        simp only
        split_ifs
        · exact ⟨rfl, rfl⟩
        · exact ⟨g2.trans ho1.1, g3.trans ho1.2⟩

lemma Clean.healNormals {srt : (ℕ → ℝ) → List ℕ → List ℕ} {ord : List ℕ → List ℕ} {o o' : MeshObj} (h : Clean o)
    (hst : o.step srt ord .healNormals = .ok o') : Clean o' :=
  ⟨h.1.step (op := .healNormals) (Or.inl h.2.2) hst, healNormals_none h.2.1 h.2.2 hst⟩

lemma Clean.healMesh {srt : (ℕ → ℝ) → List ℕ → List ℕ} {ord : List ℕ → List ℕ} {o o' : MeshObj} (h : Clean o)
    (hst : o.step srt ord .healMesh = .ok o') : Clean o' := by
  refine ⟨h.1.step (op := .healMesh) trivial hst, ?_⟩
  simp only [MeshObj.step, doHealMesh, bind_ok] at hst
  obtain ⟨o1, e1, o2, e2, o3, e3, e4⟩ := hst
  obtain ⟨f1, f2, f3⟩ := FreshGeom.removeDegenerated e2
  have h3 : o3.cache.props = none ∧ o3.cache.ints = none := by
    unfold doMerge at e3
    split at e3
    · cases e3
    · cases e3; exact ⟨f1, f2⟩
  refine healNormals_none ?_ ?_ e4
  · unfold doHealTriangles dropPropsIfAny; simp only; rw [if_neg (by simp [h3.1])]; exact h3.1
  · unfold doHealTriangles dropPropsIfAny; simp only; rw [if_neg (by simp [h3.1])]; exact h3.2

lemma Clean.simple {srt : (ℕ → ℝ) → List ℕ → List ℕ} {ord : List ℕ → List ℕ} {o o' : MeshObj} {op : Op} (h : Clean o)
    (hop : match op with
      | .translate _ | .translateX _ | .translateY _ | .translateZ _ | .rotate _ _ _ | .scale _ | .scaleX _ | .scaleY _
      | .scaleZ _ | .flipNormals | .triangulateQuadrangles => True
      | _ => False)
    (hst : o.step srt ord op = .ok o') : Clean o' := by
  obtain ⟨h1, h2, h3⟩ := h
  refine ⟨h1.step ?_ hst, ?_⟩
  · cases op <;> first | exact hop.elim | trivial | exact .inl h3 | exact .inl h2
  · have hs : ∀ (x : ℝ) (m' : Mesh ℝ), o.doScale x m' = .ok o' → o'.cache.props = none ∧ o'.cache.ints = none := by
      intro x m' hst
      unfold doScale at hst
      split_ifs at hst
      cases hst
      unfold dropPropsIfAny
      rw [if_neg (by simp [h2])]
      exact ⟨h2, h3⟩
    cases op <;> first
      | exact hop.elim
      | (cases hst; exact ⟨by simp [doTranslate, doRotate, doFlip, h2], rfl⟩)
      | exact hs _ _ hst
      | (simp only [MeshObj.step, doTriangulate] at hst; split_ifs at hst; cases hst; exact ⟨rfl, rfl⟩)

lemma Clean.run {srt : (ℕ → ℝ) → List ℕ → List ℕ} {ord : List ℕ → List ℕ} : ∀ (ops : List Op) {o o' : MeshObj}, Clean o →
    (∀ op ∈ ops, match op with
      | .translate _ | .translateX _ | .translateY _ | .translateZ _ | .rotate _ _ _ | .scale _ | .scaleX _ | .scaleY _
      | .scaleZ _ | .flipNormals | .triangulateQuadrangles => True
      | _ => False) →
    MeshObj.run srt ord ops o = .ok o' → Clean o'
  | [], o, o', h, _, hr => by cases hr; exact h
  | op :: ops, o, o', h, hops, hr => by
    unfold MeshObj.run at hr
    cases hst : o.step srt ord op with
    | error e => rw [hst] at hr; cases hr
    | ok o1 =>
      rw [hst] at hr
      exact Clean.run ops (h.simple (hops op (by simp)) hst) (fun op' h' => hops op' (by simp [h'])) hr

/-- The mesh given to the inertia computations has nothing cached. -/
lemma prepared_clean {E : Env} {a : Args} {fmt : Str} {infile : Str} {o1 o2 o3 o4 o5 o6 o7 o8 o9 : MeshObj}
    {planes : List PlaneObj} (e2 : loadObj E infile fmt = .ok o1) (e3 : concatenate E fmt a o1 = .ok o2)
    (e4 : mergeDup E a o2 = .ok o3) (e6 : mirror E planes a o3 = .ok o4) (e7 : symmetrize E planes a o4 = .ok o5)
    (e8 : heal E a o5 = .ok o6) (e9 : MeshObj.run E.srt E.ord (moves a) o6 = .ok o7)
    (e10 : MeshObj.run E.srt E.ord (finish a) o7 = .ok o8) (e11 : clipPlanes E planes a o8 = .ok o9) : Clean o9 := by
  -- until the duplicates are merged, nothing at all is cached
  have c1 : o1.cache.props = none ∧ o1.cache.ints = none ∧ o1.cache.ids = none := by
    obtain ⟨m, -, rfl⟩ := loadObj_ok e2
    exact ⟨rfl, rfl, rfl⟩
  have c2 : o2.cache.props = none ∧ o2.cache.ints = none ∧ o2.cache.ids = none := by
    unfold concatenate at e3
    split at e3
    · cases e3; exact c1
    · simp only [bind_ok] at e3
      obtain ⟨c, -, m, -, e⟩ := e3
      cases e; exact ⟨rfl, rfl, rfl⟩
  have c3 : Clean o3 := by
    unfold mergeDup at e4
    split at e4
    · cases e4; exact .of_none c2.1 c2.2.1 c2.2.2
    · split at e4
      · cases e4
      · simp only [MeshObj.step, doMerge] at e4
        split at e4
        · cases e4
        · cases e4; exact .of_none c2.1 c2.2.1 c2.2.2
  have c4 : Clean o4 := by
    unfold mirror at e6
    split at e6
    · cases e6; exact c3
    · simp only [bind_ok, MeshObj.step] at e6
      obtain ⟨p, -, e⟩ := e6
      cases e; exact .new _
  have c5 : Clean o5 := by
    have loop : ∀ (l : List (List Str)) (o o' : MeshObj), Clean o → symmetrizeLoop E planes l o = .ok o' → Clean o' := by
      intro l
      induction l with
      | nil => intro o o' h e; cases e; exact h
      | cons x l ih =>
        intro o o' h e
        simp only [symmetrizeLoop, bind_ok] at e
        obtain ⟨p, -, o1, e1, e2⟩ := e
        refine ih o1 o' ?_ e2
        simp only [MeshObj.step, doSymmetrize] at e1
        split at e1
        · cases e1
        · cases e1; exact .new _
    unfold symmetrize at e7
    split at e7
    · cases e7; exact c4
    · exact loop _ _ _ c4 e7
  have c6 : Clean o6 := by
    unfold heal at e8
    have key : ∀ o, Clean o → (if a.healNormals && !a.healMesh then o.step E.srt E.ord .healNormals else .ok o) = .ok o6 →
        Clean o6 := by
      intro o ho h
      split_ifs at h
      · exact ho.healNormals h
      · cases h; exact ho
    simp only at e8
    by_cases h1 : a.healMesh = true
    · rw [if_pos h1, bind_ok] at e8
      obtain ⟨o, e, e'⟩ := e8
      exact key o (c5.healMesh e) e'
    · rw [if_neg h1, bind_ok] at e8
      obtain ⟨o, e, e'⟩ := e8
      cases e
      exact key _ c5 e'
  have c7 : Clean o7 := by
    refine Clean.run _ c6 ?_ e9
    intro op hop
    simp only [moves, List.mem_append, List.mem_map] at hop
    rcases hop with ((((((((((( hop | hop ) | hop ) | hop ) | hop ) | hop ) | hop ) | hop ) | hop ) | hop ) | hop ) | hop ) <;>
      (obtain ⟨x, -, rfl⟩ := hop; trivial)
  have c8 : Clean o8 := by
    refine Clean.run _ c7 ?_ e10
    intro op hop
    unfold finish at hop
    split_ifs at hop <;> simp at hop
    · rcases hop with rfl | rfl <;> trivial
    · subst hop; trivial
    · subst hop; trivial
  have loop : ∀ (l : List (List Str)) (o o' : MeshObj), Clean o → clipLoop E planes l o = .ok o' → Clean o' := by
    intro l
    induction l with
    | nil => intro o o' h e; cases e; exact h
    | cons x l ih =>
      intro o o' h e
      simp only [clipLoop, bind_ok] at e
      obtain ⟨p, -, c, -, e2⟩ := e
      exact ih _ o' (.new _) e2
  unfold clipPlanes at e11
  split at e11
  · cases e11; exact c8
  · exact loop _ _ _ c8 e11

/-- The sums only use the normals and the integrals. -/
lemma normalWeighted_congr {p q : List FP} (h : p.map FP.normal = q.map FP.normal) (i : List (Fin 15 → ℝ)) (x y z : Fin 15) :
    Mesh.normalWeighted p i x y z = Mesh.normalWeighted q i x y z := by
  induction p generalizing q i with
  | nil => cases q with
    | nil => rfl
    | cons => simp at h
  | cons a p ih =>
    cases q with
    | nil => simp at h
    | cons b q =>
      simp only [List.map_cons, List.cons.injEq] at h
      cases i with
      | nil => rfl
      | cons c i =>
        have := ih h.2 i
        simp only [Mesh.normalWeighted, List.zip_cons_cons, List.map_cons, List.sum_cons, h.1] at this ⊢
        rw [this]

lemma plainInertia_fresh {o : MeshObj} (h : FreshGeom o) (ρ : ℝ) {r : Inertia × MeshObj} (hr : plainInertia o ρ = .ok r) :
    r.1 = o.mesh.evalPlain ρ ∧ FreshGeom r.2 ∧ r.2.mesh = o.mesh := by
  unfold plainInertia at hr
  have h1 := h.readVolume_spec
  cases hv : o.readVolume with
  | error e => rw [hv] at hr; cases hr
  | ok v =>
    obtain ⟨v, o1⟩ := v
    rw [hv] at hr h1
    simp only at hr h1
    obtain ⟨-, g2, g3, g4, -⟩ := h1
    have h2 := g4.readInts_spec
    cases hi : o1.readInts with
    | error e => rw [hi] at hr; cases hr
    | ok i =>
      obtain ⟨i, o2⟩ := i
      rw [hi] at hr h2
      simp only at hr h2
      obtain ⟨-, k2, k3, k4, -⟩ := h2
      have h3 := k4.readProps_spec
      cases hp : o2.readProps with
      | error e => rw [hp] at hr; cases hr
      | ok p =>
        obtain ⟨p, o3⟩ := p
        rw [hp] at hr h3
        simp only at hr h3
        obtain ⟨-, l2, l3, l4, -⟩ := h3
        cases hr
        have hm : o2.mesh = o.mesh := k3.trans g3
        have hn : ∀ a b c, Mesh.normalWeighted p i a b c =
            Mesh.normalWeighted o.mesh.facesProperties o.mesh.surfaceIntegrals a b c := by
          intro a b c
          rw [hm] at l2
          rw [k2, g3]
          exact normalWeighted_congr l2.2.1 _ a b c
        refine ⟨?_, l4, l3.trans hm⟩
        simp only [Mesh.evalPlain, hn, g2]

lemma shellInertia_fresh {o : MeshObj} (h : FreshGeom o) (ρ t : ℝ) {r : Inertia × MeshObj}
    (hr : shellInertia o ρ t = .ok r) : r.1 = o.mesh.evalShell ρ t ∧ r.2.mesh = o.mesh := by
  unfold shellInertia at hr
  have h1 := h.readProps_spec
  cases hv : o.readProps with
  | error e => rw [hv] at hr; cases hr
  | ok v =>
    obtain ⟨p, o1⟩ := v
    rw [hv] at hr h1
    simp only at hr h1
    obtain ⟨-, g2, g3, g4, -⟩ := h1
    have h2 := g4.readInts_spec
    cases hi : o1.readInts with
    | error e => rw [hi] at hr; cases hr
    | ok i =>
      obtain ⟨i, o2⟩ := i
      rw [hi] at hr h2
      simp only at hr h2
      obtain ⟨-, k2, k3, k4, -⟩ := h2
      cases hr
      refine ⟨?_, k3.trans g3⟩
      have ha : (p.map FP.area).sum = o.mesh.totalArea := by rw [g2.1]; rfl
      simp only [Mesh.evalShell, ha, k2, g3, Mesh.totalIntegrals]

/-- C72: whatever the options, the inertia printed are those of the mesh resulting from the operations requested (moved to
the position of equilibrium at the end when hydrostatics are asked for): the values cached on the way are never out of
date. -/
theorem C72_inertia (E : Env) (infile : Str) (a : Args) (out : Out) (h : main E infile a = .ok out) :
    ∃ m, (a.hydrostatics = false → out.mesh = m) ∧
      (∀ r, out.hydro = some r → out.mesh = Hydro.workingMesh m r.rot r.z) ∧
      out.plain = (if a.plainInertia then some (m.evalPlain (a.rhoMedium.getD 1023)) else none) ∧
      out.shell = (if a.shellInertia then some (m.evalShell (a.rhoMedium.getD 7850) (a.thickness.getD (2 / 100))) else none) := by
  obtain ⟨fmt, o1, o2, o3, planes, o4, o5, o6, o7, o8, o9, i, s, y, e1, e2, e3, e4, e5, e6, e7, e8, e9, e10, e11, e12, e13,
    e14, e15, e16, e17, e18, e19⟩ := main_ok h
  have hc := (prepared_clean e2 e3 e4 e6 e7 e8 e9 e10 e11).1
  have hi : i.1 = (if a.plainInertia then some (o9.mesh.evalPlain (a.rhoMedium.getD 1023)) else none) ∧ FreshGeom i.2 ∧
      i.2.mesh = o9.mesh := by
    unfold plain at e12
    split_ifs at e12 with hp
    · cases hr : plainInertia o9 (a.rhoMedium.getD 1023) with
      | error e => rw [hr] at e12; cases e12
      | ok r =>
        rw [hr] at e12; cases e12
        obtain ⟨k1, k2, k3⟩ := plainInertia_fresh hc _ hr
        rw [if_pos hp]
        exact ⟨congrArg some k1, k2, k3⟩
    · cases e12; rw [if_neg hp]; exact ⟨rfl, hc, rfl⟩
  have hs : s.1 = (if a.shellInertia then some (o9.mesh.evalShell (a.rhoMedium.getD 7850) (a.thickness.getD (2 / 100)))
      else none) ∧ s.2.mesh = o9.mesh := by
    unfold shell at e13
    split_ifs at e13 with hp
    · cases hr : shellInertia i.2 (a.rhoMedium.getD 7850) (a.thickness.getD (2 / 100)) with
      | error e => rw [hr] at e13; cases e13
      | ok r =>
        rw [hr] at e13; cases e13
        obtain ⟨k1, k3⟩ := shellInertia_fresh hi.2.1 _ _ hr
        rw [if_pos hp]
        rw [hi.2.2] at k1 k3
        exact ⟨congrArg some k1, k3⟩
    · cases e13; rw [if_neg hp]; exact ⟨rfl, hi.2.2⟩
  refine ⟨o9.mesh, ?_, ?_, e17.trans hi.1, e18.trans hs.1⟩
  · intro hh
    unfold hydro at e14
    rw [hh] at e14
    cases e14
    rw [e16, hs.2]
  · intro r hr
    by_cases hh : a.hydrostatics = true
    · obtain ⟨r', k1, k2, k3⟩ := hydro_ok hh e14
      rw [e19, k1] at hr
      cases hr
      rw [e16, k3, hs.2]
    · unfold hydro at e14
      rw [if_neg hh] at e14
      cases e14
      rw [e19] at hr
      cases hr

/-! ### Concrete runs -/

/-- A run on the cube with moves and with the inertia printed: the hypotheses of `C61_main` and `C72_inertia` are met. -/
theorem cube_run : ∃ out, main cubeEnv "hull.obj".toList (parse [.scale 2, .plainInertia, .translateX 1, .rotateZ 90]) = .ok out := by
  have hf' : ∀ b : Args, b.inputFormat = none → inputFormat cubeEnv "hull.obj".toList b = .ok "obj".toList := by
    intro b hb; rw [← cubeEnv_format]; simp only [inputFormat, hb]
  generalize ha : parse [.scale 2, .plainInertia, .translateX 1, .rotateZ 90] = a
  obtain ⟨o', hr, hm⟩ := (C61_moves cubeEnv.srt cubeEnv.ord a (MeshObj.new halfCube.real)).1 (by
    subst ha
    intro x hx
    simp only [parse, Args.set, List.foldl, Option.some.injEq, reduceCtorEq, or_false] at hx
    rw [← hx]; norm_num)
  have hclean : FreshGeom o' := (Clean.run (moves a) (Clean.new halfCube.real) (by
    intro op hop
    simp only [moves, List.mem_append, List.mem_map] at hop
    rcases hop with ((((((((((( hop | hop ) | hop ) | hop ) | hop ) | hop ) | hop ) | hop ) | hop ) | hop ) | hop ) | hop ) <;>
      (obtain ⟨x, -, rfl⟩ := hop; trivial)) hr).1
  have hwf : o'.mesh.WF := by
    rw [hm]
    have : halfCube.WF := by decide +kernel
    intro f hf i hi
    have := this f hf i hi
    simpa [Mesh.nv, halfCube, Mesh.real, Mesh.aff, MeshObj.new] using this
  have hi : ∃ i, plainInertia o' (a.rhoMedium.getD 1023) = .ok i := by
    unfold plainInertia
    have h1 := hclean.readVolume_spec
    cases hv : o'.readVolume with
    | error e => rw [hv] at h1; exact absurd hwf h1.2
    | ok v =>
      obtain ⟨v, o1⟩ := v
      rw [hv] at h1
      obtain ⟨-, g2, g3, g4, -⟩ := h1
      have h2 := g4.readInts_spec
      simp only
      cases hi : o1.readInts with
      | error e => rw [hi] at h2; rw [g3] at h2; exact absurd hwf h2.2
      | ok i =>
        obtain ⟨i, o2⟩ := i
        rw [hi] at h2
        obtain ⟨-, k2, k3, k4, -⟩ := h2
        have h3 := k4.readProps_spec
        simp only
        cases hp : o2.readProps with
        | error e => rw [hp] at h3; rw [k3, g3] at h3; exact absurd hwf h3.2
        | ok p => exact ⟨_, rfl⟩
  obtain ⟨i, hi⟩ := hi
  have e1 : inputFormat cubeEnv "hull.obj".toList a = .ok "obj".toList := hf' a (by subst ha; rfl)
  unfold main prepare
  simp only [bind, Except.bind, e1, cubeEnv_load]
  have hp : plain a o' = .ok (some i.1, i.2) := by
    unfold plain
    rw [if_pos (by subst ha; rfl), hi]
    rfl
  have h1 : concatenate cubeEnv "obj".toList a (MeshObj.new halfCube.real) = .ok (MeshObj.new halfCube.real) := by
    subst ha; rfl
  have h2 : mergeDup cubeEnv a (MeshObj.new halfCube.real) = .ok (MeshObj.new halfCube.real) := by subst ha; rfl
  have h3 : definePlanes cubeEnv a = .ok [] := by subst ha; rfl
  have h4 : mirror cubeEnv [] a (MeshObj.new halfCube.real) = .ok (MeshObj.new halfCube.real) := by subst ha; rfl
  have h5 : symmetrize cubeEnv [] a (MeshObj.new halfCube.real) = .ok (MeshObj.new halfCube.real) := by subst ha; rfl
  have h6 : heal cubeEnv a (MeshObj.new halfCube.real) = .ok (MeshObj.new halfCube.real) := by subst ha; rfl
  have h7 : ∀ o, MeshObj.run cubeEnv.srt cubeEnv.ord (finish a) o = .ok o := by subst ha; intro o; rfl
  have h8 : ∀ o, clipPlanes cubeEnv [] a o = .ok o := by subst ha; intro o; rfl
  have h9 : ∀ o, shell a o = .ok (none, o) := by subst ha; intro o; rfl
  have h10 : ∀ o, hydro cubeEnv a o = .ok (none, o) := by subst ha; intro o; rfl
  have h11 : ∀ m, output cubeEnv "hull.obj".toList a m = .ok none := by subst ha; intro o; rfl
  simp only [h1, h2, h3, h4, h5, h6, hr, h7, pure, Except.pure, h8, hp, h9, h10, h11]
  exact ⟨_, rfl⟩

end Cli
end MM
