import Verif.Props.CliInertia
import Verif.Props.CliPlanes

/-!
# Properties C76, C77: the file written by the command line program; options given several times
-/

namespace MM
namespace Cli

open MeshObj

set_option linter.unusedVariables false

/-! ### C76: the file written -/

/-- Name of the file written for the options `-o` and `-ofmt`, the input file being `base.ext`. -/
def documentedName (base : Str) (outfilename outputFormat : Option Str) : Option Str :=
  match outfilename, outputFormat with
  | some n, _ => some n
  | none, some f => some (base ++ ".".toList ++ f)
  | none, none => none

/-- C76: for an input file `dir/name.ext`, a run that ends without exception writes a file if and only if an output file or
an output format is given: the file given, otherwise the input file with the output format for extension. What is written
is the mesh at the end of the run. The writer is the one of the output format given, otherwise the one of the extension of
the file written, whatever its letter case. -/
theorem C76_output (E : Env) (hl : LowerAscii E.lower) (dir name ext : Str) (h1 : '/' ∉ name) (h2 : ∃ c ∈ name, c ≠ '.')
    (h3 : '.' ∉ ext) (h4 : '/' ∉ ext) (a : Args) (out : Out) (h : main E (dir ++ name ++ '.' :: ext) a = .ok out) :
    out.written.map Written.name = documentedName (dir ++ name) a.outfilename a.outputFormat ∧
    ∀ w ∈ out.written, w.mesh = out.mesh ∧
      (∀ f, a.outputFormat = some f → ∃ e ∈ extensionDict, e.1.toList = f ∧ w.writer = e.2.2) ∧
      (a.outputFormat = none → ∀ dir' name' ext' : Str, w.name = dir' ++ name' ++ '.' :: ext' → '/' ∉ name' →
        (∃ c ∈ name', c ≠ '.') → ∀ e ∈ extensionDict, SameUpToCase ext' e.1.toList → w.writer = e.2.2) := by
  obtain ⟨fmt, o1, o2, o3, planes, o4, o5, o6, o7, o8, o9, i, s, y, e1, e2, e3, e4, e5, e6, e7, e8, e9, e10, e11, e12, e13,
    e14, e15, e16, -, -, -⟩ := main_ok h
  have hs := splitExt_append dir name ext h1 h2 h3 h4
  have key : ∀ s w, writeMesh s = .ok w → ∃ e ∈ extensionDict, e.1.toList = s ∧ w = e.2.2 := by
    intro s w hw
    unfold writeMesh extensionOf at hw
    cases hf : extensionDict.find? (fun e => e.1.toList == s) with
    | none => rw [hf] at hw; cases hw
    | some e =>
      rw [hf] at hw
      simp only [Option.map_some] at hw
      split at hw
      · cases hw
        have hk := List.find?_some hf
        exact ⟨e, List.mem_of_find?_eq_some hf, beq_iff_eq.1 hk, rfl⟩
      · cases hw
  have key2 : ∀ s w e, writeMesh s = .ok w → extensionOf s = some e → w = e.2 := by
    intro s w e hw he
    unfold writeMesh at hw
    rw [he] at hw
    simp only at hw
    split at hw
    · cases hw; rfl
    · cases hw
  have main' : ∀ nm, (match a.outfilename with
      | some n => some n
      | none =>
        match a.outputFormat with
        | some f => some ((splitExt (dir ++ name ++ '.' :: ext)).1 ++ '.' :: f)
        | none => none) = nm → nm = documentedName (dir ++ name) a.outfilename a.outputFormat := by
    intro nm hnm
    rw [← hnm, hs]
    unfold documentedName
    cases a.outfilename with
    | some n => rfl
    | none =>
      cases a.outputFormat with
      | none => rfl
      | some f => simp
  unfold output at e15
  simp only at e15
  split at e15
  · next hn =>
    have := main' _ hn
    simp only [Except.ok.injEq] at e15
    rw [← e15]
    exact ⟨this, by simp⟩
  · next nm hn =>
    have hnm := main' _ hn
    split at e15
    · cases e15
    · next w hw =>
      simp only [Except.ok.injEq] at e15
      rw [← e15]
      refine ⟨hnm, ?_⟩
      intro w' hw'
      simp only [Option.mem_def, Option.some.injEq] at hw'
      subst hw'
      refine ⟨e16.symm, ?_, ?_⟩
      · intro f hf
        rw [hf] at hw
        exact key _ _ hw
      · intro hf dir' name' ext' hname g1 g2 e he hc
        rw [hf] at hw
        simp only [Option.getD_none] at hw
        simp only at hname
        subst hname
        exact key2 _ _ _ hw (C59_file_extension E.lower hl dir' name' ext' e.1 e.2 he hc g1 g2)

/-- C76 (the input is kept) fails: with an output format equal to the extension of the input file and no output file, the
file written is the input file. -/
theorem C76_input_overwritten (E : Env) (dir name ext : Str) (h1 : '/' ∉ name) (h2 : ∃ c ∈ name, c ≠ '.') (h3 : '.' ∉ ext)
    (h4 : '/' ∉ ext) (a : Args) (ho : a.outfilename = none) (hf : a.outputFormat = some ext) (m : Mesh ℝ) (w : Fmt)
    (hw : writeMesh ext = .ok w) :
    output E (dir ++ name ++ '.' :: ext) a m = .ok (some ⟨dir ++ name ++ '.' :: ext, w, m⟩) := by
  unfold output
  rw [ho, hf, splitExt_append dir name ext h1 h2 h3 h4]
  simp [hw]

/-- Without exception: the hypotheses are met, the file is `hull.mar`. -/
theorem cube_writes : ∃ out, main cubeEnv ("".toList ++ "hull".toList ++ '.' :: "obj".toList) (parse [.outputFormat "mar".toList]) = .ok out ∧
    ∃ w ∈ out.written, w.name = "hull.mar".toList ∧ w.writer = .mar := by
  have hf : inputFormat cubeEnv "hull.obj".toList (parse [.outputFormat "mar".toList]) = .ok "obj".toList := by
    rw [← cubeEnv_format]; rfl
  have hw : writeMesh "mar".toList = .ok .mar := by decide +kernel
  have hs : (splitExt "hull.obj".toList).1 = "hull".toList := by decide +kernel
  rw [show "".toList ++ "hull".toList ++ '.' :: "obj".toList = "hull.obj".toList from by decide +kernel]
  refine ⟨⟨halfCube.real, none, none, none, some ⟨"hull.mar".toList, .mar, halfCube.real⟩⟩, ?_, _, rfl, rfl, rfl⟩
  have ho : ∀ m, output cubeEnv "hull.obj".toList (parse [.outputFormat "mar".toList]) m =
      .ok (some ⟨"hull.mar".toList, .mar, m⟩) := by
    intro m
    unfold output
    simp only [parse, List.foldl, Args.set, Option.getD_some, hw, hs]
    rfl
  unfold main prepare
  rw [hf]
  simp only [bind, Except.bind, cubeEnv_load]
  simp only [parse, List.foldl, Args.set] at ho ⊢
  simp only [concatenate, mergeDup, definePlanes, mirror, symmetrize, heal, moves, finish,
    MeshObj.run, clipPlanes, plain, shell, Option.toList, List.map_nil, List.append_nil, Bool.false_eq_true, if_false,
    Bool.and_self, Bool.false_and, hydro, if_true, pure, Except.pure]
  show (match output cubeEnv "hull.obj".toList { outputFormat := some "mar".toList } halfCube.real with
      | Except.error err => Except.error err
      | Except.ok v_1 => Except.ok (⟨halfCube.real, none, none, none, v_1⟩ : Out)) = _
  rw [ho]

/-! ### C77: options given several times -/

/-- The values of the options of one kind, in the order of the command line. -/
def valuesOf {α : Type} (get : Opt → Option α) (l : List Opt) : List α := l.filterMap get

/-- The values of `--clip-by-plane`. -/
def Opt.clip? : Opt → Option (List Str)
  | .clipByPlane l => some l
  | _ => none

/-- The values of `--symmetrize`. -/
def Opt.sym? : Opt → Option (List Str)
  | .symmetrize l => some l
  | _ => none

/-- The values of `--plane`. -/
def Opt.plane? : Opt → Option (List Str)
  | .plane l => some l
  | _ => none

/-- The effect of the options on what is appended. -/
lemma append_values (get : Opt → Option (List Str)) (field : Args → Option (List (List Str)))
    (hs : ∀ a o v, get o = some v → field (a.set o) = append (field a) v)
    (hn : ∀ a o, get o = none → field (a.set o) = field a) :
    ∀ (l : List Opt) (a : Args), field (l.foldl Args.set a) =
      if l.filterMap get = [] then field a else some ((field a).getD [] ++ l.filterMap get) := by
  intro l
  induction l with
  | nil => intro a; rfl
  | cons o l ih =>
    intro a
    rw [List.foldl_cons, ih]
    cases ho : get o with
    | none => simp only [List.filterMap_cons, ho, hn a o ho]
    | some v =>
      simp only [List.filterMap_cons, ho, hs a o v ho, append, reduceCtorEq, if_false, Option.getD_some]
      split_ifs with h
      · rw [h]
      · simp

/-- The last value given. -/
lemma last_value {α : Type} (get : Opt → Option α) (field : Args → Option α)
    (hs : ∀ (a : Args) o v, get o = some v → field (a.set o) = some v)
    (hn : ∀ a o, get o = none → field (a.set o) = field a) :
    ∀ (l : List Opt) (a : Args), field (l.foldl Args.set a) = ((l.filterMap get).getLast?).or (field a) := by
  intro l
  induction l with
  | nil => intro a; rfl
  | cons o l ih =>
    intro a
    rw [List.foldl_cons, ih]
    cases ho : get o with
    | none => simp only [List.filterMap_cons, ho, hn a o ho]
    | some v =>
      simp only [List.filterMap_cons, ho, hs a o v ho]
      cases hl : l.filterMap get with
      | nil => rfl
      | cons x xs => simp [List.getLast?_cons]

/-- C77: `--clip-by-plane`, `--symmetrize` and `--plane` may be given several times: all the values are kept, in order. -/
theorem C77_repeated (l : List Opt) :
    ((parse l).clipByPlane.getD [] = valuesOf Opt.clip? l ∧ (parse l).symmetrize.getD [] = valuesOf Opt.sym? l ∧
      (parse l).plane.getD [] = valuesOf Opt.plane? l) ∧
    ((parse l).clipByPlane = none ↔ valuesOf Opt.clip? l = []) ∧ ((parse l).symmetrize = none ↔ valuesOf Opt.sym? l = []) ∧
      ((parse l).plane = none ↔ valuesOf Opt.plane? l = []) := by
  have h1 := append_values Opt.clip? Args.clipByPlane (by intro a o v h; cases o <;> simp_all [Opt.clip?, Args.set])
    (by intro a o h; cases o <;> simp_all [Opt.clip?, Args.set]) l {}
  have h2 := append_values Opt.sym? Args.symmetrize (by intro a o v h; cases o <;> simp_all [Opt.sym?, Args.set])
    (by intro a o h; cases o <;> simp_all [Opt.sym?, Args.set]) l {}
  have h3 := append_values Opt.plane? Args.plane (by intro a o v h; cases o <;> simp_all [Opt.plane?, Args.set])
    (by intro a o h; cases o <;> simp_all [Opt.plane?, Args.set]) l {}
  unfold parse valuesOf
  rw [h1, h2, h3]
  refine ⟨⟨?_, ?_, ?_⟩, ?_, ?_, ?_⟩ <;> split_ifs with h <;> simp [h]

/-- The values of the options that are replaced when they are given again. -/
def Opt.outfilename? : Opt → Option Str
  | .outfilename s => some s
  | _ => none
def Opt.inputFormat? : Opt → Option Str
  | .inputFormat s => some s
  | _ => none
def Opt.outputFormat? : Opt → Option Str
  | .outputFormat s => some s
  | _ => none
def Opt.translate? : Opt → Option (V3 ℝ)
  | .translate s => some s
  | _ => none
def Opt.rotate? : Opt → Option (V3 ℝ)
  | .rotate s => some s
  | _ => none
def Opt.scale? : Opt → Option ℝ
  | .scale s => some s
  | _ => none
def Opt.mirror? : Opt → Option (List Str)
  | .mirror s => some s
  | _ => none
def Opt.mass? : Opt → Option ℝ
  | .massDisplacement s => some s
  | _ => none
def Opt.zcog? : Opt → Option ℝ
  | .zcog s => some s
  | _ => none
def Opt.concat? : Opt → Option Str
  | .concatenate s => some s
  | _ => none

/-- C77: the other options with values keep the last one given (`--translate 1 0 0 --translate 0 1 0` translates along `y`
only). -/
theorem C77_last (l : List Opt) :
    (parse l).outfilename = (valuesOf Opt.outfilename? l).getLast? ∧
    (parse l).inputFormat = (valuesOf Opt.inputFormat? l).getLast? ∧
    (parse l).outputFormat = (valuesOf Opt.outputFormat? l).getLast? ∧
    (parse l).translate = (valuesOf Opt.translate? l).getLast? ∧ (parse l).rotate = (valuesOf Opt.rotate? l).getLast? ∧
    (parse l).scale = (valuesOf Opt.scale? l).getLast? ∧ (parse l).mirror = (valuesOf Opt.mirror? l).getLast? ∧
    (parse l).massDisplacement = (valuesOf Opt.mass? l).getLast? ∧ (parse l).zcog = (valuesOf Opt.zcog? l).getLast? ∧
    (parse l).concatenate = (valuesOf Opt.concat? l).getLast? := by
  unfold parse valuesOf
  refine ⟨?_, ?_, ?_, ?_, ?_, ?_, ?_, ?_, ?_, ?_⟩
  · rw [last_value Opt.outfilename? Args.outfilename (by intro a o v h; cases o <;> simp_all [Opt.outfilename?, Args.set])
      (by intro a o h; cases o <;> simp_all [Opt.outfilename?, Args.set])]; simp
  · rw [last_value Opt.inputFormat? Args.inputFormat (by intro a o v h; cases o <;> simp_all [Opt.inputFormat?, Args.set])
      (by intro a o h; cases o <;> simp_all [Opt.inputFormat?, Args.set])]; simp
  · rw [last_value Opt.outputFormat? Args.outputFormat (by intro a o v h; cases o <;> simp_all [Opt.outputFormat?, Args.set])
      (by intro a o h; cases o <;> simp_all [Opt.outputFormat?, Args.set])]; simp
  · rw [last_value Opt.translate? Args.translate (by intro a o v h; cases o <;> simp_all [Opt.translate?, Args.set])
      (by intro a o h; cases o <;> simp_all [Opt.translate?, Args.set])]; simp
  · rw [last_value Opt.rotate? Args.rotate (by intro a o v h; cases o <;> simp_all [Opt.rotate?, Args.set])
      (by intro a o h; cases o <;> simp_all [Opt.rotate?, Args.set])]; simp
  · rw [last_value Opt.scale? Args.scale (by intro a o v h; cases o <;> simp_all [Opt.scale?, Args.set])
      (by intro a o h; cases o <;> simp_all [Opt.scale?, Args.set])]; simp
  · rw [last_value Opt.mirror? Args.mirror (by intro a o v h; cases o <;> simp_all [Opt.mirror?, Args.set])
      (by intro a o h; cases o <;> simp_all [Opt.mirror?, Args.set])]; simp
  · rw [last_value Opt.mass? Args.massDisplacement (by intro a o v h; cases o <;> simp_all [Opt.mass?, Args.set])
      (by intro a o h; cases o <;> simp_all [Opt.mass?, Args.set])]; simp
  · rw [last_value Opt.zcog? Args.zcog (by intro a o v h; cases o <;> simp_all [Opt.zcog?, Args.set])
      (by intro a o h; cases o <;> simp_all [Opt.zcog?, Args.set])]; simp
  · rw [last_value Opt.concat? Args.concatenate (by intro a o v h; cases o <;> simp_all [Opt.concat?, Args.set])
      (by intro a o h; cases o <;> simp_all [Opt.concat?, Args.set])]; simp

/-- `m'` is obtained from `m` by clipping by the planes designated by `ls`, one after the other. -/
inductive ClippedBy (E : Env) (planes : List PlaneObj) : List (List Str) → Mesh ℝ → Mesh ℝ → Prop
  | nil (m : Mesh ℝ) : ClippedBy E planes [] m m
  | cons {l ls m p c m'} (hp : resolvePlane E planes (if l = [] then ["Oxy".toList] else l) = .ok p)
      (hc : Clipper.clip E.srt p.plane (1 / 1000) false m = .ok c) (h : ClippedBy E planes ls c.clipped m') :
      ClippedBy E planes (l :: ls) m m'

lemma clipLoop_ok {E : Env} {planes : List PlaneObj} : ∀ (ls : List (List Str)) {o o' : MeshObj},
    clipLoop E planes ls o = .ok o' → ClippedBy E planes ls o.mesh o'.mesh := by
  intro ls
  induction ls with
  | nil => intro o o' h; cases h; exact .nil _
  | cons l ls ih =>
    intro o o' h
    simp only [clipLoop, bind_ok] at h
    obtain ⟨p, hp, c, hc, h⟩ := h
    refine .cons hp ?_ (ih h)
    cases hx : Clipper.clip E.srt p.plane (1 / 1000) false o.mesh with
    | error e => rw [hx] at hc; cases hc
    | ok c' => rw [hx] at hc; cases hc; rfl

/-- C77: with the options `--clip-by-plane` and `--plane` only, in any number and any order, the mesh at the end of the run is
the mesh of the file clipped by all the planes given, one after the other in the order of the command line. -/
theorem C77_all_planes_clip (E : Env) (infile : Str) (l : List Opt)
    (hl : ∀ o ∈ l, (∃ v, o = .clipByPlane v) ∨ (∃ v, o = .plane v)) (out : Out) (h : main E infile (parse l) = .ok out) :
    ∃ fmt m planes, inputFormat E infile {} = .ok fmt ∧ loadMesh E.isFile E.load infile fmt = .ok m ∧
      traverse (definePlane E) (valuesOf Opt.plane? l) = .ok planes ∧
      ClippedBy E planes (valuesOf Opt.clip? l) m.healTriangles out.mesh := by
  have hp : parse l = { plane := (parse l).plane, clipByPlane := (parse l).clipByPlane } := by
    unfold parse
    have : ∀ (l : List Opt) (a : Args), (∀ o ∈ l, (∃ v, o = .clipByPlane v) ∨ (∃ v, o = .plane v)) →
        a = { plane := a.plane, clipByPlane := a.clipByPlane } →
        l.foldl Args.set a = { plane := (l.foldl Args.set a).plane, clipByPlane := (l.foldl Args.set a).clipByPlane } := by
      intro l
      induction l with
      | nil => intro a _ h; exact h
      | cons o l ih =>
        intro a ho ha
        rw [List.foldl_cons]
        refine ih _ (fun o' h' => ho o' (by simp [h'])) ?_
        obtain ⟨v, rfl⟩ | ⟨v, rfl⟩ := ho o (by simp)
        · rw [ha]; rfl
        · rw [ha]; rfl
    exact this l {} hl rfl
  obtain ⟨⟨c1, -, c2⟩, n1, -, n2⟩ := C77_repeated l
  generalize hpl : (parse l).plane = P at *
  generalize hcl : (parse l).clipByPlane = C at *
  rw [hp] at h
  obtain ⟨fmt, o1, o2, o3, planes, o4, o5, o6, o7, o8, o9, i, s, y, e1, e2, e3, e4, e5, e6, e7, e8, e9, e10, e11, e12, e13,
    e14, e15, e16, -, -, -⟩ := main_ok h
  obtain ⟨m, hlm, rfl⟩ := loadObj_ok e2
  cases e3
  cases e4
  cases e6
  cases e7
  cases e8
  cases e9
  cases e10
  cases e12
  cases e13
  cases e14
  refine ⟨fmt, m, planes, e1, hlm, ?_, ?_⟩
  · rw [← c2]
    cases P with
    | none => exact e5
    | some x => exact e5
  · rw [← c1, e16]
    cases C with
    | none => cases e11; exact .nil _
    | some x => exact clipLoop_ok x e11

/-! ### A run with two planes -/

lemma clip_real2 {p : Plane ℚ} {q : Plane ℝ} (hpq : p.aff ratReal 0 = q) {m : Mesh ℚ} (hwf : m.WF) {c : Clipper.Clipped ℚ}
    (h : Clipper.clip insArgsort p (1 / 1000) false m = .ok c) :
    Clipper.clip insArgsort q (1 / 1000) false m.real = .ok (c.aff ratReal 0) := by
  have h1 := Clipper.clip_map (φ := ratReal) (t := 0) insArgsort_compat insArgsort_isArgsort p (1 / 1000) false m hwf
  rw [h] at h1
  have ht : ratReal (1 / 1000) = 1 / 1000 := by simp only [map_div₀, map_one, map_ofNat]
  rw [hpq, ht] at h1
  exact h1

/-- The cube clipped twice. -/
lemma halfCube_clip_twice : ∃ c c', Clipper.clip insArgsort ⟨⟨0, 0, 1⟩, 0⟩ (1 / 1000) false halfCube = .ok c ∧ c.clipped.WF ∧
    Clipper.clip insArgsort ⟨⟨1, 0, 0⟩, 1 / 2⟩ (1 / 1000) false c.clipped = .ok c' ∧ c'.clipped.faces.length = 4 := by
  have h : (match Clipper.clip insArgsort ⟨⟨0, 0, 1⟩, 0⟩ (1 / 1000) false halfCube with
      | .ok c => decide c.clipped.WF && (match Clipper.clip insArgsort ⟨⟨1, 0, 0⟩, 1 / 2⟩ (1 / 1000) false c.clipped with
        | .ok c' => c'.clipped.faces.length == 4
        | .error _ => false)
      | .error _ => false) = true := by decide +kernel
  cases hc : Clipper.clip insArgsort (⟨⟨0, 0, 1⟩, 0⟩ : Plane ℚ) (1 / 1000) false halfCube with
  | error e => rw [hc] at h; simp at h
  | ok c =>
    rw [hc] at h
    simp only [Bool.and_eq_true, decide_eq_true_eq] at h
    cases hc' : Clipper.clip insArgsort (⟨⟨1, 0, 0⟩, 1 / 2⟩ : Plane ℚ) (1 / 1000) false c.clipped with
    | error e => rw [hc'] at h; simp at h
    | ok c' => rw [hc'] at h; exact ⟨c, c', rfl, h.1, hc', by simpa using h.2⟩

/-- The hypotheses of `C77_all_planes_clip` are met by a run with two planes. -/
theorem cube_two_planes : ∃ out, main cubeEnv "hull.obj".toList
    (parse [.clipByPlane [], .clipByPlane ["2".toList, "0".toList, "0".toList, "0.5".toList]]) = .ok out ∧
    out.mesh.faces.length = 4 := by
  obtain ⟨c, c', h1, hwf, h2, h3⟩ := halfCube_clip_twice
  have r1 := clip_real2 (q := ⟨⟨0, 0, 1⟩, 0⟩) (by simp [Plane.aff, V3.dot]) (by decide +kernel) h1
  have r2 := clip_real2 (q := ⟨⟨1, 0, 0⟩, 1 / 2⟩) (by simp [Plane.aff, V3.dot]) hwf h2
  have hf : ∀ a : Args, a.inputFormat = none → inputFormat cubeEnv "hull.obj".toList a = .ok "obj".toList := by
    intro a ha; rw [← cubeEnv_format]; unfold inputFormat; rw [ha]
  have n1 : PlaneObj.normalize ⟨0, 0, 1⟩ = ⟨0, 0, 1⟩ := by
    simp [PlaneObj.normalize, V3.norm, V3.normSq, V3.dot]
  have n2 : PlaneObj.normalize ⟨2, 0, 0⟩ = ⟨1, 0, 0⟩ := by
    have : (⟨2, 0, 0⟩ : V3 ℝ).norm = 2 := by
      have : (⟨2, 0, 0⟩ : V3 ℝ) = (2 : ℝ) • ⟨1, 0, 0⟩ := by ext <;> simp
      rw [this, V3.norm_smul_of_nonneg (by norm_num)]
      simp [V3.norm, V3.normSq, V3.dot]
    simp only [PlaneObj.normalize, this]
    ext <;> simp
  have k1 : planeKey "Oxy".toList = some ⟨0, 0, 1⟩ := by
    simp [planeKey, planeKeys]
  have p1 : ∃ q, resolvePlane cubeEnv [] (defaulted "Oxy" []) = .ok q ∧ q.plane = ⟨⟨0, 0, 1⟩, 0⟩ := by
    refine ⟨(PlaneObj.init ⟨0, 0, 1⟩ 0).setNormal ⟨0, 0, 1⟩,
      by simp only [defaulted, if_true, resolvePlane, k1, List.length_nil, gt_iff_lt, lt_irrefl, if_false], ?_⟩
    simp only [PlaneObj.plane, PlaneObj.setNormal, n1, PlaneObj.init]
  have p2 : ∃ q, resolvePlane cubeEnv [] (defaulted "Oxy" ["2".toList, "0".toList, "0".toList, "0.5".toList]) = .ok q ∧
      q.plane = ⟨⟨1, 0, 0⟩, 1 / 2⟩ := by
    refine ⟨((PlaneObj.init ⟨0, 0, 1⟩ 0).setNormal ⟨2, 0, 0⟩).setC (1 / 2), ?_, ?_⟩
    · rw [defaulted, if_neg (by simp)]
      have e1 : cubeEnv.parseFloat "2".toList = some 2 := by simp [cubeEnv]
      have e2 : cubeEnv.parseFloat "0".toList = some 0 := by simp [cubeEnv]
      have e3 : cubeEnv.parseFloat "0.5".toList = some (1 / 2) := by simp [cubeEnv]
      simp only [resolvePlane, parse4, e1, e2, e3]
    · simp only [PlaneObj.plane, PlaneObj.setNormal, n2, PlaneObj.setC]
  obtain ⟨q1, p1, e1⟩ := p1
  obtain ⟨q2, p2, e2⟩ := p2
  have hl : clipLoop cubeEnv [] [[], ["2".toList, "0".toList, "0".toList, "0.5".toList]] (MeshObj.new halfCube.real) =
      .ok (MeshObj.new (c'.aff ratReal 0).clipped) := by
    simp only [clipLoop, p1, p2, bind, Except.bind, e1, e2]
    rw [show (MeshObj.new halfCube.real).mesh = halfCube.real from rfl, show cubeEnv.srt = insArgsort from rfl, r1]
    simp only [liftClip]
    rw [show (MeshObj.new (c.aff ratReal 0).clipped).mesh = c.clipped.real from rfl, r2]
  refine ⟨⟨(c'.aff ratReal 0).clipped, none, none, none, none⟩, ?_, ?_⟩
  · have hp : prepare cubeEnv "hull.obj".toList
        (parse [.clipByPlane [], .clipByPlane ["2".toList, "0".toList, "0".toList, "0.5".toList]]) =
        .ok (MeshObj.new halfCube.real, []) := by
      unfold prepare
      rw [hf _ rfl]
      simp only [bind, Except.bind, cubeEnv_load]
      rfl
    have hcp : clipPlanes cubeEnv [] (parse [.clipByPlane [], .clipByPlane ["2".toList, "0".toList, "0".toList, "0.5".toList]])
        (MeshObj.new halfCube.real) = .ok (MeshObj.new (c'.aff ratReal 0).clipped) := hl
    unfold main
    rw [hp]
    simp only [bind, Except.bind, hcp]
    rfl
  · show (c'.clipped.aff ratReal 0).faces.length = 4
    exact h3

end Cli
end MM
