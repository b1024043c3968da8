import Verif.Props.CliOutput
import Verif.Props.CliEdit

/-!
# The format in which the command line reads its files (C127)
-/

namespace MM
namespace Cli

/-- The format a run uses, as documented: the last `--input-format` given, as it is typed, or else the extension of the file in lower
case. -/
def FormatFor (lower : Str → Str) (infile : Str) (l : List Opt) (f : Str) : Prop :=
  (valuesOf Opt.inputFormat? l).getLast? = some f ∨
  (valuesOf Opt.inputFormat? l = [] ∧ ∃ dir name ext : Str, infile = dir ++ name ++ '.' :: ext ∧ '/' ∉ name ∧
    (∃ c ∈ name, c ≠ '.') ∧ '.' ∉ ext ∧ '/' ∉ ext ∧ lower ext = f ∧ f ≠ [])

/-- There is no format: none is given, and the name of the file has no full stop. -/
def NoFormat (infile : Str) (l : List Opt) : Prop :=
  valuesOf Opt.inputFormat? l = [] ∧ ∃ dir name : Str, (infile = dir ++ '/' :: name ∨ infile = name) ∧ '.' ∉ name

lemma inputFormat_of {E : Env} {infile f : Str} {l : List Opt} (h : FormatFor E.lower infile l f) :
    inputFormat E infile (parse l) = .ok f := by
  unfold inputFormat
  rw [(C77_last l).2.1]
  rcases h with h | ⟨h, dir, name, ext, rfl, h1, h2, h3, h4, h5, h6⟩
  · rw [h]
  · rw [h]
    have e : extLower E.lower (dir ++ name ++ '.' :: ext) = f := by
      unfold extLower
      rw [splitExt_append dir name ext h1 h2 h3 h4]
      exact h5
    simp only [List.getLast?_nil, e, if_neg h6]

lemma inputFormat_none {E : Env} (hl : E.lower [] = []) {infile : Str} {l : List Opt} (h : NoFormat infile l) :
    inputFormat E infile (parse l) = .error .ioError := by
  obtain ⟨h, dir, name, h1, h2⟩ := h
  have key : (splitExt infile).2 = [] := by
    have a : ∀ c ∈ name.reverse, (c != '.') = true := by
      intro c hc; simp only [bne_iff_ne]; rintro rfl; exact h2 (by simpa using hc)
    have b : ∀ r : Str, (∀ c ∈ r, (c != '.') = true) → ∀ t : Str, (t = [] ∨ t.head? = some '/') →
        ∀ s, (r ++ t).dropWhile (fun c : Char => c != '.' && c != '/') ≠ '.' :: s := by
      intro r
      induction r with
      | nil =>
        intro _ t ht s
        rcases ht with rfl | ht
        · simp
        · cases t with
          | nil => simp
          | cons c t => cases ht; simp
      | cons c r ih =>
        intro hr t ht s
        have hc := hr c (by simp)
        by_cases hs : c = '/'
        · subst hs; simp
        · rw [List.cons_append, List.dropWhile_cons, if_pos (by simp_all)]
          exact ih (fun c hc => hr c (by simp [hc])) t ht s
    have c : ∀ s, infile.reverse.dropWhile (fun c : Char => c != '.' && c != '/') ≠ '.' :: s := by
      rcases h1 with rfl | rfl
      · have := b name.reverse a ('/' :: dir.reverse) (.inr rfl)
        simpa using this
      · have := b infile.reverse a [] (.inl rfl)
        simpa using this
    unfold splitExt
    dsimp only
    split
    · rename_i stem hst; exact absurd hst (c stem)
    · rfl
  unfold inputFormat
  rw [(C77_last l).2.1, h]
  simp [extLower, key, hl]

/-- **C127.** Whatever the other options, a run reads the file in the format asked for: it stops with `IOError` when the file does not
exist or the format is not known, stops with the exception of the reader of this format when it raises one, and a run that ends has
read the file with this reader. -/
theorem C127_input_format (E : Env) (infile f : Str) (l : List Opt) (h : FormatFor E.lower infile l f) :
    ((E.isFile infile = false ∨ extensionOf f = none) → main E infile (parse l) = .error .ioError) ∧
    (∀ r w e, E.isFile infile = true → extensionOf f = some (r, w) → E.load r infile = .error e →
      main E infile (parse l) = .error e) ∧
    (∀ out, main E infile (parse l) = .ok out → ∃ r w m, E.isFile infile = true ∧ extensionOf f = some (r, w) ∧
      E.load r infile = .ok m) := by
  have hf := inputFormat_of h
  have hmain : ∀ e, loadObj E infile f = .error e → main E infile (parse l) = .error e := by
    intro e he
    simp only [main, prepare, hf, bind, Except.bind, he]
  have h1 : (E.isFile infile = false ∨ extensionOf f = none) → loadObj E infile f = .error .ioError := by
    intro h
    unfold loadObj loadMesh
    rcases h with h | h
    · simp [h]
    · rw [h]; split <;> rfl
  have h2 : ∀ r w e, E.isFile infile = true → extensionOf f = some (r, w) → E.load r infile = .error e →
      loadObj E infile f = .error e := by
    intro r w e h3 h4 h5
    unfold loadObj loadMesh
    simp [h3, h4, h5, Except.map]
  refine ⟨fun h => hmain _ (h1 h), fun r w e h3 h4 h5 => hmain _ (h2 r w e h3 h4 h5), ?_⟩
  intro out hout
  cases hi : E.isFile infile with
  | false => rw [hmain _ (h1 (.inl hi))] at hout; cases hout
  | true =>
    cases hx : extensionOf f with
    | none => rw [hmain _ (h1 (.inr hx))] at hout; cases hout
    | some p =>
      cases hr : E.load p.1 infile with
      | error e => rw [hmain _ (h2 p.1 p.2 e hi hx hr)] at hout; cases hout
      | ok m => exact ⟨p.1, p.2, m, rfl, rfl, hr⟩

/-- **C127.** A run which cannot tell the format stops with `IOError`, whatever the file holds and the other options. -/
theorem C127_no_format (E : Env) (hl : E.lower [] = []) (infile : Str) (l : List Opt) (h : NoFormat infile l) :
    main E infile (parse l) = .error .ioError := by
  simp only [main, prepare, inputFormat_none hl h, bind, Except.bind]

/-- **C127.** The file to concatenate is read in the format of the first one, whatever its extension. -/
theorem C127_concatenated_format (E : Env) (infile other f : Str) (l : List Opt) (h : FormatFor E.lower infile l f)
    (hc : (valuesOf Opt.concat? l).getLast? = some other) (out : Out) (hout : main E infile (parse l) = .ok out) :
    ∃ r w m c, extensionOf f = some (r, w) ∧ E.load r infile = .ok m ∧ E.isFile other = true ∧ E.load r other = .ok c := by
  obtain ⟨r, w, m, h1, h2, h3⟩ := (C127_input_format E infile f l h).2.2 out hout
  refine ⟨r, w, m, ?_⟩
  obtain ⟨fmt, o1, o2, o3, planes, o4, o5, o6, o7, o8, o9, i, s, y, e1, e2, e3, -⟩ := main_ok hout
  rw [inputFormat_of h] at e1
  cases e1
  unfold concatenate at e3
  rw [(C77_last l).2.2.2.2.2.2.2.2.2, hc] at e3
  simp only [bind_ok] at e3
  obtain ⟨c, e4, -⟩ := e3
  obtain ⟨c, e5, -⟩ := loadObj_ok e4
  unfold loadMesh at e5
  split at e5
  · rename_i hi
    rw [h2] at e5
    exact ⟨c, h2, h3, hi, e5⟩
  · cases e5

/-- The case of the format matters when it is typed, not when it is the extension: `hull.OBJ` is read as `obj`, but
`--input-format OBJ` is refused for every file. -/
theorem C127_typed_case (E : Env) (hl : E.lower "OBJ".toList = "obj".toList) (l : List Opt) (hn : valuesOf Opt.inputFormat? l = []) :
    FormatFor E.lower "hull.OBJ".toList l "obj".toList ∧
    ∀ infile, main E infile (parse (l ++ [.inputFormat "OBJ".toList])) = .error .ioError := by
  constructor
  · exact .inr ⟨hn, [], "hull".toList, "OBJ".toList, by decide +kernel, by decide +kernel, ⟨'h', by decide +kernel, by decide⟩,
      by decide +kernel, by decide +kernel, hl, by decide⟩
  · intro infile
    refine (C127_input_format E infile "OBJ".toList _ (.inl ?_)).1 (.inr (by decide +kernel))
    unfold valuesOf
    rw [List.filterMap_append]
    simp [Opt.inputFormat?]

/-- A run on a file which has a format, with another option. -/
example : FormatFor cubeEnv.lower "hull.obj".toList [.outputFormat "mar".toList] "obj".toList :=
  .inr ⟨rfl, [], "hull".toList, "obj".toList, by decide +kernel, by decide +kernel, ⟨'h', by decide +kernel, by decide⟩,
    by decide +kernel, by decide +kernel, rfl, by decide⟩

/-- A run with a format given twice: the last one counts. -/
example : FormatFor cubeEnv.lower "hull".toList [.inputFormat "stl".toList, .flipNormals, .inputFormat "nemoh".toList]
    "nemoh".toList := .inl rfl

/-- A run without format. -/
example : NoFormat "old.hulls/hull".toList [.flipNormals] :=
  ⟨rfl, "old.hulls".toList, "hull".toList, .inl (by decide +kernel), by decide +kernel⟩

end Cli
end MM
