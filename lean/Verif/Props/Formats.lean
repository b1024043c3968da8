import Verif.Model.Formats
import Verif.Props.Densities

/-!
# Property C59: choice of the format
-/

namespace MM

/-- Lower case form of the ASCII letters; nothing is asked for strings with other characters. -/
def LowerAscii (lower : Str → Str) : Prop := ∀ s, (∀ c ∈ s, IsAscii c) → lower s = s.map Char.toLower

/-- The formats documented by `meshmagick --help` (cli.py:85-117): extension, can be read, can be written, keywords. -/
def documentedFormats : List (String × Bool × Bool × List String) :=
  [("mar", true, true, ["nemoh", "mar"]), ("nem", true, false, ["nemoh_mesh", "nem"]),
   ("gdf", true, true, ["wamit", "gdf"]), ("inp", true, false, ["diodore-inp", "inp"]),
   ("DAT", false, true, ["diodore-dat"]), ("hst", true, true, ["hydrostar", "hst"]),
   ("nat", true, true, ["natural", "nat"]), ("msh", true, false, ["gmsh", "msh"]),
   ("rad", true, false, ["rad", "radioss"]), ("stl", true, true, ["stl"]), ("vtu", true, true, ["vtu"]),
   ("vtp", true, true, ["vtp"]), ("vtk", true, true, ["paraview-legacy", "vtk"]),
   ("tec", true, true, ["tecplot", "tec"]), ("med", true, false, ["med", "salome"]), ("obj", true, false, ["obj"])]

/-- C59: each keyword of the dictionary gives a loader and a writer of the same format; two keywords are aliases (same
pair) or have different loaders and writers; a string that is not a keyword raises `IOError` on loading, without any
loader being run, and on writing, without any writer being run. -/
theorem C59_dispatch :
    (∀ e ∈ extensionDict, extensionOf e.1.toList = some e.2 ∧ e.2.1 = e.2.2) ∧
    (∀ s : Str, knowExtension s = true ↔ ∃ e ∈ extensionDict, e.1.toList = s) ∧
    (∀ {α : Type} (isFile : Str → Bool) (load : Fmt → Str → Except PyErr α) (name s : Str),
      knowExtension s = false → loadMesh isFile load name s = .error .ioError ∧ writeMesh s = .error .ioError) ∧
    (∀ {α : Type} (isFile : Str → Bool) (load : Fmt → Str → Except PyErr α) (name s : Str) (a b : Fmt),
      extensionOf s = some (a, b) → isFile name = true → loadMesh isFile load name s = load a name) := by
  have hn : (extensionDict.map (fun e => e.1.toList)).Nodup := by decide +kernel
  refine ⟨fun e he => ⟨?_, ?_⟩, fun s => ?_, fun isFile load name s h => ?_, fun isFile load name s a b h hf => ?_⟩
  · unfold extensionOf; rw [find_key extensionDict hn e he]; rfl
  · revert e; decide +kernel
  · unfold knowExtension extensionOf
    constructor
    · intro h
      cases hf : extensionDict.find? (fun e => e.1.toList == s) with
      | none => simp [hf] at h
      | some e =>
        have hk := List.find?_some hf
        exact ⟨e, List.mem_of_find?_eq_some hf, beq_iff_eq.1 hk⟩
    · rintro ⟨e, he, rfl⟩
      rw [find_key extensionDict hn e he]; rfl
  · have h' : extensionOf s = none := by
      unfold knowExtension at h
      simpa using h
    unfold loadMesh writeMesh
    rw [h']
    simp
  · unfold loadMesh; rw [h, if_pos hf]

/-- C59: the keywords and capabilities documented by the command line help are those of the dictionary: a documented
keyword is known, its reader is the one of the documented extension, and a format documented as writable has a writer.
(The converse fails for `nem` and `obj`, documented as read only.) -/
theorem C59_documented : ∀ d ∈ documentedFormats, ∀ k ∈ d.2.2.2, ∃ f, extensionOf k.toList = some (f, f) ∧
    (d.2.2.1 = true → writerImplemented f = true) ∧ (∀ k' ∈ d.2.2.2, extensionOf k'.toList = some (f, f)) := by
  have h : ∀ d ∈ documentedFormats, ∀ k ∈ d.2.2.2, ∃ p ∈ extensionOf k.toList, p.2 = p.1 ∧
    (d.2.2.1 = true → writerImplemented p.1 = true) ∧ (∀ k' ∈ d.2.2.2, extensionOf k'.toList = some p) := by
    decide +kernel
  intro d hd k hk
  obtain ⟨⟨a, b⟩, h1, h2, h3, h4⟩ := h d hd k hk
  simp only at h2 h3
  subst h2
  exact ⟨b, h1, h3, h4⟩

/-- C59: writing is refused, without any file being made, exactly for the keywords of the formats documented as read only,
`nem` and `obj` excepted. -/
theorem C59_refused : ∀ d ∈ documentedFormats, ∀ k ∈ d.2.2.2,
    (writeMesh k.toList = .error .notImplemented ↔ d.2.2.1 = false ∧ d.1 ≠ "nem" ∧ d.1 ≠ "obj") ∧
    ((∃ f, writeMesh k.toList = .ok f) ↔ d.2.2.1 = true ∨ d.1 = "nem" ∨ d.1 = "obj") := by
  have h : ∀ d ∈ documentedFormats, ∀ k ∈ d.2.2.2,
      (∃ p ∈ extensionOf k.toList, (writerImplemented p.2 = true ↔ d.2.2.1 = true ∨ d.1 = "nem" ∨ d.1 = "obj")) := by
    decide +kernel
  intro d hd k hk
  obtain ⟨p, hp, hw⟩ := h d hd k hk
  have hp' : extensionOf k.toList = some p := hp
  unfold writeMesh
  rw [hp']
  by_cases hi : writerImplemented p.2 = true
  · have := hw.1 hi
    constructor
    · simp only [hi, if_true, reduceCtorEq, false_iff]
      rintro ⟨h1, h2, h3⟩
      rcases this with h | h | h
      · rw [h1] at h; cases h
      · exact h2 h
      · exact h3 h
    · simp [hi]; exact this
  · have hn : ¬ (d.2.2.1 = true ∨ d.1 = "nem" ∨ d.1 = "obj") := fun h => hi (hw.2 h)
    push Not at hn
    constructor
    · simp [hi, hn]
    · simp [hi, hn]

/-- C59, all the keywords, documented or not: writing raises `NotImplementedError` for these ten strings and no other. -/
theorem C59_read_only (s : Str) : writeMesh s = .error .notImplemented ↔
    s ∈ ["rad", "radioss", "diodore-inp", "inp", "gmsh", "msh", "med", "salome", "vrml", "wrl"].map String.toList := by
  constructor
  · intro h
    have hk : knowExtension s = true := by
      by_contra hk
      rw [(C59_dispatch.2.2.1 (α := Unit) (fun _ => true) (fun _ _ => .ok ()) [] s (by simpa using hk)).2] at h
      cases h
    obtain ⟨e, he, rfl⟩ := (C59_dispatch.2.1 s).1 hk
    revert h
    revert e
    decide +kernel
  · revert s
    decide +kernel

/-- C59 fails: the lookup does not ignore the letter case, and the documented extension `.DAT` is not known, in any
case. -/
theorem C59_case_fails :
    (∃ s t : Str, SameUpToCase s t ∧ knowExtension s = true ∧ knowExtension t = false) ∧
    (∀ t : Str, SameUpToCase t "DAT".toList → knowExtension t = false) := by
  refine ⟨⟨"stl".toList, "STL".toList, by unfold SameUpToCase; decide +kernel, by decide +kernel, by decide +kernel⟩, ?_⟩
  intro t ht
  by_contra hk
  obtain ⟨e, he, rfl⟩ := (C59_dispatch.2.1 t).1 (by simpa using hk)
  have : ∀ e ∈ extensionDict, e.1.toList.map Char.toUpper ≠ "DAT".toList.map Char.toUpper := by decide +kernel
  exact this e he ht

/-! ### Extension of a file name -/

lemma takeWhile_append_of_all {α : Type*} (p : α → Bool) (l r : List α) (h : ∀ a ∈ l, p a = true) :
    (l ++ r).takeWhile p = l ++ r.takeWhile p := by
  induction l with
  | nil => rfl
  | cons a l ih => simp [h a (by simp), ih (fun b hb => h b (by simp [hb]))]

lemma dropWhile_append_of_all {α : Type*} (p : α → Bool) (l r : List α) (h : ∀ a ∈ l, p a = true) :
    (l ++ r).dropWhile p = r.dropWhile p := by
  induction l with
  | nil => rfl
  | cons a l ih => simp [h a (by simp), ih (fun b hb => h b (by simp [hb]))]

/-- A path `base.ext` whose last component is not only dots splits there. -/
lemma splitExt_append (dir name ext : Str) (h1 : '/' ∉ name)
    (h2 : ∃ c ∈ name, c ≠ '.') (h3 : '.' ∉ ext) (h4 : '/' ∉ ext) :
    splitExt (dir ++ name ++ '.' :: ext) = (dir ++ name, '.' :: ext) := by
  have hall : ∀ c ∈ ext.reverse, (fun c : Char => c != '.' && c != '/') c = true := by
    intro c hc
    have hc' : c ∈ ext := by simpa using hc
    have ha : c ≠ '.' := fun h => h3 (h ▸ hc')
    have hb : c ≠ '/' := fun h => h4 (h ▸ hc')
    simp [ha, hb]
  have hr : (dir ++ name ++ '.' :: ext).reverse = ext.reverse ++ '.' :: (name.reverse ++ dir.reverse) := by simp
  unfold splitExt
  simp only
  rw [hr, dropWhile_append_of_all _ _ _ hall, takeWhile_append_of_all _ _ _ hall]
  have hn : ∀ c ∈ name.reverse, (fun c : Char => c != '/') c = true := by
    intro c hc
    have hc' : c ∈ name := by simpa using hc
    have hb : c ≠ '/' := fun h => h1 (h ▸ hc')
    simp [hb]
  have hdw : List.dropWhile (fun c : Char => c != '.' && c != '/') ('.' :: (name.reverse ++ dir.reverse))
      = '.' :: (name.reverse ++ dir.reverse) := by simp
  have htw : List.takeWhile (fun c : Char => c != '.' && c != '/') ('.' :: (name.reverse ++ dir.reverse)) = [] := by simp
  rw [hdw, htw]
  have hany : ((name.reverse ++ dir.reverse).takeWhile (fun c => c != '/')).any (fun c => c != '.') = true := by
    rw [takeWhile_append_of_all _ _ _ hn, List.any_append]
    obtain ⟨c, hc, hne⟩ := h2
    have : name.reverse.any (fun c => c != '.') = true := by
      rw [List.any_eq_true]; exact ⟨c, by simpa using hc, by simpa using hne⟩
    simp [this]
  simp [hany]

/-- C59: the command line ignores the letter case of the extension of a file name: for a path `dir/name.ext`
(`dir` with its separator, or empty) the
format is the one of the keyword equal to the extension up to case. -/
theorem C59_file_extension (lower : Str → Str) (hl : LowerAscii lower) (dir name ext : Str) (k : String)
    (f : Fmt × Fmt) (hk : (k, f) ∈ extensionDict) (hext : SameUpToCase ext k.toList)
    (h1 : '/' ∉ name) (h2 : ∃ c ∈ name, c ≠ '.') :
    extensionOf (extLower lower (dir ++ name ++ '.' :: ext)) = some f := by
  have hkey : ∀ e ∈ extensionDict, (∀ c ∈ e.1.toList, c.toUpper ≠ '.' ∧ c.toUpper ≠ '/' ∧ c.toUpper.toNat < 128) ∧
      e.1.toList.map (fun c => c.toUpper.toLower) = e.1.toList := by decide +kernel
  have hup : ∀ c ∈ ext, ∃ d ∈ k.toList, d.toUpper = c.toUpper := by
    intro c hc
    have : c.toUpper ∈ ext.map Char.toUpper := List.mem_map_of_mem hc
    rw [hext] at this
    obtain ⟨d, hd, h⟩ := List.mem_map.1 this
    exact ⟨d, hd, h⟩
  have ha : ∀ c ∈ ext, IsAscii c := by
    intro c hc
    obtain ⟨d, hd, h⟩ := hup c hc
    apply toUpper_ascii
    rw [← h]; exact ((hkey _ hk).1 d hd).2.2
  have h3 : '.' ∉ ext := by
    intro hc
    obtain ⟨d, hd, h⟩ := hup _ hc
    exact ((hkey _ hk).1 d hd).1 (by rw [h]; decide)
  have h4 : '/' ∉ ext := by
    intro hc
    obtain ⟨d, hd, h⟩ := hup _ hc
    exact ((hkey _ hk).1 d hd).2.1 (by rw [h]; decide)
  unfold extLower
  rw [splitExt_append dir name ext h1 h2 h3 h4]
  simp only [List.tail_cons]
  rw [hl ext ha]
  have hlow : ∀ c : Char, IsAscii c → c.toUpper.toLower = c.toLower := by
    have h128 : ∀ n : Fin 128, (Char.ofNat n).toUpper.toLower = (Char.ofNat n).toLower := by decide +kernel
    intro c hc
    have := h128 ⟨c.toNat, hc⟩
    simpa using this
  have hmap : ext.map Char.toLower = k.toList := by
    have h5 : ext.map Char.toLower = (ext.map Char.toUpper).map Char.toLower := by
      rw [List.map_map]
      exact List.map_congr_left (fun c hc => (hlow c (ha c hc)).symm)
    rw [h5, hext, List.map_map]
    exact (hkey _ hk).2
  rw [hmap]
  exact (C59_dispatch.1 _ hk).1

example : splitExt "/a.b/hull.MAR".toList = ("/a.b/hull".toList, ".MAR".toList) ∧
    splitExt "/a.b/.hull".toList = ("/a.b/.hull".toList, []) ∧
    extensionOf (extLower (List.map Char.toLower) "/a.b/hull.MAR".toList) = some (.mar, .mar) := by decide +kernel

end MM
