import Verif.Model.Densities
import Mathlib.Tactic

/-!
# Property C60: densities
-/

namespace MM

/-- A character of the ASCII set. -/
def IsAscii (c : Char) : Prop := c.toNat < 128

/-- Upper case form of the ASCII letters, other ASCII characters unchanged. Nothing is asked for other characters. -/
def UpperAscii (up : Char → List Char) : Prop := ∀ c, IsAscii c → up c = [c.toUpper]

/-- Two strings that differ by the case of ASCII letters only. -/
def SameUpToCase (s t : Str) : Prop := s.map Char.toUpper = t.map Char.toUpper

lemma toUpper_ascii (c : Char) (h : IsAscii c.toUpper) : IsAscii c := by
  by_contra hc
  unfold IsAscii at h hc
  apply hc
  unfold Char.toUpper at h
  split at h
  · rename_i h'
    have h2 : c.toNat ≤ 122 := UInt32.le_iff_toNat_le.1 h'.2
    omega
  · exact h

lemma pyUpper_ascii {up : Char → List Char} (hup : UpperAscii up) (s : Str) (hs : ∀ c ∈ s, IsAscii c) :
    pyUpper up s = s.map Char.toUpper := by
  induction s with
  | nil => rfl
  | cons c s ih =>
    have h1 := hup c (hs c (by simp))
    have h2 := ih (fun d hd => hs d (by simp [hd]))
    simp only [pyUpper, List.flatMap_cons, List.map_cons] at h2 ⊢
    rw [h1, h2]; rfl

/-- The names are in upper case and ASCII. -/
lemma table_upper : ∀ e ∈ densityTable, e.1.toList.map Char.toUpper = e.1.toList ∧ ∀ c ∈ e.1.toList, c.toNat < 128 := by
  decide +kernel

lemma table_nodup : (densityTable.map (fun e => e.1.toList)).Nodup := by decide +kernel

lemma table_pos : ∀ e ∈ densityTable, 0 < e.2 := by decide +kernel

lemma sameUpToCase_ascii {s : Str} {e : String × ℚ} (he : e ∈ densityTable) (h : SameUpToCase s e.1.toList) :
    ∀ c ∈ s, IsAscii c := by
  intro c hc
  apply toUpper_ascii
  have h1 : c.toUpper ∈ s.map Char.toUpper := List.mem_map_of_mem hc
  rw [h, (table_upper e he).1] at h1
  exact (table_upper e he).2 _ h1

lemma find_key {α : Type*} (l : List (String × α)) (hn : (l.map (fun e => e.1.toList)).Nodup) (e : String × α)
    (he : e ∈ l) : l.find? (fun e' => e'.1.toList == e.1.toList) = some e := by
  induction l with
  | nil => simp at he
  | cons a l ih =>
    simp only [List.map_cons, List.nodup_cons] at hn
    rw [List.find?_cons]
    rcases List.mem_cons.1 he with rfl | he
    · simp
    · have : a.1.toList ≠ e.1.toList := fun h => hn.1 (h ▸ List.mem_map_of_mem (f := fun e => e.1.toList) he)
      have h' : (a.1.toList == e.1.toList) = false := by simpa using this
      rw [h']
      exact ih hn.2 he

/-- C60: every listed medium is accepted in any letter case, and gives its density of the table. -/
theorem C60_listed (up : Char → List Char) (hup : UpperAscii up) (name : String) (d : ℚ)
    (h : (name, d) ∈ densityTable) (s : Str) (hs : SameUpToCase s name.toList) :
    name ∈ listMedium ∧ getDensity up s = .ok d := by
  refine ⟨List.mem_map_of_mem (f := Prod.fst) h, ?_⟩
  have h1 : pyUpper up s = name.toList := by
    rw [pyUpper_ascii hup s (sameUpToCase_ascii h hs), hs, (table_upper _ h).1]
  unfold getDensity
  rw [h1, find_key densityTable table_nodup (name, d) h]

/-- C60: a string whose upper case form is not listed raises `KeyError`; an ASCII string raises as soon as it is not a
listed medium up to letter case. -/
theorem C60_unknown (up : Char → List Char) (hup : UpperAscii up) (s : Str) :
    ((∀ name ∈ listMedium, pyUpper up s ≠ name.toList) ↔ getDensity up s = .error .keyError) ∧
    ((∀ c ∈ s, IsAscii c) → (∀ name ∈ listMedium, ¬ SameUpToCase s name.toList) →
      getDensity up s = .error .keyError) := by
  have h1 : (∀ name ∈ listMedium, pyUpper up s ≠ name.toList) ↔ getDensity up s = .error .keyError := by
    unfold getDensity
    constructor
    · intro h
      have : densityTable.find? (fun e => e.1.toList == pyUpper up s) = none := by
        rw [List.find?_eq_none]
        intro e he hb
        exact h e.1 (List.mem_map_of_mem (f := Prod.fst) he) (by simpa using (beq_iff_eq.1 hb).symm)
      rw [this]
    · intro h name hn hu
      obtain ⟨e, he, rfl⟩ := List.mem_map.1 hn
      rw [hu, find_key densityTable table_nodup e he] at h
      simp at h
  refine ⟨h1, fun ha h => h1.1 (fun name hn hu => h name hn ?_)⟩
  obtain ⟨e, he, rfl⟩ := List.mem_map.1 hn
  unfold SameUpToCase
  rw [← pyUpper_ascii hup s ha, hu, (table_upper e he).1]

/-- C60: whatever the string, the density returned is positive and is the one of a listed medium. -/
theorem C60_positive (up : Char → List Char) (s : Str) (d : ℚ) (h : getDensity up s = .ok d) :
    0 < d ∧ ∃ name ∈ listMedium, (name, d) ∈ densityTable ∧ pyUpper up s = name.toList := by
  unfold getDensity at h
  cases hf : densityTable.find? (fun e => e.1.toList == pyUpper up s) with
  | none => rw [hf] at h; simp at h
  | some e =>
    rw [hf] at h
    simp only [Except.ok.injEq] at h
    have he := List.mem_of_find?_eq_some hf
    have hk := List.find?_some hf
    subst h
    exact ⟨table_pos e he, e.1, List.mem_map_of_mem (f := Prod.fst) he, he, (beq_iff_eq.1 hk).symm⟩

/-- Upper case table restricted to ASCII letters. -/
def asciiUp (c : Char) : List Char := [c.toUpper]

example : UpperAscii asciiUp ∧ SameUpToCase "Salt_Water".toList "SALT_WATER".toList ∧
    getDensity asciiUp "Salt_Water".toList = .ok 1025 ∧ getDensity asciiUp "HELIUM".toList = .error .keyError :=
  ⟨fun _ _ => rfl, by unfold SameUpToCase; decide +kernel, by decide +kernel, by decide +kernel⟩

end MM
