import Verif.Props.IoGdf

/-!
# Property C84: the loader of GDF files reads every layout of the panels

A GDF file has four lines of header and then, for each panel, the twelve coordinates of its corners. They may be laid out on
lines in any way (one corner on each line, all twelve numbers on one line, blank lines between), as long as each panel begins
on a new line.
-/

namespace MM
namespace Io

/-- The lines `ls` hold the numbers `cs`: each line is made of numbers, which follow each other. -/
inductive Holds : List Str → List ℚ → Prop
  | nil : Holds [] []
  | cons {l ls cs ds} (h : floats (split l) = .ok cs) (h' : Holds ls ds) : Holds (l :: ls) (cs ++ ds)

/-- The lines `ls` hold the coordinates of one panel, and the last of them is on the last line. -/
def IsPanel (ls : List Str) (a b c d : V3 ℚ) : Prop :=
  ∃ ls' l cs ds, ls = ls' ++ [l] ∧ Holds ls' cs ∧ floats (split l) = .ok ds ∧ ds ≠ [] ∧
    cs ++ ds = [a.x, a.y, a.z, b.x, b.y, b.z, c.x, c.y, c.z, d.x, d.y, d.z]

/-- The four lines of header of a file of `nf` panels: nothing is asked for the first, two values are on each of the next
two, the last begins with the number of panels. -/
def IsGdfHeader (ls : List Str) (nf : ℕ) : Prop :=
  ∃ l1 l2 l3 l4 w ws, ls = [l1, l2, l3, l4] ∧ 2 ≤ (split l2).length ∧ 2 ≤ (split l3).length ∧ split l4 = w :: ws ∧
    parseInt w = some (nf : ℤ)

/-- A panel of four corners. -/
structure Panel where
  lines : List Str
  a : V3 ℚ
  b : V3 ℚ
  c : V3 ℚ
  d : V3 ℚ

/-- The coordinates of a point. -/
def row (v : V3 ℚ) : List ℚ := [v.x, v.y, v.z]

/-! ### One panel -/

lemma gdfFace_holds {ls : List Str} {cs : List ℚ} (h : Holds ls cs) : ∀ (fuel : ℕ) (tail : List Str) (acc : List ℚ),
    acc.length + cs.length < 12 → gdfFace (fuel + ls.length) (ls ++ tail) acc = gdfFace fuel tail (acc ++ cs) := by
  induction h with
  | nil => intro fuel tail acc _; simp
  | @cons l ls cs ds h h' ih =>
    intro fuel tail acc hlt
    rw [List.length_append] at hlt
    rw [List.length_cons, ← add_assoc]
    conv_lhs => unfold gdfFace
    rw [if_neg (by omega)]
    simp only [List.cons_append, List.headD_cons, h, List.tail_cons]
    rw [if_neg (by omega), ih _ _ _ (by rw [List.length_append]; omega), List.append_assoc]

lemma gdfFace_panel {ls : List Str} {a b c d : V3 ℚ} (h : IsPanel ls a b c d) (fuel : ℕ) (hf : ls.length ≤ fuel)
    (tail : List Str) : gdfFace fuel (ls ++ tail) [] =
      some (.ok (([a.x, a.y, a.z, b.x, b.y, b.z, c.x, c.y, c.z, d.x, d.y, d.z] : List ℚ), tail)) := by
  obtain ⟨ls', l, cs, ds, rfl, h1, h2, h3, h4⟩ := h
  rw [List.length_append, List.length_singleton] at hf
  obtain ⟨k, rfl⟩ := Nat.exists_eq_add_of_le' hf
  have hlen : cs.length + ds.length = 12 := by
    have := congrArg List.length h4
    simpa using this
  have hpos : 0 < ds.length := List.length_pos_iff.2 h3
  rw [show k + (ls'.length + 1) = (k + 1) + ls'.length from by ring, List.append_assoc,
    gdfFace_holds h1 _ _ _ (by simp; omega)]
  unfold gdfFace
  rw [if_neg (by simp; omega)]
  simp only [List.nil_append, List.cons_append, List.headD_cons, h2, List.tail_cons]
  rw [if_neg (by omega), h4]
  cases k <;> simp [gdfFace]

lemma gdfFaces_panels (fuel : ℕ) : ∀ (ps : List Panel), (∀ p ∈ ps, IsPanel p.lines p.a p.b p.c p.d ∧ p.lines.length ≤ fuel) →
    ∀ (k : ℕ) (tail : List Str), gdfFaces fuel (ps.length + k) (ps.flatMap Panel.lines ++ tail) =
      (gdfFaces fuel k tail).map (fun r => r.map (fun r => ps.map (fun p =>
        [p.a.x, p.a.y, p.a.z, p.b.x, p.b.y, p.b.z, p.c.x, p.c.y, p.c.z, p.d.x, p.d.y, p.d.z]) ++ r)) := by
  intro ps
  induction ps with
  | nil =>
    intro _ k tail
    simp only [List.length_nil, Nat.zero_add, List.flatMap_nil, List.nil_append, List.map_nil]
    rcases gdfFaces fuel k tail with _ | (e | r) <;> rfl
  | cons p ps ih =>
    intro h k tail
    obtain ⟨h1, h2⟩ := h p (by simp)
    rw [show (p :: ps).length + k = (ps.length + k) + 1 from by simp; ring]
    simp only [gdfFaces, List.flatMap_cons, List.append_assoc]
    rw [gdfFace_panel h1 fuel h2]
    simp only
    rw [ih (fun q hq => h q (by simp [hq]))]
    rcases gdfFaces fuel k tail with _ | (e | r) <;> rfl

lemma load_header {text : Str} {hd body : List Str} {nf : ℕ} (hl : linesOf text = hd ++ body) (hh : IsGdfHeader hd nf)
    (fuel : ℕ) : loadGDF fuel text =
      (gdfFaces fuel nf body).map (fun r => r.map (fun r => ⟨r.flatMap quarter,
        (List.range nf).map fun (k : ℕ) => [4 * (k : ℤ), 4 * (k : ℤ) + 1, 4 * (k : ℤ) + 2, 4 * (k : ℤ) + 3]⟩)) := by
  obtain ⟨l1, l2, l3, l4, w, ws, rfl, h2, h3, h4, hw⟩ := hh
  unfold loadGDF
  rw [hl]
  simp only [List.cons_append, List.tail_cons, List.headD_cons, List.nil_append, h4, hw]
  rw [if_neg (by omega), if_neg (by omega), if_neg (by omega), Int.toNat_natCast]
  rcases gdfFaces fuel nf body with _ | (e | r) <;> rfl

/-- **C84.** A GDF file whose panels are laid out on lines in any way, each beginning on a new line, with anything after the
last one, is loaded: each panel gives four vertices, which are its corners, and a face which has them in order. -/
theorem C84_layouts (text : Str) (hd tail : List Str) (ps : List Panel) (hh : IsGdfHeader hd ps.length)
    (hp : ∀ p ∈ ps, IsPanel p.lines p.a p.b p.c p.d) (hl : linesOf text = hd ++ (ps.flatMap Panel.lines ++ tail)) :
    ∃ n, ∀ fuel ≥ n, loadGDF fuel text = some (.ok ⟨ps.flatMap (fun p => [row p.a, row p.b, row p.c, row p.d]),
      (List.range ps.length).map fun (k : ℕ) => [4 * (k : ℤ), 4 * (k : ℤ) + 1, 4 * (k : ℤ) + 2, 4 * (k : ℤ) + 3]⟩) := by
  refine ⟨(ps.map fun p => p.lines.length).sum, fun fuel hf => ?_⟩
  have hlen : ∀ p ∈ ps, p.lines.length ≤ fuel := by
    intro p h
    exact (List.single_le_sum (by simp) _ (List.mem_map.2 ⟨p, h, rfl⟩)).trans hf
  have := gdfFaces_panels fuel ps (fun p h => ⟨hp p h, hlen p h⟩) 0 tail
  rw [Nat.add_zero] at this
  rw [load_header hl hh, this]
  simp only [gdfFaces, Option.map_some, Except.map, List.append_nil, List.flatMap_map]
  rfl

/-- **C84 (violation).** A truncated file, whose lines end before the twelve numbers of a panel, is never refused: whatever the
number of lines read, the loader goes on reading. -/
theorem C84_truncated_fails (text : Str) (hd ls : List Str) (cs : List ℚ) (ps : List Panel) (nf : ℕ) (hh : IsGdfHeader hd nf)
    (hnf : ps.length < nf) (hp : ∀ p ∈ ps, IsPanel p.lines p.a p.b p.c p.d) (hc : Holds ls cs) (hlt : cs.length < 12)
    (hl : linesOf text = hd ++ (ps.flatMap Panel.lines ++ ls)) (fuel : ℕ) : loadGDF fuel text = none := by
  have eof : ∀ (fuel : ℕ) (acc : List ℚ), acc.length < 12 → gdfFace fuel [] acc = none := by
    intro fuel
    induction fuel with
    | zero => intro acc h; unfold gdfFace; rw [if_neg (by omega)]
    | succ fuel ih =>
      intro acc h
      unfold gdfFace
      have : floats (split []) = .ok [] := rfl
      rw [if_neg (by omega)]
      simp only [List.headD_nil, this, List.tail_nil]
      rw [if_neg (by simp; omega)]
      exact ih _ (by simpa using h)
  obtain ⟨j, rfl⟩ : ∃ j, nf = ps.length + (j + 1) := ⟨nf - ps.length - 1, by omega⟩
  -- enough lines allowed
  have big : ∀ fuel, (ps.map fun p => p.lines.length).sum + ls.length ≤ fuel → loadGDF fuel text = none := by
    intro fuel hf
    have hlen : ∀ p ∈ ps, p.lines.length ≤ fuel := by
      intro p h
      have := List.single_le_sum (by simp) _ (List.mem_map.2 ⟨p, h, rfl⟩ : p.lines.length ∈ ps.map fun p => p.lines.length)
      omega
    have h1 := gdfFaces_panels fuel ps (fun p h => ⟨hp p h, hlen p h⟩) (j + 1) ls
    obtain ⟨k, rfl⟩ := Nat.exists_eq_add_of_le' (show ls.length ≤ fuel by omega)
    have h2 := gdfFace_holds hc k [] [] (by simpa using hlt)
    rw [List.append_nil, List.nil_append, eof k cs hlt] at h2
    rw [load_header hl hh, h1]
    simp only [gdfFaces, h2, Option.map_none]
  by_contra hne
  rw [load_header hl hh] at hne
  cases hg : gdfFaces fuel (ps.length + (j + 1)) (ps.flatMap Panel.lines ++ ls) with
  | none => rw [hg] at hne; exact hne rfl
  | some r =>
    have := gdfFaces_mono' fuel ((ps.map fun p => p.lines.length).sum + ls.length) _ _ _ hg
    have hb := big (fuel + ((ps.map fun p => p.lines.length).sum + ls.length)) (by omega)
    rw [load_header hl hh, this] at hb
    cases hb

/-- **C84 (violation).** When the numbers of two panels share a line (WAMIT reads its files in free format), the file is
refused. -/
theorem C84_shared_line_refused (fuel : ℕ) (l : Str) (tail : List Str) (cs : List ℚ) (h : floats (split l) = .ok cs)
    (hc : 12 < cs.length) (text : Str) (hd : List Str) (nf : ℕ) (hh : IsGdfHeader hd (nf + 1))
    (hl : linesOf text = hd ++ (l :: tail)) : loadGDF (fuel + 1) text = some (.error .valueError) := by
  rw [load_header hl hh]
  have : gdfFace (fuel + 1) (l :: tail) [] = some (.error .valueError) := by
    unfold gdfFace
    simp only [List.length_nil, List.headD_cons, h]
    rw [if_neg (by omega), if_pos (by omega)]
  simp only [gdfFaces, this, Option.map_some]
  rfl

/-! ### A file -/

/-- A panel on four lines, of 11, 0, 0 and 1 numbers, then one on one line. -/
def layoutText : Str :=
  "square\n1 9.81\n0 0\n2\n0 0 0 1 0 0 1 1 0 0 1\n\n \n0.5\n0 0 -1 1 0 -1 1 1 -1 0 1 -1\nend\n".toList

/-- The hypotheses of `C84_layouts` are met. -/
theorem layout_meets_C84 : ∃ (hd tail : List Str) (ps : List Panel), ps.length = 2 ∧ IsGdfHeader hd ps.length ∧
    (∀ p ∈ ps, IsPanel p.lines p.a p.b p.c p.d) ∧ linesOf layoutText = hd ++ (ps.flatMap Panel.lines ++ tail) := by
  refine ⟨["square\n".toList, "1 9.81\n".toList, "0 0\n".toList, "2\n".toList], ["end\n".toList],
    [⟨["0 0 0 1 0 0 1 1 0 0 1\n".toList, "\n".toList, " \n".toList, "0.5\n".toList], ⟨0, 0, 0⟩, ⟨1, 0, 0⟩, ⟨1, 1, 0⟩, ⟨0, 1, 1 / 2⟩⟩,
      ⟨["0 0 -1 1 0 -1 1 1 -1 0 1 -1\n".toList], ⟨0, 0, -1⟩, ⟨1, 0, -1⟩, ⟨1, 1, -1⟩, ⟨0, 1, -1⟩⟩], rfl, ?_, ?_, ?_⟩
  · exact ⟨_, _, _, _, ['2'], [], rfl, by decide +kernel, by decide +kernel, by decide +kernel, by decide +kernel⟩
  · intro p hp
    simp only [List.mem_cons, List.not_mem_nil, or_false] at hp
    rcases hp with rfl | rfl
    · refine ⟨["0 0 0 1 0 0 1 1 0 0 1\n".toList, "\n".toList, " \n".toList], "0.5\n".toList, [0, 0, 0, 1, 0, 0, 1, 1, 0, 0, 1] ++ ([] ++ ([] ++ [])), [1 / 2], rfl,
        .cons (by decide +kernel) (.cons (by decide +kernel) (.cons (by decide +kernel) .nil)), by decide +kernel, by simp, by simp⟩
    · exact ⟨[], _, [], [0, 0, -1, 1, 0, -1, 1, 1, -1, 0, 1, -1], rfl, .nil, by decide +kernel, by simp, by simp⟩
  · decide +kernel

end Io
end MM
