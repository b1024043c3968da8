import Verif.Spec.Report

/-!
# Specification: what a reader finds in a text

A reader takes each line, and separates the words which are numbers from the others.
-/

namespace MM.InertiaText

open MM MM.Io MM.Report

/-- What is expected on a line: the words which are not numbers, and the numbers, each with the precision. -/
structure Line where
  words : List String
  numbers : List (ℚ × (ℚ → ℚ → Prop))

/-- The line says what is expected. -/
def Line.Reads (e : Line) (line : Str) : Prop :=
  (split line).filter (fun w => (parseFloat w).isNone) = e.words.map String.toList ∧
  List.Forall₂ (fun x y => x.2 x.1 y) e.numbers ((split line).filterMap parseFloat)

/-- The lines of the text say, one after the other, what is expected, and there is no other line. -/
def Reads (text : Str) (es : List Line) : Prop := List.Forall₂ Line.Reads es (linesOf text)

/-- Three numbers. -/
def three (v : V3 ℚ) (R : ℚ → ℚ → Prop) : List (ℚ × (ℚ → ℚ → Prop)) := [(v.x, R), (v.y, R), (v.z, R)]

/-- What `--plain-inertia` and `--shell-inertia` should show for a mass (kg), a centre of gravity, an inertia matrix (by rows) and the
point at which it is expressed. -/
def expected (mass : ℚ) (cog : V3 ℚ) (r0 r1 r2 point : V3 ℚ) : List Line :=
  [⟨["Mass", "=", "tons"], [(mass / 1000, Decimals 3)]⟩, ⟨["COG", "(m):"], []⟩,
   ⟨["xg", "="], [(cog.x, Decimals 3)]⟩, ⟨["yg", "="], [(cog.y, Decimals 3)]⟩, ⟨["zg", "="], [(cog.z, Decimals 3)]⟩,
   ⟨["Inertia", "matrix", "(SI):"], []⟩, ⟨[], three r0 (Digits 3)⟩, ⟨[], three r1 (Digits 3)⟩, ⟨[], three r2 (Digits 3)⟩,
   ⟨["Expressed", "at", "point", ":"], three point (Digits 3)⟩]

end MM.InertiaText
