import Verif.Spec.Conversion
import Verif.Model.MmioRegex
import Verif.Model.Mmio

/-!
# Specification: a mesh saved and loaded several times in formats with a mantissa and an exponent
-/

namespace MM.Io

/-- The formats considered: NAT, HST, and TEC, whose title is the name of the file. -/
inductive SciFormat
  | nat
  | hst
  | tec (name : Str)

/-- One stage of the history of a mesh: it is saved in a format, then the file is loaded by a program which makes `read x` of a
number `x` of the file. -/
structure SciStage where
  format : SciFormat
  read : ℚ → ℚ

/-- `m'` is what one gets by saving `m` and loading the file. -/
def SciReloaded (s : SciStage) (m m' : Mesh ℚ) : Prop :=
  match s.format with
  | .nat => ∃ l, loadNAT (writeNAT m) = .ok l ∧ InMemory s.read l m'
  | .hst => ∃ l, loadHST (writeHST m) = .ok l ∧ InMemory s.read l m'
  | .tec name => ∃ l, loadTEC (writeTEC name m) = .ok l ∧ InMemory s.read l m'

/-- `m'` is what one gets from `m` after all the stages, one after the other. -/
inductive SciHistory : List SciStage → Mesh ℚ → Mesh ℚ → Prop
  | nil (m : Mesh ℚ) : SciHistory [] m m
  | cons {s : SciStage} {l : List SciStage} {m m' m'' : Mesh ℚ} :
      SciReloaded s m m' → SciHistory l m' m'' → SciHistory (s :: l) m m''

/-- The stage reads numbers with the relative precision `ε`, and the name of its file is free of the key word of the format. -/
def SciStage.Precise (ε : ℚ) (s : SciStage) : Prop :=
  (∀ x, |s.read x - x| ≤ ε * |x|) ∧
    match s.format with
    | .nat | .hst => True
    | .tec name => ¬ "ZONE".toList <:+: name

/-- Zero or a number whose absolute value is in the range of double precision (with room to spare). -/
def DoubleRange (x : ℚ) : Prop := x = 0 ∨ (10 : ℚ) ^ (-(330 : ℤ)) ≤ |x| ∧ |x| ≤ 10 ^ (310 : ℤ)

/-- The coordinates of `w` are those of `v` rounded to seven significant digits. -/
def PointRounded7 (v w : V3 ℚ) : Prop := Rounded7Digits v.x w.x ∧ Rounded7Digits v.y w.y ∧ Rounded7Digits v.z w.z

end MM.Io
