import Verif.Spec.ConversionSci

/-!
# Specification: a mesh saved and loaded several times, in formats of both kinds
-/

namespace MM.Io

/-- `m'` is what one gets by saving `m` and loading the file, in a format of C134 or of C139. -/
def AnyReloaded : Stage ⊕ SciStage → Mesh ℚ → Mesh ℚ → Prop
  | .inl s => Reloaded s
  | .inr s => SciReloaded s

/-- `m'` is what one gets from `m` after all the stages, one after the other. -/
inductive AnyHistory : List (Stage ⊕ SciStage) → Mesh ℚ → Mesh ℚ → Prop
  | nil (m : Mesh ℚ) : AnyHistory [] m m
  | cons {s : Stage ⊕ SciStage} {l : List (Stage ⊕ SciStage)} {m m' m'' : Mesh ℚ} :
      AnyReloaded s m m' → AnyHistory l m' m'' → AnyHistory (s :: l) m m''

/-- The stage reads numbers with the relative precision `ε`. -/
def AnyPrecise (ε : ℚ) : Stage ⊕ SciStage → Prop
  | .inl s => s.Precise ε
  | .inr s => s.Precise ε

end MM.Io
