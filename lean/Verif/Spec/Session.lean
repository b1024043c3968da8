import Verif.Model.Session

/-!
# Specification: names which look automatic
-/

namespace MM.Sess

open MM

/-- Only decimal digits (and at least one). -/
def IsNumber (s : Str) : Prop := s ≠ [] ∧ ∀ c ∈ s, isDigit c = true

/-- `mesh_` followed by a number. -/
def LooksAutomatic (s : Str) : Prop := ∃ d, s = "mesh_".toList ++ d ∧ IsNumber d

instance (s : Str) : Decidable (IsNumber s) := by unfold IsNumber; infer_instance

/-- The names given by the user in a session. -/
def Op.given : Op → List Str
  | .make (some n) => [n]
  | .rename _ n => [n]
  | _ => []

/-- The user gives no name which is a number, or `mesh_` followed by a number. -/
def Unambiguous (ops : List Op) : Prop := ∀ op ∈ ops, ∀ n ∈ op.given, ¬ IsNumber n ∧ ¬ LooksAutomatic n

/-- No mesh of the session is a copy. -/
def NoCopy (ops : List Op) : Prop := ∀ op ∈ ops, ∀ i, op ≠ .copy i

end MM.Sess
