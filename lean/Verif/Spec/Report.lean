import Verif.Model.Mmio

/-!
# Reading a hydrostatic report
-/

namespace MM.Report

open MM MM.Io

/-- A line `<tab>LABEL----->  numbers`: the label and the numbers. Other lines hold no value. -/
def entry (line : Str) : Option (Str × List ℚ) :=
  match line with
  | '\t' :: r =>
    match r.dropWhile (· ≠ '>') with
    | _ :: t =>
      match floats (split t) with
      | .ok [] => none
      | .ok xs => some (r.takeWhile (fun c => c ≠ '-' && c ≠ '>'), xs)
      | .error _ => none
    | [] => none
  | _ => none

/-- The values of a report, in order. -/
def entries (text : Str) : List (Str × List ℚ) := (linesOf text).filterMap entry

/-- A value read is the true one rounded to `p` decimals, or to `p + 1` digits. -/
def Decimals (p : ℕ) (x y : ℚ) : Prop := |y - x| ≤ 1 / 2 / 10 ^ p
def Digits (p : ℕ) (x y : ℚ) : Prop := |y - x| ≤ 1 / 2 / 10 ^ p * |x|

end MM.Report
