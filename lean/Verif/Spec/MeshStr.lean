import Verif.Model.Text
import Verif.Model.Mesh
import Verif.Spec.Report

/-!
# Specification: the text shown for a mesh

A reader of the text looks for the lines which begin with given words, and takes the words which follow.
-/

namespace MM.Info

open MM MM.Io

/-- The words after a label, for each line which begins with the words of the label. -/
def after (label : List String) (text : Str) : List (List Str) :=
  (linesOf text).filterMap fun l =>
    let ws := split l
    let ls := label.map String.toList
    if ws.take ls.length = ls then some (ws.drop ls.length) else none

/-- The text has exactly one line for a label, and one word after it: the number `n`. -/
def Shows (text : Str) (label : List String) (n : ℕ) : Prop :=
  ∃ w, after label text = [[w]] ∧ parseInt w = some (n : ℤ)

/-- The text has exactly one line `lo = number  hi = number`, with numbers equal to `x` and `y` to 6 decimals. -/
def ShowsRange (text : Str) (lo hi : String) (x y : ℚ) : Prop :=
  ∃ w₁ w₂ a b, after [lo, "="] text = [[w₁, hi.toList, "=".toList, w₂]] ∧
    parseFloat w₁ = some a ∧ parseFloat w₂ = some b ∧ Report.Decimals 6 x a ∧ Report.Decimals 6 y b

/-- The least and the greatest of the values of a list; zero when there are none. -/
def Range (vs : List ℚ) (x y : ℚ) : Prop :=
  (vs = [] → x = 0 ∧ y = 0) ∧ (vs ≠ [] → x ∈ vs ∧ y ∈ vs) ∧ ∀ v ∈ vs, x ≤ v ∧ v ≤ y

end MM.Info
