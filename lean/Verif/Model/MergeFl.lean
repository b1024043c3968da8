import Verif.Model.Merge

/-!
# Model of `merge_duplicate_rows` with a rounded subtraction

The only arithmetic operation of `merge_duplicate_rows` is the subtraction of tools.py:66 (`np.abs` is exact). Here its
result is rounded by a function `rnd`: for arrays of doubles `rnd` is the rounding to the nearest double (no overflow, no
NaN). Everything else is as in `Verif.Model.Merge`.
-/

namespace MM

variable {K : Type*} [Field K] [LinearOrder K] {d : ℕ}

/-- tools.py:62-68 with a rounded subtraction. -/
def splitRunsFl (rnd : K → K) (atol : K) (val : ℕ → K) : K → List ℕ → List ℕ → List (List ℕ)
  | _, cur, [] => [cur.reverse]
  | vref, cur, i :: is =>
    if |rnd (val i - vref)| > atol then cur.reverse :: splitRunsFl rnd atol val (val i) [i] is
    else splitRunsFl rnd atol val vref (i :: cur) is

/-- tools.py:50-71 -/
def splitLevelFl (rnd : K → K) (srt : (ℕ → K) → List ℕ → List ℕ) (atol : K) (val : ℕ → K) (g : List ℕ) :
    List (List ℕ) :=
  if g.length > 1 then
    match srt val g with
    | [] => [[]]
    | i :: is => splitRunsFl rnd atol val (val i) [] (i :: is)
  else [g]

/-- tools.py:43-81 -/
def mergeLoopFl (rnd : K → K) (srt : (ℕ → K) → List ℕ → List ℕ) (atol : K) (arr : List (Fin d → K)) :
    List (Fin d) → List (List ℕ) → Option (List (List ℕ))
  | [], levels => some levels
  | dim :: dims, levels =>
    let levelsTmp := levels.flatMap (splitLevelFl rnd srt atol (colVal arr dim))
    if levelsTmp.length = arr.length then none
    else mergeLoopFl rnd srt atol arr dims levelsTmp

/-- `merge_duplicate_rows(arr, atol, return_index=True)` (tools.py:6-113) with a rounded subtraction. -/
def mergeDuplicateRowsFl (rnd : K → K) (srt : (ℕ → K) → List ℕ → List ℕ) (atol : K) (arr : List (Fin d → K)) :
    Except PyErr (Merged K d) :=
  match mergeLoopFl rnd srt atol arr (List.finRange d) [List.range arr.length] with
  | none => .ok ⟨arr, List.range arr.length⟩
  | some levels => (levelReps arr levels).map
      (fun rows => ⟨rows, assignIds levels 0 (List.range arr.length)⟩)

end MM
