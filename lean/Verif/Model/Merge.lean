import Verif.Model.Vec
import Mathlib.Data.List.Range
import Mathlib.Algebra.Order.AbsoluteValue.Basic

/-!
# Model of `meshmagick/tools.py`: `merge_duplicate_rows`
-/

namespace MM

/-- The Python exceptions that appear in the model. -/
inductive PyErr where
  | indexError
  | keyError
  | valueError
  | runtimeError
  | assertionError
  | attributeError
  | nameError
  | ioError
  | notImplemented
  | exception
  | zeroDivision
  | typeError
deriving DecidableEq, Repr

/-- Decidable equality of `Except` values, used by concrete examples. -/
instance {ε α : Type*} [DecidableEq ε] [DecidableEq α] : DecidableEq (Except ε α)
  | .ok a, .ok b => if h : a = b then isTrue (by rw [h]) else isFalse (by simpa using h)
  | .error a, .error b => if h : a = b then isTrue (by rw [h]) else isFalse (by simpa using h)
  | .ok _, .error _ => isFalse (by simp)
  | .error _, .ok _ => isFalse (by simp)

variable {K : Type*} [Field K] [LinearOrder K] {d : ℕ}

/-- Behaviour allowed to `level_values.argsort()` followed by `iperm_view[:] = iperm_view[iperm_tmp]`
(tools.py:56-59): from the row numbers `l` of a level it produces a permutation of `l` along which the
values do not decrease. numpy's default sort is not stable, so nothing is known of the order of ties. -/
def IsArgsort (srt : (ℕ → K) → List ℕ → List ℕ) : Prop :=
  ∀ val l, (srt val l).Perm l ∧ (srt val l).Pairwise (fun i j => val i ≤ val j)

/-- `arr[:, dim]` indexed by row number (tools.py:45). Row numbers are always in range there; the
default value `0` is never read (see `Verif.Proofs.Merge`). -/
def colVal (arr : List (Fin d → K)) (dim : Fin d) (i : ℕ) : K := (arr[i]?.map (· dim)).getD 0

/-- tools.py:62-68, the loop which cuts a sorted level each time a value is farther than `atol` from
the reference value of the current sub-level. `cur` is the sub-level being filled (reversed).
The slices `iperm[levels[k]:levels[k+1]]` of the code are represented by the lists of their elements. -/
def splitRuns (atol : K) (val : ℕ → K) : K → List ℕ → List ℕ → List (List ℕ)
  | _, cur, [] => [cur.reverse]
  | vref, cur, i :: is =>
    if |val i - vref| > atol then cur.reverse :: splitRuns atol val (val i) [i] is
    else splitRuns atol val vref (i :: cur) is

/-- tools.py:50-71, one level is sorted along the current dimension and cut. -/
def splitLevel (srt : (ℕ → K) → List ℕ → List ℕ) (atol : K) (val : ℕ → K) (g : List ℕ) :
    List (List ℕ) :=
  if g.length > 1 then
    match srt val g with
    | [] => [[]]
    | i :: is => splitRuns atol val (val i) [] (i :: is)
  else [g]

/-- tools.py:43-81, the `for dim in range(nbdim)` loop. `none` is the `break` taken when there are as
many levels as rows, `some levels` is the normal end of the loop. -/
def mergeLoop (srt : (ℕ → K) → List ℕ → List ℕ) (atol : K) (arr : List (Fin d → K)) :
    List (Fin d) → List (List ℕ) → Option (List (List ℕ))
  | [], levels => some levels
  | dim :: dims, levels =>
    let levelsTmp := levels.flatMap (splitLevel srt atol (colVal arr dim))
    if levelsTmp.length = arr.length then none
    else mergeLoop srt atol arr dims levelsTmp

/-- The returned pair `(arr, newID)`. -/
structure Merged (K : Type*) (d : ℕ) where
  rows : List (Fin d → K)
  newID : List ℕ

/-- tools.py:85-91, `newID[iperm[list(range(istart, istop))]] = ilevel` for each level. -/
def assignIds (levels : List (List ℕ)) (k : ℕ) (ids : List ℕ) : List ℕ :=
  match levels with
  | [] => ids
  | g :: gs => assignIds gs (k + 1) (g.foldl (fun ids i => ids.set i k) ids)

/-- tools.py:90, `arr_tmp.append(arr[iperm[istart]])`. For an empty array there is one empty level and
`iperm[0]` raises `IndexError`. -/
def levelReps (arr : List (Fin d → K)) : List (List ℕ) → Except PyErr (List (Fin d → K))
  | [] => .ok []
  | g :: gs =>
    match g.head?.bind (fun i => arr[i]?) with
    | none => .error .indexError
    | some r => (levelReps arr gs).map (r :: ·)

/-- `merge_duplicate_rows(arr, atol, return_index=True)` (tools.py:6-113).
Simplification: `atol` is meant non negative (a negative one produces empty levels that the list of
levels cannot represent); the theorems assume `0 ≤ atol`. -/
def mergeDuplicateRows (srt : (ℕ → K) → List ℕ → List ℕ) (atol : K) (arr : List (Fin d → K)) :
    Except PyErr (Merged K d) :=
  match mergeLoop srt atol arr (List.finRange d) [List.range arr.length] with
  | none => .ok ⟨arr, List.range arr.length⟩
  | some levels => (levelReps arr levels).map
      (fun rows => ⟨rows, assignIds levels 0 (List.range arr.length)⟩)

/-- A concrete (stable, insertion) sort used in examples: it is one of the behaviours allowed by
`IsArgsort`. -/
def insArgsort (val : ℕ → K) (l : List ℕ) : List ℕ :=
  l.foldr (fun i acc => acc.takeWhile (fun j => decide (val j < val i)) ++
    i :: acc.dropWhile (fun j => decide (val j < val i))) []

end MM
