import Verif.Proofs.Clipper

/-!
# Facts read on the table of cases

Each is checked by the kernel on all the lists of three or four classes.
-/

namespace MM
namespace Clipper

set_option linter.unusedSectionVars false
set_option linter.unusedSimpArgs false

def lists3 : List (List Cls) := allCls.flatMap fun a => allCls.flatMap fun b => allCls.map fun c => [a, b, c]
def lists4 : List (List Cls) := allCls.flatMap fun a => lists3.map fun l => a :: l

lemma mem_lists3 (a b c : Cls) : [a, b, c] ∈ lists3 := by
  simp [lists3, mem_allCls]

lemma mem_lists4 (a b c d : Cls) : [a, b, c, d] ∈ lists4 := by
  have := mem_lists3 b c d
  simp [lists4, mem_allCls, this]

lemma mem_lists {l : List Cls} (h : l.length = 3 ∨ l.length = 4) : l ∈ lists3 ++ lists4 := by
  rw [List.mem_append]
  rcases h with h | h
  · left
    match l, h with
    | [a, b, c], _ => exact mem_lists3 a b c
  · right
    match l, h with
    | [a, b, c, d], _ => exact mem_lists4 a b c d

def Cls.isBad : Cls → Bool
  | .P => true | .M => true | _ => false
/-- Above, or exactly at the tolerance above. -/
def Cls.isUp : Cls → Bool
  | .A => true | .P => true | _ => false

/-- Two opposite corners above and none of the others, or two opposite corners below and none of the others. -/
def altern : List Cls → Bool
  | [a, b, c, d] => (a.isA && c.isA && !b.isA && !d.isA) || (b.isA && d.isA && !a.isA && !c.isA) ||
      (a.isB && c.isB && !b.isB && !d.isB) || (b.isB && d.isB && !a.isB && !c.isB)
  | _ => false

def Ref.okOld (c : List Cls) : Ref → Bool
  | .old k => decide (k < c.length) && !(c.getD k .A).isA
  | .new _ => true

def Ref.inRange (n m : ℕ) : Ref → Bool
  | .old k => decide (k < n)
  | .new j => decide (j < m)

/-- Numbers are in range. -/
def Plan.inRange (n : ℕ) (q : Plan) : Bool :=
  q.faces.all (fun l => l.all (Ref.inRange n q.cuts.length)) && q.cuts.all (fun e => decide (e.1 < n) && decide (e.2 < n)) &&
    (match q.edge with
      | none => true
      | some e => Ref.inRange n q.cuts.length e.1 && Ref.inRange n q.cuts.length e.2)

def Plan.noA (c : List Cls) (q : Plan) : Bool := q.faces.all (fun l => l.all (Ref.okOld c))

/-- A cut between two corners that are both above or at the tolerance, while some corner is on the plane. -/
def Plan.badCut (c : List Cls) (q : Plan) : Bool :=
  c.any Cls.isO && q.cuts.any (fun e => decide (e.1 < c.length) && decide (e.2 < c.length) &&
    (c.getD e.1 .B).isUp && (c.getD e.2 .B).isUp)

def Plan.cutsAB (c : List Cls) (q : Plan) : Bool :=
  q.cuts.all (fun e => ((c.getD e.1 .P).isA && (c.getD e.2 .P).isB) || ((c.getD e.1 .P).isB && (c.getD e.2 .P).isA))

def PlanRes.check (f : Plan → Bool) : PlanRes → Bool
  | .ok q => f q
  | _ => true

lemma PlanRes.check_ok {f : Plan → Bool} {r : PlanRes} {q : Plan} (h : r.check f = true) (hr : r = .ok q) :
    f q = true := by subst hr; exact h

theorem table_range : ∀ c ∈ lists3 ++ lists4, (plan c).check (Plan.inRange c.length) = true := by decide +kernel

theorem table_noA : ∀ c ∈ lists3 ++ lists4,
    (plan c).check (fun q => altern c || q.badCut c || q.noA c) = true := by decide +kernel

/-- Without corner at exactly the tolerance, the only unknown quadrangles have exactly three corners on the plane. -/
theorem table_unknown : ∀ c ∈ lists3 ++ lists4, c.any Cls.isBad = false →
    (plan c = .unknown ↔ c.length = 4 ∧ (c.filter Cls.isO).length = 3) := by decide +kernel

theorem table_known : ∀ c ∈ lists3 ++ lists4, c.any Cls.isBad = false → plan c ≠ .unpack ∧
    (plan c).check (fun q => q.faces.all (fun l => l.length == 4) && q.cutsAB c) = true := by decide +kernel

/-- Nothing is left of a face only when none of its corners is below. -/
theorem table_empty : ∀ c ∈ lists3 ++ lists4, c.any Cls.isBad = false →
    (plan c).check (fun q => !q.faces.isEmpty || c.all (fun x => !x.isB)) = true := by decide +kernel

end Clipper
end MM
