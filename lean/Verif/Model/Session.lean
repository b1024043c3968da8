import Verif.Model.Text

/-!
# Model of the numbers and the names of meshes over a session

The meshes made in a session are listed in the order of their creation; only the number (`id`) and the name of each are
kept. A mesh is referred to by its place in the list.
-/

namespace MM.Sess

open MM

/-- The two fields `_id`, `_name` of a mesh (mesh.py:414-419). -/
structure Obj where
  id : ℕ
  name : Str
deriving DecidableEq, Repr

/-- The counter `Mesh._ids` (mesh.py:403) and the meshes made so far. -/
structure State where
  next : ℕ
  objs : List Obj
deriving DecidableEq, Repr

/-- A session starts with `_ids = count(0)` (mesh.py:403). -/
def start : State := ⟨0, []⟩

/-- `'mesh_%u' % id` (mesh.py:417). -/
def autoName (n : ℕ) : Str := "mesh_".toList ++ natStr n

/-- `Mesh(vertices, faces, name)` (mesh.py:405-419) with arrays of the right shapes: `if not name` holds for `None` and
for the empty name. (A failed assertion comes before `next(self._ids)`: nothing changes.) -/
def construct (name : Option Str) (s : State) : State :=
  let nm := match name with
    | none => autoName s.next
    | some [] => autoName s.next
    | some n => n
  ⟨s.next + 1, s.objs ++ [⟨s.next, nm⟩]⟩

/-- The operations of a session which make or name meshes. -/
inductive Op where
  | make (name : Option Str)
  | copy (i : ℕ)
  | rename (i : ℕ) (name : Str)
  | add (i j : ℕ)
  | extract (i : ℕ)
deriving DecidableEq, Repr

/-- One operation; nothing happens when a mesh referred to does not exist.
`copy`: `deepcopy` (mesh.py:1502-1510); `rename`: the setter (mesh.py:582-585); `add`: mesh.py:1496; `extract`:
`extract_faces` makes an unnamed mesh, then names it (mesh.py:877-880). -/
def step (s : State) : Op → State
  | .make name => construct name s
  | .copy i =>
    match s.objs[i]? with
    | none => s
    | some o => ⟨s.next, s.objs ++ [o]⟩
  | .rename i name =>
    match s.objs[i]? with
    | none => s
    | some o => ⟨s.next, s.objs.set i ⟨o.id, name⟩⟩
  | .add i j =>
    match s.objs[i]?, s.objs[j]? with
    | some a, some b => construct (some (a.name ++ '_' :: b.name)) s
    | _, _ => s
  | .extract i =>
    match s.objs[i]? with
    | none => s
    | some o =>
      let s' := construct none s
      ⟨s'.next, s'.objs.set s.objs.length ⟨s.next, "mesh_extracted_from_".toList ++ o.name⟩⟩

/-- A whole session. -/
def run (ops : List Op) : State := ops.foldl step start

end MM.Sess
