import Verif.Spec.RoundTrip
import Verif.Spec.Io
import Verif.Model.MmioExport

/-!
# Specification: a mesh saved and loaded several times
-/

namespace MM.Io

/-- The formats considered: MAR, NEM, VTK and OBJ. The last two carry the date of the day in a comment. -/
inductive TextFormat
  | mar
  | nem
  | vtk (date : Str)
  | obj (date : Str)

/-- One stage of the history of a mesh: it is saved in a format, then the file is loaded by a program which makes `read x` of a
number `x` of the file. -/
structure Stage where
  format : TextFormat
  read : ℚ → ℚ

/-- The arrays of floats and of integers that a loader returns, as a mesh. -/
def InMemory (read : ℚ → ℚ) (l : Loaded) (m : Mesh ℚ) : Prop :=
  m.vertices = l.vertices.map (pointRead read) ∧ l.faces = m.faces.map (fun f => [(f.a : ℤ), (f.b : ℤ), (f.c : ℤ), (f.d : ℤ)])

/-- `m'` is what one gets by saving `m` and loading the file. -/
def Reloaded (s : Stage) (m m' : Mesh ℚ) : Prop :=
  match s.format with
  | .mar => ∃ l, loadMAR (writeMAR m) = .ok l ∧ InMemory s.read l m'
  | .nem => ∃ l, loadNEM (writeNEM m) = .ok l ∧ InMemory s.read l m'
  | .vtk date => ∃ d, ReadsFile readVtk s.read (writeVTK date m) d ∧ dumpVtk d = .ok m'
  | .obj date => ∃ d, ReadsFile readObj s.read (writeOBJ date m) d ∧ dumpVtk d = .ok m'

/-- `m'` is what one gets from `m` after all the stages, one after the other. -/
inductive History : List Stage → Mesh ℚ → Mesh ℚ → Prop
  | nil (m : Mesh ℚ) : History [] m m
  | cons {s : Stage} {l : List Stage} {m m' m'' : Mesh ℚ} :
      Reloaded s m m' → History l m' m'' → History (s :: l) m m''

/-- The stage reads numbers with the relative precision `ε`, and the date fits in the title of its file. -/
def Stage.Precise (ε : ℚ) (s : Stage) : Prop :=
  (∀ x, |s.read x - x| ≤ ε * |x|) ∧
    match s.format with
    | .mar | .nem => True
    | .vtk date => '\n' ∉ date ∧ date.length ≤ 200
    | .obj date => '\n' ∉ date

/-- The coordinates of `w` are those of `v` rounded to six decimals. -/
def PointRounded6 (v w : V3 ℚ) : Prop := Rounded6 v.x w.x ∧ Rounded6 v.y w.y ∧ Rounded6 v.z w.z

/-- The coordinates are between `-b` and `b`. -/
def Within (b : ℚ) (v : V3 ℚ) : Prop := |v.x| ≤ b ∧ |v.y| ≤ b ∧ |v.z| ≤ b

end MM.Io
