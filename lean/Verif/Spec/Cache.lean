import Verif.Model.Cache

/-!
# What "the value of a freshly built mesh" means (C17)
-/

namespace MM

/-- Same areas, normals and centres; the centre of a quadrangle of area zero (NaN in the code, arbitrary here) is
not compared. -/
def SameProps (faces : List Face) (p q : List FP) : Prop :=
  p.map FP.area = q.map FP.area ∧ p.map FP.normal = q.map FP.normal ∧
  ∀ (k : ℕ) (f : Face) (a b : FP), faces[k]? = some f → p[k]? = some a → q[k]? = some b →
    (f.a = f.d ∨ b.area ≠ 0) → a.center = b.center

/-- Same outcome of two queries up to a relation on the values. -/
def SameOutcome {α : Type*} (R : α → α → Prop) (x y : Except PyErr (α × MeshObj)) : Prop :=
  match x, y with
  | .ok (a, _), .ok (b, _) => R a b
  | .error e, .error e' => e = e'
  | _, _ => False

namespace MeshObj

/-- `faces_areas`, `faces_normals`, `faces_centers`, `triangles_ids`, `quadrangles_ids`, `get_surface_integrals`
and `volume` answer as those of a mesh built from the same arrays. -/
def GeometryUpToDate (o : MeshObj) : Prop :=
  o.readIds.1 = (new o.mesh).readIds.1 ∧
  SameOutcome (SameProps o.mesh.faces) o.readProps (new o.mesh).readProps ∧
  SameOutcome (· = ·) o.readInts (new o.mesh).readInts ∧
  SameOutcome (· = ·) o.readVolume (new o.mesh).readVolume

/-- `vv`, `vf`, `ff` and `boundaries` answer as those of a mesh built from the same arrays. -/
def ConnectivityUpToDate (ord : List ℕ → List ℕ) (o : MeshObj) : Prop :=
  SameOutcome (· = ·) (o.readConn ord) ((new o.mesh).readConn ord)

end MeshObj
end MM
