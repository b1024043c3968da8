import Verif.Model.Alias

/-!
# Specification for C108 and C109: programs in which meshes and arrays are values

Nothing is shared here: a program is a list of mesh values and a list of array values, and every action changes one
entry of one list or adds one.
-/

namespace MM
namespace Alias

/-- The meshes and the arrays of a program, as values. -/
structure Values where
  meshes : List MeshObj := []
  vars : List Arr := []

namespace Values

def vecsArg (w : Values) : Src → Except PyErr (List (V3 ℝ))
  | .var i =>
    match w.vars[i]? with
    | none => .error .nameError
    | some (.vecs l) => .ok l
    | some _ => .error .assertionError
  | .vertices k =>
    match w.meshes[k]? with
    | none => .error .nameError
    | some o => .ok o.mesh.vertices
  | .faces k =>
    match w.meshes[k]? with
    | none => .error .nameError
    | some _ => .error .assertionError

def facesArg (w : Values) : Src → Except PyErr (List Face)
  | .var i =>
    match w.vars[i]? with
    | none => .error .nameError
    | some (.faces l) => .ok l
    | some _ => .error .assertionError
  | .faces k =>
    match w.meshes[k]? with
    | none => .error .nameError
    | some o => .ok o.mesh.faces
  | .vertices k =>
    match w.meshes[k]? with
    | none => .error .nameError
    | some _ => .error .assertionError

/-- One action on values. Overwriting the arrays of a mesh directly leaves what it has cached. -/
noncomputable def step (srt : (ℕ → ℝ) → List ℕ → List ℕ) (ord : List ℕ → List ℕ) (w : Values) :
    Act → Except PyErr Values
  | .array x => .ok { w with vars := w.vars ++ [x] }
  | .write i x =>
    match w.vars[i]? with
    | none => .error .nameError
    | some _ => .ok { w with vars := w.vars.set i x }
  | .new v f => do
    let lv ← w.vecsArg v
    let lf ← w.facesArg f
    .ok { w with meshes := w.meshes ++ [MeshObj.new ⟨lv, lf⟩] }
  | .setVertices k s => do
    let l ← w.vecsArg s
    match w.meshes[k]? with
    | none => .error .nameError
    | some o => .ok { w with meshes := w.meshes.set k (MeshObj.new ⟨l, o.mesh.faces⟩) }
  | .setFaces k s => do
    let l ← w.facesArg s
    match w.meshes[k]? with
    | none => .error .nameError
    | some o => .ok { w with meshes := w.meshes.set k (MeshObj.new ⟨o.mesh.vertices, l⟩) }
  | .copy k =>
    match w.meshes[k]? with
    | none => .error .nameError
    | some o => .ok { w with meshes := w.meshes ++ [o] }
  | .add i j =>
    match w.meshes[i]?, w.meshes[j]? with
    | some o, some q =>
      match o.mesh.add srt q.mesh with
      | .error e => .error e
      | .ok m => .ok { w with meshes := w.meshes ++ [MeshObj.new m] }
    | _, _ => .error .nameError
  | .extract k ids =>
    match w.meshes[k]? with
    | none => .error .nameError
    | some o =>
      match o.mesh.extractFaces ids with
      | .error e => .error e
      | .ok r => .ok { w with meshes := w.meshes ++ [MeshObj.new r.1] }
  | .call k op =>
    match w.meshes[k]? with
    | none => .error .nameError
    | some o =>
      match o.step srt ord op with
      | .error e => .error e
      | .ok o' => .ok { w with meshes := w.meshes.set k o' }
  | .pokeVertices k l =>
    match w.meshes[k]? with
    | none => .error .nameError
    | some o =>
      if l.length = o.mesh.vertices.length then
        .ok { w with meshes := w.meshes.set k ⟨⟨l, o.mesh.faces⟩, o.cache⟩ }
      else .error .valueError
  | .pokeFaces k l =>
    match w.meshes[k]? with
    | none => .error .nameError
    | some o =>
      if l.length = o.mesh.faces.length then
        .ok { w with meshes := w.meshes.set k ⟨⟨o.mesh.vertices, l⟩, o.cache⟩ }
      else .error .valueError

noncomputable def run (srt : (ℕ → ℝ) → List ℕ → List ℕ) (ord : List ℕ → List ℕ) :
    List Act → Values → Except PyErr Values
  | [], w => .ok w
  | a :: as, w =>
    match w.step srt ord a with
    | .error e => .error e
    | .ok w' => run srt ord as w'

end Values

/-- What a program sees of its meshes and of its arrays. -/
def World.values (w : World) : Values :=
  ⟨w.meshes.map (view w.heap), w.vars.map (fun a => w.heap.getD a (.reals []))⟩

/-- The arrays which a `Mesh` gives to its user. -/
inductive Role where
  | vertices
  | faces
  | areas
  | normals
  | centres
deriving DecidableEq

/-- The array (its address) returned by `mesh.vertices`, `mesh.faces`, and by `mesh.faces_areas`,
`mesh.faces_normals`, `mesh.faces_centers` once they are computed. -/
def MeshRef.at (m : MeshRef) : Role → Option ℕ
  | .vertices => some m.v
  | .faces => some m.f
  | .areas => m.props.map (fun p => p.1)
  | .normals => m.props.map (fun p => p.2.1)
  | .centres => m.props.map (fun p => p.2.2)

/-- The arrays which an operation modifies in place. -/
def inPlace : MeshObj.Op → List Role
  | .translateX _ => [.vertices, .centres]
  | .translate _ | .translateY _ | .translateZ _ => [.centres]
  | .flipNormals => [.normals]
  | .mirror _ => [.vertices, .normals]
  | .healTriangles | .triangulateQuadrangles => [.faces]
  | .healNormals => [.faces, .normals]
  | _ => []

/-- The actions of a program which modify in place the array of that kind of mesh `k`. -/
def Act.Modifies (k : ℕ) (r : Role) : Act → Prop
  | .call j op => j = k ∧ r ∈ inPlace op
  | .pokeVertices j _ => j = k ∧ r = .vertices
  | .pokeFaces j _ => j = k ∧ r = .faces
  | _ => False

end Alias
end MM
