import Verif.Model.Clipper

/-!
# Model of the objects `MeshClipper` (mesh_clipper.py:8-111, 188-335, 754-761)

Source meshes and planes are Python objects that a clipper only refers to: they live at addresses of a heap, can be shared
by several clippers and be modified in place by anybody.
-/

namespace MM
namespace Clipper
variable {K : Type*} [Field K] [LinearOrder K]

/-- The entries of the dictionary `__internals__` that the accessors read (mesh_clipper.py:188-335); `none` is a missing key. -/
structure Internals (K : Type*) where
  upper : Option (Mesh K) := none
  crown : Option (Mesh K) := none
  lower : Option (Mesh K) := none
  clippedCrown : Option (Mesh K) := none
  closedPolygons : Option (List (List ℕ)) := none
  openLines : Option (List (List ℕ)) := none
  clipped : Option (Mesh K) := none
deriving DecidableEq

/-- `_update` (mesh_clipper.py:106-111) on the dictionary `I`: the entries are written as the stages succeed
(lines 186, 748-752, 760), and stay there when a later stage raises. -/
def update (srt : (ℕ → K) → List ℕ → List ℕ) (p : Plane K) (tol : K) (assertClosed : Bool) (m : Mesh K)
    (I : Internals K) : Internals K × Option ClipErr :=
  match vertexDists p tol m with
  | .error e => (I, some e)
  | .ok dists =>
    match partition tol dists m with
    | .error e => (I, some (.py e))
    | .ok part =>
      let I := { I with upper := some part.upper, crown := some part.crown, lower := some part.lower }
      match clipCrown srt p tol part.crown part.crownDists with
      | .error e => (I, some e)
      | .ok (cm, direct, inv) =>
        let lines := extractLines inv direct.length direct
        if assertClosed && !lines.2.isEmpty then (I, some .openCurve)
        else
          let I := { I with clippedCrown := some cm, closedPolygons := some lines.1, openLines := some lines.2 }
          match Mesh.add srt part.lower cm with
          | .error e => (I, some (.py e))
          | .ok c => ({ I with clipped := some c }, none)

/-- The attributes of a `MeshClipper` (mesh_clipper.py:28-38). `mesh` and `plane` are addresses. -/
structure Obj (K : Type*) where
  mesh : ℕ
  plane : ℕ
  tol : K
  assertClosed : Bool
  internals : Internals K

/-- The heap. The plane at address 0 is the object built once for the default value of the parameter `plane` of the
constructor (mesh_clipper.py:28). -/
structure World (K : Type*) where
  meshes : ℕ → Mesh K
  planes : ℕ → Plane K
  clippers : List (Obj K)

/-- What a program can do with clippers. `editPlane` and `editMesh` are the modifications in place of a plane
(`plane.c = …`, `plane.normal = …`) and of a mesh (`translate`, `rotate`, …), which any reference to them allows. -/
inductive Op (K : Type*) where
  | create (mesh : ℕ) (plane : Option ℕ) (tol : K) (assertClosed : Bool)
  | setPlane (i plane : ℕ)
  | setTol (i : ℕ) (tol : K)
  | assertOn (i : ℕ)
  | assertOff (i : ℕ)
  | editPlane (a : ℕ) (p : Plane K)
  | editMesh (a : ℕ) (m : Mesh K)

/-- `self.__internals__.clear()` … `self._update()` (mesh_clipper.py:82-87, 101-104). -/
def Obj.rerun (srt : (ℕ → K) → List ℕ → List ℕ) (w : World K) (o : Obj K) : Obj K × Option ClipErr :=
  let r := update srt (w.planes o.plane) o.tol o.assertClosed (w.meshes o.mesh) {}
  ({ o with internals := r.1 }, r.2)

/-- A method of the clipper number `i`; nothing when there is no such clipper. -/
def World.onClipper (w : World K) (i : ℕ) (f : Obj K → Obj K × Option ClipErr) : World K × Option ClipErr :=
  match w.clippers[i]? with
  | none => (w, none)
  | some o => ({ w with clippers := w.clippers.set i (f o).1 }, (f o).2)

/-- One operation: constructor (mesh_clipper.py:28-38; an exception in it leaves no object), setters (82-87, 101-104),
`assert_closed_boundaries_on`, `_off` (61-70). -/
def World.step (srt : (ℕ → K) → List ℕ → List ℕ) (w : World K) : Op K → World K × Option ClipErr
  | .create mesh plane tol b =>
    let r := Obj.rerun srt w ⟨mesh, plane.getD 0, tol, b, {}⟩
    match r.2 with
    | some e => (w, some e)
    | none => ({ w with clippers := w.clippers ++ [r.1] }, none)
  | .setPlane i a => w.onClipper i (fun o => Obj.rerun srt w { o with plane := a })
  | .setTol i t => w.onClipper i (fun o => Obj.rerun srt w { o with tol := t })
  | .assertOn i => w.onClipper i (fun o => ({ o with assertClosed := true }, none))
  | .assertOff i => w.onClipper i (fun o => ({ o with assertClosed := false }, none))
  | .editPlane a p => ({ w with planes := Function.update w.planes a p }, none)
  | .editMesh a m => ({ w with meshes := Function.update w.meshes a m }, none)

/-- A history. Exceptions are caught by the program, which goes on. -/
def World.run (srt : (ℕ → K) → List ℕ → List ℕ) (w : World K) (ops : List (Op K)) : World K :=
  ops.foldl (fun w op => (w.step srt op).1) w

end Clipper
end MM
