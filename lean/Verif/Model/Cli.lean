import Verif.Model.Cache
import Verif.Model.Plane
import Verif.Model.Formats
import Verif.Model.Hydrostatics

/-!
# Model of the command line program (`meshmagick/cli.py`)

`Opt` is one option of the command line with its values, `parse` what argparse makes of a list of options, `main` the
function `main`. Not modelled: the messages, `--quality`, `--info`, `--show`, `--list-medium` and `--version` (they only
print), `-lid` and `-mesh_size` (gmsh), `--project-name` (never read), the text of the reports, and the refusal by
argparse of unknown options or ill-formed values.
-/

namespace MM
namespace Cli

/-- What `main` takes from outside: the files, the conversions of strings (`None`: `ValueError`), `str.lower`, and the
parameters of the models of the mesh operations and solvers. -/
structure Env where
  isFile : Str → Bool
  load : Fmt → Str → Except PyErr (Mesh ℝ)
  parseFloat : Str → Option ℝ
  parseInt : Str → Option ℤ
  lower : Str → Str
  srt : (ℕ → ℝ) → List ℕ → List ℕ
  ord : List ℕ → List ℕ
  solve : M3 ℝ → V3 ℝ → Except PyErr (V3 ℝ)

/-- One option of the command line and its values (cli.py:146-407). -/
inductive Opt where
  | outfilename (s : Str)
  | inputFormat (s : Str)
  | outputFormat (s : Str)
  | translate (t : V3 ℝ)
  | translateX (t : ℝ)
  | translateY (t : ℝ)
  | translateZ (t : ℝ)
  | rotate (r : V3 ℝ)
  | rotateX (t : ℝ)
  | rotateY (t : ℝ)
  | rotateZ (t : ℝ)
  | scale (s : ℝ)
  | scaleX (s : ℝ)
  | scaleY (s : ℝ)
  | scaleZ (s : ℝ)
  | healNormals
  | flipNormals
  | healMesh
  | plane (l : List Str)
  | clipByPlane (l : List Str)
  | concatenate (s : Str)
  | mergeDuplicates (tol : Option Str)
  | triangulate
  | symmetrize (l : List Str)
  | mirror (l : List Str)
  | plainInertia
  | shellInertia
  | rhoMedium (r : ℝ)
  | thickness (t : ℝ)
  | hydrostatics
  | massDisplacement (d : ℝ)
  | cog (x y z : Str)
  | zcog (z : ℝ)
  | lpp (l : ℝ)
  | origAtAp
  | waterDensity (r : ℝ)
  | grav (g : ℝ)

/-- The namespace filled by argparse, with the default values (cli.py:146-407). -/
structure Args where
  outfilename : Option Str := none
  inputFormat : Option Str := none
  outputFormat : Option Str := none
  translate : Option (V3 ℝ) := none
  translateX : Option ℝ := none
  translateY : Option ℝ := none
  translateZ : Option ℝ := none
  rotate : Option (V3 ℝ) := none
  rotateX : Option ℝ := none
  rotateY : Option ℝ := none
  rotateZ : Option ℝ := none
  scale : Option ℝ := none
  scaleX : Option ℝ := none
  scaleY : Option ℝ := none
  scaleZ : Option ℝ := none
  healNormals : Bool := false
  flipNormals : Bool := false
  healMesh : Bool := false
  plane : Option (List (List Str)) := none
  clipByPlane : Option (List (List Str)) := none
  concatenate : Option Str := none
  mergeDuplicates : Option Str := none
  triangulate : Bool := false
  symmetrize : Option (List (List Str)) := none
  mirror : Option (List Str) := none
  plainInertia : Bool := false
  shellInertia : Bool := false
  rhoMedium : Option ℝ := none
  thickness : Option ℝ := none
  hydrostatics : Bool := false
  massDisplacement : Option ℝ := none
  cog : Option (Str × Str × Str) := none
  zcog : Option ℝ := none
  lpp : Option ℝ := none
  origAtAp : Bool := false
  waterDensity : ℝ := 1025
  grav : ℝ := 981 / 100

/-- `action='append'`. -/
def append (o : Option (List (List Str))) (l : List Str) : Option (List (List Str)) := some (o.getD [] ++ [l])

/-- The effect of one option on the namespace: `store` replaces, `store_true` sets, `append` appends. -/
def Args.set (a : Args) : Opt → Args
  | .outfilename s => { a with outfilename := some s }
  | .inputFormat s => { a with inputFormat := some s }
  | .outputFormat s => { a with outputFormat := some s }
  | .translate t => { a with translate := some t }
  | .translateX t => { a with translateX := some t }
  | .translateY t => { a with translateY := some t }
  | .translateZ t => { a with translateZ := some t }
  | .rotate t => { a with rotate := some t }
  | .rotateX t => { a with rotateX := some t }
  | .rotateY t => { a with rotateY := some t }
  | .rotateZ t => { a with rotateZ := some t }
  | .scale t => { a with scale := some t }
  | .scaleX t => { a with scaleX := some t }
  | .scaleY t => { a with scaleY := some t }
  | .scaleZ t => { a with scaleZ := some t }
  | .healNormals => { a with healNormals := true }
  | .flipNormals => { a with flipNormals := true }
  | .healMesh => { a with healMesh := true }
  | .plane l => { a with plane := append a.plane l }
  | .clipByPlane l => { a with clipByPlane := append a.clipByPlane l }
  | .concatenate s => { a with concatenate := some s }
  | .mergeDuplicates t => { a with mergeDuplicates := some (t.getD "1e-8".toList) }
  | .triangulate => { a with triangulate := true }
  | .symmetrize l => { a with symmetrize := append a.symmetrize l }
  | .mirror l => { a with mirror := some l }
  | .plainInertia => { a with plainInertia := true }
  | .shellInertia => { a with shellInertia := true }
  | .rhoMedium r => { a with rhoMedium := some r }
  | .thickness t => { a with thickness := some t }
  | .hydrostatics => { a with hydrostatics := true }
  | .massDisplacement d => { a with massDisplacement := some d }
  | .cog x y z => { a with cog := some (x, y, z) }
  | .zcog z => { a with zcog := some z }
  | .lpp l => { a with lpp := some l }
  | .origAtAp => { a with origAtAp := true }
  | .waterDensity r => { a with waterDensity := r }
  | .grav g => { a with grav := g }

/-- `parser.parse_args()` (cli.py:415) on well-formed options, in the order of the command line. -/
noncomputable def parse (opts : List Opt) : Args := opts.foldl Args.set {}

/-! ### Input (cli.py:427-480) -/

/-- The input format (cli.py:428-436). -/
def inputFormat (E : Env) (infile : Str) (a : Args) : Except PyErr Str :=
  match a.inputFormat with
  | some f => .ok f
  | none =>
    let f := extLower E.lower infile
    if f = [] then .error .ioError else .ok f

/-- Loading a file into a mesh with healed triangles (cli.py:439-453, 458-473). -/
noncomputable def loadObj (E : Env) (name fmt : Str) : Except PyErr MeshObj :=
  if E.isFile name then
    (loadMesh E.isFile E.load name fmt).map (fun m => (MeshObj.new m).doHealTriangles)
  else .error .ioError

/-- `mesh += mesh_c` (cli.py:455-474). -/
noncomputable def concatenate (E : Env) (fmt : Str) (a : Args) (o : MeshObj) : Except PyErr MeshObj :=
  match a.concatenate with
  | none => .ok o
  | some name => do
    let c ← loadObj E name fmt
    let m ← Mesh.add E.srt o.mesh c.mesh
    pure (MeshObj.new m)

/-- `--merge-duplicates` (cli.py:477-479). -/
noncomputable def mergeDup (E : Env) (a : Args) (o : MeshObj) : Except PyErr MeshObj :=
  match a.mergeDuplicates with
  | none => .ok o
  | some s =>
    match E.parseFloat s with
    | none => .error .valueError
    | some tol => o.step E.srt E.ord (.mergeDuplicates tol)

/-! ### Planes -/

/-- `plane_str_list` (cli.py:482-487). -/
noncomputable def planeKeys : List (String × V3 ℝ) :=
  [("Oxy", ⟨0, 0, 1⟩), ("Oxz", ⟨0, 1, 0⟩), ("Oyz", ⟨1, 0, 0⟩), ("/Oxy", ⟨0, 0, -1⟩), ("/Oxz", ⟨0, -1, 0⟩),
   ("/Oyz", ⟨-1, 0, 0⟩)]

/-- `plane_str_list[key]`. -/
noncomputable def planeKey (s : Str) : Option (V3 ℝ) := (planeKeys.find? (fun e => e.1.toList == s)).map Prod.snd

/-- `float` of four strings. -/
def parse4 (E : Env) (x y z c : Str) : Option (V3 ℝ × ℝ) :=
  match E.parseFloat x, E.parseFloat y, E.parseFloat z, E.parseFloat c with
  | some x, some y, some z, some c => some (⟨x, y, z⟩, c)
  | _, _, _, _ => none

/-- One `--plane` option (cli.py:506-525). -/
noncomputable def definePlane (E : Env) : List Str → Except PyErr PlaneObj
  | [x, y, z, c] =>
    match parse4 E x y z c with
    | some (n, c) => .ok (PlaneObj.init n c)
    | none => .error .assertionError
  | [k] =>
    match planeKey k with
    | some n => .ok (((PlaneObj.init ⟨0, 0, 1⟩ 0).setNormal n).setC 0)
    | none => .error .assertionError
  | _ => .error .assertionError

/-- A loop that appends one result per element, stopping at the first exception. -/
def traverse {α β : Type*} (f : α → Except PyErr β) : List α → Except PyErr (List β)
  | [] => .ok []
  | a :: l =>
    match f a with
    | .error e => .error e
    | .ok b =>
      match traverse f l with
      | .error e => .error e
      | .ok bs => .ok (b :: bs)

/-- The planes defined by `--plane` (cli.py:493-525). -/
noncomputable def definePlanes (E : Env) (a : Args) : Except PyErr (List PlaneObj) :=
  match a.plane with
  | none => .ok []
  | some l => traverse (definePlane E) l

/-- A plane given to `--mirror`, `--symmetrize` or `--clip-by-plane` (cli.py:535-562, 588-613, 741-767; the three copies
of the code are the same). -/
noncomputable def resolvePlane (E : Env) (planes : List PlaneObj) : List Str → Except PyErr PlaneObj
  | [k] =>
    let key : Except PyErr PlaneObj :=
      match planeKey k with
      | some n => .ok ((PlaneObj.init ⟨0, 0, 1⟩ 0).setNormal n)
      | none => .error .keyError
    if planes.length > 0 then
      match E.parseInt k with
      | some i =>
        if i ≥ 0 ∧ i < (planes.length : ℤ) then
          match planes[i.toNat]? with
          | some p => .ok p
          | none => .error .indexError
        else .error .assertionError
      | none => key
    else key
  | [x, y, z, c] =>
    match parse4 E x y z c with
    | some (n, c) => .ok (((PlaneObj.init ⟨0, 0, 1⟩ 0).setNormal n).setC c)
    | none => .error .valueError
  | _ => .error .valueError

/-- `--mirror` (cli.py:531-569). -/
noncomputable def mirror (E : Env) (planes : List PlaneObj) (a : Args) (o : MeshObj) : Except PyErr MeshObj :=
  match a.mirror with
  | none => .ok o
  | some l => do
    let p ← resolvePlane E planes l
    o.step E.srt E.ord (.mirror p.plane)

/-- The default of an empty list of values (cli.py:574-576, 727-729). -/
def defaulted (d : String) (l : List Str) : List Str := if l = [] then [d.toList] else l

/-- The loop of `--symmetrize` (cli.py:585-617). -/
noncomputable def symmetrizeLoop (E : Env) (planes : List PlaneObj) : List (List Str) → MeshObj → Except PyErr MeshObj
  | [], o => .ok o
  | l :: ls, o => do
    let p ← resolvePlane E planes (defaulted "Oxz" l)
    let o' ← o.step E.srt E.ord (.symmetrize p.plane)
    symmetrizeLoop E planes ls o'

/-- `--symmetrize` (cli.py:572-620). -/
noncomputable def symmetrize (E : Env) (planes : List PlaneObj) (a : Args) (o : MeshObj) : Except PyErr MeshObj :=
  match a.symmetrize with
  | none => .ok o
  | some l => symmetrizeLoop E planes l o

/-- `--heal-mesh`, `--heal-normals` (cli.py:623-636). -/
noncomputable def heal (E : Env) (a : Args) (o : MeshObj) : Except PyErr MeshObj := do
  let o1 ← if a.healMesh then o.step E.srt E.ord .healMesh else .ok o
  if a.healNormals && !a.healMesh then o1.step E.srt E.ord .healNormals else .ok o1

/-! ### Moves (cli.py:639-727) -/

/-- `math.radians`. -/
noncomputable def radians (t : ℝ) : ℝ := t * Real.pi / 180

/-- The calls made for the options of translation, rotation and scaling, in order (cli.py:639-717). -/
noncomputable def moves (a : Args) : List MeshObj.Op :=
  a.translate.toList.map .translate ++ a.translateX.toList.map .translateX ++ a.translateY.toList.map .translateY ++
  a.translateZ.toList.map .translateZ ++
  a.rotate.toList.map (fun r => .rotate (radians r.x) (radians r.y) (radians r.z)) ++
  a.rotateX.toList.map (fun t => .rotate (radians t) 0 0) ++
  a.rotateY.toList.map (fun t => .rotate 0 (radians t) 0) ++
  a.rotateZ.toList.map (fun t => .rotate 0 0 (radians t)) ++
  a.scale.toList.map .scale ++ a.scaleX.toList.map .scaleX ++ a.scaleY.toList.map .scaleY ++
  a.scaleZ.toList.map .scaleZ

/-- `--flip-normals`, `--triangulate-quadrangles` (cli.py:719-727). -/
def finish (a : Args) : List MeshObj.Op :=
  (if a.flipNormals then [.flipNormals] else []) ++ (if a.triangulate then [.triangulateQuadrangles] else [])

/-! ### Clipping (cli.py:730-778) -/

/-- The Python exception of an error of the clipper. -/
def ofClipErr : ClipErr → PyErr
  | .above | .below | .openCurve => .runtimeError
  | .unknownCase => .exception
  | .py e => e

/-- An outcome of the clipper as an outcome of the program. -/
def liftClip {α : Type*} : Except ClipErr α → Except PyErr α
  | .ok a => .ok a
  | .error e => .error (ofClipErr e)

/-- The loop of `--clip-by-plane` (cli.py:739-775); `MeshClipper(mesh, plane=clipping_plane)` has the default tolerance
`1e-3` and does not assert that the curves are closed. -/
noncomputable def clipLoop (E : Env) (planes : List PlaneObj) : List (List Str) → MeshObj → Except PyErr MeshObj
  | [], o => .ok o
  | l :: ls, o => do
    let p ← resolvePlane E planes (defaulted "Oxy" l)
    let c ← liftClip (Clipper.clip E.srt p.plane (1 / 1000) false o.mesh)
    clipLoop E planes ls (MeshObj.new c.clipped)

noncomputable def clipPlanes (E : Env) (planes : List PlaneObj) (a : Args) (o : MeshObj) : Except PyErr MeshObj :=
  match a.clipByPlane with
  | none => .ok o
  | some l => clipLoop E planes l o

/-! ### Inertia (cli.py:841-893) -/

/-- `eval_plain_mesh_inertias` with what is cached (mesh.py:1953-1990). -/
noncomputable def plainInertia (o : MeshObj) (ρ : ℝ) : Except PyErr (Inertia × MeshObj) :=
  match o.readVolume with
  | .error e => .error e
  | .ok (volume, o1) =>
    match o1.readInts with
    | .error e => .error e
    | .ok (i, o2) =>
      match o2.readProps with
      | .error e => .error e
      | .ok (p, o3) =>
        let s := Mesh.normalWeighted p i 6 7 8
        let c := Mesh.normalWeighted p i 9 10 11
        let d := Mesh.normalWeighted p i 12 13 14
        .ok (Inertia.init (ρ * volume) ((1 / (2 * volume)) • s) (ρ * (c.y + c.z) / 3) (ρ * (c.x + c.z) / 3)
          (ρ * (c.x + c.y) / 3) (ρ * d.y / 2) (ρ * d.z / 2) (ρ * d.x / 2) (some 0), o3)

/-- `eval_shell_mesh_inertias` with what is cached (mesh.py:1992-2026). -/
noncomputable def shellInertia (o : MeshObj) (ρ thickness : ℝ) : Except PyErr (Inertia × MeshObj) :=
  match o.readProps with
  | .error e => .error e
  | .ok (p, o1) =>
    match o1.readInts with
    | .error e => .error e
    | .ok (i, o2) =>
      let sd := ρ * thickness
      let surface := (p.map FP.area).sum
      let s : Fin 15 → ℝ := i.sum
      .ok (Inertia.init (sd * surface) ((1 / surface) • ⟨s 0, s 1, s 2⟩) (sd * (s 7 + s 8)) (sd * (s 6 + s 8))
        (sd * (s 6 + s 7)) (sd * s 3) (sd * s 4) (sd * s 5) (some 0), o2)

/-- `--plain-inertia` (cli.py:841-866). -/
noncomputable def plain (a : Args) (o : MeshObj) : Except PyErr (Option Inertia × MeshObj) :=
  if a.plainInertia then (plainInertia o (a.rhoMedium.getD 1023)).map (fun r => (some r.1, r.2)) else .ok (none, o)

/-- `--shell-inertia` (cli.py:868-893). -/
noncomputable def shell (a : Args) (o : MeshObj) : Except PyErr (Option Inertia × MeshObj) :=
  if a.shellInertia then
    (shellInertia o (a.rhoMedium.getD 7850) (a.thickness.getD (2 / 100))).map (fun r => (some r.1, r.2))
  else .ok (none, o)

/-! ### Hydrostatics (cli.py:896-963) -/

/-- What the section computes: the data of the report, the correction applied to the mesh, and whether the solver called
printed "No convergence". -/
structure HydroOut where
  data : Hydro.HsData
  z : ℝ
  rot : M3 ℝ
  noConvergence : Bool

/-- `list(map(float, args.cog))` (cli.py:912) -/
def parseCog (E : Env) : Str × Str × Str → Except PyErr (V3 ℝ)
  | (x, y, z) =>
    match E.parseFloat x, E.parseFloat y, E.parseFloat z with
    | some x, some y, some z => .ok ⟨x, y, z⟩
    | _, _, _ => .error .valueError

/-- `cog` when `--cog` is given (cli.py:911-913). -/
def givenCog (E : Env) (a : Args) : Except PyErr (Option (V3 ℝ)) :=
  match a.cog with
  | none => .ok none
  | some c => (parseCog E c).map some

/-- The decision table (cli.py:907-957). The options `--lpp` and `--orig-at-ap` are not passed on. -/
noncomputable def hydroTable (E : Env) (a : Args) (m : Mesh ℝ) : Except PyErr HydroOut := do
  let cog ← givenCog E a
  match a.massDisplacement, cog with
  | none, none =>
    match a.zcog with
    | none => .error .runtimeError
    | some zg => do
      let h ← liftClip (Hydro.compute E.srt m 0 a.waterDensity a.grav (atCog := false))
      let g : V3 ℝ := ⟨h.buoyancyCenter.x, h.buoyancyCenter.y, zg⟩
      let h' ← liftClip (Hydro.compute E.srt m g a.waterDensity a.grav (atCog := true))
      pure ⟨h', 0, M3.one, false⟩
  | some d, none =>
    match a.zcog with
    | none => .error .runtimeError
    | some zg => do
      let s ← liftClip (Hydro.displacementEquilibrium E.srt m d a.waterDensity a.grav 0 (1 / 1000000))
      let h ← liftClip (Hydro.compute E.srt m 0 a.waterDensity a.grav (z := s.value) (atCog := false))
      let g : V3 ℝ := ⟨h.buoyancyCenter.x, h.buoyancyCenter.y, zg⟩
      let h' ← liftClip (Hydro.compute E.srt m g a.waterDensity a.grav (z := s.value) (atCog := true))
      pure ⟨h', s.value, M3.one, s.noConvergence⟩
  | some d, some g => do
    let s ← liftClip (Hydro.fullEquilibrium E.srt E.solve m g d a.waterDensity a.grav (1 / 1000000))
    let h ← liftClip (Hydro.compute E.srt m g a.waterDensity a.grav (rot := s.value.2) (z := s.value.1) (atCog := true))
    pure ⟨h, s.value.1, s.value.2, s.noConvergence⟩
  | none, some g => do
    let h0 ← liftClip (Hydro.compute E.srt m 0 a.waterDensity a.grav (atCog := false))
    let d := h0.dispMass / 1000
    let s ← liftClip (Hydro.fullEquilibrium E.srt E.solve m g d a.waterDensity a.grav (1 / 1000000))
    let h ← liftClip (Hydro.compute E.srt m g a.waterDensity a.grav (rot := s.value.2) (z := s.value.1) (atCog := true))
    pure ⟨h, s.value.1, s.value.2, s.noConvergence⟩

/-- The whole section (cli.py:896-963): the mesh is then put in the position that was found. -/
noncomputable def hydro (E : Env) (a : Args) (o : MeshObj) : Except PyErr (Option HydroOut × MeshObj) :=
  if a.hydrostatics then do
    let r ← hydroTable E a o.mesh
    let o1 ← o.step E.srt E.ord (.rotateMatrix r.rot)
    let o2 ← o1.step E.srt E.ord (.translateZ r.z)
    pure (some r, o2)
  else .ok (none, o)

/-! ### Output (cli.py:989-1024) -/

/-- The file written, its writer. -/
structure Written where
  name : Str
  writer : Fmt
  mesh : Mesh ℝ

/-- The end of `main` (cli.py:989-1024). Whenever the file is written `args.outfilename` is not `None`, so the
branch of lines 1009-1016 is never run. -/
def output (E : Env) (infile : Str) (a : Args) (m : Mesh ℝ) : Except PyErr (Option Written) :=
  let target : Option Str :=
    match a.outfilename with
    | some n => some n
    | none =>
      match a.outputFormat with
      | some f => some ((splitExt infile).1 ++ '.' :: f)
      | none => none
  match target with
  | none => .ok none
  | some name =>
    match writeMesh (a.outputFormat.getD (extLower E.lower name)) with
    | .error e => .error e
    | .ok w => .ok (some ⟨name, w, m⟩)

/-- What a run leaves: the mesh at the end, the results printed, the file written. -/
structure Out where
  mesh : Mesh ℝ
  plain : Option Inertia
  shell : Option Inertia
  hydro : Option HydroOut
  written : Option Written

/-- The operations on the mesh before the clipping (cli.py:427-727): the mesh and the planes defined. -/
noncomputable def prepare (E : Env) (infile : Str) (a : Args) : Except PyErr (MeshObj × List PlaneObj) := do
  let fmt ← inputFormat E infile a
  let o ← loadObj E infile fmt
  let o ← concatenate E fmt a o
  let o ← mergeDup E a o
  let planes ← definePlanes E a
  let o ← mirror E planes a o
  let o ← symmetrize E planes a o
  let o ← heal E a o
  let o ← MeshObj.run E.srt E.ord (moves a) o
  let o ← MeshObj.run E.srt E.ord (finish a) o
  pure (o, planes)

/-- `main` (cli.py:410-1031). -/
noncomputable def main (E : Env) (infile : Str) (a : Args) : Except PyErr Out := do
  let p ← prepare E infile a
  let o ← clipPlanes E p.2 a p.1
  let i ← plain a o
  let s ← shell a i.2
  let h ← hydro E a s.2
  let w ← output E infile a h.2.mesh
  pure ⟨h.2.mesh, i.1, s.1, h.1, w⟩

end Cli
end MM
