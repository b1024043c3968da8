import Verif.Model.Hydrostatics

/-!
# Model of `meshmagick/hydrostatics_old.py`

The class `Hydrostatics` with its mutable state. Python objects that are shared are modelled as such: the forces are
references to a heap, and the array of the gravity centre may be the same object as its backup (`aliased`). Not modelled:
the array given by the caller to the setter of `gravity_center` (also shared), the report, the viewer, `verbose`.
-/

namespace MM
namespace Old

/-- `Force` (hydrostatics_old.py:28-52). -/
structure Force where
  point : V3 ℝ
  value : V3 ℝ
  relative : Bool

/-- `Force.update` (hydrostatics_old.py:58-72). -/
def Force.update (f : Force) (dz : ℝ) (rot : M3 ℝ) : Force :=
  { f with
    point := rot.mulVec ⟨f.point.x, f.point.y, f.point.z + dz⟩
    value := if f.relative then rot.mulVec f.value else f.value }

/-- `Force.update_xy` (hydrostatics_old.py:74-87). -/
def Force.updateXY (f : Force) (dx dy : ℝ) : Force := { f with point := ⟨f.point.x + dx, f.point.y + dy, f.point.z⟩ }

/-- `Force.hs_force` (hydrostatics_old.py:89-102): vertical force and moments. -/
def Force.hsForce (f : Force) : V3 ℝ :=
  let mom := f.point.cross f.value
  ⟨f.value.z, mom.x, mom.y⟩

/-- The attributes of a `Hydrostatics` object. `_rhog` and `_mg` are always `rho * grav` and `mass * grav`
(hydrostatics_old.py:154, 173, 205-206, 218, 230). `mass` is `_mass`, in kg. `aliased`: `_gravity_center` and
`backup['gravity_center']` are the same array. `clipper` and `data` are the contents of `hs_data`. -/
structure State where
  mesh : Mesh ℝ
  gc : V3 ℝ
  rho : ℝ
  grav : ℝ
  mass : ℝ
  rotation : M3 ℝ
  refs : List ℕ
  heap : ℕ → Force
  initMesh : Mesh ℝ
  backupGc : V3 ℝ
  aliased : Bool
  clipper : Option (Clipper.Clipped ℝ)
  data : Option Hydro.HsData
  reltol : ℝ
  itermax : ℕ
  maxRestart : ℕ
  thetaRelax : ℝ
  zRelax : ℝ
  stopAtUnstable : Bool

/-- Modification in place of the array `_gravity_center`. -/
def State.gcInPlace (st : State) (v : V3 ℝ) : State :=
  { st with gc := v, backupGc := if st.aliased then v else st.backupGc }

/-- `self._gravity_center = np.dot(...)`: a new array. -/
def State.gcRebind (st : State) (v : V3 ℝ) : State := { st with gc := v, aliased := false }

/-- `_update_hydrostatic_properties` (hydrostatics_old.py:550-706), once the clipper is known. The formulas are those of
`compute_hydrostatics` at the origin, without correction of position (`Hydro.ofClipped`), except for the forward
perpendicular and the inertia matrix, which are not used here. -/
noncomputable def State.updateWith (st : State) (c : Clipper.Clipped ℝ) : State × Option ClipErr :=
  let st := { st with clipper := some c }
  if c.clipped.facesProperties.any (fun p => decide (|p.area| < 1 / 10000000000)) then (st, some (.py .exception))
  else if c.closedPolygons = [] then (st, some (.py .valueError))
  else ({ st with data := some (Hydro.ofClipped st.mesh st.gc st.rho st.grav M3.one 0 false none false c) }, none)

variable (srt : (ℕ → ℝ) → List ℕ → List ℕ)

/-- `_update_hydrostatic_properties` (hydrostatics_old.py:550-706): the clipper is built when there is none. -/
noncomputable def State.update (st : State) : State × Option ClipErr :=
  match st.clipper with
  | some c => st.updateWith c
  | none =>
    match Clipper.clip srt ⟨⟨0, 0, 1⟩, 0⟩ (1 / 1000) true st.mesh with
    | .error e => (st, some e)
    | .ok c => st.updateWith c

/-- `_reinit_clipper` (hydrostatics_old.py:543-548). -/
def State.reinit (st : State) : State := { st with clipper := none }

/-- The `mass` property, in tons (hydrostatics_old.py:221-224). -/
noncomputable def State.massTons (st : State) : ℝ := st.mass / 1000

open Classical in
/-- The setter of `mass` (hydrostatics_old.py:226-233) and `is_sinking` (hydrostatics_old.py:235-248). -/
noncomputable def State.setMass (st : State) (tons : ℝ) : State × Option ClipErr :=
  let st := { st with mass := tons * 1000 }
  if st.mass > st.rho * st.mesh.volume then (st, some (.py .valueError)) else (st, none)

/-- The setter of `gravity_center` (hydrostatics_old.py:260-267): the same array is kept as the backup. -/
noncomputable def State.setGravityCenter (st : State) (v : V3 ℝ) : State × Option ClipErr :=
  { st with gc := v, backupGc := v, aliased := true }.update srt

/-- The setter of `zg` (hydrostatics_old.py:274-278). -/
noncomputable def State.setZg (st : State) (z : ℝ) : State × Option ClipErr :=
  (st.gcInPlace ⟨st.gc.x, st.gc.y, z⟩).update srt

/-- The setters of `gravity` and `rho_water` (hydrostatics_old.py:201-219). -/
noncomputable def State.setGravity (st : State) (g : ℝ) : State × Option ClipErr := { st with grav := g }.update srt
noncomputable def State.setRho (st : State) (r : ℝ) : State × Option ClipErr := { st with rho := r }.update srt

/-- `add_force` (hydrostatics_old.py:746-756). -/
def State.addForce (st : State) (i : ℕ) : State := { st with refs := st.refs ++ [i] }

/-- `Hydrostatics.__init__` (hydrostatics_old.py:139-181). `mass` given as 0 is like no mass. The object is not built when
something raises. -/
noncomputable def init (heap : ℕ → Force) (m : Mesh ℝ) (cog : V3 ℝ) (mass : Option ℝ) (rho grav : ℝ) :
    Except ClipErr State :=
  let st : State := { mesh := m, gc := cog, rho := rho, grav := grav, mass := 0, rotation := M3.one, refs := [], heap := heap
                      initMesh := m, backupGc := cog, aliased := false, clipper := none, data := none
                      reltol := 1 / 10000, itermax := 1000, maxRestart := 10, thetaRelax := 2, zRelax := 1 / 10
                      stopAtUnstable := false }
  match st.update srt with
  | (_, some e) => .error e
  | (st, none) =>
    match mass with
    | some t =>
      if t = 0 then .ok { st with mass := (st.data.map (·.dispMass)).getD 0 }
      else
        match st.setMass (t * 1000) with
        | (_, some e) => .error e
        | (st, none) => .ok st
    | none => .ok { st with mass := (st.data.map (·.dispMass)).getD 0 }

/-- `for force in self.additional_forces: force.update(dz, rot)` (hydrostatics_old.py:832-833, 1106-1107, 1125-1126). -/
def moveForces (dz : ℝ) (rot : M3 ℝ) (refs : List ℕ) (heap : ℕ → Force) : ℕ → Force :=
  refs.foldl (fun h i => Function.update h i ((h i).update dz rot)) heap

/-- The same with `update_xy` (hydrostatics_old.py:1178-1179). -/
def moveForcesXY (dx dy : ℝ) (refs : List ℕ) (heap : ℕ → Force) : ℕ → Force :=
  refs.foldl (fun h i => Function.update h i ((h i).updateXY dx dy)) heap

/-- `residual` (hydrostatics_old.py:767-791). -/
noncomputable def State.residual (st : State) (h : Hydro.HsData) : V3 ℝ :=
  let rhogv := st.rho * st.grav * h.dispVolume
  let mg := st.mass * st.grav
  let b := h.buoyancyCenter
  ⟨rhogv - mg, rhogv * b.y - mg * st.gc.y, -rhogv * b.x + mg * st.gc.x⟩ +
    (st.refs.map (fun i => (st.heap i).hsForce)).sum

/-- The loop of `set_displacement` (hydrostatics_old.py:820-850), `fuel` is `itermax - iter`. -/
noncomputable def dispLoop : ℕ → ℝ → State → State × Option ClipErr
  | 0, _, st => (st, none)
  | fuel + 1, dz, st =>
    let st := { st with mesh := st.mesh.translateZ dz }
    let st := st.gcInPlace ⟨st.gc.x, st.gc.y, st.gc.z + dz⟩
    let st := { st with heap := moveForces dz M3.one st.refs st.heap }
    match st.reinit.update srt with
    | (st, some e) => (st, some e)
    | (st, none) =>
      match st.data with
      | none => (st, none)
      | some h =>
        let fz := (st.residual h).x
        if |fz / (st.mass * st.grav)| < st.reltol then (st, none)
        else dispLoop fuel (Hydro.relaxed st.zRelax (fz / (st.rho * st.grav * h.waterplaneArea))) st

/-- `set_displacement` (hydrostatics_old.py:793-852). -/
noncomputable def State.setDisplacement (st : State) (disp : ℝ) : State × Option ClipErr :=
  match st.setMass disp with
  | (st, some e) => (st, some e)
  | (st, none) => dispLoop srt st.itermax 0 st

/-- Result of `equilibrate`: its code, an exception, or no answer within the number of iterations allowed. -/
inductive Outcome where
  | code (n : ℕ)
  | raised (e : ClipErr)
  | running

/-- The local variables of the loop of `equilibrate`. -/
structure Vars where
  iter : ℕ
  nbRestart : ℕ
  unstable : Bool
  dz : ℝ
  tx : ℝ
  ty : ℝ

/-- The random restart (hydrostatics_old.py:1095-1109). -/
noncomputable def State.restart (st : State) (t : ℝ × ℝ) : State × Option ClipErr :=
  let rot := cardanToRotmat t.1 t.2 0
  let st := { st with mesh := st.mesh.rotate t.1 t.2 0 }
  let st := st.gcRebind (rot.mulVec st.gc)
  let st := { st with rotation := rot.mul st.rotation }
  match st.reinit.update srt with
  | (st, some e) => (st, some e)
  | (st, none) => ({ st with heap := moveForces 0 rot st.refs st.heap }, none)

/-- The displacement of an iteration (hydrostatics_old.py:1116-1129). -/
noncomputable def State.move (st : State) (v : Vars) : State × Option ClipErr :=
  let st := { st with mesh := st.mesh.translateZ v.dz }
  let st := st.gcInPlace ⟨st.gc.x, st.gc.y, st.gc.z + v.dz⟩
  let rot := cardanToRotmat v.tx v.ty 0
  let st := { st with mesh := st.mesh.rotate v.tx v.ty 0 }
  let st := st.gcRebind (rot.mulVec st.gc)
  let st := { st with rotation := rot.mul st.rotation }
  let st := { st with heap := moveForces v.dz rot st.refs st.heap }
  st.reinit.update srt

open Classical in
/-- The rest of an iteration (hydrostatics_old.py:1133-1172): the code returned, or the variables of the next one. -/
noncomputable def State.next (solve : M3 ℝ → V3 ℝ → Except PyErr (V3 ℝ)) (st : State) (h : Hydro.HsData) (v : Vars) :
    Outcome ⊕ Vars :=
  let r := st.residual h
  let mg := st.mass * st.grav
  if |r.x / mg| < st.reltol ∧ |r.y / (mg * h.breadth)| < st.reltol ∧ |r.z / (mg * h.lengthAtWaterline)| < st.reltol then
    if h.longitudinalHeight > 0 ∧ h.transversalHeight > 0 then .inl (.code 1)
    else if st.stopAtUnstable then .inl (.code 2)
    else .inr { v with unstable := true, iter := v.iter + 1 }
  else
    match solve h.stiffness r with
    | .error e => .inl (.raised (.py e))
    | .ok d =>
      let th := st.thetaRelax * Real.pi / 180
      .inr { v with iter := v.iter + 1, dz := Hydro.relaxed st.zRelax d.x, tx := Hydro.relaxed th d.y
                    ty := Hydro.relaxed th d.z }

/-- The loop of `equilibrate` (hydrostatics_old.py:1080-1172). `rand n` are the angles of the restart `n`. -/
noncomputable def equilLoop (solve : M3 ℝ → V3 ℝ → Except PyErr (V3 ℝ)) (rand : ℕ → ℝ × ℝ) :
    ℕ → Vars → State → State × Outcome
  | 0, _, st => (st, .running)
  | fuel + 1, v, st =>
    let main (v : Vars) (st : State) : State × Outcome :=
      match st.move srt v with
      | (st, some e) => (st, .raised e)
      | (st, none) =>
        match st.data with
        | none => (st, .running)
        | some h =>
          match st.next solve h v with
          | .inl o => (st, o)
          | .inr v => equilLoop solve rand fuel v st
    if v.unstable || v.iter == (v.nbRestart + 1) * (st.itermax - 1) then
      if v.nbRestart + 1 < st.maxRestart then
        match st.restart srt (rand v.nbRestart) with
        | (st, some e) => (st, .raised e)
        | (st, none) => main ⟨v.iter, v.nbRestart + 1, false, 0, 0, 0⟩ st
      else (st, .code 0)
    else main v st

/-- What follows the loop (hydrostatics_old.py:1174-1181). -/
noncomputable def State.zeroXY (st : State) : State :=
  let dx := -st.gc.x
  let dy := -st.gc.y
  let st := { st with mesh := st.mesh.translate ⟨dx, dy, 0⟩ }
  let st : State := { st with data := st.data.map (fun h : Hydro.HsData =>
    { h with buoyancyCenter := ⟨h.buoyancyCenter.x + dx, h.buoyancyCenter.y + dy, h.buoyancyCenter.z⟩ }) }
  let st := { st with heap := moveForcesXY dx dy st.refs st.heap }
  st.gcInPlace ⟨0, 0, st.gc.z⟩

/-- `equilibrate` (hydrostatics_old.py:1027-1191), given a number of iterations. -/
noncomputable def State.equilibrate (solve : M3 ℝ → V3 ℝ → Except PyErr (V3 ℝ)) (rand : ℕ → ℝ × ℝ) (fuel : ℕ)
    (initDisp : Bool) (st : State) : State × Outcome :=
  let start (st : State) : State × Outcome :=
    match equilLoop srt solve rand fuel ⟨0, 0, false, 0, 0, 0⟩ st with
    | (st, .code n) => (st.zeroXY, .code n)
    | r => r
  if initDisp then
    match st.setDisplacement srt st.massTons with
    | (st, some e) => (st, .raised e)
    | (st, none) => start st
  else start st

/-- `reset` (hydrostatics_old.py:340-351). -/
noncomputable def State.reset (st : State) : State × Option ClipErr :=
  match ({ st with mesh := st.initMesh, gc := st.backupGc, aliased := false } : State).reinit.update srt with
  | (st, some e) => (st, some e)
  | (st, none) => ({ st with rotation := M3.one }, none)

open Classical in
/-- `is_at_equilibrium` (hydrostatics_old.py:379-396). As in the loop of `equilibrate`, a division by zero gives 0 here and
an infinity or a NaN in numpy. -/
noncomputable def State.isAtEquilibrium (st : State) (h : Hydro.HsData) : Bool :=
  let r := st.residual h
  let mg := st.mass * st.grav
  decide (|r.x / mg| < st.reltol ∧ |r.y / (mg * h.breadth)| < st.reltol ∧ |r.z / (mg * h.lengthAtWaterline)| < st.reltol)

open Classical in
/-- `is_stable_in_roll`, `is_stable_in_pitch` and `isstable` (hydrostatics_old.py:353-377). -/
noncomputable def stableInRoll (h : Hydro.HsData) : Bool := decide (h.transversalHeight > 0)
open Classical in
@[inherit_doc stableInRoll]
noncomputable def stableInPitch (h : Hydro.HsData) : Bool := decide (h.longitudinalHeight > 0)
@[inherit_doc stableInRoll]
noncomputable def isStable (h : Hydro.HsData) : Bool := stableInPitch h && stableInRoll h

/-- `delta_fz`, `delta_mx`, `delta_my` (hydrostatics_old.py:398-426). -/
noncomputable def State.deltas (st : State) (h : Hydro.HsData) : ℝ × ℝ × ℝ :=
  ((st.residual h).x, (st.residual h).y, (st.residual h).z)

/-- The setters of the parameters of the solver (hydrostatics_old.py:469-528): `AssertionError` out of range. -/
noncomputable def State.setReltol (st : State) (x : ℝ) : Except PyErr State :=
  open Classical in if 0 < x ∧ x < 1 then .ok { st with reltol := x } else .error .assertionError
@[inherit_doc State.setReltol]
noncomputable def State.setThetaRelax (st : State) (x : ℝ) : Except PyErr State :=
  open Classical in if 0 < x ∧ x < 10 then .ok { st with thetaRelax := x } else .error .assertionError
@[inherit_doc State.setReltol]
noncomputable def State.setZRelax (st : State) (x : ℝ) : Except PyErr State :=
  open Classical in if 0 < x ∧ x < 1 then .ok { st with zRelax := x } else .error .assertionError
@[inherit_doc State.setReltol]
def State.setMaxIterations (st : State) (n : ℕ) : Except PyErr State :=
  if 0 < n then .ok { st with itermax := n } else .error .assertionError
@[inherit_doc State.setReltol]
def State.setMaxRestart (st : State) (n : ℕ) : Except PyErr State := .ok { st with maxRestart := n }

end Old
end MM
