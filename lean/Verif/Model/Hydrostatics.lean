import Verif.Model.Clipper
import Verif.Model.Inertia

/-!
# Model of `meshmagick/hydrostatics.py`

Numbers are reals (the line sums are over any field); divisions by zero, which give `inf` or `nan` in numpy, are
Lean's `x / 0 = 0`, hence the theorems assume that the denominators are not zero. The text of the report
(`get_hydrostatic_report`) and the messages are not modelled, except the fact that the message "No convergence" is
printed.
-/

namespace MM
namespace Hydro

/-- The sums `sigma0` … `sigma5` (hydrostatics.py:51-56). -/
@[ext] structure Sigmas (K : Type*) where
  s0 : K
  s1 : K
  s2 : K
  s3 : K
  s4 : K
  s5 : K
deriving DecidableEq, Repr

section
variable {K : Type*} [Field K]

/-- The body of the inner loop (hydrostatics.py:78-88). -/
def Sigmas.step (s : Sigmas K) (a b : K × K) : Sigmas K :=
  let dx := b.1 - a.1
  let dy := b.2 - a.2
  let px := a.1 + b.1
  let py := a.2 + b.2
  { s0 := s.s0 + dy * px
    s1 := s.s1 + dy * (px * px - a.1 * b.1)
    s2 := s.s2 + dx * (py * py - a.2 * b.2)
    s3 := s.s3 + dy * (py * px * px + a.2 * a.1 * a.1 + b.2 * b.1 * b.1)
    s4 := s.s4 + dy * (a.1 * a.1 + b.1 * b.1) * px
    s5 := s.s5 + dx * (a.2 * a.2 + b.2 * b.2) * py }

/-- The inner loop over the vertices of a polygon (hydrostatics.py:76-90); `polyverts[0]` exists since the polygons of
the clipper have at least two vertices (C44). -/
def Sigmas.poly (s : Sigmas K) : List (K × K) → Sigmas K
  | a :: b :: l => Sigmas.poly (s.step a b) (b :: l)
  | _ => s

/-- The divisions after the loop (hydrostatics.py:100-105). -/
def Sigmas.scale (s : Sigmas K) : Sigmas K :=
  ⟨s.s0 / 2, s.s1 / 6, s.s2 / -6, s.s3 / 24, s.s4 / 12, s.s5 / -12⟩

/-- `sigma0` … `sigma5` at the end (hydrostatics.py:51-105). -/
def sigmas (polys : List (List (K × K))) : Sigmas K := (polys.foldl Sigmas.poly ⟨0, 0, 0, 0, 0, 0⟩).scale

end

/-- `min` and `max` of a non empty array. -/
noncomputable def minL : List ℝ → ℝ
  | [] => 0
  | a :: l => l.foldl min a
noncomputable def maxL : List ℝ → ℝ
  | [] => 0
  | a :: l => l.foldl max a

/-- `stiffness_matrix[np.fabs(stiffness_matrix) < 1e-4] = 0.` (hydrostatics.py:137) for a coefficient. -/
noncomputable def zeroTiny (a : ℝ) : ℝ := if |a| < 1 / 10000 then 0 else a

/-- The dictionary returned by `compute_hydrostatics` (hydrostatics.py:158-203). -/
structure HsData where
  grav : ℝ
  rhoWater : ℝ
  mesh : Mesh ℝ
  rotmatEq : M3 ℝ
  zEq : ℝ
  cog : V3 ℝ
  wetSurfaceArea : ℝ
  dispVolume : ℝ
  dispMass : ℝ
  buoyancyCenter : V3 ℝ
  waterplaneCenter : V3 ℝ
  waterplaneArea : ℝ
  transversalRadius : ℝ
  longitudinalRadius : ℝ
  transversalHeight : ℝ
  longitudinalHeight : ℝ
  stiffness : M3 ℝ
  lengthAtWaterline : ℝ
  breadthAtWaterline : ℝ
  lengthOverallSubmerged : ℝ
  breadthOverallSubmerged : ℝ
  draught : ℝ
  forwardPerpendicular : ℝ
  breadth : ℝ
  trustLpp : Bool
  lpp : ℝ
  inertia : Inertia

/-- Position of the mesh where the hydrostatics are computed (hydrostatics.py:26-28). -/
def workingMesh (m : Mesh ℝ) (rot : M3 ℝ) (z : ℝ) : Mesh ℝ := (m.rotateMatrix rot).translateZ z

/-- Position of a point there (hydrostatics.py:30-32). -/
def workingPoint (g : V3 ℝ) (rot : M3 ℝ) (z : ℝ) : V3 ℝ :=
  let w := rot.mulVec g
  ⟨w.x, w.y, w.z + z⟩

/-- `polyverts` for each polygon (hydrostatics.py:63-70): the horizontal coordinates of the vertices, with respect to the
buoyancy centre when `at_cog`. -/
noncomputable def polyVerts (crown : Mesh ℝ) (polys : List (List ℕ)) (atCog : Bool) (b : V3 ℝ) : List (List (ℝ × ℝ)) :=
  polys.map (fun l => l.map (fun i =>
    let v := crown.vert i
    if atCog then (v.x - b.x, v.y - b.y) else (v.x, v.y)))

/-- What is computed once the mesh is clipped (hydrostatics.py:39-203). -/
noncomputable def ofClipped (m : Mesh ℝ) (cog : V3 ℝ) (rho grav : ℝ) (rot : M3 ℝ) (z : ℝ) (atCog : Bool)
    (lpp : Option ℝ) (origAtAp : Bool) (c : Clipper.Clipped ℝ) : HsData :=
  let wcog := workingPoint cog rot z
  let inertia := c.clipped.evalPlain rho
  let b := inertia.cog
  let vol := inertia.mass / rho
  let polys := polyVerts c.clippedCrown c.closedPolygons atCog b
  let s := sigmas polys
  let minx := minL (polys.map (fun l => minL (l.map Prod.fst)))
  let maxx := maxL (polys.map (fun l => maxL (l.map Prod.fst)))
  let miny := minL (polys.map (fun l => minL (l.map Prod.snd)))
  let maxy := maxL (polys.map (fun l => maxL (l.map Prod.snd)))
  let rhog := rho * grav
  let s33 := rhog * s.s0
  let s34 := rhog * s.s2
  let s35 := -rhog * s.s1
  let s45 := -rhog * s.s3
  let rt := s.s5 / vol
  let rl := s.s4 / vol
  let a := wcog.z - b.z
  let ht := rt - a
  let hl := rl - a
  let s44 := rhog * vol * ht
  let s55 := rhog * vol * hl
  let xf := if atCog then -s35 / s33 + b.x else -s35 / s33
  let yf := if atCog then s34 / s33 + b.y else s34 / s33
  let bbox := c.clipped.bbox
  let fp := maxx + b.x
  { grav := grav, rhoWater := rho, mesh := m, rotmatEq := rot, zEq := z, cog := cog
    wetSurfaceArea := c.clipped.totalArea
    dispVolume := vol
    dispMass := rho * vol
    buoyancyCenter := rot.transpose.mulVec ⟨b.x, b.y, b.z - z⟩
    waterplaneCenter := rot.transpose.mulVec ⟨xf, yf, -z⟩
    waterplaneArea := s.s0
    transversalRadius := rt
    longitudinalRadius := rl
    transversalHeight := ht
    longitudinalHeight := hl
    stiffness := ⟨⟨zeroTiny s33, zeroTiny s34, zeroTiny s35⟩, ⟨zeroTiny s34, zeroTiny s44, zeroTiny s45⟩,
      ⟨zeroTiny s35, zeroTiny s45, zeroTiny s55⟩⟩
    lengthAtWaterline := maxx - minx
    breadthAtWaterline := maxy - miny
    lengthOverallSubmerged := bbox.xmax - bbox.xmin
    breadthOverallSubmerged := bbox.ymax - bbox.ymin
    draught := |bbox.zmin|
    forwardPerpendicular := fp
    breadth := maxy - miny
    trustLpp := lpp.isSome || origAtAp
    lpp := match lpp with
      | some l => l
      | none => if origAtAp then fp else maxx - minx
    inertia := (inertia.setCog wcog).shiftAtCog }

/-- `compute_hydrostatics` (hydrostatics.py:24-205). The clipper is built with its default plane `z = 0` and tolerance
`1e-3` (mesh_clipper.py:26), `assert_closed_boundaries=True`. `min([])` raises `ValueError` when there is no polygon. -/
noncomputable def compute (srt : (ℕ → ℝ) → List ℕ → List ℕ) (m : Mesh ℝ) (cog : V3 ℝ) (rho grav : ℝ)
    (rot : M3 ℝ := M3.one) (z : ℝ := 0) (atCog : Bool := false) (lpp : Option ℝ := none) (origAtAp : Bool := false) :
    Except ClipErr HsData :=
  match Clipper.clip srt ⟨⟨0, 0, 1⟩, 0⟩ (1 / 1000) true (workingMesh m rot z) with
  | .error e => .error e
  | .ok c =>
    if c.closedPolygons = [] then .error (.py .valueError)
    else .ok (ofClipped m cog rho grav rot z atCog lpp origAtAp c)

/-- The exceptions of the clipper that are `RuntimeError`s (mesh_clipper.py:131, 134, 744). -/
def isRuntimeError : ClipErr → Bool
  | .above => true
  | .below => true
  | .openCurve => true
  | .py .runtimeError => true
  | _ => false

/-- `if fabs(x) > relax: x = copysign(relax, x)` (hydrostatics.py:260-261, 339-346). -/
def relaxed {K : Type*} [Field K] [LinearOrder K] (relax x : K) : K :=
  if |x| > relax then (if 0 ≤ x then |relax| else -|relax|) else x

/-- Result of a solver: the correction returned, the corrections at which the hydrostatics were computed, and whether
"No convergence" was printed. -/
structure Solved (α : Type*) where
  value : α
  evals : List α
  noConvergence : Bool

/-- The loop of `displacement_equilibrium` (hydrostatics.py:228-265). `resp z` is the displaced volume and the waterplane
area for the correction `z`. The messages of the `RuntimeError`s of the clipper have at most two arguments:
`err.args[2]` raises `IndexError` whatever the position of the mesh (hydrostatics.py:237), the rest of the handler is
never run. The counter `iter` goes from 1 to 99: `fuel = 99`. -/
def dispLoop {K : Type*} [Field K] [LinearOrder K] (resp : K → Except ClipErr (K × K)) (rho kg reltol relax : K) :
    ℕ → K → Except ClipErr (Solved K)
  | 0, z => .ok ⟨z, [], true⟩
  | fuel + 1, z =>
    match resp z with
    | .error e => if isRuntimeError e then .error (.py .indexError) else .error e
    | .ok (vol, area) =>
      let residual := rho * vol - kg
      let dz := residual / (rho * area)
      if |residual / kg| < reltol then .ok ⟨z, [z], false⟩
      else
        match dispLoop resp rho kg reltol relax fuel (z + relaxed relax dz) with
        | .error e => .error e
        | .ok r => .ok { r with evals := z :: r.evals }

/-- `displacement_equilibrium` (hydrostatics.py:208-270). -/
noncomputable def displacementEquilibrium (srt : (ℕ → ℝ) → List ℕ → List ℕ) (m : Mesh ℝ) (tons rho grav : ℝ)
    (cog : V3 ℝ) (reltol : ℝ) : Except ClipErr (Solved ℝ) :=
  dispLoop (fun z => (compute srt m cog rho grav (z := z)).map (fun h => (h.dispVolume, h.waterplaneArea)))
    rho (tons * 1000) reltol ((m.bbox.zmax - m.bbox.zmin) / 5) 99 0

/-- The residue of the balance of forces and moments (hydrostatics.py:303-321). -/
noncomputable def residue (h : HsData) (cog : V3 ℝ) (rot : M3 ℝ) (z rhog mg : ℝ) : V3 ℝ :=
  let g := workingPoint cog rot z
  let b := workingPoint h.buoyancyCenter rot z
  let rhogv := rhog * h.dispVolume
  ⟨rhogv - mg, rhogv * b.y - mg * g.y, -rhogv * b.x + mg * g.x⟩

/-- `np.all(np.fabs(residue / scale) < reltol)` (hydrostatics.py:323-329). -/
noncomputable def Converged (h : HsData) (r : V3 ℝ) (mg reltol : ℝ) : Prop :=
  |r.x / mg| < reltol ∧ |r.y / (mg * h.breadth)| < reltol ∧ |r.z / (mg * h.lengthAtWaterline)| < reltol

open Classical in
/-- The loop of `full_equilibrium` (hydrostatics.py:297-351). `resp` is `compute_hydrostatics` as a function of the
correction, `solve` is `np.linalg.solve`. -/
noncomputable def fullLoop (resp : ℝ × M3 ℝ → Except ClipErr HsData) (solve : M3 ℝ → V3 ℝ → Except PyErr (V3 ℝ))
    (cog : V3 ℝ) (rhog mg reltol relax : ℝ) : ℕ → ℝ × M3 ℝ → Except ClipErr (Solved (ℝ × M3 ℝ))
  | 0, p => .ok ⟨p, [], true⟩
  | fuel + 1, p =>
    match resp p with
    | .error e => .error e
    | .ok h =>
      let r := residue h cog p.2 p.1 rhog mg
      if Converged h r mg reltol then .ok ⟨p, [p], false⟩
      else
        match solve h.stiffness r with
        | .error e => .error (.py e)
        | .ok d =>
          let tz := relaxed relax d.x
          let rx := relaxed (2 * Real.pi / 180) d.y
          let ry := relaxed (2 * Real.pi / 180) d.z
          match fullLoop resp solve cog rhog mg reltol relax fuel (p.1 + tz, (cardanToRotmat rx ry 0).mul p.2) with
          | .error e => .error e
          | .ok s => .ok { s with evals := p :: s.evals }

/-- `full_equilibrium` (hydrostatics.py:273-353). -/
noncomputable def fullEquilibrium (srt : (ℕ → ℝ) → List ℕ → List ℕ) (solve : M3 ℝ → V3 ℝ → Except PyErr (V3 ℝ))
    (m : Mesh ℝ) (cog : V3 ℝ) (tons rho grav reltol : ℝ) : Except ClipErr (Solved (ℝ × M3 ℝ)) :=
  match displacementEquilibrium srt m tons rho grav 0 reltol with
  | .error e => .error e
  | .ok s =>
    fullLoop (fun p => compute srt m cog rho grav (rot := p.2) (z := p.1)) solve cog (rho * grav)
      (tons * 1000 * grav) reltol ((m.bbox.zmax - m.bbox.zmin) / 5) 99 (s.value, M3.one)

end Hydro
end MM
