import Verif.Props.Cli
import Verif.Props.Equilibrium
import Verif.Props.ClipMotion

/-!
# Properties C63 and C71: hydrostatics from the command line
-/

namespace MM
namespace Cli
open Hydro

lemma bbox_z_le (m : Mesh ℝ) : m.bbox.zmin ≤ m.bbox.zmax := by
  unfold Mesh.bbox
  cases m.vertices with
  | nil => simp
  | cons v vs =>
    simp only
    have h1 : ∀ (l : List (V3 ℝ)) (a : ℝ), l.foldl (fun a w => min a w.z) a ≤ a := by
      intro l
      induction l with
      | nil => simp
      | cons w l ih => intro a; exact (ih _).trans (min_le_left _ _)
    have h2 : ∀ (l : List (V3 ℝ)) (a : ℝ), a ≤ l.foldl (fun a w => max a w.z) a := by
      intro l
      induction l with
      | nil => simp
      | cons w l ih => intro a; exact (le_max_left _ _).trans (ih _)
    exact (h1 vs v.z).trans (h2 vs v.z)

lemma liftClip_ok {α : Type} {x : Except ClipErr α} {a : α} : liftClip x = .ok a ↔ x = .ok a := by
  cases x <;> simp [liftClip]

lemma ofClipped_indep (m : Mesh ℝ) (cog cog' : V3 ℝ) (rho grav : ℝ) (rot : M3 ℝ) (z : ℝ) (b b' : Bool) (l l' : Option ℝ)
    (p p' : Bool) (c : Clipper.Clipped ℝ) :
    (ofClipped m cog rho grav rot z b l p c).dispVolume = (ofClipped m cog' rho grav rot z b' l' p' c).dispVolume ∧
    (ofClipped m cog rho grav rot z b l p c).dispMass = (ofClipped m cog' rho grav rot z b' l' p' c).dispMass ∧
    (ofClipped m cog rho grav rot z b l p c).buoyancyCenter = (ofClipped m cog' rho grav rot z b' l' p' c).buoyancyCenter :=
  ⟨rfl, rfl, rfl⟩

lemma compute_indep {srt : (ℕ → ℝ) → List ℕ → List ℕ} {m : Mesh ℝ} {cog cog' : V3 ℝ} {rho grav : ℝ} {rot : M3 ℝ} {z : ℝ}
    {b b' : Bool} {h h' : HsData} (e : compute srt m cog rho grav rot z b = .ok h)
    (e' : compute srt m cog' rho grav rot z b' = .ok h') :
    h.dispVolume = h'.dispVolume ∧ h.dispMass = h'.dispMass ∧ h.buoyancyCenter = h'.buoyancyCenter := by
  obtain ⟨c, hc, _, rfl⟩ := compute_ok e
  obtain ⟨c', hc', _, rfl⟩ := compute_ok e'
  rw [hc] at hc'; cases hc'
  exact ofClipped_indep ..

lemma compute_fields {srt : (ℕ → ℝ) → List ℕ → List ℕ} {m : Mesh ℝ} {cog : V3 ℝ} {rho grav : ℝ} {rot : M3 ℝ} {z : ℝ}
    {b : Bool} {h : HsData} (e : compute srt m cog rho grav rot z b = .ok h) : h.mesh = m ∧ h.cog = cog ∧
      h.rotmatEq = rot ∧ h.zEq = z ∧ h.grav = grav ∧ h.rhoWater = rho ∧ h.trustLpp = false ∧ h.lpp = h.lengthAtWaterline := by
  obtain ⟨c, hc, _, rfl⟩ := compute_ok e
  exact ⟨rfl, rfl, rfl, rfl, rfl, rfl, rfl, rfl⟩

/-- The balance of weight and buoyancy at the position `rot`, `z` of the mesh `m`, to the precision `1e-6` relative to the
weight and to the lever arms of the report: resultant, moment about the x axis, moment about the y axis. -/
def Balanced (E : Env) (m : Mesh ℝ) (g : V3 ℝ) (tons rho grav : ℝ) (rot : M3 ℝ) (z : ℝ) : Prop :=
  ∃ hs c, compute E.srt m g rho grav rot z = .ok hs ∧
    Clipper.clip E.srt ⟨⟨0, 0, 1⟩, 0⟩ (1 / 1000) true (workingMesh m rot z) = .ok c ∧
    let B := (c.clipped.evalPlain rho).cog
    let G := workingPoint g rot z
    let buoyancy := rho * grav * hs.dispVolume
    let weight := tons * 1000 * grav
    (0 < weight → |buoyancy - weight| < 1 / 1000000 * weight) ∧
    (0 < weight * hs.breadth → |buoyancy * B.y - weight * G.y| < 1 / 1000000 * (weight * hs.breadth)) ∧
    (0 < weight * hs.lengthAtWaterline →
      |buoyancy * B.x - weight * G.x| < 1 / 1000000 * (weight * hs.lengthAtWaterline))

/-- What the documentation says of a run without `--cog`: the hull is kept upright; it is not moved at all without
`--mass-displacement`, else it is moved to the displacement requested; the gravity centre is above the buoyancy
centre at the height `--zcog`. -/
structure Upright (E : Env) (a : Args) (m : Mesh ℝ) (r : HydroOut) : Prop where
  rot : r.rot = M3.one
  height : a.zcog = some r.data.cog.z
  above : r.data.cog.x = r.data.buoyancyCenter.x ∧ r.data.cog.y = r.data.buoyancyCenter.y
  fixed : a.massDisplacement = none → r.z = 0
  displaced : ∀ d, a.massDisplacement = some d → 0 < d → r.noConvergence = false →
    |r.data.dispMass - d * 1000| < 1 / 1000000 * (d * 1000)

/-- What the documentation says of a run with `--cog`: the gravity centre is the one given, whatever `--zcog`; the hull
is moved to its equilibrium for the mass given, or for the mass of the water displaced initially. -/
structure Free (E : Env) (a : Args) (m : Mesh ℝ) (r : HydroOut) (c : Str × Str × Str) : Prop where
  gravity : E.parseFloat c.1 = some r.data.cog.x ∧ E.parseFloat c.2.1 = some r.data.cog.y ∧
    E.parseFloat c.2.2 = some r.data.cog.z
  rot : r.rot.IsRotation
  given : ∀ d, a.massDisplacement = some d → r.noConvergence = false →
    Balanced E m r.data.cog d a.waterDensity a.grav r.rot r.z
  initial : a.massDisplacement = none → r.noConvergence = false →
    ∃ h0, compute E.srt m 0 a.waterDensity a.grav = .ok h0 ∧
      Balanced E m r.data.cog (h0.dispMass / 1000) a.waterDensity a.grav r.rot r.z

lemma parseCog_ok {E : Env} {c : Str × Str × Str} {g : V3 ℝ} (h : parseCog E c = .ok g) :
    E.parseFloat c.1 = some g.x ∧ E.parseFloat c.2.1 = some g.y ∧ E.parseFloat c.2.2 = some g.z := by
  obtain ⟨x, y, z⟩ := c
  unfold parseCog at h
  simp only at h
  cases h1 : E.parseFloat x with
  | none => simp [h1] at h
  | some x' =>
    cases h2 : E.parseFloat y with
    | none => simp [h1, h2] at h
    | some y' =>
      cases h3 : E.parseFloat z with
      | none => simp [h1, h2, h3] at h
      | some z' => simp only [h1, h2, h3, Except.ok.injEq] at h; subst h; exact ⟨rfl, rfl, rfl⟩

/-- The decision table. -/
theorem hydroTable_ok {E : Env} {a : Args} {m : Mesh ℝ} {r : HydroOut} (h : hydroTable E a m = .ok r) :
    compute E.srt m r.data.cog a.waterDensity a.grav r.rot r.z true = .ok r.data ∧
    (a.cog = none → Upright E a m r) ∧ ∀ c, a.cog = some c → Free E a m r c := by
  unfold hydroTable at h
  rw [bind_ok] at h
  obtain ⟨cog, hcog, h⟩ := h
  unfold givenCog at hcog
  cases hc : a.cog with
  | none =>
    rw [hc] at hcog
    cases hcog
    cases hd : a.massDisplacement with
    | none =>
      simp only [hd] at h
      cases hz : a.zcog with
      | none => rw [hz] at h; cases h
      | some zg =>
        simp only [hz, bind_ok, liftClip_ok] at h
        obtain ⟨h0, e0, h1, e1, h2⟩ := h
        cases h2
        obtain ⟨-, f2, -⟩ := compute_fields e1
        obtain ⟨-, -, i3⟩ := compute_indep e0 e1
        refine ⟨by rw [f2]; exact e1, fun _ => ⟨rfl, ?_, ?_, fun _ => rfl, ?_⟩, by simp⟩
        · simp only [hz]; rw [f2]
        · simp only; rw [f2, ← i3]; exact ⟨rfl, rfl⟩
        · intro d h'; rw [hd] at h'; cases h'
    | some d =>
      simp only [hd] at h
      cases hz : a.zcog with
      | none => rw [hz] at h; cases h
      | some zg =>
        simp only [hz, bind_ok, liftClip_ok] at h
        obtain ⟨s, es, h0, e0, h1, e1, h2⟩ := h
        cases h2
        obtain ⟨-, f2, -⟩ := compute_fields e1
        obtain ⟨-, -, i3⟩ := compute_indep e0 e1
        refine ⟨by rw [f2]; exact e1, fun _ => ⟨rfl, ?_, ?_, ?_, ?_⟩, by simp⟩
        · simp only [hz]; rw [f2]
        · simp only; rw [f2, ← i3]; exact ⟨rfl, rfl⟩
        · intro h'; rw [hd] at h'; cases h'
        · intro d' h' hpos hn
          rw [hd] at h'; cases h'
          obtain ⟨-, -, -, -, h5⟩ := C48_displacement_partial E.srt m d a.waterDensity a.grav 0 (1 / 1000000)
            (bbox_z_le m) hpos s es
          obtain ⟨hs, e5, e6⟩ := h5 hn
          obtain ⟨-, i2, -⟩ := compute_indep e5 e1
          simp only
          rw [← i2]; exact e6
  | some c =>
    simp only [hc] at hcog
    cases hp : parseCog E c with
    | error e => rw [hp] at hcog; cases hcog
    | ok g =>
      rw [hp] at hcog
      simp only [Except.map, Except.ok.injEq] at hcog
      subst hcog
      have hg := parseCog_ok hp
      cases hd : a.massDisplacement with
      | none =>
        simp only [hd, bind_ok, liftClip_ok] at h
        obtain ⟨h0, e0, s, es, h1, e1, h2⟩ := h
        cases h2
        obtain ⟨-, f2, -⟩ := compute_fields e1
        obtain ⟨-, -, -, -, k5, k6⟩ := C49_full_equilibrium E.srt E.solve m g _ a.waterDensity a.grav (1 / 1000000)
          (bbox_z_le m) s es
        refine ⟨by rw [f2]; exact e1, by simp, ?_⟩
        rintro c' hc'
        cases hc'
        refine ⟨by rw [f2]; exact hg, k5, ?_, ?_⟩
        · intro d h'; rw [hd] at h'; cases h'
        · intro _ hn
          refine ⟨h0, e0, ?_⟩
          unfold Balanced
          simp only
          rw [f2]
          exact k6 hn
      | some d =>
        simp only [hd, bind_ok, liftClip_ok] at h
        obtain ⟨s, es, h1, e1, h2⟩ := h
        cases h2
        obtain ⟨-, f2, -⟩ := compute_fields e1
        obtain ⟨-, -, -, -, k5, k6⟩ := C49_full_equilibrium E.srt E.solve m g _ a.waterDensity a.grav (1 / 1000000)
          (bbox_z_le m) s es
        refine ⟨by rw [f2]; exact e1, by simp, ?_⟩
        rintro c' hc'
        cases hc'
        refine ⟨by rw [f2]; exact hg, k5, ?_, ?_⟩
        · intro d' h' hn
          rw [hd] at h'; cases h'
          unfold Balanced
          simp only
          rw [f2]
          exact k6 hn
        · intro h'; rw [hd] at h'; cases h'

lemma hydro_ok {E : Env} {a : Args} {o : MeshObj} {y : Option HydroOut × MeshObj} (ha : a.hydrostatics = true)
    (h : hydro E a o = .ok y) : ∃ r, y.1 = some r ∧ hydroTable E a o.mesh = .ok r ∧ y.2.mesh = workingMesh o.mesh r.rot r.z := by
  unfold hydro at h
  rw [if_pos ha] at h
  simp only [bind_ok] at h
  obtain ⟨r, hr, o1, e1, o2, e2, e3⟩ := h
  cases e3
  refine ⟨r, rfl, hr, ?_⟩
  simp only [MeshObj.step, Except.ok.injEq] at e1 e2
  subst e1
  subst e2
  rfl

/-- C63: a run with `--hydrostatics` reports the hydrostatics of the hull in the position that was found, leaves the mesh in
this position, and this position and the gravity centre are the documented ones. Missing from the full property: the
default `zcog = 0` (`C63_zcog_fails`). -/
theorem C63_modes_partial (E : Env) (infile : Str) (a : Args) (ha : a.hydrostatics = true) (out : Out)
    (h : main E infile a = .ok out) :
    ∃ m r, out.hydro = some r ∧ out.mesh = workingMesh m r.rot r.z ∧ r.data.mesh = m ∧
      compute E.srt m r.data.cog a.waterDensity a.grav r.rot r.z true = .ok r.data ∧
      (a.cog = none → Upright E a m r) ∧ (∀ c, a.cog = some c → Free E a m r c) ∧
      ¬ (a.cog = none ∧ a.zcog = none) := by
  obtain ⟨fmt, o1, o2, o3, planes, o4, o5, o6, o7, o8, o9, i, s, y, e1, e2, e3, e4, e5, e6, e7, e8, e9, e10, e11, e12, e13,
    e14, e15, e16, -, -, e19⟩ := main_ok h
  obtain ⟨r, h1, h2, h3⟩ := hydro_ok ha e14
  obtain ⟨k1, k2, k3⟩ := hydroTable_ok h2
  refine ⟨s.2.mesh, r, e19.trans h1, e16.trans h3, (compute_fields k1).1, k1, k2, k3, ?_⟩
  rintro ⟨hc, hz⟩
  have := (k2 hc).height
  rw [hz] at this
  cases this

/-- C63: a run without `--cog` and without `--zcog` is rejected. -/
theorem C63_rejected (E : Env) (infile : Str) (a : Args) (ha : a.hydrostatics = true) (hc : a.cog = none)
    (hz : a.zcog = none) : ¬ ∃ out, main E infile a = .ok out := by
  rintro ⟨out, h⟩
  obtain ⟨m, r, -, -, -, -, -, -, hn⟩ := C63_modes_partial E infile a ha out h
  exact hn ⟨hc, hz⟩

/-! ### A concrete environment -/

/-- The half immersed unit cube as read from a file (`heal_triangles` rolls the indices of quadrangles three times). -/
noncomputable def cubeFile : Mesh ℝ := ⟨halfCube.real.vertices, halfCube.faces.map Mesh.healStep⟩

/-- The half immersed unit cube in any file; `float` and `int` of a few strings. -/
noncomputable def cubeEnv : Env where
  isFile _ := true
  load _ _ := .ok cubeFile
  parseFloat s := if s = "0".toList then some 0 else if s = "0.5".toList then some (1 / 2) else
    if s = "2".toList then some 2 else if s = "4".toList then some 4 else none
  parseInt s := if s = "0".toList then some 0 else if s = "1".toList then some 1 else none
  lower := fun s => s
  srt := insArgsort
  ord := fun l => l
  solve := fun _ _ => .error .valueError

lemma cubeFile_heal : (MeshObj.new cubeFile).doHealTriangles = MeshObj.new halfCube.real := by
  have h : (((halfCube.faces.map Mesh.healStep).map Mesh.healStep).map Mesh.healStep).map Mesh.healStep = halfCube.faces := by
    decide +kernel
  have h2 : cubeFile.healTriangles = halfCube.real := by
    show (⟨halfCube.real.vertices, _⟩ : Mesh ℝ) = ⟨halfCube.real.vertices, halfCube.faces⟩
    rw [← h]; rfl
  show (⟨cubeFile.healTriangles, _⟩ : MeshObj) = ⟨halfCube.real, _⟩
  rw [h2]
  rfl

lemma cubeEnv_format : inputFormat cubeEnv "hull.obj".toList {} = .ok "obj".toList := by
  have h : (splitExt "hull.obj".toList).2.tail = "obj".toList := by decide +kernel
  simp only [inputFormat, extLower, h, cubeEnv]
  rfl

lemma cubeEnv_load : loadObj cubeEnv "hull.obj".toList "obj".toList = .ok (MeshObj.new halfCube.real) := by
  have h : (extensionOf "obj".toList).isSome = true := by decide +kernel
  obtain ⟨e, he⟩ := Option.isSome_iff_exists.1 h
  have h1 : loadMesh cubeEnv.isFile cubeEnv.load "hull.obj".toList "obj".toList = .ok cubeFile := by
    unfold loadMesh
    rw [he]
    rfl
  unfold loadObj
  rw [h1, ← cubeFile_heal]
  rfl

/-- The options that ask for hydrostatics, alone. -/
noncomputable def onlyHydro (a : Args) : Args where
  hydrostatics := true
  massDisplacement := a.massDisplacement
  cog := a.cog
  zcog := a.zcog
  lpp := a.lpp
  origAtAp := a.origAtAp
  waterDensity := a.waterDensity
  grav := a.grav

/-- The stages before the hydrostatics leave the mesh as it is when no option asks for more. -/
lemma cubeEnv_main (a : Args) (h : a = onlyHydro a) :
    main cubeEnv "hull.obj".toList a = (hydroTable cubeEnv a halfCube.real).map
      (fun r => ⟨workingMesh halfCube.real r.rot r.z, none, none, some r, none⟩) := by
  rw [h]
  generalize a = a'
  simp only [onlyHydro]
  have hf := cubeEnv_format
  have hf' : ∀ b : Args, b.inputFormat = none → inputFormat cubeEnv "hull.obj".toList b = .ok "obj".toList := by
    intro b hb; rw [← hf]; simp only [inputFormat, hb]
  unfold main prepare
  rw [hf' _ rfl]
  simp only [bind, Except.bind, cubeEnv_load, concatenate, mergeDup, definePlanes, mirror, symmetrize, heal, moves, finish,
    MeshObj.run, clipPlanes, plain, shell, Option.toList, List.map_nil, List.append_nil, Bool.false_eq_true, if_false,
    Bool.and_self, Bool.false_and, hydro, if_true, pure, Except.pure]
  rw [show (MeshObj.new halfCube.real).mesh = halfCube.real from rfl]
  cases hydroTable cubeEnv _ halfCube.real with
  | error e => rfl
  | ok r => rfl

/-- C63 fails: the documented default `zcog = 0` is not applied: on the half immersed cube the run with `--hydrostatics`
alone is rejected with `RuntimeError`, whereas it succeeds with `--zcog 0`. -/
theorem C63_zcog_fails :
    main cubeEnv "hull.obj".toList (parse [.hydrostatics]) = .error .runtimeError ∧
    ∃ out, main cubeEnv "hull.obj".toList (parse [.hydrostatics, .zcog 0]) = .ok out := by
  constructor
  · rw [cubeEnv_main _ rfl]; rfl
  · rw [cubeEnv_main _ rfl]
    obtain ⟨h0, e0⟩ := halfCube_compute 0 (parse [.hydrostatics, .zcog 0]).waterDensity (parse [.hydrostatics, .zcog 0]).grav
      false none false
    obtain ⟨h1, e1⟩ := halfCube_compute ⟨h0.buoyancyCenter.x, h0.buoyancyCenter.y, 0⟩
      (parse [.hydrostatics, .zcog 0]).waterDensity (parse [.hydrostatics, .zcog 0]).grav true none false
    have : hydroTable cubeEnv (parse [.hydrostatics, .zcog 0]) halfCube.real = .ok ⟨h1, 0, M3.one, false⟩ := by
      have hs : cubeEnv.srt = insArgsort := rfl
      unfold hydroTable
      have hg : givenCog cubeEnv (parse [.hydrostatics, .zcog 0]) = .ok none := rfl
      have hd : (parse [.hydrostatics, .zcog 0]).massDisplacement = none := rfl
      have hz : (parse [.hydrostatics, .zcog 0]).zcog = some 0 := rfl
      rw [hg, hs, hd, hz]
      simp only [bind, Except.bind]
      rw [e0]
      simp only [liftClip]
      rw [e1]
      rfl
    rw [this]
    exact ⟨_, rfl⟩

end Cli
end MM
