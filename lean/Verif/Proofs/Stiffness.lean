import Verif.Spec.Stiffness
import Verif.Proofs.WetDeriv
import Verif.Props.Archimedes

/-!
# Variation of the force and moment of the water with small motions of the hull
-/

namespace MM
namespace Hydro

open Clipper MeasureTheory

set_option linter.unusedSectionVars false
set_option linter.unusedSimpArgs false
set_option linter.unusedVariables false

lemma refInt_add {f g : V3 ℝ → ℝ} (hf : PlaneInt f) (hg : PlaneInt g) (hfg : PlaneInt (fun X => f X + g X)) (p q r : V3 ℝ) :
    refInt (fun X => f X + g X) p q r = refInt f p q r + refInt g p q r := by
  rw [refInt_set hfg, refInt_set hf, refInt_set hg, ← integral_add (refFun_integrable hf p q r) (refFun_integrable hg p q r)]
  congr 1
  funext w
  unfold refFun
  split_ifs <;> simp

/-- A rigid motion of the corners is a rigid motion of the triangle. -/
lemma refInt_rigid (f : V3 ℝ → ℝ) (R : M3 ℝ) (O : V3 ℝ) (t : ℝ) (p q r : V3 ℝ) :
    refInt f (rigid R O t p) (rigid R O t q) (rigid R O t r) = refInt (fun X => f (rigid R O t X)) p q r := by
  unfold refInt
  congr 1; funext u; congr 1; funext v; congr 1
  unfold rigid
  ext <;> simp [M3.mulVec, V3.dot] <;> ring

lemma areaVec_rigid {R : M3 ℝ} (hR : R.IsRotation) (O : V3 ℝ) (t : ℝ) (p q r : V3 ℝ) :
    areaVec (rigid R O t p) (rigid R O t q) (rigid R O t r) = R.mulVec (areaVec p q r) := by
  rw [← areaVec_rot hR]
  unfold rigid areaVec
  have : ∀ a b : V3 ℝ, O + R.mulVec (a - O) + ⟨0, 0, t⟩ - (O + R.mulVec (b - O) + ⟨0, 0, t⟩) = R.mulVec a - R.mulVec b := by
    intro a b
    ext <;> simp [M3.mulVec, V3.dot] <;> ring
  rw [this, this]

lemma surfaceSum_rigid {m : Mesh ℝ} (hwf : m.WF) (R : M3 ℝ) (O : V3 ℝ) (t : ℝ) (T : V3 ℝ → V3 ℝ → V3 ℝ → ℝ) :
    (m.mapVertices (rigid R O t)).surfaceSum T =
      m.surfaceSum (fun p q r => T (rigid R O t p) (rigid R O t q) (rigid R O t r)) := by
  unfold Mesh.surfaceSum
  rw [faces_mapVertices]
  congr 1
  apply List.map_congr_left
  intro f hf
  have h := hwf f hf
  unfold Mesh.faceSum
  rw [vert_mapVertices _ _ _ (h f.a (by simp [Face.toList])), vert_mapVertices _ _ _ (h f.b (by simp [Face.toList])),
    vert_mapVertices _ _ _ (h f.c (by simp [Face.toList])), vert_mapVertices _ _ _ (h f.d (by simp [Face.toList]))]

lemma surfaceSum_lin (m : Mesh ℝ) (a b c : ℝ) (S T U : V3 ℝ → V3 ℝ → V3 ℝ → ℝ) :
    m.surfaceSum (fun p q r => a * S p q r + b * T p q r + c * U p q r) =
      a * m.surfaceSum S + b * m.surfaceSum T + c * m.surfaceSum U := by
  rw [surfaceSum_add, surfaceSum_add, surfaceSum_smul, surfaceSum_smul, surfaceSum_smul]

lemma normalIntegral_rigid {m : Mesh ℝ} (hwf : m.WF) {R : M3 ℝ} (hR : R.IsRotation) (O : V3 ℝ) (t : ℝ) (f : V3 ℝ → ℝ) :
    (m.mapVertices (rigid R O t)).normalIntegral f = R.mulVec (m.normalIntegral (fun X => f (rigid R O t X))) := by
  unfold Mesh.normalIntegral
  simp only [surfaceSum_rigid hwf, refInt_rigid, areaVec_rigid hR]
  ext
  · simp only [M3.mulVec, V3.dot]
    rw [← surfaceSum_lin]; congr 1; funext p q r; ring
  · simp only [M3.mulVec, V3.dot]
    rw [← surfaceSum_lin]; congr 1; funext p q r; ring
  · simp only [M3.mulVec, V3.dot]
    rw [← surfaceSum_lin]; congr 1; funext p q r; ring

lemma _root_.MM.PlaneCont.mul_aff {F : V3 ℝ → ℝ} (hF : PlaneCont F) (l : ℝ × V3 ℝ) : PlaneCont (fun X => F X * aff l X) := by
  intro p q r
  refine (hF p q r).mul ?_
  simp only [aff, V3.dot, V3.add_x, V3.add_y, V3.add_z, V3.smul_x, V3.smul_y, V3.smul_z]
  fun_prop

lemma _root_.MM.PlaneCont.add {F G : V3 ℝ → ℝ} (hF : PlaneCont F) (hG : PlaneCont G) : PlaneCont (fun X => F X + G X) :=
  fun p q r => (hF p q r).add (hG p q r)

lemma _root_.MM.PlaneCont.const_mul {F : V3 ℝ → ℝ} (hF : PlaneCont F) (a : ℝ) : PlaneCont (fun X => a * F X) :=
  fun p q r => continuous_const.mul (hF p q r)

lemma normalIntegral_add (m : Mesh ℝ) {F G : V3 ℝ → ℝ} (hF : PlaneCont F) (hG : PlaneCont G) :
    m.normalIntegral (fun X => F X + G X) = m.normalIntegral F + m.normalIntegral G := by
  unfold Mesh.normalIntegral
  simp only [refInt_add hF.int hG.int (hF.add hG).int]
  ext
  · simp only [V3.add_x]; rw [← surfaceSum_add]; congr 1; funext p q r; ring
  · simp only [V3.add_y]; rw [← surfaceSum_add]; congr 1; funext p q r; ring
  · simp only [V3.add_z]; rw [← surfaceSum_add]; congr 1; funext p q r; ring

lemma normalIntegral_const_mul (m : Mesh ℝ) (a : ℝ) (F : V3 ℝ → ℝ) :
    m.normalIntegral (fun X => a * F X) = a • m.normalIntegral F := by
  unfold Mesh.normalIntegral
  simp only [refInt_const_mul]
  ext
  · simp only [V3.smul_x]; rw [← surfaceSum_smul]; congr 1; funext p q r; ring
  · simp only [V3.smul_y]; rw [← surfaceSum_smul]; congr 1; funext p q r; ring
  · simp only [V3.smul_z]; rw [← surfaceSum_smul]; congr 1; funext p q r; ring

lemma normalIntegral_lin (m : Mesh ℝ) {F G H I : V3 ℝ → ℝ} (hF : PlaneCont F) (hG : PlaneCont G) (hH : PlaneCont H)
    (hI : PlaneCont I) (a b c d : ℝ) :
    m.normalIntegral (fun X => a * F X + b * G X + c * H X + d * I X) =
      a • m.normalIntegral F + b • m.normalIntegral G + c • m.normalIntegral H + d • m.normalIntegral I := by
  rw [normalIntegral_add m (((hF.const_mul a).add (hG.const_mul b)).add (hH.const_mul c)) (hI.const_mul d),
    normalIntegral_add m ((hF.const_mul a).add (hG.const_mul b)) (hH.const_mul c),
    normalIntegral_add m (hF.const_mul a) (hG.const_mul b), normalIntegral_const_mul, normalIntegral_const_mul,
    normalIntegral_const_mul, normalIntegral_const_mul]

/-- Moment about `O` of a pressure. -/
noncomputable def momentAt (m : Mesh ℝ) (O : V3 ℝ) (P : V3 ℝ → ℝ) : V3 ℝ :=
  -⟨(m.normalIntegral (fun X => P X * (X.y - O.y))).z - (m.normalIntegral (fun X => P X * (X.z - O.z))).y,
    (m.normalIntegral (fun X => P X * (X.z - O.z))).x - (m.normalIntegral (fun X => P X * (X.x - O.x))).z,
    (m.normalIntegral (fun X => P X * (X.x - O.x))).y - (m.normalIntegral (fun X => P X * (X.y - O.y))).x⟩

lemma pressureForce_rigid {m : Mesh ℝ} (hwf : m.WF) {R : M3 ℝ} (hR : R.IsRotation) (O : V3 ℝ) (t : ℝ) (P : V3 ℝ → ℝ) :
    (m.mapVertices (rigid R O t)).pressureForce P = R.mulVec (m.pressureForce (fun X => P (rigid R O t X))) := by
  unfold Mesh.pressureForce
  rw [normalIntegral_rigid hwf hR]
  ext <;> simp [M3.mulVec, V3.dot] <;> ring

lemma pressureMoment_rigid {m : Mesh ℝ} (hwf : m.WF) {R : M3 ℝ} (hR : R.IsRotation) (O : V3 ℝ) (t : ℝ) (P : V3 ℝ → ℝ)
    (hP : PlaneCont (fun X => P (rigid R O t X))) :
    (m.mapVertices (rigid R O t)).pressureMoment P - O.cross ((m.mapVertices (rigid R O t)).pressureForce P) =
      R.mulVec (momentAt m O (fun X => P (rigid R O t X))) +
        (⟨0, 0, t⟩ : V3 ℝ).cross (R.mulVec (m.pressureForce (fun X => P (rigid R O t X)))) := by
  rw [pressureForce_rigid hwf hR]
  unfold Mesh.pressureMoment momentAt Mesh.pressureForce
  rw [normalIntegral_rigid hwf hR, normalIntegral_rigid hwf hR, normalIntegral_rigid hwf hR]
  set F : V3 ℝ → ℝ := fun X => P (rigid R O t X) with hF
  have cx : PlaneCont (fun X => F X * (X.x - O.x)) := by
    have := PlaneCont.mul_aff hP (-O.x, ⟨1, 0, 0⟩)
    have e : (fun X => F X * aff (-O.x, ⟨1, 0, 0⟩) X) = fun X => F X * (X.x - O.x) := by
      funext X; simp [aff, V3.dot]; left; ring
    rwa [e] at this
  have cy : PlaneCont (fun X => F X * (X.y - O.y)) := by
    have := PlaneCont.mul_aff hP (-O.y, ⟨0, 1, 0⟩)
    have e : (fun X => F X * aff (-O.y, ⟨0, 1, 0⟩) X) = fun X => F X * (X.y - O.y) := by
      funext X; simp [aff, V3.dot]; left; ring
    rwa [e] at this
  have cz : PlaneCont (fun X => F X * (X.z - O.z)) := by
    have := PlaneCont.mul_aff hP (-O.z, ⟨0, 0, 1⟩)
    have e : (fun X => F X * aff (-O.z, ⟨0, 0, 1⟩) X) = fun X => F X * (X.z - O.z) := by
      funext X; simp [aff, V3.dot]; left; ring
    rwa [e] at this
  have ex : (fun X => P (rigid R O t X) * (rigid R O t X).x) = fun X => O.x * F X + R.r0.x * (F X * (X.x - O.x)) +
      R.r0.y * (F X * (X.y - O.y)) + R.r0.z * (F X * (X.z - O.z)) := by
    funext X; simp only [hF]; rw [show (rigid R O t X).x = O.x + R.r0.dot (X - O) by simp [rigid, M3.mulVec]]
    simp only [V3.dot, V3.sub_x, V3.sub_y, V3.sub_z]; ring
  have ey : (fun X => P (rigid R O t X) * (rigid R O t X).y) = fun X => O.y * F X + R.r1.x * (F X * (X.x - O.x)) +
      R.r1.y * (F X * (X.y - O.y)) + R.r1.z * (F X * (X.z - O.z)) := by
    funext X; simp only [hF]; rw [show (rigid R O t X).y = O.y + R.r1.dot (X - O) by simp [rigid, M3.mulVec]]
    simp only [V3.dot, V3.sub_x, V3.sub_y, V3.sub_z]; ring
  have ez : (fun X => P (rigid R O t X) * (rigid R O t X).z) = fun X => (O.z + t) * F X + R.r2.x * (F X * (X.x - O.x)) +
      R.r2.y * (F X * (X.y - O.y)) + R.r2.z * (F X * (X.z - O.z)) := by
    funext X; simp only [hF]; rw [show (rigid R O t X).z = O.z + R.r2.dot (X - O) + t by simp [rigid, M3.mulVec]]
    simp only [V3.dot, V3.sub_x, V3.sub_y, V3.sub_z]; ring
  rw [ex, ey, ez, normalIntegral_lin m hP cx cy cz, normalIntegral_lin m hP cx cy cz, normalIntegral_lin m hP cx cy cz]
  generalize m.normalIntegral F = N0
  generalize m.normalIntegral (fun X => F X * (X.x - O.x)) = Nx
  generalize m.normalIntegral (fun X => F X * (X.y - O.y)) = Ny
  generalize m.normalIntegral (fun X => F X * (X.z - O.z)) = Nz
  have h1 := hR.cross_mulVec ⟨1, 0, 0⟩ Nx
  have h2 := hR.cross_mulVec ⟨0, 1, 0⟩ Ny
  have h3 := hR.cross_mulVec ⟨0, 0, 1⟩ Nz
  rw [V3.ext_iff] at h1 h2 h3
  simp only [M3.mulVec, V3.dot, V3.cross] at h1 h2 h3
  ext
  · simp only [M3.mulVec, V3.dot, V3.cross, V3.add_x, V3.add_y, V3.add_z, V3.sub_x, V3.sub_y, V3.sub_z, V3.smul_x, V3.smul_y,
      V3.smul_z, V3.neg_x, V3.neg_y, V3.neg_z]
    linear_combination -h1.1 - h2.1 - h3.1
  · simp only [M3.mulVec, V3.dot, V3.cross, V3.add_x, V3.add_y, V3.add_z, V3.sub_x, V3.sub_y, V3.sub_z, V3.smul_x, V3.smul_y,
      V3.smul_z, V3.neg_x, V3.neg_y, V3.neg_z]
    linear_combination -h1.2.1 - h2.2.1 - h3.2.1
  · simp only [M3.mulVec, V3.dot, V3.cross, V3.add_x, V3.add_y, V3.add_z, V3.sub_x, V3.sub_y, V3.sub_z, V3.smul_x, V3.smul_y,
      V3.smul_z, V3.neg_x, V3.neg_y, V3.neg_z]
    linear_combination -h1.2.2 - h2.2.2 - h3.2.2

/-- `Σ (n·k) ∫ min(ζ, 0) L`. -/
noncomputable def bodySum (m : Mesh ℝ) (ζ : V3 ℝ → ℝ) (k : V3 ℝ) (l : ℝ × V3 ℝ) : ℝ :=
  m.surfaceSum (fun p q r => (areaVec p q r).dot k * refInt (fun X => min (ζ X) 0 * aff l X) p q r)

/-- Force and moment of the pressure of the water at the height `ζ`. -/
lemma force_bodySum (m : Mesh ℝ) (ρ g : ℝ) (O : V3 ℝ) (R : M3 ℝ) (t : ℝ) (ζ : V3 ℝ → ℝ) (hζ : ∀ X, (rigid R O t X).z = ζ X) :
    m.pressureForce (fun X => hydrostaticPressure ρ g (rigid R O t X)) =
      (ρ * g) • ⟨bodySum m ζ ⟨1, 0, 0⟩ (1, 0), bodySum m ζ ⟨0, 1, 0⟩ (1, 0), bodySum m ζ ⟨0, 0, 1⟩ (1, 0)⟩ ∧
    momentAt m O (fun X => hydrostaticPressure ρ g (rigid R O t X)) =
      (ρ * g) • ⟨bodySum m ζ ⟨0, 0, 1⟩ (-O.y, ⟨0, 1, 0⟩) - bodySum m ζ ⟨0, 1, 0⟩ (-O.z, ⟨0, 0, 1⟩),
        bodySum m ζ ⟨1, 0, 0⟩ (-O.z, ⟨0, 0, 1⟩) - bodySum m ζ ⟨0, 0, 1⟩ (-O.x, ⟨1, 0, 0⟩),
        bodySum m ζ ⟨0, 1, 0⟩ (-O.x, ⟨1, 0, 0⟩) - bodySum m ζ ⟨1, 0, 0⟩ (-O.y, ⟨0, 1, 0⟩)⟩ := by
  have key : ∀ l : ℝ × V3 ℝ, m.normalIntegral (fun X => hydrostaticPressure ρ g (rigid R O t X) * aff l X) =
      (-(ρ * g)) • ⟨bodySum m ζ ⟨1, 0, 0⟩ l, bodySum m ζ ⟨0, 1, 0⟩ l, bodySum m ζ ⟨0, 0, 1⟩ l⟩ := by
    intro l
    have h : (fun X => hydrostaticPressure ρ g (rigid R O t X) * aff l X) =
        fun X => (-(ρ * g)) * (min (ζ X) 0 * aff l X) := by
      funext X; rw [hydrostaticPressure_eq, hζ, mul_assoc]
    rw [h, normalIntegral_const_mul]
    congr 1
    unfold Mesh.normalIntegral bodySum
    simp [V3.dot]
  have e0 : (fun X => hydrostaticPressure ρ g (rigid R O t X)) = fun X => hydrostaticPressure ρ g (rigid R O t X) *
      aff (1, 0) X := by funext X; simp [aff, V3.dot]
  have e1 : (fun X => hydrostaticPressure ρ g (rigid R O t X) * (X.x - O.x)) =
      fun X => hydrostaticPressure ρ g (rigid R O t X) * aff (-O.x, ⟨1, 0, 0⟩) X := by
    funext X; simp [aff, V3.dot]; left; ring
  have e2 : (fun X => hydrostaticPressure ρ g (rigid R O t X) * (X.y - O.y)) =
      fun X => hydrostaticPressure ρ g (rigid R O t X) * aff (-O.y, ⟨0, 1, 0⟩) X := by
    funext X; simp [aff, V3.dot]; left; ring
  have e3 : (fun X => hydrostaticPressure ρ g (rigid R O t X) * (X.z - O.z)) =
      fun X => hydrostaticPressure ρ g (rigid R O t X) * aff (-O.z, ⟨0, 0, 1⟩) X := by
    funext X; simp [aff, V3.dot]; left; ring
  constructor
  · unfold Mesh.pressureForce
    rw [e0, key]
    ext <;> simp
  · unfold momentAt
    rw [e1, e2, e3, key, key, key]
    ext <;> simp <;> ring

end Hydro
end MM
