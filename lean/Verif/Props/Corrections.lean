import Verif.Model.ReportCorr
import Verif.Props.Rotations
import Verif.Props.Equilibrium
import Verif.Props.ClipMotion

/-!
# The corrections printed in the hydrostatic report (C90)
-/

namespace MM.Hydro

open MM Real

/-- The position described by the notes of the report: rotations around the X axis, then the Y axis, of the initial frame,
then translation along the Z axis of the initial frame. -/
noncomputable def notedPosition (m : Mesh ℝ) (z heel trim : ℝ) : Mesh ℝ :=
  ((m.rotateX (heel * π / 180)).rotateY (trim * π / 180)).translateZ z

lemma degrees_back (x : ℝ) : degrees x * π / 180 = x := by
  unfold degrees; have := Real.pi_ne_zero; field_simp

lemma cardan_split (phi theta psi : ℝ) : cardanToRotmat phi theta psi =
    ((cardanToRotmat 0 0 psi).mul (cardanToRotmat 0 theta 0)).mul (cardanToRotmat phi 0 0) := by
  simp only [cardanToRotmat, M3.mul, M3.c0, M3.c1, M3.c2, V3.dot, cos_zero, sin_zero, M3.mk.injEq, V3.mk.injEq]
  refine ⟨⟨?_, ?_, ?_⟩, ⟨?_, ?_, ?_⟩, ?_, ?_, ?_⟩ <;> ring

lemma rotateMatrix_comp (m : Mesh ℝ) (r s : M3 ℝ) : (m.rotateMatrix s).rotateMatrix r = m.rotateMatrix (r.mul s) := by
  unfold Mesh.rotateMatrix Mesh.mapVertices
  simp only [List.map_map]
  congr 1
  refine List.map_congr_left fun v _ => ?_
  simp only [Function.comp, M3.mul_mulVec]

lemma rotateZ_translateZ (m : Mesh ℝ) (z psi : ℝ) : (m.translateZ z).rotateZ psi = (m.rotateZ psi).translateZ z := by
  unfold Mesh.rotateZ Mesh.rotate Mesh.rotateMatrix Mesh.translateZ Mesh.mapVertices
  simp only [List.map_map]
  congr 1
  refine List.map_congr_left fun v _ => ?_
  simp only [Function.comp, cardanToRotmat, M3.mulVec, V3.dot, cos_zero, sin_zero]
  ext <;> simp

lemma heights_rotateZ (m : Mesh ℝ) (psi : ℝ) : (m.rotateZ psi).vertices.map (·.z) = m.vertices.map (·.z) := by
  unfold Mesh.rotateZ Mesh.rotate Mesh.rotateMatrix Mesh.mapVertices
  simp only [List.map_map]
  refine List.map_congr_left fun v _ => ?_
  simp only [Function.comp, cardanToRotmat, M3.mulVec, V3.dot, cos_zero, sin_zero]
  simp

lemma noted_eq (m : Mesh ℝ) {rot : M3 ℝ} (hr : rot.IsRotation) (z : ℝ) :
    workingMesh m rot z =
      (notedPosition m z (degrees (rotmatToCardan rot).1) (degrees (rotmatToCardan rot).2.1)).rotateZ (rotmatToCardan rot).2.2 := by
  have h := C35_cardan_round_trip.1 rot hr
  unfold notedPosition
  rw [degrees_back, degrees_back, rotateZ_translateZ]
  unfold workingMesh Mesh.rotateX Mesh.rotateY Mesh.rotateZ Mesh.rotate
  rw [rotateMatrix_comp, rotateMatrix_comp, ← cardan_split, h]

/-- **C90**, what holds: the position for which the hydrostatics are given is the one described by the notes of the report,
up to a rotation about the vertical axis; in particular every vertex has the same height. They are the same position when the
rotation is a heel followed by a trim. -/
theorem C90_corrections_partial (srt : (ℕ → ℝ) → List ℕ → List ℕ) (m : Mesh ℝ) (cog : V3 ℝ) (rho grav : ℝ) (rot : M3 ℝ) (z : ℝ)
    (atCog : Bool) (lpp : Option ℝ) (ap : Bool) (h : HsData) (hr : rot.IsRotation)
    (hc : compute srt m cog rho grav rot z atCog lpp ap = .ok h) :
    ∀ zc heel trim, reportCorrections h = (zc, heel, trim) →
      (∃ psi, workingMesh m rot z = (notedPosition m zc heel trim).rotateZ psi) ∧
      (workingMesh m rot z).vertices.map (·.z) = (notedPosition m zc heel trim).vertices.map (·.z) ∧
      ((∃ phi theta, -π < phi ∧ phi ≤ π ∧ -(π / 2) < theta ∧ theta < π / 2 ∧ rot = cardanToRotmat phi theta 0) →
        workingMesh m rot z = notedPosition m zc heel trim) := by
  intro zc heel trim he
  have h1 : h.rotmatEq = rot ∧ h.zEq = z := by
    unfold compute at hc
    split at hc
    · cases hc
    · split at hc
      · cases hc
      · injection hc with hc; rw [← hc]; exact ⟨rfl, rfl⟩
  unfold reportCorrections at he
  simp only [h1.1, h1.2, Prod.mk.injEq] at he
  obtain ⟨rfl, rfl, rfl⟩ := he
  have key := noted_eq m hr z
  refine ⟨⟨_, key⟩, ?_, ?_⟩
  · conv_lhs => rw [key]
    rw [heights_rotateZ]
  · rintro ⟨phi, theta, a1, a2, a3, a4, rfl⟩
    have := C35_cardan_round_trip.2 phi theta 0 a1 a2 a3 a4 (by linarith [Real.pi_pos]) Real.pi_pos.le
    unfold notedPosition workingMesh Mesh.rotateX Mesh.rotateY Mesh.rotate
    rw [this, degrees_back, degrees_back, rotateMatrix_comp]
    congr 2
    simp only [cardanToRotmat, M3.mul, M3.c0, M3.c1, M3.c2, V3.dot, cos_zero, sin_zero, M3.mk.injEq, V3.mk.injEq]
    refine ⟨⟨?_, ?_, ?_⟩, ⟨?_, ?_, ?_⟩, ?_, ?_, ?_⟩ <;> ring

/-- **C90** is false of the code as soon as the solver has turned the hull twice: a small trim, then a small heel, is not a heel
followed by a trim, and the report leaves out the third angle. -/
theorem C90_fails (a b : ℝ) (ha : 0 < a) (ha' : a ≤ 2 * π / 180) (hb : 0 < b) (hb' : b ≤ 2 * π / 180) :
    let rot := (cardanToRotmat a 0 0).mul ((cardanToRotmat 0 b 0).mul M3.one)
    rot.IsRotation ∧ ∀ m : Mesh ℝ, ⟨1, 0, 0⟩ ∈ m.vertices →
      workingMesh m rot 0 ≠ notedPosition m 0 (degrees (rotmatToCardan rot).1) (degrees (rotmatToCardan rot).2.1) := by
  intro rot
  have hr : rot.IsRotation := M3.IsRotation.mul (cardan_isRotation _ _ _) (M3.IsRotation.mul (cardan_isRotation _ _ _)
    (by constructor <;> simp [M3.transpose, M3.mul, M3.one, M3.c0, M3.c1, M3.c2, V3.dot, M3.det, V3.cross]))
  refine ⟨hr, ?_⟩
  intro m hm he
  have hp := Real.pi_pos
  have hsa : 0 < sin a := sin_pos_of_pos_of_lt_pi ha (by linarith)
  have hsb : 0 < sin b := sin_pos_of_pos_of_lt_pi hb (by linarith)
  unfold notedPosition workingMesh Mesh.rotateX Mesh.rotateY Mesh.rotate Mesh.rotateMatrix Mesh.translateZ Mesh.mapVertices at he
  simp only [List.map_map, Mesh.mk.injEq, and_true] at he
  have h1 := List.map_inj_left.1 he _ hm
  simp only [Function.comp, degrees_back, V3.mk.injEq] at h1
  have h2 := h1.2.1
  simp only [rot, cardanToRotmat, M3.mul, M3.one, M3.c0, M3.c1, M3.c2, M3.mulVec, V3.dot, cos_zero, sin_zero] at h2
  ring_nf at h2
  nlinarith [mul_pos hsa hsb]

/-- The hypotheses are met, for any rotation, by a cube which this rotation brings half way into the water. -/
example (rot : M3 ℝ) (hr : rot.IsRotation) (cog : V3 ℝ) (rho grav : ℝ) : ∃ h,
    compute insArgsort (halfCube.real.rotateMatrix rot.transpose) cog rho grav rot 0 = .ok h := by
  obtain ⟨h, hh⟩ := halfCube_compute cog rho grav false none false
  have e : workingMesh (halfCube.real.rotateMatrix rot.transpose) rot 0 = workingMesh halfCube.real M3.one 0 := by
    unfold workingMesh
    rw [rotateMatrix_comp, hr.orth']
  unfold compute at hh ⊢
  rw [e]
  split at hh
  · cases hh
  · split at hh
    · cases hh
    · rename_i c _ hc
      rw [if_neg hc]
      exact ⟨_, rfl⟩

end MM.Hydro
