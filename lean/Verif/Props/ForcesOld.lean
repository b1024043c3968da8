import Verif.Model.ForcesOld
import Verif.Props.EquilibrateOld

/-!
# Balance of the forces on the body (C111)
-/

namespace MM
namespace Old

/-- The resultant of forces. -/
noncomputable def total (fs : List Force) : V3 ℝ := (fs.map (·.value)).sum

/-- Their moment about the origin. -/
noncomputable def moment (fs : List Force) : V3 ℝ := (fs.map fun f => f.point.cross f.value).sum

/-- The forces on the body: its weight, the buoyancy, and those which were added. -/
def State.forces (st : State) (h : Hydro.HsData) : List Force :=
  st.gravityForce :: st.buoyancyForce h :: st.refs.map st.heap

lemma hs_sum (fs : List Force) : (fs.map Force.hsForce).sum = ⟨(total fs).z, (moment fs).x, (moment fs).y⟩ := by
  induction fs with
  | nil => rfl
  | cons f fs ih =>
    simp only [List.map_cons, List.sum_cons, ih, total, moment]
    rfl

/-- **C111**: the residual is the vertical force and the moments about the horizontal axes of the weight, the buoyancy and the forces
added. -/
theorem C111_balance (st : State) (h : Hydro.HsData) :
    st.residual h = ⟨(total (st.forces h)).z, (moment (st.forces h)).x, (moment (st.forces h)).y⟩ := by
  rw [← hs_sum]
  unfold State.forces State.residual
  rw [List.map_cons, List.map_cons, List.sum_cons, List.sum_cons, List.map_map, ← add_assoc]
  refine congrArg₂ (· + ·) ?_ rfl
  simp only [Force.hsForce, State.gravityForce, State.buoyancyForce, V3.cross]
  ext <;> simp only [V3.add_x, V3.add_y, V3.add_z] <;> ring

/-- **C111**, meaning of a null residual: with no force added, the displaced mass is the mass and the buoyancy centre is on the
vertical of the gravity centre. -/
theorem C111_null_residual (st : State) (h : Hydro.HsData) (hf : st.refs = []) (hm : st.mass ≠ 0) (hg : st.grav ≠ 0) :
    st.residual h = 0 ↔
      st.rho * h.dispVolume = st.mass ∧ h.buoyancyCenter.x = st.gc.x ∧ h.buoyancyCenter.y = st.gc.y := by
  unfold State.residual
  rw [hf, List.map_nil, List.sum_nil, add_zero]
  have z : (0 : V3 ℝ) = ⟨0, 0, 0⟩ := rfl
  rw [z, V3.mk.injEq]
  constructor
  · rintro ⟨h1, h2, h3⟩
    have e : st.rho * h.dispVolume = st.mass := by
      have : st.grav * (st.rho * h.dispVolume - st.mass) = 0 := by linear_combination h1
      rcases mul_eq_zero.1 this with h' | h'
      · exact absurd h' hg
      · linarith
    have hmg : st.mass * st.grav ≠ 0 := mul_ne_zero hm hg
    refine ⟨e, ?_, ?_⟩
    · have : st.mass * st.grav * (h.buoyancyCenter.x - st.gc.x) = 0 := by
        rw [← e] at h3 ⊢; linear_combination -h3
      rcases mul_eq_zero.1 this with h' | h'
      · exact absurd h' hmg
      · linarith
    · have : st.mass * st.grav * (h.buoyancyCenter.y - st.gc.y) = 0 := by
        rw [← e] at h2 ⊢; linear_combination h2
      rcases mul_eq_zero.1 this with h' | h'
      · exact absurd h' hmg
      · linarith
  · rintro ⟨h1, h2, h3⟩
    rw [h2, h3, ← h1]
    refine ⟨by ring, by ring, by ring⟩

/-- The half immersed cube with its gravity centre on the vertical of its middle is a case of both sides. -/
theorem halfCube_meets_C111 (heap : ℕ → Force) : ∃ (a : State) (d : Hydro.HsData),
    init insArgsort heap halfCube.real ⟨1 / 2, 1 / 2, 0⟩ none 1000 9 = .ok a ∧ a.data = some d ∧ a.refs = [] ∧ a.mass ≠ 0 ∧
    a.grav ≠ 0 ∧ a.residual d = 0 ∧ a.rho * d.dispVolume = a.mass := by
  obtain ⟨c, hc, hup, hm, hw, hp⟩ := halfCube_update
  obtain ⟨d1, d2, d3, d4, d5, d6⟩ := halfCube_data hm hw ⟨1 / 2, 1 / 2, 0⟩
  set D := Hydro.ofClipped halfCube.real ⟨1 / 2, 1 / 2, 0⟩ 1000 9 M3.one 0 false none false c with hD
  have hinit : ∃ a, init insArgsort heap halfCube.real ⟨1 / 2, 1 / 2, 0⟩ none 1000 9 = .ok a ∧ a.data = some D ∧
      a.gc = ⟨1 / 2, 1 / 2, 0⟩ ∧ a.rho = 1000 ∧ a.grav = 9 ∧ a.mass = 500 ∧ a.refs = [] := by
    unfold init
    dsimp only
    rw [hup _ rfl rfl]
    refine ⟨_, rfl, rfl, rfl, rfl, rfl, ?_, rfl⟩
    show D.dispMass = 500
    exact d2
  obtain ⟨a, ha, e1, e2, e3, e4, e5, e6⟩ := hinit
  have hv : a.rho * D.dispVolume = a.mass := by rw [e3, d1, e5]; norm_num
  refine ⟨a, D, ha, e1, e6, by rw [e5]; norm_num, by rw [e4]; norm_num, ?_, hv⟩
  rw [C111_null_residual a D e6 (by rw [e5]; norm_num) (by rw [e4]; norm_num)]
  exact ⟨hv, by rw [d3, e2], by rw [d3, e2]⟩

/-- The force obtained shares its application point with the body: moving the force lifts the gravity centre of the body, and the
hydrostatic data are not computed again. -/
theorem C111_force_shares_point (st : State) (dz : ℝ) (rot : M3 ℝ) (hz : dz ≠ 0) :
    (st.updateGravityForce dz rot).1.gc ≠ st.gc ∧ (st.updateGravityForce dz rot).1.data = st.data := by
  refine ⟨?_, rfl⟩
  intro h
  have : st.gc.z + dz = st.gc.z := congrArg V3.z h
  exact hz (by linarith)

/-- Likewise in the horizontal directions: moving the force by `(dx, dy)` moves the gravity centre of the body by the same vector, so
that the body is still under the force, while its hydrostatic data are those of before. -/
theorem C111_force_shares_point_xy (st : State) (dx dy : ℝ) :
    (st.updateXYGravityForce dx dy).1.gc = st.gc + ⟨dx, dy, 0⟩ ∧
      (st.updateXYGravityForce dx dy).2.point = (st.updateXYGravityForce dx dy).1.gc ∧
      (st.updateXYGravityForce dx dy).1.data = st.data := by
  refine ⟨?_, rfl, rfl⟩
  ext <;> simp [State.updateXYGravityForce, State.gcInPlace]

end Old
end MM
