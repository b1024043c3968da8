import Verif.Model.HydrostaticsOld

/-!
# Model of `hydrostatics_old.py`: the forces on the body
-/

namespace MM
namespace Old

/-- `get_gravity_force()` (hydrostatics_old.py:727-734). Its application point is the array of the gravity centre itself
(`np.asarray`, hydrostatics_old.py:48), see `State.updateGravityForce`. -/
def State.gravityForce (st : State) : Force := { point := st.gc, value := ⟨0, 0, -st.mass * st.grav⟩, relative := false }

/-- `get_buoyancy_force()` (hydrostatics_old.py:736-744). -/
def State.buoyancyForce (st : State) (h : Hydro.HsData) : Force :=
  { point := h.buoyancyCenter, value := ⟨0, 0, st.rho * st.grav * h.dispVolume⟩, relative := false }

/-- `f = hs.get_gravity_force(); f.update(dz, rot)`: `self.point[2] += dz` writes into the array of the gravity centre, then
`self.point = np.dot(...)` leaves it (hydrostatics_old.py:58-72). -/
def State.updateGravityForce (st : State) (dz : ℝ) (rot : M3 ℝ) : State × Force :=
  (st.gcInPlace ⟨st.gc.x, st.gc.y, st.gc.z + dz⟩, st.gravityForce.update dz rot)

/-- `f = hs.get_gravity_force(); f.update_xy(dx, dy)`: both lines write into the array (hydrostatics_old.py:74-87). -/
def State.updateXYGravityForce (st : State) (dx dy : ℝ) : State × Force :=
  (st.gcInPlace ⟨st.gc.x + dx, st.gc.y + dy, st.gc.z⟩, st.gravityForce.updateXY dx dy)

end Old
end MM
