import Verif.Props.Hydrostatics
import Verif.Props.Plane
import Verif.Spec.Witness

/-!
# The equilibrium solvers (C48, C49)
-/

namespace MM
namespace Hydro

set_option linter.unusedSectionVars false
set_option linter.unusedSimpArgs false

/-! ## The loop on the vertical position, for any hull response -/

section
variable {K : Type*} [Field K] [LinearOrder K] [IsStrictOrderedRing K]

lemma relaxed_le {relax : K} (h : 0 ≤ relax) (x : K) : |relaxed relax x| ≤ relax := by
  unfold relaxed
  split
  · split
    · rw [abs_abs, abs_of_nonneg h]
    · rw [abs_neg, abs_abs, abs_of_nonneg h]
  · linarith

lemma relaxed_of_le {relax x : K} (h : |x| ≤ relax) : relaxed relax x = x := by
  unfold relaxed; rw [if_neg (not_lt.2 h)]

/-- The successive positions: those where the hydrostatics were computed, and the last one when it was not. -/
def Solved.path {α : Type*} (r : Solved α) : List α := if r.noConvergence then r.evals ++ [r.value] else r.evals

/-- Everything the loop guarantees, for any response of the hull. -/
lemma dispLoop_ok {resp : K → Except ClipErr (K × K)} {rho kg reltol relax : K} (hrel : 0 ≤ relax) :
    ∀ (fuel : ℕ) (z : K) (r : Solved K), dispLoop resp rho kg reltol relax fuel z = .ok r →
      r.evals.length ≤ fuel ∧ r.path.head? = some z ∧ r.path.getLast? = some r.value ∧
      r.path.IsChain (fun a b => |b - a| ≤ relax) ∧
      (r.noConvergence = false → ∃ vol area, resp r.value = .ok (vol, area) ∧ |(rho * vol - kg) / kg| < reltol) ∧
      (r.noConvergence = true → r.evals.length = fuel ∧
        ∀ z ∈ r.evals, ∃ vol area, resp z = .ok (vol, area) ∧ reltol ≤ |(rho * vol - kg) / kg|) := by
  intro fuel
  induction fuel with
  | zero =>
    intro z r h
    simp only [dispLoop, Except.ok.injEq] at h
    subst h
    simp [Solved.path]
  | succ n ih =>
    intro z r h
    unfold dispLoop at h
    split at h
    · split at h <;> simp at h
    · rename_i vol area hv
      dsimp only at h
      split at h
      · rename_i hcv
        simp only [Except.ok.injEq] at h
        subst h
        simp only [Solved.path, List.length_singleton]
        exact ⟨by omega, by simp, by simp, by simp, fun _ => ⟨vol, area, hv, hcv⟩, by simp⟩
      · rename_i hcv
        split at h
        · simp at h
        · rename_i s hs
          simp only [Except.ok.injEq] at h
          subst h
          obtain ⟨h1, h2, h3, h4, h5, h6⟩ := ih _ _ hs
          have hp : (Solved.path { s with evals := z :: s.evals }) = z :: s.path := by
            simp only [Solved.path]; split <;> simp
          rw [hp]
          refine ⟨by simpa using h1, by simp, ?_, ?_, h5, ?_⟩
          · obtain ⟨a, l, hl⟩ : ∃ a l, s.path = a :: l := by
              cases hl : s.path with
              | nil => rw [hl] at h2; simp at h2
              | cons a l => exact ⟨a, l, rfl⟩
            rw [hl] at h3 ⊢
            simpa using h3
          · rw [List.isChain_cons]
            refine ⟨?_, h4⟩
            intro y hy
            rw [h2] at hy
            simp only [Option.mem_def, Option.some.injEq] at hy
            subst hy
            rw [add_sub_cancel_left]
            exact relaxed_le hrel _
          · intro hn
            obtain ⟨a, b⟩ := h6 hn
            refine ⟨by simpa using a, ?_⟩
            intro y hy
            rcases List.mem_cons.1 hy with rfl | hy
            · exact ⟨vol, area, hv, not_lt.1 hcv⟩
            · exact b y hy

/-- Wall-sided response: on the positions between `z` and the equilibrium `ze` the displaced volume is `A (d - z)`. -/
lemma dispLoop_wall {resp : K → Except ClipErr (K × K)} {rho A d T reltol relax : K} (hrho : 0 < rho) (hA : 0 < A)
    (hT : 0 < T) (htol : 0 < reltol) (hrel : 0 < relax) :
    ∀ (fuel : ℕ) (z : K), |d - T - z| ≤ (fuel : K) * relax →
      (∀ x, min z (d - T) ≤ x → x ≤ max z (d - T) → resp x = .ok (A * (d - x), A)) →
      ∃ r, dispLoop resp rho (rho * A * T) reltol relax (fuel + 1) z = .ok r ∧ r.noConvergence = false := by
  intro fuel
  induction fuel with
  | zero =>
    intro z hz hr
    have hz0 : d - T - z = 0 := by
      have := abs_nonneg (d - T - z)
      simp only [Nat.cast_zero, zero_mul] at hz
      exact abs_eq_zero.1 (le_antisymm hz this)
    have hzz : z = d - T := by linarith
    unfold dispLoop
    rw [hr z (min_le_left _ _) (le_max_left _ _)]
    have : rho * (A * (d - z)) - rho * A * T = 0 := by rw [hzz]; ring
    dsimp only
    rw [this]
    simp only [zero_div, abs_zero, if_pos htol]
    exact ⟨_, rfl, rfl⟩
  | succ n ih =>
    intro z hz hr
    unfold dispLoop
    rw [hr z (min_le_left _ _) (le_max_left _ _)]
    dsimp only
    have hdz : (rho * (A * (d - z)) - rho * A * T) / (rho * A) = d - T - z := by
      field_simp; ring
    rw [hdz]
    split
    · exact ⟨_, rfl, rfl⟩
    · have hnext : |d - T - (z + relaxed relax (d - T - z))| ≤ (n : K) * relax ∧
          min z (d - T) ≤ z + relaxed relax (d - T - z) ∧ z + relaxed relax (d - T - z) ≤ max z (d - T) := by
        push_cast at hz
        have hn : (0 : K) ≤ (n : K) * relax := by positivity
        unfold relaxed
        rcases le_or_gt 0 (d - T - z) with hs | hs
        · rw [abs_of_nonneg hs] at hz ⊢
          rw [min_eq_left (by linarith), max_eq_right (by linarith)]
          by_cases hb : d - T - z > relax
          · rw [if_pos hb, if_pos hs, abs_of_pos hrel]
            rw [abs_of_nonneg (by linarith)]
            refine ⟨by linarith, by linarith, by linarith⟩
          · rw [if_neg hb, show d - T - (z + (d - T - z)) = 0 by ring, abs_zero]
            exact ⟨hn, by linarith, by linarith⟩
        · rw [abs_of_neg hs] at hz ⊢
          rw [min_eq_right (by linarith), max_eq_left (by linarith)]
          by_cases hb : -(d - T - z) > relax
          · rw [if_pos hb, if_neg (not_le.2 hs), abs_of_pos hrel]
            rw [abs_of_nonpos (by linarith)]
            refine ⟨by linarith, by linarith, by linarith⟩
          · rw [if_neg hb, show d - T - (z + (d - T - z)) = 0 by ring, abs_zero]
            exact ⟨hn, by linarith, by linarith⟩
      obtain ⟨hn1, hn2, hn3⟩ := hnext
      obtain ⟨r, hr1, hr2⟩ := ih (z + relaxed relax (d - T - z)) hn1 (by
        intro x hx1 hx2
        apply hr x
        · rcases min_choice (z + relaxed relax (d - T - z)) (d - T) with h | h
          · rw [h] at hx1; linarith
          · rw [h] at hx1; exact le_trans (min_le_right _ _) hx1
        · rcases max_choice (z + relaxed relax (d - T - z)) (d - T) with h | h
          · rw [h] at hx2; linarith
          · rw [h] at hx2; exact le_trans hx2 (le_max_right _ _))
      rw [hr1]
      exact ⟨_, rfl, hr2⟩

end

/-! ## C48 -/

/-- **C48 (what holds).** `displacement_equilibrium` computes the hydrostatics at most 99 times, at positions that start
from 0 and differ by at most a fifth of the height of the hull. When it returns without the message "No convergence", the
hydrostatics at the correction returned have the requested displacement within `reltol`. Missing: the message is printed
and an unconverged correction returned otherwise (`C48_no_convergence`), and the hull leaving the free surface raises
`IndexError` (`C48_fails`). -/
theorem C48_displacement_partial (srt : (ℕ → ℝ) → List ℕ → List ℕ) (m : Mesh ℝ) (tons rho grav : ℝ) (cog : V3 ℝ)
    (reltol : ℝ) (hbox : m.bbox.zmin ≤ m.bbox.zmax) (htons : 0 < tons) (r : Solved ℝ)
    (h : displacementEquilibrium srt m tons rho grav cog reltol = .ok r) :
    r.evals.length ≤ 99 ∧ r.path.head? = some 0 ∧ r.path.getLast? = some r.value ∧
    r.path.IsChain (fun a b => |b - a| ≤ (m.bbox.zmax - m.bbox.zmin) / 5) ∧
    (r.noConvergence = false → ∃ hs, compute srt m cog rho grav (z := r.value) = .ok hs ∧
      |hs.dispMass - tons * 1000| < reltol * (tons * 1000)) := by
  obtain ⟨h1, h2, h3, h4, h5, h6⟩ := dispLoop_ok (by linarith) _ _ _ h
  refine ⟨h1, h2, h3, h4, ?_⟩
  intro hn
  obtain ⟨vol, area, hr, hc⟩ := h5 hn
  cases hcomp : compute srt m cog rho grav (z := r.value) with
  | error e => rw [hcomp] at hr; simp [Except.map] at hr
  | ok hs =>
    rw [hcomp] at hr
    simp only [Except.map, Except.ok.injEq, Prod.mk.injEq] at hr
    refine ⟨hs, rfl, ?_⟩
    obtain ⟨c, _, _, rfl⟩ := compute_ok hcomp
    rw [abs_div, abs_of_pos (by linarith : (0 : ℝ) < tons * 1000), div_lt_iff₀ (by linarith)] at hc
    rw [← hr.1] at hc
    exact hc

lemma clip_all {srt : (ℕ → ℝ) → List ℕ → List ℕ} {m : Mesh ℝ} {b : Bool} {e : ClipErr}
    (h : (e = .below ∧ m.vertices ≠ [] ∧ ∀ v ∈ m.vertices, v.z < -(1 / 1000)) ∨
      (e = .above ∧ ∀ v ∈ m.vertices, 1 / 1000 < v.z)) :
    Clipper.clip srt ⟨⟨0, 0, 1⟩, 0⟩ (1 / 1000) b m = .error e := by
  have hd : ∀ v : V3 ℝ, (⟨⟨0, 0, 1⟩, 0⟩ : Plane ℝ).dist v = v.z := by intro v; simp [Plane.dist, V3.dot]
  have : Clipper.vertexDists ⟨⟨0, 0, 1⟩, 0⟩ (1 / 1000) m = .error e := by
    unfold Clipper.vertexDists
    dsimp only
    rcases h with ⟨rfl, hne, hb⟩ | ⟨rfl, ha⟩
    · rw [if_neg, if_pos]
      · simp only [List.all_eq_true, List.mem_map, Clipper.isBelow, decide_eq_true_eq]
        rintro _ ⟨v, hv, rfl⟩
        rw [hd]; exact hb v hv
      · simp only [List.all_eq_true, List.mem_map, Clipper.isAbove, decide_eq_true_eq]
        intro hh
        obtain ⟨v, hv⟩ := List.exists_mem_of_ne_nil _ hne
        have := hh _ ⟨v, hv, rfl⟩
        rw [hd] at this
        have := hb v hv
        norm_num at *
        linarith
    · rw [if_pos]
      simp only [List.all_eq_true, List.mem_map, Clipper.isAbove, decide_eq_true_eq]
      rintro _ ⟨v, hv, rfl⟩
      rw [hd]; exact ha v hv
  unfold Clipper.clip
  rw [this]

lemma workingMesh_vertices (m : Mesh ℝ) (z : ℝ) : (workingMesh m M3.one z).vertices =
    m.vertices.map (fun v => ⟨v.x, v.y, v.z + z⟩) := by
  simp only [workingMesh, Mesh.rotateMatrix, Mesh.translateZ, Mesh.mapVertices, List.map_map]
  refine List.map_congr_left (fun v _ => ?_)
  simp [Function.comp, M3.one, M3.mulVec, V3.dot]

/-- **C48 (violation).** For every hull that is initially entirely below or entirely above the free surface,
`displacement_equilibrium` raises `IndexError`: the correction is not brought back. -/
theorem C48_fails (srt : (ℕ → ℝ) → List ℕ → List ℕ) (m : Mesh ℝ) (tons rho grav : ℝ) (cog : V3 ℝ) (reltol : ℝ)
    (hne : m.vertices ≠ [])
    (h : (∀ v ∈ m.vertices, v.z < -(1 / 1000)) ∨ ∀ v ∈ m.vertices, 1 / 1000 < v.z) :
    displacementEquilibrium srt m tons rho grav cog reltol = .error (.py .indexError) := by
  have hz : ∃ e, isRuntimeError e = true ∧ compute srt m cog rho grav (z := 0) = .error e := by
    rcases h with h | h
    · refine ⟨.below, rfl, ?_⟩
      unfold compute
      rw [clip_all (e := .below) (.inl ⟨rfl, ?_, ?_⟩)]
      · rw [workingMesh_vertices]; simpa using hne
      · rw [workingMesh_vertices]
        intro v hv
        obtain ⟨w, hw, rfl⟩ := List.mem_map.1 hv
        simpa using h w hw
    · refine ⟨.above, rfl, ?_⟩
      unfold compute
      rw [clip_all (e := .above) (.inr ⟨rfl, ?_⟩)]
      rw [workingMesh_vertices]
      intro v hv
      obtain ⟨w, hw, rfl⟩ := List.mem_map.1 hv
      simpa using h w hw
  obtain ⟨e, he, hc⟩ := hz
  unfold displacementEquilibrium dispLoop
  rw [hc]
  simp [Except.map, he]

/-- A cube below the free surface. -/
example : ((cubeMesh ℝ).translateZ (-5)).vertices ≠ [] ∧
    ∀ v ∈ ((cubeMesh ℝ).translateZ (-5)).vertices, v.z < -(1 / 1000) := by
  refine ⟨by simp [cubeMesh, Mesh.translateZ, Mesh.mapVertices], ?_⟩
  simp [cubeMesh, Mesh.translateZ, Mesh.mapVertices]
  norm_num

/-- **C48 (violation).** With a tolerance that is not positive, whatever the hull, no correction is ever returned as
converged: after 99 evaluations the message is printed and the last correction, at which the displacement was not even
computed, is returned. -/
theorem C48_no_convergence (srt : (ℕ → ℝ) → List ℕ → List ℕ) (m : Mesh ℝ) (tons rho grav : ℝ) (cog : V3 ℝ)
    (reltol : ℝ) (hbox : m.bbox.zmin ≤ m.bbox.zmax) (hr : reltol ≤ 0) (r : Solved ℝ)
    (h : displacementEquilibrium srt m tons rho grav cog reltol = .ok r) :
    r.noConvergence = true ∧ r.evals.length = 99 := by
  obtain ⟨_, _, _, _, h5, h6⟩ := dispLoop_ok (by linarith) _ _ _ h
  cases hn : r.noConvergence with
  | true => exact ⟨rfl, (h6 hn).1⟩
  | false =>
    obtain ⟨vol, area, _, hc⟩ := h5 hn
    exact absurd hc (not_lt.2 (hr.trans (abs_nonneg _)))

/-- **C48 (violation), positive tolerance.** For a response that does not reach the target, the loop returns the last
correction. -/
theorem C48_silent : (dispLoop (fun _ => .ok (1, 1)) (1 : ℚ) 2 (1 / 10) 1 99 0).toOption.map
    (fun r => (r.value, r.noConvergence)) = some (-99, true) := by decide +kernel

/-- **C48 (wall-sided hulls).** The loop converges for every response that is wall-sided between the initial position and
the equilibrium (the displaced volume at the correction `z` is `A (d - z)` with `A` its waterplane area), when the initial
draught `d` and the target draught `T` are at most the height `H` of the hull; the correction returned gives the requested
displacement `ρ A T`. -/
theorem C48_wall_sided {K : Type*} [Field K] [LinearOrder K] [IsStrictOrderedRing K]
    (resp : K → Except ClipErr (K × K)) (rho A d T H reltol : K)
    (hrho : 0 < rho) (hA : 0 < A) (hd : 0 ≤ d) (hdH : d ≤ H) (hT : 0 < T) (hTH : T ≤ H) (htol : 0 < reltol)
    (hwall : ∀ z, min 0 (d - T) ≤ z → z ≤ max 0 (d - T) → resp z = .ok (A * (d - z), A)) :
    ∃ r vol area, dispLoop resp rho (rho * A * T) reltol (H / 5) 99 0 = .ok r ∧ r.noConvergence = false ∧
      resp r.value = .ok (vol, area) ∧ |rho * vol - rho * A * T| < reltol * (rho * A * T) := by
  have hH : (0 : K) < H / 5 := by linarith
  have hb : |d - T - 0| ≤ ((98 : ℕ) : K) * (H / 5) := by
    rw [abs_le]; push_cast; constructor <;> linarith
  obtain ⟨r, h1, h2⟩ := dispLoop_wall (resp := resp) (d := d) hrho hA hT htol hH 98 0 hb hwall
  obtain ⟨_, _, _, _, h5, _⟩ := dispLoop_ok hH.le _ _ _ h1
  obtain ⟨vol, area, h6, h7⟩ := h5 h2
  have hk : 0 < rho * A * T := by positivity
  rw [abs_div, abs_of_pos hk, div_lt_iff₀ hk] at h7
  exact ⟨r, vol, area, h1, h2, h6, h7⟩

/-- A box of height 4 and waterplane area 6, initially with a draught 1, brought to a draught 3: out of the box the response
is an error. -/
example : ∀ z : ℚ, min 0 (1 - 3) ≤ z → z ≤ max 0 (1 - 3) →
    (fun z => if -3 < z ∧ z < 1 then Except.ok (6 * (1 - z), 6) else .error (.below : ClipErr)) z =
      .ok (6 * (1 - z), 6) := by
  intro z h1 h2
  norm_num at h1 h2
  simp only
  rw [if_pos ⟨by linarith, by linarith⟩]

/-! ## C49 -/

/-- One step of the corrections: the vertical move is at most `relax`, the rotation is composed with a rotation whose two
Cardan angles are at most two degrees. -/
def StepBounded (relax : ℝ) (a b : ℝ × M3 ℝ) : Prop :=
  |b.1 - a.1| ≤ relax ∧ ∃ rx ry : ℝ, |rx| ≤ 2 * Real.pi / 180 ∧ |ry| ≤ 2 * Real.pi / 180 ∧
    b.2 = (cardanToRotmat rx ry 0).mul a.2

lemma fullLoop_ok {resp : ℝ × M3 ℝ → Except ClipErr HsData} {solve : M3 ℝ → V3 ℝ → Except PyErr (V3 ℝ)} {cog : V3 ℝ}
    {rhog mg reltol relax : ℝ} (hrel : 0 ≤ relax) :
    ∀ (fuel : ℕ) (p : ℝ × M3 ℝ) (r : Solved (ℝ × M3 ℝ)), p.2.IsRotation →
      fullLoop resp solve cog rhog mg reltol relax fuel p = .ok r →
      r.evals.length ≤ fuel ∧ r.path.head? = some p ∧ r.path.getLast? = some r.value ∧
      r.path.IsChain (StepBounded relax) ∧ r.value.2.IsRotation ∧
      (r.noConvergence = false → ∃ h, resp r.value = .ok h ∧
        Converged h (residue h cog r.value.2 r.value.1 rhog mg) mg reltol) := by
  intro fuel
  induction fuel with
  | zero =>
    intro p r hp h
    simp only [fullLoop, Except.ok.injEq] at h
    subst h
    simp [Solved.path, hp]
  | succ n ih =>
    intro p r hp h
    unfold fullLoop at h
    split at h
    · simp at h
    · rename_i hs hr
      dsimp only at h
      split at h
      · rename_i hcv
        simp only [Except.ok.injEq] at h
        subst h
        simp only [Solved.path, List.length_singleton]
        exact ⟨by omega, by simp, by simp, by simp, hp, fun _ => ⟨hs, hr, hcv⟩⟩
      · split at h
        · simp at h
        · rename_i d _
          split at h
          · simp at h
          · rename_i s hs'
            simp only [Except.ok.injEq] at h
            subst h
            obtain ⟨h1, h2, h3, h4, h5, h6⟩ := ih _ _ (M3.IsRotation.mul (cardan_isRotation _ _ _) hp) hs'
            have hpath : (Solved.path { s with evals := p :: s.evals }) = p :: s.path := by
              simp only [Solved.path]; split <;> simp
            rw [hpath]
            refine ⟨by simpa using h1, by simp, ?_, ?_, h5, h6⟩
            · obtain ⟨a, l, hl⟩ : ∃ a l, s.path = a :: l := by
                cases hl : s.path with
                | nil => rw [hl] at h2; simp at h2
                | cons a l => exact ⟨a, l, rfl⟩
              rw [hl] at h3 ⊢
              simpa using h3
            · rw [List.isChain_cons]
              refine ⟨?_, h4⟩
              intro y hy
              rw [h2] at hy
              simp only [Option.mem_def, Option.some.injEq] at hy
              subst hy
              have hpi : 0 ≤ 2 * Real.pi / 180 := by positivity
              refine ⟨?_, _, _, relaxed_le hpi d.y, relaxed_le hpi d.z, rfl⟩
              rw [add_sub_cancel_left]
              exact relaxed_le hrel _

/-- **C49.** Whatever the hull and whatever the linear solver: `full_equilibrium` computes the hydrostatics at most 99
times in its loop; the first position is unrotated; each iteration moves by at most a fifth of the height of the hull and
two degrees about each horizontal axis; the matrix returned is a rotation; if it stops on convergence, at the position
returned the weight and the buoyancy balance, in force and in moments about the axes, within `reltol`. -/
theorem C49_full_equilibrium (srt : (ℕ → ℝ) → List ℕ → List ℕ) (solve : M3 ℝ → V3 ℝ → Except PyErr (V3 ℝ))
    (m : Mesh ℝ) (cog : V3 ℝ) (tons rho grav reltol : ℝ) (hbox : m.bbox.zmin ≤ m.bbox.zmax) (r : Solved (ℝ × M3 ℝ))
    (h : fullEquilibrium srt solve m cog tons rho grav reltol = .ok r) :
    r.evals.length ≤ 99 ∧
    (∃ z0, r.path.head? = some (z0, M3.one)) ∧ r.path.getLast? = some r.value ∧
    r.path.IsChain (StepBounded ((m.bbox.zmax - m.bbox.zmin) / 5)) ∧
    r.value.2.IsRotation ∧
    (r.noConvergence = false → ∃ hs c, compute srt m cog rho grav (rot := r.value.2) (z := r.value.1) = .ok hs ∧
      Clipper.clip srt ⟨⟨0, 0, 1⟩, 0⟩ (1 / 1000) true (workingMesh m r.value.2 r.value.1) = .ok c ∧
      let B := (c.clipped.evalPlain rho).cog
      let G := workingPoint cog r.value.2 r.value.1
      let buoyancy := rho * grav * hs.dispVolume
      let weight := tons * 1000 * grav
      (0 < weight → |buoyancy - weight| < reltol * weight) ∧
      (0 < weight * hs.breadth → |buoyancy * B.y - weight * G.y| < reltol * (weight * hs.breadth)) ∧
      (0 < weight * hs.lengthAtWaterline →
        |buoyancy * B.x - weight * G.x| < reltol * (weight * hs.lengthAtWaterline))) := by
  unfold fullEquilibrium at h
  split at h
  · simp at h
  · rename_i s _
    have hone : (M3.one : M3 ℝ).IsRotation := by
      have := cardan_isRotation 0 0 0
      simpa [cardanToRotmat, M3.one] using this
    obtain ⟨h1, h2, h3, h4, h5, h6⟩ := fullLoop_ok (by linarith) _ _ _ hone h
    refine ⟨h1, ⟨_, h2⟩, h3, h4, h5, ?_⟩
    intro hn
    obtain ⟨hs, e1, c1, c2, c3⟩ := h6 hn
    obtain ⟨c, hc, _, rfl⟩ := compute_ok e1
    refine ⟨_, c, e1, hc, ?_⟩
    intro B G buoyancy weight
    have hB : workingPoint (r.value.2.transpose.mulVec ⟨B.x, B.y, B.z - r.value.1⟩) r.value.2 r.value.1 = B := by
      unfold workingPoint
      rw [M3.IsRotation.mulVec_transpose h5]
      simp
    have key : ∀ {a b : ℝ}, 0 < b → |a / b| < reltol → |a| < reltol * b := by
      intro a b hb hab
      rwa [abs_div, abs_of_pos hb, div_lt_iff₀ hb] at hab
    refine ⟨fun hw => key hw c1, fun hw => ?_, fun hw => ?_⟩
    · have := key hw c2
      simp only [residue] at this
      have hb' : (ofClipped m cog rho grav r.value.2 r.value.1 false none false c).buoyancyCenter =
        r.value.2.transpose.mulVec ⟨B.x, B.y, B.z - r.value.1⟩ := rfl
      rw [hb', hB] at this
      exact this
    · have := key hw c3
      simp only [residue] at this
      have hb' : (ofClipped m cog rho grav r.value.2 r.value.1 false none false c).buoyancyCenter =
        r.value.2.transpose.mulVec ⟨B.x, B.y, B.z - r.value.1⟩ := rfl
      rw [hb', hB, ← abs_neg] at this
      convert this using 2
      ring

end Hydro
end MM
