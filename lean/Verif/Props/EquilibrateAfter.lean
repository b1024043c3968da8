import Verif.Props.EquilibrateOld
import Verif.Props.Waterline

/-!
# C102: what `is_at_equilibrium` and `isstable` answer after `equilibrate`
-/

namespace MM
namespace Old

set_option linter.unusedSectionVars false
set_option linter.unusedSimpArgs false
set_option linter.unusedVariables false

variable {srt : (ℕ → ℝ) → List ℕ → List ℕ}

/-- The moment about the origin of forces whose points are moved. -/
lemma totalMoment_zero_moved (l : List Load) (t : V3 ℝ) :
    totalMoment 0 (l.map (fun f => ⟨f.point + t, f.force⟩)) = totalMoment 0 l + t.cross (totalForce l) := by
  unfold totalMoment totalForce
  rw [List.map_map]
  induction l with
  | nil => ext <;> simp [V3.cross]
  | cons f l ih =>
    simp only [List.map_cons, List.sum_cons, ih, Function.comp]
    ext <;> simp [V3.cross] <;> ring

lemma zeroXY_residual {s : State} (hs : s.refs.Nodup) (h : Hydro.HsData) :
    s.zeroXY.residual (shifted s h) = ⟨(s.residual h).x, (s.residual h).y - s.gc.y * (s.residual h).x,
      (s.residual h).z + s.gc.x * (s.residual h).x⟩ := by
  simp only [residual_eq]
  rw [zeroXY_loads hs, totalForce_moved, totalMoment_zero_moved]
  ext
  · rfl
  · simp [V3.cross]; ring
  · simp [V3.cross]

/-- **C102 (what holds).** When `equilibrate` says that it found an equilibrium, `isstable` answers true exactly when the code
is 1. The body was found in equilibrium in a position where `is_at_equilibrium` answers true, then moved horizontally to
bring its gravity centre on the vertical axis. There, the residual force is the same and within the tolerance, and the residual
moments are within the tolerance increased in proportion to the distance moved; `is_at_equilibrium` answers true when the
gravity centre was on the axis or when the vertical force was balanced exactly. Missing: that it always answers true, which
is false (`C102_fails`). -/
theorem C102_after_equilibrate_partial (solve : M3 ℝ → V3 ℝ → Except PyErr (V3 ℝ)) (rand : ℕ → ℝ × ℝ) (fuel : ℕ)
    (initDisp : Bool) (a b : State) (n : ℕ) (hn : a.refs.Nodup)
    (h : a.equilibrate srt solve rand fuel initDisp = (b, .code n)) (hpos : n ≠ 0) :
    ∃ d, b.data = some d ∧ (isStable d = true ↔ n = 1) ∧
    ∃ (s : State) (ds : Hydro.HsData), s.data = some ds ∧ s.isAtEquilibrium ds = true ∧ b.mesh = s.mesh.translate ⟨-s.gc.x, -s.gc.y, 0⟩ ∧
      (b.deltas d).1 = (s.deltas ds).1 ∧ |(b.deltas d).1 / (b.mass * b.grav)| < b.reltol ∧
      |(b.deltas d).2.1 / (b.mass * b.grav * d.breadth)| < b.reltol * (1 + |s.gc.y / d.breadth|) ∧
      |(b.deltas d).2.2 / (b.mass * b.grav * d.lengthAtWaterline)| < b.reltol * (1 + |s.gc.x / d.lengthAtWaterline|) ∧
      (s.gc.x = 0 ∧ s.gc.y = 0 → b.isAtEquilibrium d = true) ∧
      ((s.deltas ds).1 = 0 → b.isAtEquilibrium d = true) := by
  obtain ⟨s, rfl, hs, _, hcode, ht, hu⟩ := equilibrate_code hn h
  rcases hcode with rfl | ⟨_, h', w, hd, hw⟩
  · exact absurd rfl hpos
  obtain ⟨⟨e1, e2, e3⟩, e4⟩ := next_code hw
  have hr := zeroXY_residual hs h'
  have hdat : s.zeroXY.data = some (shifted s h') := by
    show s.data.map _ = _
    rw [hd]; rfl
  have htol : 0 < s.reltol := lt_of_le_of_lt (abs_nonneg _) e1
  have bound : ∀ (r g f M B : ℝ), |r / (M * B)| < s.reltol → |f / M| < s.reltol →
      |(r + g * f) / (M * B)| < s.reltol * (1 + |g / B|) := by
    intro r g f M B hr hf
    have : (r + g * f) / (M * B) = r / (M * B) + (g / B) * (f / M) := by
      rw [div_mul_div_comm, add_div, mul_comm B M]
    rw [this]
    calc |r / (M * B) + (g / B) * (f / M)| ≤ |r / (M * B)| + |g / B| * |f / M| := by
          rw [← abs_mul]; exact abs_add_le _ _
      _ ≤ |r / (M * B)| + |g / B| * s.reltol := by
          have := mul_le_mul_of_nonneg_left hf.le (abs_nonneg (g / B))
          linarith
      _ < s.reltol * (1 + |g / B|) := by nlinarith
  refine ⟨shifted s h', hdat, ?_, s, h', hd, ?_, rfl, ?_, ?_, ?_, ?_, ?_, ?_⟩
  · have hst : isStable (shifted s h') = true ↔ h'.longitudinalHeight > 0 ∧ h'.transversalHeight > 0 := by
      simp [isStable, stableInPitch, stableInRoll, shifted]
    rw [hst]
    rcases e4 with e4 | e4
    · exact ⟨fun _ => e4.1, fun _ => e4.2⟩
    · exact ⟨fun h => absurd h e4.2.2, fun h => by omega⟩
  · simp only [State.isAtEquilibrium, decide_eq_true_eq]
    exact ⟨e1, e2, e3⟩
  · show (s.zeroXY.residual (shifted s h')).x = _
    rw [hr]; rfl
  · show |(s.zeroXY.residual (shifted s h')).x / _| < _
    rw [hr]; exact e1
  · show |(s.zeroXY.residual (shifted s h')).y / (s.mass * s.grav * h'.breadth)| < s.reltol * (1 + |s.gc.y / h'.breadth|)
    rw [hr]
    have := bound (s.residual h').y (-s.gc.y) (s.residual h').x (s.mass * s.grav) h'.breadth e2 e1
    rw [neg_div, abs_neg, neg_mul] at this
    exact this
  · show |(s.zeroXY.residual (shifted s h')).z / (s.mass * s.grav * h'.lengthAtWaterline)| <
      s.reltol * (1 + |s.gc.x / h'.lengthAtWaterline|)
    rw [hr]
    exact bound (s.residual h').z s.gc.x (s.residual h').x (s.mass * s.grav) h'.lengthAtWaterline e3 e1
  · rintro ⟨h1, h2⟩
    simp only [State.isAtEquilibrium, decide_eq_true_eq, hr, h1, h2, zero_mul, sub_zero, add_zero]
    exact ⟨e1, e2, e3⟩
  · intro h0
    have h0' : (s.residual h').x = 0 := h0
    simp only [State.isAtEquilibrium, decide_eq_true_eq, hr, h0', mul_zero, sub_zero, add_zero]
    rw [h0'] at e1
    exact ⟨e1, e2, e3⟩

/-! ## Witness -/

/-- One pass of the loop on the half immersed cube, for a gravity centre and a mass close to those of an equilibrium. -/
lemma halfCube_loop (solve : M3 ℝ → V3 ℝ → Except PyErr (V3 ℝ)) (rand : ℕ → ℝ × ℝ) (fuel : ℕ) (st : State) (m gx : ℝ)
    (e1 : st.mesh = halfCube.real) (e2 : st.gc = ⟨gx, 1 / 2, 0⟩) (e3 : st.rho = 1000) (e4 : st.grav = 9) (e5 : st.mass = m)
    (e6 : st.refs = []) (e7 : st.itermax = 1000) (e8 : st.reltol = 1 / 10000)
    (k1 : |(4500 - m * 9) / (m * 9)| < 1 / 10000) (k2 : |(4500 * (1 / 2) - m * 9 * (1 / 2)) / (m * 9)| < 1 / 10000)
    (k3 : |(-4500 * (1 / 2) + m * 9 * gx) / (m * 9)| < 1 / 10000) :
    ∃ s h, equilLoop insArgsort solve rand (fuel + 1) ⟨0, 0, false, 0, 0, 0⟩ st = (s, .code 1) ∧ s.data = some h ∧
      s.gc = ⟨gx, 1 / 2, 0⟩ ∧ s.mass = m ∧ s.rho = 1000 ∧ s.grav = 9 ∧ s.refs = [] ∧ s.reltol = 1 / 10000 ∧
      h.dispVolume = 1 / 2 ∧ h.buoyancyCenter = ⟨1 / 2, 1 / 2, -1 / 4⟩ ∧ h.breadth = 1 ∧ h.lengthAtWaterline = 1 := by
  obtain ⟨c, hc, hup, hm, hw, hp⟩ := halfCube_update
  set G : V3 ℝ := ⟨gx, 1 / 2, 0⟩ with hG
  obtain ⟨d1, d2, d3, d4, d5, d6⟩ := halfCube_data hm hw G
  set D := Hydro.ofClipped halfCube.real G 1000 9 M3.one 0 false none false c with hD
  have hext : D.breadth = 1 ∧ D.lengthAtWaterline = 1 := by
    obtain ⟨h, c', hh, hc', _, h1, h2, _⟩ := Hydro.C86_fails G 9
    obtain ⟨c'', hc'', _, rfl⟩ := Hydro.compute_ok hh
    rw [workingMesh_self, hc] at hc''
    cases hc''
    exact ⟨h2, h1⟩
  have hrot : cardanToRotmat 0 0 0 = M3.one := by simp [cardanToRotmat, M3.one]
  have hmove : ∃ s', st.move insArgsort ⟨0, 0, false, 0, 0, 0⟩ = (s', none) ∧ s'.gc = G ∧
      s'.mass = m ∧ s'.rho = 1000 ∧ s'.grav = 9 ∧ s'.data = some D ∧ s'.refs = [] ∧ s'.reltol = 1 / 10000 := by
    unfold State.move
    dsimp only
    rw [hup _ rfl (by simp [State.reinit, State.gcRebind, State.gcInPlace, e1, translateZ_zero, rotate_zero])]
    refine ⟨_, rfl, ?_, e5, e3, e4, ?_, e6, e8⟩
    · simp [State.reinit, State.gcRebind, State.gcInPlace, e2, hrot, M3.one_mulVec]
    · simp [State.reinit, State.gcRebind, State.gcInPlace, e1, e2, e3, e4, hrot, M3.one_mulVec, translateZ_zero, rotate_zero, hD, hG]
  obtain ⟨s', f1, f3, f4, f5, f6, f8, f9, f10⟩ := hmove
  refine ⟨s', D, ?_, f8, f3, f4, f5, f6, f9, f10, d1, d3, hext.1, hext.2⟩
  have hres : s'.residual D = ⟨4500 - m * 9, 4500 * (1 / 2) - m * 9 * (1 / 2), -4500 * (1 / 2) + m * 9 * gx⟩ := by
    unfold State.residual
    rw [f9, f4, f5, f6, f3, d1, d3, hG]
    ext <;> simp <;> norm_num
  have hnx : s'.next solve D ⟨0, 0, false, 0, 0, 0⟩ = .inl (.code 1) := by
    unfold State.next
    dsimp only
    rw [hres, f10, f4, f6, hext.1, hext.2, mul_one]
    have hpos : D.longitudinalHeight > 0 ∧ D.transversalHeight > 0 := by
      rw [d4, d5, hG]
      constructor <;> norm_num
    rw [if_pos ⟨k1, k2, k3⟩, if_pos hpos]
  unfold equilLoop
  dsimp only
  rw [e7]
  simp only [f1, f8, hnx]
  simp

/-- **C102 fails.** The cube half in the water, with the mass 499.96 kg instead of 500 and the gravity centre at the abscissa
0.50013 instead of 0.5: `equilibrate` answers at once that this is a stable equilibrium, within its tolerance `1e-4`, and
`is_at_equilibrium` called next answers false. The calls meet the hypotheses of `C102_after_equilibrate_partial`. -/
theorem C102_fails (solve : M3 ℝ → V3 ℝ → Except PyErr (V3 ℝ)) (rand : ℕ → ℝ × ℝ) (heap : ℕ → Force) (fuel : ℕ) :
    ∃ a a' b d, init insArgsort heap halfCube.real ⟨50013 / 100000, 1 / 2, 0⟩ none 1000 9 = .ok a ∧
      a.setMass (49996 / 100000) = (a', none) ∧ a'.refs.Nodup ∧
      a'.equilibrate insArgsort solve rand (fuel + 1) false = (b, .code 1) ∧ b.data = some d ∧ b.isAtEquilibrium d = false := by
  obtain ⟨c, hc, hup, hm, hw, hp⟩ := halfCube_update
  have hinit : ∃ a, init insArgsort heap halfCube.real ⟨50013 / 100000, 1 / 2, 0⟩ none 1000 9 = .ok a ∧ a.mesh = halfCube.real ∧
      a.gc = ⟨50013 / 100000, 1 / 2, 0⟩ ∧ a.rho = 1000 ∧ a.grav = 9 ∧ a.refs = [] ∧ a.itermax = 1000 ∧ a.reltol = 1 / 10000 := by
    unfold init
    dsimp only
    rw [hup _ rfl rfl]
    exact ⟨_, rfl, rfl, rfl, rfl, rfl, rfl, rfl, rfl⟩
  obtain ⟨a, ha, e1, e2, e3, e4, e6, e7, e8⟩ := hinit
  have hmass : a.setMass (49996 / 100000) = ({ a with mass := 49996 / 100000 * 1000 }, none) := by
    unfold State.setMass
    dsimp only
    rw [if_neg]
    rw [e1, e3, halfCube_volume]
    norm_num
  obtain ⟨s, h, g1, g2, g3, g4, g5, g6, g7, g8, g9, g10, g11, g12⟩ := halfCube_loop solve rand fuel
    { a with mass := 49996 / 100000 * 1000 } (49996 / 100000 * 1000) (50013 / 100000) e1 e2 e3 e4 rfl e6 e7 e8
    (by rw [abs_lt]; norm_num) (by rw [abs_lt]; norm_num) (by rw [abs_lt]; norm_num)
  refine ⟨a, _, s.zeroXY, shifted s h, ha, hmass, ?_, ?_, ?_, ?_⟩
  · show a.refs.Nodup
    rw [e6]; exact List.nodup_nil
  · unfold State.equilibrate
    simp [g1]
  · show s.data.map _ = _
    rw [g2]; rfl
  · have hr := zeroXY_residual (s := s) (by rw [g7]; exact List.nodup_nil) h
    have hres : s.residual h = ⟨4500 - 49996 / 100000 * 1000 * 9, 4500 * (1 / 2) - 49996 / 100000 * 1000 * 9 * (1 / 2),
        -4500 * (1 / 2) + 49996 / 100000 * 1000 * 9 * (50013 / 100000)⟩ := by
      unfold State.residual
      rw [g7, g4, g5, g6, g3, g9, g10]
      ext <;> simp <;> norm_num
    simp only [State.isAtEquilibrium, decide_eq_false_iff_not]
    rintro ⟨_, _, h3⟩
    rw [hr, hres, g3] at h3
    change |_ / (s.mass * s.grav * h.lengthAtWaterline)| < s.reltol at h3
    rw [g4, g6, g12, g8] at h3
    have := (abs_lt.1 h3).2
    norm_num at this

/-! ## The iteration limit 1 -/

lemma next_stop {solve : M3 ℝ → V3 ℝ → Except PyErr (V3 ℝ)} {a : State} {h : Hydro.HsData} {v w : Vars}
    (hs : a.stopAtUnstable = true) (hn : a.next solve h v = .inr w) : w.unstable = v.unstable := by
  unfold State.next at hn
  dsimp only at hn
  split at hn
  · split at hn
    · simp at hn
    · simp [hs] at hn
  · split at hn
    · simp at hn
    · simp only [Sum.inr.injEq] at hn; subst hn; rfl

lemma main_one {solve : M3 ℝ → V3 ℝ → Except PyErr (V3 ℝ)} {rand : ℕ → ℝ × ℝ} {k : ℕ}
    (ih : ∀ (v : Vars) (a b : State), a.itermax = 1 → a.stopAtUnstable = true → 1 ≤ v.iter → v.unstable = false →
      equilLoop srt solve rand k v a ≠ (b, .code 0))
    (v : Vars) (s b : State) (h1 : s.itermax = 1) (h2 : s.stopAtUnstable = true) (h3 : v.unstable = false) :
    (match s.move srt v with
      | (st, some e) => (st, Outcome.raised e)
      | (st, none) =>
        match st.data with
        | none => (st, .running)
        | some h =>
          match st.next solve h v with
          | .inl o => (st, o)
          | .inr v => equilLoop srt solve rand k v st) ≠ (b, .code 0) := by
  intro hb
  split at hb
  · simp at hb
  · rename_i s' hm
    have hp := move_params hm
    have hq := move_settings hm
    split at hb
    · simp at hb
    · split at hb
      · rename_i o ho
        simp only [Prod.mk.injEq] at hb
        rw [hb.2] at ho
        rcases (next_code ho).2 with h | h
        · exact absurd h.1 (by decide)
        · exact absurd h.1 (by decide)
      · rename_i w hw
        obtain ⟨w1, w2⟩ := next_vars hw
        exact ih w s' b (hp.1.trans h1) (hq.2.1.trans h2) (by omega) ((next_stop (hq.2.1.trans h2) hw).trans h3) hb

lemma equilLoop_one {solve : M3 ℝ → V3 ℝ → Except PyErr (V3 ℝ)} {rand : ℕ → ℝ × ℝ} : ∀ (fuel : ℕ) (v : Vars) (a b : State),
    a.itermax = 1 → a.stopAtUnstable = true → 1 ≤ v.iter → v.unstable = false →
    equilLoop srt solve rand fuel v a ≠ (b, .code 0) := by
  intro fuel
  induction fuel with
  | zero => intro v a b _ _ _ _ hb; simp [equilLoop] at hb
  | succ k ih =>
    intro v a b h1 h2 h3 h4 hb
    unfold equilLoop at hb
    dsimp only at hb
    rw [if_neg (by simp [h1, h4]; omega)] at hb
    exact main_one ih v a b h1 h2 h4 hb

/-- **C68 fails with one iteration.** The value 1 is accepted for `max_iterations`; with it, at least two restarts and unstable
equilibria allowed, `equilibrate` never gives up, however long it runs: it can only raise, find an equilibrium or go on. -/
theorem C68_one_iteration_fails (solve : M3 ℝ → V3 ℝ → Except PyErr (V3 ℝ)) (rand : ℕ → ℝ × ℝ) (fuel : ℕ) (a : State)
    (hr : 2 ≤ a.maxRestart) (hs : a.stopAtUnstable = true) :
    ∃ a', a.setMaxIterations 1 = .ok a' ∧ a'.mesh = a.mesh ∧
      ∀ b, a'.equilibrate srt solve rand fuel false ≠ (b, .code 0) := by
  refine ⟨{ a with itermax := 1 }, rfl, rfl, ?_⟩
  intro b h
  unfold State.equilibrate at h
  dsimp only at h
  rw [if_neg (by simp)] at h
  split at h
  · rename_i s n hm
    simp only [Prod.mk.injEq, Outcome.code.injEq] at h
    rw [h.2] at hm
    cases fuel with
    | zero => simp [equilLoop] at hm
    | succ k =>
      unfold equilLoop at hm
      dsimp only at hm
      rw [if_pos (by simp), if_pos (by show 0 + 1 < a.maxRestart; omega)] at hm
      split at hm
      · simp at hm
      · rename_i s' hs'
        have hp := restart_params hs'
        have hq := restart_settings hs'
        exact main_one (fun v a b => equilLoop_one k v a b) _ s' s (hp.1.trans rfl) (hq.2.1.trans hs) rfl hm
  · rename_i r hno
    exact absurd h (fun h => hno _ _ h)

end Old
end MM
