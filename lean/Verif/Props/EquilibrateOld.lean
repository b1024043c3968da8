import Verif.Spec.Loads
import Verif.Props.Stiffness

/-!
# The old solver: what its answers mean (C81), its data after any history (C82)
-/

namespace MM
namespace Old

set_option linter.unusedSectionVars false
set_option linter.unusedSimpArgs false
set_option linter.unusedVariables false

variable {srt : (ℕ → ℝ) → List ℕ → List ℕ}

/-! ## Specification -/

/-- The forces added by the user. -/
def State.addedLoads (st : State) : List Load := st.refs.map (fun i => ⟨(st.heap i).point, (st.heap i).value⟩)

/-- What acts on the body according to the hydrostatic data `h`: its weight at the gravity centre, the weight of the
displaced water, upward, at the buoyancy centre, the added forces. -/
noncomputable def State.loads (st : State) (h : Hydro.HsData) : List Load :=
  ⟨st.gc, ⟨0, 0, -(st.mass * st.grav)⟩⟩ :: ⟨h.buoyancyCenter, ⟨0, 0, st.rho * st.grav * h.dispVolume⟩⟩ :: st.addedLoads

/-- The data of the object are those of its current mesh, gravity centre, density and gravity. -/
def State.UpToDate (srt : (ℕ → ℝ) → List ℕ → List ℕ) (st : State) : Prop :=
  ∃ h, st.data = some h ∧ Hydro.compute srt st.mesh st.gc st.rho st.grav = .ok h

/-! ## Lemmas -/

lemma sum_x (l : List (V3 ℝ)) : l.sum.x = (l.map (·.x)).sum := by
  induction l with
  | nil => rfl
  | cons a l ih => simp [ih]
lemma sum_y (l : List (V3 ℝ)) : l.sum.y = (l.map (·.y)).sum := by
  induction l with
  | nil => rfl
  | cons a l ih => simp [ih]
lemma sum_z (l : List (V3 ℝ)) : l.sum.z = (l.map (·.z)).sum := by
  induction l with
  | nil => rfl
  | cons a l ih => simp [ih]

/-- The residual is the vertical force and the moments about the horizontal axes of all that acts on the body. -/
lemma residual_eq (st : State) (h : Hydro.HsData) : st.residual h =
    ⟨(totalForce (st.loads h)).z, (totalMoment 0 (st.loads h)).x, (totalMoment 0 (st.loads h)).y⟩ := by
  unfold State.residual State.loads State.addedLoads totalForce totalMoment
  ext
  · simp [sum_x, sum_y, sum_z, Force.hsForce, V3.cross, Function.comp_def]; ring
  · simp [sum_x, sum_y, sum_z, Force.hsForce, V3.cross, Function.comp_def]; ring
  · simp [sum_x, sum_y, sum_z, Force.hsForce, V3.cross, Function.comp_def]; ring

/-- Data computed from the mesh, and the clipped mesh kept to compute them again. -/
def Fresh (srt : (ℕ → ℝ) → List ℕ → List ℕ) (st : State) : Prop :=
  ∃ c, Clipper.clip srt ⟨⟨0, 0, 1⟩, 0⟩ (1 / 1000) true st.mesh = .ok c ∧ c.closedPolygons ≠ [] ∧ st.clipper = some c ∧
    st.data = some (Hydro.ofClipped st.mesh st.gc st.rho st.grav M3.one 0 false none false c)

lemma Fresh.upToDate {st : State} (h : Fresh srt st) : st.UpToDate srt := by
  obtain ⟨c, h1, h2, _, h4⟩ := h
  refine ⟨_, h4, ?_⟩
  unfold Hydro.compute
  rw [workingMesh_self, h1]
  simp only
  rw [if_neg h2]

lemma updateWith_fresh {st st' : State} {c : Clipper.Clipped ℝ} (h : st.updateWith c = (st', none))
    (hc : Clipper.clip srt ⟨⟨0, 0, 1⟩, 0⟩ (1 / 1000) true st.mesh = .ok c) : Fresh srt st' := by
  unfold State.updateWith at h
  dsimp only at h
  split at h
  · simp at h
  · split at h
    · simp at h
    · rename_i hp
      simp only [Prod.mk.injEq, and_true] at h
      subst h
      exact ⟨c, hc, hp, rfl, rfl⟩

/-- The data are computed again from the clipped mesh which is kept, if it is that of the mesh. -/
lemma update_fresh {st st' : State} (h : st.update srt = (st', none))
    (hc : st.clipper = none ∨ ∃ c, st.clipper = some c ∧
      Clipper.clip srt ⟨⟨0, 0, 1⟩, 0⟩ (1 / 1000) true st.mesh = .ok c) : Fresh srt st' := by
  unfold State.update at h
  split at h
  · rename_i c hk
    rcases hc with hc | ⟨c', h1, h2⟩
    · rw [hc] at hk; cases hk
    · rw [h1] at hk; cases hk
      exact updateWith_fresh h h2
  · split at h
    · simp at h
    · rename_i c hk
      exact updateWith_fresh h hk

lemma dispLoop_fresh : ∀ (fuel : ℕ) (dz : ℝ) (a b : State), dispLoop srt fuel dz a = (b, none) → Fresh srt b ∨ (fuel = 0 ∧ b = a) := by
  intro fuel
  induction fuel with
  | zero =>
    intro dz a b h
    simp only [dispLoop, Prod.mk.injEq, and_true] at h
    exact .inr ⟨rfl, h.symm⟩
  | succ n ih =>
    intro dz a b h
    unfold dispLoop at h
    dsimp only at h
    split at h
    · simp at h
    · rename_i s hs
      have hf : Fresh srt s := update_fresh hs (.inl rfl)
      left
      split at h
      · simp only [Prod.mk.injEq, and_true] at h
        exact h ▸ hf
      · split at h
        · simp only [Prod.mk.injEq, and_true] at h
          exact h ▸ hf
        · rcases ih _ _ _ h with h | ⟨_, rfl⟩
          · exact h
          · exact hf

lemma setDisplacement_fresh {a b : State} {d : ℝ} (h : a.setDisplacement srt d = (b, none)) :
    Fresh srt b ∨ (a.itermax = 0 ∧ b = { a with mass := d * 1000 }) := by
  unfold State.setDisplacement at h
  split at h
  · simp at h
  · rename_i s hs
    rw [setMass_eq hs] at h
    exact dispLoop_fresh _ _ _ _ h

lemma reset_fresh {a b : State} (h : a.reset srt = (b, none)) : Fresh srt b := by
  unfold State.reset at h
  split at h
  · simp at h
  · rename_i s hs
    obtain ⟨c, h1, h2, h3, h4⟩ := update_fresh hs (.inl rfl)
    simp only [Prod.mk.injEq, and_true] at h
    subst h
    exact ⟨c, h1, h2, h3, h4⟩

/-! ## C81 -/

lemma next_code {solve : M3 ℝ → V3 ℝ → Except PyErr (V3 ℝ)} {a : State} {h : Hydro.HsData} {v : Vars} {n : ℕ}
    (hn : a.next solve h v = .inl (.code n)) :
    (|(a.residual h).x / (a.mass * a.grav)| < a.reltol ∧ |(a.residual h).y / (a.mass * a.grav * h.breadth)| < a.reltol ∧
      |(a.residual h).z / (a.mass * a.grav * h.lengthAtWaterline)| < a.reltol) ∧
    (n = 1 ∧ h.longitudinalHeight > 0 ∧ h.transversalHeight > 0 ∨
      n = 2 ∧ a.stopAtUnstable = true ∧ ¬ (h.longitudinalHeight > 0 ∧ h.transversalHeight > 0)) := by
  unfold State.next at hn
  dsimp only at hn
  split at hn
  · rename_i hc
    refine ⟨hc, ?_⟩
    split at hn
    · rename_i h2
      simp only [Sum.inl.injEq, Outcome.code.injEq] at hn
      exact .inl ⟨hn.symm, h2⟩
    · rename_i h2
      split at hn
      · rename_i h3
        simp only [Sum.inl.injEq, Outcome.code.injEq] at hn
        exact .inr ⟨hn.symm, h3, h2⟩
      · simp at hn
  · split at hn <;> simp at hn

/-- The settings of the solver. -/
def Settings (a b : State) : Prop := b.reltol = a.reltol ∧ b.stopAtUnstable = a.stopAtUnstable ∧ b.mass = a.mass ∧
  b.grav = a.grav ∧ b.rho = a.rho

lemma Settings.trans {a b c : State} (h : Settings a b) (h' : Settings b c) : Settings a c :=
  ⟨h'.1.trans h.1, h'.2.1.trans h.2.1, h'.2.2.1.trans h.2.2.1, h'.2.2.2.1.trans h.2.2.2.1, h'.2.2.2.2.trans h.2.2.2.2⟩

lemma restart_settings {a b : State} {t : ℝ × ℝ} {e : Option ClipErr} (h : a.restart srt t = (b, e)) : Settings a b := by
  unfold State.restart at h
  dsimp only at h
  split at h
  · rename_i s _ hs
    obtain ⟨c, d, rfl⟩ := update_frame _ _ _ hs
    simp only [Prod.mk.injEq] at h
    exact h.1 ▸ ⟨rfl, rfl, rfl, rfl, rfl⟩
  · rename_i s hs
    obtain ⟨c, d, rfl⟩ := update_frame _ _ _ hs
    simp only [Prod.mk.injEq] at h
    exact h.1 ▸ ⟨rfl, rfl, rfl, rfl, rfl⟩

lemma move_settings {a b : State} {v : Vars} {e : Option ClipErr} (h : a.move srt v = (b, e)) : Settings a b := by
  unfold State.move at h
  dsimp only at h
  obtain ⟨c, d, rfl⟩ := update_frame _ _ _ h
  exact ⟨rfl, rfl, rfl, rfl, rfl⟩

lemma dispLoop_settings : ∀ (fuel : ℕ) (dz : ℝ) (a b : State) (e : Option ClipErr),
    dispLoop srt fuel dz a = (b, e) → b.reltol = a.reltol ∧ b.stopAtUnstable = a.stopAtUnstable := by
  intro fuel
  induction fuel with
  | zero =>
    intro dz a b e h
    simp only [dispLoop, Prod.mk.injEq] at h
    obtain ⟨rfl, _⟩ := h
    exact ⟨rfl, rfl⟩
  | succ n ih =>
    intro dz a b e h
    unfold dispLoop at h
    dsimp only at h
    split at h
    · rename_i s _ hs
      obtain ⟨c, d, rfl⟩ := update_frame _ _ _ hs
      simp only [Prod.mk.injEq] at h
      exact h.1 ▸ ⟨rfl, rfl⟩
    · rename_i s hs
      have hset : s.reltol = a.reltol ∧ s.stopAtUnstable = a.stopAtUnstable := by
        obtain ⟨c, d, rfl⟩ := update_frame _ _ _ hs
        exact ⟨rfl, rfl⟩
      split at h
      · simp only [Prod.mk.injEq] at h
        exact h.1 ▸ hset
      · split at h
        · simp only [Prod.mk.injEq] at h
          exact h.1 ▸ hset
        · obtain ⟨h1, h2⟩ := ih _ _ _ _ h
          exact ⟨h1.trans hset.1, h2.trans hset.2⟩

lemma setDisplacement_settings {a b : State} {d : ℝ} {e : Option ClipErr} (h : a.setDisplacement srt d = (b, e)) :
    b.reltol = a.reltol ∧ b.stopAtUnstable = a.stopAtUnstable := by
  unfold State.setDisplacement at h
  split at h
  · rename_i s _ hs
    simp only [Prod.mk.injEq] at h
    rw [← h.1, setMass_eq hs]
    exact ⟨rfl, rfl⟩
  · rename_i s hs
    rw [setMass_eq hs] at h
    have := dispLoop_settings _ _ _ _ _ h
    exact this

lemma equilLoop_code {solve : M3 ℝ → V3 ℝ → Except PyErr (V3 ℝ)} {rand : ℕ → ℝ × ℝ} :
    ∀ (fuel : ℕ) (v : Vars) (a b : State) (n : ℕ), equilLoop srt solve rand fuel v a = (b, .code n) →
      Settings a b ∧ (n = 0 ∨ Fresh srt b ∧ ∃ h w, b.data = some h ∧ b.next solve h w = .inl (.code n)) := by
  intro fuel
  induction fuel with
  | zero => intro v a b n h; simp [equilLoop] at h
  | succ k ih =>
    intro v a b n h
    have main : ∀ (v : Vars) (s : State),
        (match s.move srt v with
          | (st, some e) => (st, Outcome.raised e)
          | (st, none) =>
            match st.data with
            | none => (st, .running)
            | some h =>
              match st.next solve h v with
              | .inl o => (st, o)
              | .inr v => equilLoop srt solve rand k v st) = (b, .code n) →
        Settings s b ∧ (n = 0 ∨ Fresh srt b ∧ ∃ h w, b.data = some h ∧ b.next solve h w = .inl (.code n)) := by
      intro v s hb
      split at hb
      · simp at hb
      · rename_i s' hm
        have hset := move_settings hm
        have hf : Fresh srt s' := by
          unfold State.move at hm
          dsimp only at hm
          exact update_fresh hm (.inl rfl)
        split at hb
        · simp at hb
        · rename_i h' hd
          split at hb
          · rename_i o ho
            simp only [Prod.mk.injEq] at hb
            obtain ⟨rfl, rfl⟩ := hb
            exact ⟨hset, .inr ⟨hf, h', v, hd, ho⟩⟩
          · obtain ⟨h1, h2⟩ := ih _ _ _ _ hb
            exact ⟨hset.trans h1, h2⟩
    unfold equilLoop at h
    dsimp only at h
    split at h
    · split at h
      · split at h
        · simp at h
        · rename_i s hs
          obtain ⟨h1, h2⟩ := main _ _ h
          exact ⟨(restart_settings hs).trans h1, h2⟩
      · simp only [Prod.mk.injEq, Outcome.code.injEq] at h
        obtain ⟨rfl, rfl⟩ := h
        exact ⟨⟨rfl, rfl, rfl, rfl, rfl⟩, .inl rfl⟩
    · exact main _ _ h

/-- The data after the last translation. -/
noncomputable def shifted (a : State) (h : Hydro.HsData) : Hydro.HsData :=
  { h with buoyancyCenter := ⟨h.buoyancyCenter.x + -a.gc.x, h.buoyancyCenter.y + -a.gc.y, h.buoyancyCenter.z⟩ }

lemma zeroXY_addedLoads {a : State} (hn : a.refs.Nodup) :
    a.zeroXY.addedLoads = a.addedLoads.map (fun f => ⟨f.point + ⟨-a.gc.x, -a.gc.y, 0⟩, f.force⟩) := by
  unfold State.addedLoads
  rw [List.map_map]
  apply List.map_congr_left
  intro i hi
  have h2 : a.zeroXY.heap i = (a.heap i).updateXY (-a.gc.x) (-a.gc.y) :=
    foldl_update (fun f : Force => f.updateXY (-a.gc.x) (-a.gc.y)) a.refs a.heap hn i hi
  rw [h2]
  simp only [Force.updateXY, Function.comp, Load.mk.injEq, and_true]
  ext <;> simp

lemma zeroXY_loads {a : State} (hn : a.refs.Nodup) (h : Hydro.HsData) :
    a.zeroXY.loads (shifted a h) = (a.loads h).map (fun f => ⟨f.point + ⟨-a.gc.x, -a.gc.y, 0⟩, f.force⟩) := by
  unfold State.loads
  rw [zeroXY_addedLoads hn]
  simp only [List.map_cons, List.cons.injEq, Load.mk.injEq, and_true]
  refine ⟨⟨?_, rfl⟩, ?_, rfl⟩
  · show (⟨0, 0, a.gc.z⟩ : V3 ℝ) = _
    ext <;> simp
  · simp only [shifted]
    ext <;> simp

lemma totalForce_moved (l : List Load) (t : V3 ℝ) : totalForce (l.map (fun f => ⟨f.point + t, f.force⟩)) = totalForce l := by
  unfold totalForce
  rw [List.map_map]
  rfl

lemma totalMoment_moved (l : List Load) (t : V3 ℝ) :
    totalMoment t (l.map (fun f => ⟨f.point + t, f.force⟩)) = totalMoment 0 l := by
  unfold totalMoment
  rw [List.map_map]
  congr 1
  apply List.map_congr_left
  intro f _
  simp

/-- What `equilibrate` returns: a code, in a state which is that of the end of its loop, translated. -/
lemma equilibrate_code {solve : M3 ℝ → V3 ℝ → Except PyErr (V3 ℝ)} {rand : ℕ → ℝ × ℝ} {fuel : ℕ} {initDisp : Bool}
    {a b : State} {n : ℕ} (hn : a.refs.Nodup) (h : a.equilibrate srt solve rand fuel initDisp = (b, .code n)) :
    ∃ s, b = s.zeroXY ∧ s.refs.Nodup ∧ (∃ R T, Coupled a s R T) ∧ (n = 0 ∨ Fresh srt s ∧ ∃ h w, s.data = some h ∧ s.next solve h w = .inl (.code n)) ∧
      s.reltol = a.reltol ∧ s.stopAtUnstable = a.stopAtUnstable := by
  have start : ∀ s : State, s.refs.Nodup → (match equilLoop srt solve rand fuel ⟨0, 0, false, 0, 0, 0⟩ s with
      | (st, .code n) => (st.zeroXY, Outcome.code n)
      | r => r) = (b, .code n) → ∃ s', b = s'.zeroXY ∧ s'.refs.Nodup ∧ (∃ R T, Coupled s s' R T) ∧
        (n = 0 ∨ Fresh srt s' ∧ ∃ h w, s'.data = some h ∧ s'.next solve h w = .inl (.code n)) ∧ Settings s s' := by
    intro s hs hb
    split at hb
    · rename_i s' m hm
      obtain ⟨R, T, hc⟩ := equilLoop_coupled _ _ _ _ _ hs hm
      simp only [Prod.mk.injEq, Outcome.code.injEq] at hb
      obtain ⟨rfl, rfl⟩ := hb
      obtain ⟨h1, h2⟩ := equilLoop_code _ _ _ _ _ hm
      exact ⟨s', rfl, by rw [hc.2.2.2.2.1]; exact hs, ⟨R, T, hc⟩, h2, h1⟩
    · rename_i r hno
      exact absurd hb (fun hb => hno _ _ hb)
  unfold State.equilibrate at h
  dsimp only at h
  split at h
  · split at h
    · simp at h
    · rename_i s hs
      obtain ⟨R, T, hc⟩ := setDisplacement_coupled hn hs
      obtain ⟨s', h1, h2, ⟨R', T', h3⟩, h4, h5⟩ := start s (by rw [hc.2.2.2.2.1]; exact hn) h
      have hset := setDisplacement_settings hs
      exact ⟨s', h1, h2, ⟨_, _, hc.trans h3⟩, h4, h5.1.trans hset.1, h5.2.1.trans hset.2⟩
  · obtain ⟨s', h1, h2, h3, h4, h5⟩ := start a hn h
    exact ⟨s', h1, h2, h3, h4, h5.1, h5.2.1⟩

/-- **C81 (what holds).** When `equilibrate` returns, its code is 0, 1 or 2, and the gravity centre is on the vertical axis.
With the code 1 or 2, the body is in equilibrium within the relative tolerance: the sum of the weight, of the buoyancy
force and of the added forces has a small vertical component, their moments about two horizontal axes are small. With the
code 1 both metacentric heights reported are positive; with the code 2, one is not and the solver was asked to stop at
unstable positions. Whatever the mesh, the forces (distinct), the random restarts and the linear solver. Missing: that a
position with the code 1 is stable, which is false (`C81_fails`). -/
theorem C81_codes_partial (solve : M3 ℝ → V3 ℝ → Except PyErr (V3 ℝ)) (rand : ℕ → ℝ × ℝ) (fuel : ℕ) (initDisp : Bool)
    (a b : State) (n : ℕ) (hn : a.refs.Nodup) (h : a.equilibrate srt solve rand fuel initDisp = (b, .code n)) :
    n ≤ 2 ∧ b.gc.x = 0 ∧ b.gc.y = 0 ∧
    (n ≠ 0 → ∃ d A, b.data = some d ∧ A.z = 0 ∧
      |(totalForce (b.loads d)).z / (b.mass * b.grav)| < a.reltol ∧
      |(totalMoment A (b.loads d)).x / (b.mass * b.grav * d.breadth)| < a.reltol ∧
      |(totalMoment A (b.loads d)).y / (b.mass * b.grav * d.lengthAtWaterline)| < a.reltol ∧
      (n = 1 → d.longitudinalHeight > 0 ∧ d.transversalHeight > 0) ∧
      (n = 2 → a.stopAtUnstable = true ∧ ¬ (d.longitudinalHeight > 0 ∧ d.transversalHeight > 0))) := by
  obtain ⟨s, rfl, hs, _, hcode, ht, hu⟩ := equilibrate_code hn h
  refine ⟨?_, rfl, rfl, ?_⟩
  · rcases hcode with rfl | ⟨_, h', w, _, hw⟩
    · omega
    · rcases (next_code hw).2 with h1 | h1 <;> omega
  · intro hn0
    rcases hcode with rfl | ⟨_, h', w, hd, hw⟩
    · exact absurd rfl hn0
    · obtain ⟨⟨e1, e2, e3⟩, e4⟩ := next_code hw
      rw [residual_eq] at e1 e2 e3
      refine ⟨shifted s h', ⟨-s.gc.x, -s.gc.y, 0⟩, ?_, rfl, ?_, ?_, ?_, ?_, ?_⟩
      · show s.data.map _ = _
        rw [hd]; rfl
      · rw [zeroXY_loads hs, totalForce_moved, ← ht]; exact e1
      · rw [zeroXY_loads hs, totalMoment_moved, ← ht]; exact e2
      · rw [zeroXY_loads hs, totalMoment_moved, ← ht]; exact e3
      · rintro rfl
        rcases e4 with e4 | e4
        · exact e4.2
        · omega
      · rintro rfl
        rcases e4 with e4 | e4
        · omega
        · exact ⟨hu ▸ e4.2.1, e4.2.2⟩

/-- **C81 (unstable positions).** When the first position is balanced within the tolerance with a metacentric height that is
not positive, and the solver was not asked to stop there, the next pass of the loop gives up with the code 0 at that position
if no restart is left, and otherwise turns the body by the random angles before it goes on: here, it raises the exception of
that restart if there is one, and otherwise searches from the turned body with a zero correction. -/
theorem C81_unstable (solve : M3 ℝ → V3 ℝ → Except PyErr (V3 ℝ)) (rand : ℕ → ℝ × ℝ) (fuel : ℕ) (a s : State) (d : Hydro.HsData)
    (hit : 2 ≤ a.itermax) (hmove : a.move srt ⟨0, 0, false, 0, 0, 0⟩ = (s, none)) (hd : s.data = some d)
    (hbal : |(s.residual d).x / (s.mass * s.grav)| < s.reltol ∧ |(s.residual d).y / (s.mass * s.grav * d.breadth)| < s.reltol ∧
      |(s.residual d).z / (s.mass * s.grav * d.lengthAtWaterline)| < s.reltol)
    (hun : d.longitudinalHeight ≤ 0 ∨ d.transversalHeight ≤ 0) (hstop : s.stopAtUnstable = false) :
    (a.maxRestart ≤ 1 → a.equilibrate srt solve rand (fuel + 2) false = (s.zeroXY, .code 0)) ∧
    (2 ≤ a.maxRestart → ∀ r e, s.restart srt (rand 0) = (r, some e) →
      a.equilibrate srt solve rand (fuel + 2) false = (r, .raised e)) ∧
    (2 ≤ a.maxRestart → ∀ r, s.restart srt (rand 0) = (r, none) → ∀ r' e, r.move srt ⟨1, 1, false, 0, 0, 0⟩ = (r', some e) →
      a.equilibrate srt solve rand (fuel + 2) false = (r', .raised e)) := by
  have hp := move_params hmove
  have hnx : s.next solve d ⟨0, 0, false, 0, 0, 0⟩ = .inr ⟨1, 0, true, 0, 0, 0⟩ := by
    unfold State.next
    dsimp only
    rw [if_pos hbal, if_neg (by rintro ⟨h1, h2⟩; rcases hun with h | h <;> linarith), if_neg (by simp [hstop])]
  have hloop : equilLoop srt solve rand (fuel + 2) ⟨0, 0, false, 0, 0, 0⟩ a =
      equilLoop srt solve rand (fuel + 1) ⟨1, 0, true, 0, 0, 0⟩ s := by
    conv_lhs => unfold equilLoop
    dsimp only
    rw [if_neg (by simp; omega)]
    simp only [hmove, hd, hnx]
  refine ⟨fun hm => ?_, fun hm r e hr => ?_, fun hm r hr r' e hr' => ?_⟩ <;>
    (unfold State.equilibrate; simp only [Bool.false_eq_true, if_false]; rw [hloop]; unfold equilLoop)
  · simp [hp.2, show ¬ (1 < a.maxRestart) by omega]
  · simp [hp.2, show 1 < a.maxRestart by omega, hr]
  · simp [hp.2, show 1 < a.maxRestart by omega, hr, hr']

/-! ### In terms of the pressure of the water -/

lemma surfaceSum_translate {m : Mesh ℝ} (hwf : m.WF) (t : V3 ℝ) (T : V3 ℝ → V3 ℝ → V3 ℝ → ℝ) :
    (m.translate t).surfaceSum T = m.surfaceSum (fun p q r => T (p + t) (q + t) (r + t)) := by
  unfold Mesh.surfaceSum Mesh.translate
  rw [faces_mapVertices]
  congr 1
  apply List.map_congr_left
  intro f hf
  have h := hwf f hf
  unfold Mesh.faceSum
  rw [vert_mapVertices _ _ _ (h f.a (by simp [Face.toList])), vert_mapVertices _ _ _ (h f.b (by simp [Face.toList])),
    vert_mapVertices _ _ _ (h f.c (by simp [Face.toList])), vert_mapVertices _ _ _ (h f.d (by simp [Face.toList]))]

lemma areaVec_translate (p q r t : V3 ℝ) : areaVec (p + t) (q + t) (r + t) = areaVec p q r := by
  unfold areaVec
  rw [add_sub_add_right_eq_sub, add_sub_add_right_eq_sub]

lemma refInt_translate (f : V3 ℝ → ℝ) (p q r t : V3 ℝ) :
    refInt f (p + t) (q + t) (r + t) = refInt (fun X => f (X + t)) p q r := by
  unfold refInt
  congr 1; funext u; congr 1; funext v; congr 1
  ext <;> simp <;> ring

lemma normalIntegral_translate {m : Mesh ℝ} (hwf : m.WF) (t : V3 ℝ) (f : V3 ℝ → ℝ) :
    (m.translate t).normalIntegral f = m.normalIntegral (fun X => f (X + t)) := by
  unfold Mesh.normalIntegral
  simp only [surfaceSum_translate hwf, refInt_translate, areaVec_translate]

/-- A horizontal translation of the body does not change the balance. -/
lemma balance_translate {m : Mesh ℝ} (hwf : m.WF) {t : V3 ℝ} (ht : t.z = 0) (ρ g mass : ℝ) (O G : V3 ℝ) :
    balance ρ g mass (O + t) (m.translate t) (G + t) = balance ρ g mass O m G := by
  have hP : ∀ X, hydrostaticPressure ρ g (X + t) = hydrostaticPressure ρ g X := by
    intro X; simp [hydrostaticPressure, ht]
  have hc : PlaneCont (hydrostaticPressure ρ g) := by
    intro p q r
    simp only [Hydro.hydrostaticPressure_eq]
    simp only [V3.add_x, V3.add_y, V3.add_z, V3.smul_x, V3.smul_y, V3.smul_z, V3.sub_x, V3.sub_y, V3.sub_z]
    fun_prop
  have hx : PlaneCont (fun X => hydrostaticPressure ρ g X * X.x) := by
    have := PlaneCont.mul_aff hc (0, ⟨1, 0, 0⟩)
    have e : (fun X => hydrostaticPressure ρ g X * Clipper.aff (0, ⟨1, 0, 0⟩) X) = fun X => hydrostaticPressure ρ g X * X.x := by
      funext X; simp [Clipper.aff, V3.dot]
    rwa [e] at this
  have hy : PlaneCont (fun X => hydrostaticPressure ρ g X * X.y) := by
    have := PlaneCont.mul_aff hc (0, ⟨0, 1, 0⟩)
    have e : (fun X => hydrostaticPressure ρ g X * Clipper.aff (0, ⟨0, 1, 0⟩) X) = fun X => hydrostaticPressure ρ g X * X.y := by
      funext X; simp [Clipper.aff, V3.dot]
    rwa [e] at this
  have e0 : (m.translate t).normalIntegral (hydrostaticPressure ρ g) = m.normalIntegral (hydrostaticPressure ρ g) := by
    rw [normalIntegral_translate hwf]; congr 1; funext X; exact hP X
  have e1 : (m.translate t).normalIntegral (fun X => hydrostaticPressure ρ g X * X.x) =
      m.normalIntegral (fun X => hydrostaticPressure ρ g X * X.x) + t.x • m.normalIntegral (hydrostaticPressure ρ g) := by
    rw [normalIntegral_translate hwf, ← Hydro.normalIntegral_const_mul, ← Hydro.normalIntegral_add m hx (hc.const_mul t.x)]
    congr 1; funext X; rw [hP, V3.add_x]; ring
  have e2 : (m.translate t).normalIntegral (fun X => hydrostaticPressure ρ g X * X.y) =
      m.normalIntegral (fun X => hydrostaticPressure ρ g X * X.y) + t.y • m.normalIntegral (hydrostaticPressure ρ g) := by
    rw [normalIntegral_translate hwf, ← Hydro.normalIntegral_const_mul, ← Hydro.normalIntegral_add m hy (hc.const_mul t.y)]
    congr 1; funext X; rw [hP, V3.add_y]; ring
  have e3 : (m.translate t).normalIntegral (fun X => hydrostaticPressure ρ g X * X.z) =
      m.normalIntegral (fun X => hydrostaticPressure ρ g X * X.z) := by
    rw [normalIntegral_translate hwf]
    congr 1; funext X; rw [hP, V3.add_z, ht, add_zero]
  unfold balance Mesh.pressureMoment Mesh.pressureForce
  simp only [e0, e1, e2, e3]
  ext <;> simp [V3.cross, ht] <;> ring

lemma translate_vert {m : Mesh ℝ} (t : V3 ℝ) {i : ℕ} (hi : i < m.nv) : (m.translate t).vert i = m.vert i + t :=
  vert_mapVertices _ _ _ hi

lemma strictlyConvex_translate {m : Mesh ℝ} (hwf : m.WF) (t : V3 ℝ) (h : (m.translate t).StrictlyConvexFaces) :
    m.StrictlyConvexFaces := by
  intro f hf
  have h1 := h f hf
  have hw := hwf f hf
  rw [translate_vert t (hw f.a (by simp [Face.toList])), translate_vert t (hw f.b (by simp [Face.toList])),
    translate_vert t (hw f.c (by simp [Face.toList])), translate_vert t (hw f.d (by simp [Face.toList]))] at h1
  split_ifs at h1 ⊢ with he
  · rwa [areaVec_translate] at h1
  · obtain ⟨n, α, β, γ, δ, h2⟩ := h1
    simp only [areaVec_translate] at h2
    exact ⟨n, α, β, γ, δ, h2⟩

lemma edge_lt {m : Mesh ℝ} (hwf : m.WF) {e : ℕ × ℕ} (he : e ∈ m.directedEdges) : e.1 < m.nv ∧ e.2 < m.nv := by
  unfold Mesh.directedEdges at he
  rw [List.mem_flatMap] at he
  obtain ⟨f, hf, he⟩ := he
  have := Clipper.directedEdges_sub f e he
  exact ⟨hwf f hf _ this.1, hwf f hf _ this.2⟩

lemma wellSeparated_translate {m : Mesh ℝ} (hwf : m.WF) {t : V3 ℝ} (ht : t.z = 0)
    (h : (m.translate t).WellSeparated ⟨⟨0, 0, 1⟩, 0⟩) : m.WellSeparated ⟨⟨0, 0, 1⟩, 0⟩ := by
  have hd : ∀ X : V3 ℝ, (⟨⟨0, 0, 1⟩, 0⟩ : Plane ℝ).dist (X + t) = (⟨⟨0, 0, 1⟩, 0⟩ : Plane ℝ).dist X := by
    intro X; simp [Plane.dist, V3.dot, ht]
  have hp : ∀ X, m.ClipPoint ⟨⟨0, 0, 1⟩, 0⟩ X → (m.translate t).ClipPoint ⟨⟨0, 0, 1⟩, 0⟩ (X + t) := by
    rintro X (hX | ⟨e, he, hs, rfl⟩)
    · exact .inl (List.mem_map_of_mem hX)
    · refine .inr ⟨e, he, ?_, ?_⟩
      · rw [translate_vert t (edge_lt hwf he).1, translate_vert t (edge_lt hwf he).2, hd, hd]; exact hs
      · rw [translate_vert t (edge_lt hwf he).1, translate_vert t (edge_lt hwf he).2]
        unfold Plane.cutPt
        rw [hd, hd]
        have hne : (⟨⟨0, 0, 1⟩, 0⟩ : Plane ℝ).dist (m.vert e.1) - (⟨⟨0, 0, 1⟩, 0⟩ : Plane ℝ).dist (m.vert e.2) ≠ 0 := by
          intro h0
          rw [sub_eq_zero] at h0
          rw [h0] at hs
          nlinarith [mul_self_nonneg ((⟨⟨0, 0, 1⟩, 0⟩ : Plane ℝ).dist (m.vert e.2))]
        generalize (⟨⟨0, 0, 1⟩, 0⟩ : Plane ℝ).dist (m.vert e.1) = u at hne ⊢
        generalize (⟨⟨0, 0, 1⟩, 0⟩ : Plane ℝ).dist (m.vert e.2) = w at hne ⊢
        ext <;> simp <;> field_simp <;> ring
  intro X Y hX hY hc
  have := h _ _ (hp X hX) (hp Y hY) (by
    obtain ⟨a, b, c⟩ := hc
    exact ⟨by simpa using a, by simpa using b, by simpa using c⟩)
  exact add_right_cancel this

/-- **C81 (in terms of pressure).** With the code 1 or 2, for a watertight hull with each corner on the free surface or out of the
tolerance of the clipper, gravity, the pressure of
the water on the hull at the position reached, and the added forces balance each other, within the relative tolerance. -/
theorem C81_pressure_partial (hsrt : IsArgsort srt) (solve : M3 ℝ → V3 ℝ → Except PyErr (V3 ℝ)) (rand : ℕ → ℝ × ℝ)
    (fuel : ℕ) (initDisp : Bool) (a b : State) (n : ℕ) (hn : a.refs.Nodup)
    (h : a.equilibrate srt solve rand fuel initDisp = (b, .code n)) (hn0 : n ≠ 0)
    (hwf : b.mesh.WF) (hcl : b.mesh.ClosedOriented) (hcv : b.mesh.StrictlyConvexFaces)
    (hpos : ∀ f ∈ b.mesh.faces, ∀ i ∈ f.toList, (b.mesh.vert i).z = 0 ∨ 1 / 1000 < |(b.mesh.vert i).z|)
    (hsep : b.mesh.WellSeparated ⟨⟨0, 0, 1⟩, 0⟩) (hrho : b.rho ≠ 0) :
    ∃ d A, b.data = some d ∧ A.z = 0 ∧ (d.dispVolume ≠ 0 →
      let r := balance b.rho b.grav b.mass A b.mesh b.gc + ⟨(totalForce b.addedLoads).z,
        (totalMoment A b.addedLoads).x, (totalMoment A b.addedLoads).y⟩
      |r.x / (b.mass * b.grav)| < a.reltol ∧ |r.y / (b.mass * b.grav * d.breadth)| < a.reltol ∧
      |r.z / (b.mass * b.grav * d.lengthAtWaterline)| < a.reltol) := by
  obtain ⟨s, rfl, hs, _, hcode, ht, hu⟩ := equilibrate_code hn h
  rcases hcode with rfl | ⟨hf, h', w, hd, hw⟩
  · exact absurd rfl hn0
  have e0 : s.zeroXY.mesh = s.mesh.translate ⟨-s.gc.x, -s.gc.y, 0⟩ := rfl
  set t : V3 ℝ := ⟨-s.gc.x, -s.gc.y, 0⟩ with htt
  rw [e0] at hwf hcl hcv hpos hsep
  have hwf' : s.mesh.WF := by
    intro f hf i hi
    have := hwf f hf i hi
    rwa [show (s.mesh.translate t).nv = s.mesh.nv by simp [Mesh.translate, Mesh.mapVertices, Mesh.nv]] at this
  have hcl' : s.mesh.ClosedOriented := hcl
  have hcv' := strictlyConvex_translate hwf' t hcv
  have hsep' := wellSeparated_translate hwf' (t := t) rfl hsep
  have hpos' : ∀ f ∈ s.mesh.faces, ∀ i ∈ f.toList, (s.mesh.vert i).z = 0 ∨ 1 / 1000 < |(s.mesh.vert i).z| := by
    intro f hf i hi
    have := hpos f hf i hi
    rwa [translate_vert t (hwf' f hf i hi), V3.add_z, show t.z = 0 from rfl, add_zero] at this
  obtain ⟨⟨e1, e2, e3⟩, e4⟩ := next_code hw
  refine ⟨shifted s h', t, ?_, rfl, ?_⟩
  · show s.data.map _ = _
    rw [hd]; rfl
  intro hv
  obtain ⟨h2, hd2, hcomp⟩ := hf.upToDate
  rw [hd] at hd2
  simp only [Option.some.injEq] at hd2
  subst hd2
  have hself := workingMesh_self s.mesh
  obtain ⟨p1, p2⟩ := Hydro.C79_archimedes_partial srt hsrt s.mesh s.gc s.rho s.grav M3.one 0 false none false h'
    (by rw [hself]; exact hwf') (by rw [hself]; exact hcl') (by rw [hself]; exact hcv') (by rw [hself]; exact hpos')
    (by rw [hself]; exact hsep') one_isRotation hrho hcomp
  have p2 := p2 hv
  rw [hself] at p1 p2
  have hB : Hydro.workingPoint h'.buoyancyCenter M3.one 0 = h'.buoyancyCenter := by
    ext <;> simp [Hydro.workingPoint, M3.mulVec, M3.one, V3.dot]
  rw [hB] at p2
  have hm : h'.dispMass = s.rho * h'.dispVolume := by
    obtain ⟨c, _, _, rfl⟩ := Hydro.compute_ok hcomp
    rfl
  have key : balance s.rho s.grav s.mass t (s.mesh.translate t) s.zeroXY.gc + ⟨(totalForce s.zeroXY.addedLoads).z,
        (totalMoment t s.zeroXY.addedLoads).x, (totalMoment t s.zeroXY.addedLoads).y⟩ = s.residual h' := by
    have hb := balance_translate hwf' (t := t) rfl s.rho s.grav s.mass 0 s.gc
    rw [zero_add] at hb
    have hg : s.zeroXY.gc = s.gc + t := by
      show (⟨0, 0, s.gc.z⟩ : V3 ℝ) = _
      ext <;> simp [htt]
    rw [hg, hb, zeroXY_addedLoads hs, totalForce_moved, totalMoment_moved, residual_eq]
    unfold State.loads balance
    simp only [p1, p2, hm]
    unfold totalForce totalMoment
    simp only [List.map_cons, List.sum_cons]
    ext <;> simp [V3.cross] <;> ring
  simp only
  have hrw : balance s.zeroXY.rho s.zeroXY.grav s.zeroXY.mass t s.zeroXY.mesh s.zeroXY.gc = balance s.rho s.grav s.mass t (s.mesh.translate t) s.zeroXY.gc := rfl
  rw [hrw, key, ← ht]
  exact ⟨e1, e2, e3⟩

/-! ### The half immersed cube -/

lemma halfCubeClipped_areas :
    (halfCubeClipped.facesProperties.any (fun p => decide (|p.area| < 1 / 10000000000))) = false := by
  rw [facesProperties_eq, List.any_eq_false]
  simp [halfCubeClipped, Mesh.faceProps, Face.isTri, Mesh.quadPropsOf, quadProps, quadA1, quadA2, Mesh.vert,
    V3.norm, V3.normSq, V3.cross, V3.dot, sqrt_quarter]
  norm_num

/-- The hydrostatic data of the half immersed cube, at the gravity centre `g`. -/
lemma halfCube_update : ∃ c, Clipper.clip insArgsort ⟨⟨0, 0, 1⟩, 0⟩ (1 / 1000) true halfCube.real = .ok c ∧
    (∀ st : State, st.clipper = none → st.mesh = halfCube.real → st.update insArgsort =
      ({ st with clipper := some c, data := some (Hydro.ofClipped st.mesh st.gc st.rho st.grav M3.one 0 false none false c) },
        none)) ∧ c.clipped = halfCubeClipped ∧ Hydro.waterline c = [[(1, 0), (1, 1), (0, 1), (0, 0), (1, 0)]] ∧
    c.closedPolygons ≠ [] := by
  obtain ⟨c, hc, hp, hm⟩ := halfCube_clip
  have hr := clip_real (by decide +kernel) hc
  have hmesh : (c.aff ratReal 0).clipped = halfCubeClipped := by
    show c.clipped.aff ratReal 0 = _
    rw [hm]
    simp [Mesh.aff, affMap, ratReal_apply, halfCubeClipped]
  have hpoly : (c.aff ratReal 0).closedPolygons ≠ [] := by show c.closedPolygons ≠ []; rw [hp]; simp
  have harea := halfCubeClipped_areas
  obtain ⟨c', hc', hw⟩ := Hydro.halfCube_waterline
  rw [hr] at hc'
  simp only [Except.ok.injEq] at hc'
  subst hc'
  refine ⟨_, hr, ?_, hmesh, hw, hpoly⟩
  intro st h1 h2
  unfold State.update
  rw [h1, h2]
  simp only [hr, State.updateWith, hmesh, harea, hpoly, if_false, Bool.false_eq_true, h2]

lemma halfCubeClipped_cogz (rho : ℝ) : (halfCubeClipped.evalPlain rho).cog.z = -1 / 4 := by
  have h4 : (√4 : ℝ) = 2 := by rw [show (4 : ℝ) = 2 * 2 by norm_num]; exact Real.sqrt_mul_self (by norm_num)
  simp only [Mesh.evalPlain, Inertia.init, halfCubeClipped_volume, normalWeighted_eq]
  simp [halfCubeClipped, Mesh.faceProps, Mesh.faceIntegrals, Face.isTri, Mesh.quadPropsOf, quadProps, quadA1, quadA2, Mesh.vert,
      V3.norm, V3.normSq, V3.cross, V3.dot, Mesh.quadIntegralsOf, triIntegrals, triDelta, pf1, pf2, pt2, sqrt_quarter, h4]
  norm_num
  rw [h4]
  norm_num

/-- The values needed by the solver. -/
lemma halfCube_data {c : Clipper.Clipped ℝ} (hm : c.clipped = halfCubeClipped)
    (hw : Hydro.waterline c = [[(1, 0), (1, 1), (0, 1), (0, 0), (1, 0)]]) (g : V3 ℝ) :
    let h := Hydro.ofClipped halfCube.real g 1000 9 M3.one 0 false none false c
    h.dispVolume = 1 / 2 ∧ h.dispMass = 500 ∧ h.buoyancyCenter = ⟨1 / 2, 1 / 2, -1 / 4⟩ ∧
    h.transversalHeight = 5 / 12 - g.z ∧ h.longitudinalHeight = 5 / 12 - g.z ∧ h.waterplaneCenter = ⟨1 / 2, 1 / 2, 0⟩ := by
  have hpv : Hydro.polyVerts c.clippedCrown c.closedPolygons false (c.clipped.evalPlain 1000).cog = Hydro.waterline c := by
    rw [Hydro.polyVerts_eq]; simp
  have hvol : (halfCubeClipped.evalPlain 1000).mass = 500 := by
    show 1000 * halfCubeClipped.volume = 500
    rw [halfCubeClipped_volume]; norm_num
  rw [hm] at hpv
  have hx := (halfCubeClipped_cog 1000).1
  have hy := (halfCubeClipped_cog 1000).2
  have hz := halfCubeClipped_cogz 1000
  intro h
  simp only [h, Hydro.ofClipped, hm, hvol, hpv, hw, Hydro.workingPoint, hz]
  simp only [Hydro.sigmas, List.foldl_cons, List.foldl_nil, Hydro.Sigmas.poly, Hydro.Sigmas.step, Hydro.Sigmas.scale,
    M3.transpose, M3.one, M3.mulVec, V3.dot, M3.c0, M3.c1, M3.c2, hx, hy, hz]
  refine ⟨by norm_num, by norm_num, ?_, ?_, ?_, ?_⟩
  · ext <;> simp [hx, hy, hz]
  · norm_num; ring
  · norm_num; ring
  · ext <;> norm_num

lemma halfCube_volume : halfCube.real.volume = 1 := by
  have h4 : (√4 : ℝ) = 2 := by rw [show (4 : ℝ) = 2 * 2 by norm_num]; exact Real.sqrt_mul_self (by norm_num)
  rw [volume_eq]
  simp [halfCube, Mesh.real, Mesh.aff, affMap, ratReal_apply, Mesh.translateZ, Mesh.mapVertices, cubeMesh, cubeFaces,
    Mesh.faceProps, Mesh.faceIntegrals, Face.isTri, Mesh.quadPropsOf, quadProps, quadA1, quadA2, Mesh.vert,
    V3.norm, V3.normSq, V3.cross, V3.dot, Mesh.quadIntegralsOf, triIntegrals, triDelta, pf1, sqrt_quarter,
    Mesh.triPropsOf, triProps, Mesh.triIntegralsOf]
  norm_num
  rw [h4]
  norm_num

lemma translateZ_zero (m : Mesh ℝ) : m.translateZ 0 = m := by
  simp [Mesh.translateZ, Mesh.mapVertices]

lemma rotate_zero (m : Mesh ℝ) : m.rotate 0 0 0 = m := by
  have : cardanToRotmat 0 0 0 = M3.one := by simp [cardanToRotmat, M3.one]
  unfold Mesh.rotate
  rw [this, rotateMatrix_one]

lemma residual_zero {st : State} {h : Hydro.HsData} (h1 : st.refs = []) (h2 : st.mass = st.rho * h.dispVolume)
    (h3 : st.gc.x = h.buoyancyCenter.x) (h4 : st.gc.y = h.buoyancyCenter.y) : st.residual h = 0 := by
  unfold State.residual
  rw [h1, h2, h3, h4]
  ext <;> simp <;> ring

/-- `equilibrate` on the half immersed cube, whose gravity centre is on its axis. -/
lemma halfCube_equilibrate (solve : M3 ℝ → V3 ℝ → Except PyErr (V3 ℝ)) (rand : ℕ → ℝ × ℝ) (heap : ℕ → Force) (zg : ℝ)
    (hz : zg < 5 / 12) (initDisp : Bool) (fuel : ℕ) : ∃ a b c, init insArgsort heap halfCube.real ⟨1 / 2, 1 / 2, zg⟩ none 1000 9 = .ok a ∧
    a.equilibrate insArgsort solve rand (fuel + 1) initDisp = (b, .code 1) ∧ a.refs = [] ∧
    b.mesh = halfCube.real.translate ⟨-(1 / 2), -(1 / 2), 0⟩ ∧ b.gc = ⟨0, 0, zg⟩ ∧ b.mass = 500 ∧ b.rho = 1000 ∧ b.grav = 9 ∧
    b.clipper = some c ∧ c.clipped = halfCubeClipped ∧ Hydro.waterline c = [[(1, 0), (1, 1), (0, 1), (0, 0), (1, 0)]] ∧
    b.data = some { Hydro.ofClipped halfCube.real ⟨1 / 2, 1 / 2, zg⟩ 1000 9 M3.one 0 false none false c with
      buoyancyCenter := ⟨0, 0, -1 / 4⟩ } := by
  obtain ⟨c, hc, hup, hm, hw, hp⟩ := halfCube_update
  set G : V3 ℝ := ⟨1 / 2, 1 / 2, zg⟩ with hG
  obtain ⟨d1, d2, d3, d4, d5, d6⟩ := halfCube_data hm hw G
  set D := Hydro.ofClipped halfCube.real G 1000 9 M3.one 0 false none false c with hD
  -- the state of the object, up to its backups
  have key : ∀ st : State, st.mesh = halfCube.real → st.gc = G → st.rho = 1000 → st.grav = 9 → st.mass = 500 → st.refs = [] →
      st.itermax = 1000 → st.reltol = 1 / 10000 →
      ∃ b, equilLoop insArgsort solve rand (fuel + 1) ⟨0, 0, false, 0, 0, 0⟩ st = (b, .code 1) ∧ b.mesh = halfCube.real ∧ b.gc = G ∧
        b.mass = 500 ∧ b.rho = 1000 ∧ b.grav = 9 ∧ b.clipper = some c ∧ b.data = some D := by
    intro st e1 e2 e3 e4 e5 e6 e7 e8
    have hrot : cardanToRotmat 0 0 0 = M3.one := by simp [cardanToRotmat, M3.one]
    have hmove : ∃ s', st.move insArgsort ⟨0, 0, false, 0, 0, 0⟩ = (s', none) ∧ s'.mesh = halfCube.real ∧ s'.gc = G ∧
        s'.mass = 500 ∧ s'.rho = 1000 ∧ s'.grav = 9 ∧ s'.clipper = some c ∧ s'.data = some D ∧ s'.refs = [] ∧ s'.reltol = 1 / 10000 := by
      unfold State.move
      dsimp only
      rw [hup _ rfl (by simp [State.reinit, State.gcRebind, State.gcInPlace, e1, translateZ_zero, rotate_zero])]
      refine ⟨_, rfl, ?_, ?_, e5, e3, e4, rfl, ?_, e6, e8⟩
      · simp [State.reinit, State.gcRebind, State.gcInPlace, e1, translateZ_zero, rotate_zero]
      · simp [State.reinit, State.gcRebind, State.gcInPlace, e2, hrot, M3.one_mulVec]
      · simp [State.reinit, State.gcRebind, State.gcInPlace, e1, e2, e3, e4, hrot, M3.one_mulVec, translateZ_zero, rotate_zero, hD]
    obtain ⟨s', f1, f2, f3, f4, f5, f6, f7, f8, f9, f10⟩ := hmove
    refine ⟨s', ?_, f2, f3, f4, f5, f6, f7, f8⟩
    have hr : s'.residual D = 0 := residual_zero f9 (by rw [f4, f5, d1]; norm_num) (by rw [f3, d3]) (by rw [f3, d3])
    have hnx : s'.next solve D ⟨0, 0, false, 0, 0, 0⟩ = .inl (.code 1) := by
      unfold State.next
      dsimp only
      rw [hr, f10]
      have hpos : D.longitudinalHeight > 0 ∧ D.transversalHeight > 0 := by
        rw [d4, d5]
        exact ⟨by show (0 : ℝ) < 5 / 12 - zg; linarith, by show (0 : ℝ) < 5 / 12 - zg; linarith⟩
      rw [if_pos (by simp), if_pos hpos]
    unfold equilLoop
    dsimp only
    rw [e7]
    simp only [f1, f8, hnx]
    simp
  have hfin : ∀ b : State, b.mesh = halfCube.real → b.gc = G → b.data = some D → b.clipper = some c →
      b.zeroXY.mesh = halfCube.real.translate ⟨-(1 / 2), -(1 / 2), 0⟩ ∧ b.zeroXY.gc = ⟨0, 0, zg⟩ ∧ b.zeroXY.clipper = some c ∧
      b.zeroXY.data = some { D with buoyancyCenter := ⟨0, 0, -1 / 4⟩ } := by
    intro b h1 h2 h3 h4
    refine ⟨?_, ?_, h4, ?_⟩
    · show b.mesh.translate ⟨-b.gc.x, -b.gc.y, 0⟩ = _
      rw [h1, h2]
    · show (⟨0, 0, b.gc.z⟩ : V3 ℝ) = _
      rw [h2]
    · show b.data.map _ = _
      rw [h3, Option.map_some, h2, d3]
      simp [hG]
  have hinit : ∃ a, init insArgsort heap halfCube.real G none 1000 9 = .ok a ∧ a.mesh = halfCube.real ∧ a.gc = G ∧ a.rho = 1000 ∧
      a.grav = 9 ∧ a.mass = 500 ∧ a.refs = [] ∧ a.itermax = 1000 ∧ a.reltol = 1 / 10000 ∧ a.zRelax = 1 / 10 := by
    unfold init
    dsimp only
    rw [hup _ rfl rfl]
    refine ⟨_, rfl, rfl, rfl, rfl, rfl, ?_, rfl, rfl, rfl, rfl⟩
    show D.dispMass = 500
    exact d2
  obtain ⟨a, ha, e1, e2, e3, e4, e5, e6, e7, e8, e9⟩ := hinit
  have hdisp : ∃ s, a.setDisplacement insArgsort a.massTons = (s, none) ∧ s.mesh = halfCube.real ∧ s.gc = G ∧ s.rho = 1000 ∧
      s.grav = 9 ∧ s.mass = 500 ∧ s.refs = [] ∧ s.itermax = 1000 ∧ s.reltol = 1 / 10000 := by
    have hmass : a.setMass a.massTons = ({ a with mass := a.massTons * 1000 }, none) := by
      unfold State.setMass
      dsimp only
      rw [if_neg]
      rw [e1, e3, halfCube_volume]
      unfold State.massTons
      rw [e5]; norm_num
    unfold State.setDisplacement
    rw [hmass]
    dsimp only
    rw [e7]
    show ∃ s, dispLoop insArgsort (999 + 1) 0 _ = _ ∧ _
    unfold dispLoop
    dsimp only
    rw [hup _ rfl (by simp [State.reinit, State.gcInPlace, e1, translateZ_zero])]
    dsimp only [State.reinit, State.gcInPlace]
    have hm5 : a.massTons * 1000 = 500 := by unfold State.massTons; rw [e5]; norm_num
    have hgc : (⟨a.gc.x, a.gc.y, a.gc.z + 0⟩ : V3 ℝ) = G := by rw [e2]; simp
    rw [if_pos]
    · refine ⟨_, rfl, ?_, ?_, e3, e4, hm5, e6, rfl, e8⟩
      · simp only [e1, translateZ_zero]
      · exact hgc
    · rw [residual_zero (by exact e6)]
      · simp [e8]
      · show a.massTons * 1000 = a.rho * _
        simp only [e1, translateZ_zero, hgc, e3, e4]
        rw [← hD, d1, hm5]; norm_num
      · simp only [e1, translateZ_zero, hgc, e3, e4]
        rw [← hD, d3, e2]
      · simp only [e1, translateZ_zero, hgc, e3, e4]
        rw [← hD, d3, e2]
  refine ⟨a, ?_⟩
  cases initDisp with
  | false =>
    obtain ⟨b, g1, g2, g3, g4, g5, g6, g7, g8⟩ := key a e1 e2 e3 e4 e5 e6 e7 e8
    obtain ⟨k1, k2, k3, k4⟩ := hfin b g2 g3 g8 g7
    refine ⟨b.zeroXY, c, ha, ?_, e6, k1, k2, g4, g5, g6, k3, hm, hw, k4⟩
    unfold State.equilibrate
    simp [g1]
  | true =>
    obtain ⟨s, q0, q1, q2, q3, q4, q5, q6, q7, q8⟩ := hdisp
    obtain ⟨b, g1, g2, g3, g4, g5, g6, g7, g8⟩ := key s q1 q2 q3 q4 q5 q6 q7 q8
    obtain ⟨k1, k2, k3, k4⟩ := hfin b g2 g3 g8 g7
    refine ⟨b.zeroXY, c, ha, ?_, e6, k1, k2, g4, g5, g6, k3, hm, hw, k4⟩
    unfold State.equilibrate
    simp [q0, g1]

/-- **C81 (witness).** The cube half in the water with its gravity centre at the height 1 meets the hypotheses of
`C81_unstable`. -/
theorem halfCube_meets_C81_unstable (heap : ℕ → Force) : ∃ a s d,
    init insArgsort heap halfCube.real ⟨1 / 2, 1 / 2, 1⟩ none 1000 9 = .ok a ∧ 2 ≤ a.itermax ∧ 2 ≤ a.maxRestart ∧
    a.move insArgsort ⟨0, 0, false, 0, 0, 0⟩ = (s, none) ∧ s.data = some d ∧
    (|(s.residual d).x / (s.mass * s.grav)| < s.reltol ∧ |(s.residual d).y / (s.mass * s.grav * d.breadth)| < s.reltol ∧
      |(s.residual d).z / (s.mass * s.grav * d.lengthAtWaterline)| < s.reltol) ∧
    (d.longitudinalHeight ≤ 0 ∨ d.transversalHeight ≤ 0) ∧ s.stopAtUnstable = false := by
  obtain ⟨c, hc, hup, hm, hw, hp⟩ := halfCube_update
  set G : V3 ℝ := ⟨1 / 2, 1 / 2, 1⟩ with hG
  obtain ⟨d1, d2, d3, d4, d5, d6⟩ := halfCube_data hm hw G
  set D := Hydro.ofClipped halfCube.real G 1000 9 M3.one 0 false none false c with hD
  have hinit : ∃ a, init insArgsort heap halfCube.real G none 1000 9 = .ok a ∧ a.mesh = halfCube.real ∧ a.gc = G ∧ a.rho = 1000 ∧
      a.grav = 9 ∧ a.mass = 500 ∧ a.refs = [] ∧ a.itermax = 1000 ∧ a.reltol = 1 / 10000 ∧ a.maxRestart = 10 ∧
      a.stopAtUnstable = false := by
    unfold init
    dsimp only
    rw [hup _ rfl rfl]
    refine ⟨_, rfl, rfl, rfl, rfl, rfl, ?_, rfl, rfl, rfl, rfl, rfl⟩
    show D.dispMass = 500
    exact d2
  obtain ⟨a, ha, e1, e2, e3, e4, e5, e6, e7, e8, e9, e10⟩ := hinit
  have hrot : cardanToRotmat 0 0 0 = M3.one := by simp [cardanToRotmat, M3.one]
  have hmove : ∃ s', a.move insArgsort ⟨0, 0, false, 0, 0, 0⟩ = (s', none) ∧ s'.gc = G ∧
      s'.mass = 500 ∧ s'.rho = 1000 ∧ s'.data = some D ∧ s'.refs = [] ∧ s'.reltol = 1 / 10000 ∧ s'.stopAtUnstable = false := by
    unfold State.move
    dsimp only
    rw [hup _ rfl (by simp [State.reinit, State.gcRebind, State.gcInPlace, e1, translateZ_zero, rotate_zero])]
    refine ⟨_, rfl, ?_, e5, e3, ?_, e6, e8, e10⟩
    · simp [State.reinit, State.gcRebind, State.gcInPlace, e2, hrot, M3.one_mulVec]
    · simp [State.reinit, State.gcRebind, State.gcInPlace, e1, e2, e3, e4, hrot, M3.one_mulVec, translateZ_zero, rotate_zero, hD]
  obtain ⟨s', f1, f3, f4, f5, f8, f9, f10, f11⟩ := hmove
  have hr : s'.residual D = 0 := residual_zero f9 (by rw [f4, f5, d1]; norm_num) (by rw [f3, d3]) (by rw [f3, d3])
  refine ⟨a, s', D, ha, by omega, by omega, f1, f8, ?_, ?_, f11⟩
  · rw [hr, f10]; simp
  · right; rw [d4]; show (5 / 12 - 1 : ℝ) ≤ 0; norm_num

lemma rolled_translate {m : Mesh ℝ} (hwf : m.WF) {t : V3 ℝ} (ht : t.z = 0) (ρ g mass : ℝ) (O G : V3 ℝ) (θ : ℝ) :
    rolled ρ g mass (O + t) (m.translate t) (G + t) θ = rolled ρ g mass O m G θ := by
  have h1 : ∀ X, rigid (rotX θ) (O + t) 0 (X + t) = rigid (rotX θ) O 0 X + t := by
    intro X
    unfold rigid
    rw [add_sub_add_right_eq_sub]
    abel
  have h2 : (m.translate t).mapVertices (rigid (rotX θ) (O + t) 0) = (m.mapVertices (rigid (rotX θ) O 0)).translate t := by
    unfold Mesh.translate Mesh.mapVertices
    simp only [List.map_map, Mesh.mk.injEq, and_true]
    apply List.map_congr_left
    intro X _
    exact h1 X
  unfold rolled
  rw [h2, h1]
  refine balance_translate ?_ ht _ _ _ _ _
  intro f hf i hi
  have := hwf f hf i hi
  simpa [Mesh.mapVertices, Mesh.nv] using this

/-- **C81 (violation).** The half immersed cube, with its gravity centre at its middle: `equilibrate` returns 1, "a stable
equilibrium configuration has been reached", although in the position reached the moment of gravity and pressure makes a
small roll of the body grow. The cube was not centred on the origin, and the metacentric radii are computed about the axes. -/
theorem C81_fails (solve : M3 ℝ → V3 ℝ → Except PyErr (V3 ℝ)) (rand : ℕ → ℝ × ℝ) (heap : ℕ → Force) (initDisp : Bool) (fuel : ℕ) :
    ∃ a b d, init insArgsort heap halfCube.real ⟨1 / 2, 1 / 2, 0⟩ none 1000 9 = .ok a ∧
      a.equilibrate insArgsort solve rand (fuel + 1) initDisp = (b, .code 1) ∧ b.gc = 0 ∧
      HasDerivZero (rolled b.rho b.grav b.mass 0 b.mesh b.gc) d ∧ 0 < d.y := by
  obtain ⟨a, b, c, ha, hb, _, k1, k2, k3, k4, k5, k6, hm, hw, _⟩ := halfCube_equilibrate solve rand heap 0 (by norm_num) initDisp fuel
  obtain ⟨h1, h2, h3, h4, h5, h6, h7, h8, h, hh, hv⟩ := Hydro.halfCube_meets_C80 ⟨1 / 2, 1 / 2, 0⟩ 9 true
  obtain ⟨d1, d2, d3, _, j2, _, _, _, j3, _⟩ := Hydro.C80_stiffness_partial insArgsort insArgsort_isArgsort
    halfCube.real ⟨1 / 2, 1 / 2, 0⟩ 1000 9 M3.one 0 true none false h h1 h2 h3 h4 h5 h6 h7 h8 (by norm_num) hh hv
  rw [workingMesh_self] at h1
  obtain ⟨c', hc', hp', rfl⟩ := Hydro.compute_ok hh
  obtain ⟨c'', hc'', _, hm', hw', _⟩ := halfCube_update
  rw [workingMesh_self, hc''] at hc'
  simp only [Except.ok.injEq] at hc'
  subst hc'
  have hx := (halfCubeClipped_cog 1000).1
  have hy := (halfCubeClipped_cog 1000).2
  have hz := halfCubeClipped_cogz 1000
  have hvol : (halfCubeClipped.evalPlain 1000).mass = 500 := by
    show 1000 * halfCubeClipped.volume = 500
    rw [halfCubeClipped_volume]; norm_num
  have hpv := Hydro.polyVerts_eq c'' true (c''.clipped.evalPlain 1000).cog
  rw [hw'] at hpv
  have hB : Hydro.workingPoint (Hydro.ofClipped halfCube.real ⟨1 / 2, 1 / 2, 0⟩ 1000 9 M3.one 0 true none false c'').buoyancyCenter M3.one 0
      = ⟨1 / 2, 1 / 2, -1 / 4⟩ := by
    simp only [Hydro.ofClipped, hm']
    ext <;> simp [Hydro.workingPoint, M3.mulVec, M3.one, M3.transpose, M3.c0, M3.c1, M3.c2, V3.dot, hx, hy, hz]
  have hmass : (Hydro.ofClipped halfCube.real ⟨1 / 2, 1 / 2, 0⟩ 1000 9 M3.one 0 true none false c'').dispMass = 500 := by
    simp only [Hydro.ofClipped, hm', hvol]; norm_num
  have hG : Hydro.workingPoint (⟨1 / 2, 1 / 2, 0⟩ : V3 ℝ) M3.one 0 = ⟨1 / 2, 1 / 2, 0⟩ := by
    ext <;> simp [Hydro.workingPoint, M3.mulVec, M3.one, V3.dot]
  rw [hB, hmass, hG, workingMesh_self] at j2
  simp only [if_true] at j2
  refine ⟨a, b, d2, ha, hb, k2, ?_, ?_⟩
  · rw [k1, k2, k3, k4, k5]
    have e : rolled 1000 9 500 0 (halfCube.real.translate ⟨-(1 / 2), -(1 / 2), 0⟩) ⟨0, 0, 0⟩ =
        rolled 1000 9 500 ⟨1 / 2, 1 / 2, 0⟩ halfCube.real ⟨1 / 2, 1 / 2, 0⟩ := by
      funext θ
      rw [← rolled_translate h1 (t := ⟨-(1 / 2), -(1 / 2), 0⟩) rfl]
      congr 1 <;> ext <;> simp
    rw [e]
    exact j2
  · have hs : (Hydro.ofClipped halfCube.real ⟨1 / 2, 1 / 2, 0⟩ 1000 9 M3.one 0 true none false c'').stiffness.r1.y = -375 := by
      simp only [Hydro.ofClipped]
      rw [hpv]
      simp only [hm', hvol, hx, hy, hz, if_true, List.map_cons, List.map_nil, Hydro.workingPoint, Hydro.sigmas, List.foldl_cons, List.foldl_nil,
        Hydro.Sigmas.poly, Hydro.Sigmas.step, Hydro.Sigmas.scale, Hydro.zeroTiny, M3.mulVec, M3.one, V3.dot]
      norm_num
    rw [hs] at j3
    unfold Hydro.zeroTiny at j3
    split_ifs at j3
    · norm_num at j3
    · linarith

/-- The hypotheses of C81 are met: the cube with its gravity centre low enough. -/
theorem halfCube_meets_C81 (solve : M3 ℝ → V3 ℝ → Except PyErr (V3 ℝ)) (rand : ℕ → ℝ × ℝ) (heap : ℕ → Force) :
    ∃ a b : State, a.refs.Nodup ∧ a.equilibrate insArgsort solve rand 1000 true = (b, .code 1) ∧ b.mesh.WF ∧ b.mesh.ClosedOriented ∧
      b.mesh.StrictlyConvexFaces ∧ (∀ f ∈ b.mesh.faces, ∀ i ∈ f.toList, 1 / 1000 < |(b.mesh.vert i).z|) ∧
      b.mesh.WellSeparated ⟨⟨0, 0, 1⟩, 0⟩ ∧ b.rho ≠ 0 ∧ ∃ d, b.data = some d ∧ d.dispVolume ≠ 0 := by
  obtain ⟨a, b, c, ha, hb, hr, k1, k2, k3, k4, k5, k6, hm, hw, k7⟩ :=
    halfCube_equilibrate solve rand heap (-1 / 4) (by norm_num) true 999
  obtain ⟨h1, h2, h3, h4, h5, h6, _⟩ := Hydro.halfCube_meets_C79 0 9
  rw [workingMesh_self] at h1 h2 h3 h4 h5
  refine ⟨a, b, by rw [hr]; exact List.nodup_nil, hb, ?_, ?_, ?_, ?_, ?_, by rw [k4]; norm_num, _, k7, ?_⟩
  · rw [k1]
    intro f hf i hi
    have := h1 f hf i hi
    simpa [Mesh.translate, Mesh.mapVertices, Mesh.nv] using this
  · rw [k1]; exact h2
  · rw [k1]
    have : (halfCube.real.translate ⟨-(1 / 2), -(1 / 2), 0⟩).translate ⟨1 / 2, 1 / 2, 0⟩ = halfCube.real := by
      simp only [Mesh.translate, Mesh.mapVertices, List.map_map]
      conv_rhs => rw [show halfCube.real = ⟨halfCube.real.vertices, halfCube.real.faces⟩ from rfl]
      congr 1
      conv_rhs => rw [← List.map_id halfCube.real.vertices]
      apply List.map_congr_left
      intro X _
      ext <;> simp
    refine strictlyConvex_translate ?_ ⟨1 / 2, 1 / 2, 0⟩ (by rw [this]; exact h3)
    intro f hf i hi
    have := h1 f hf i hi
    simpa [Mesh.translate, Mesh.mapVertices, Mesh.nv] using this
  · rw [k1]
    intro f hf i hi
    rw [translate_vert _ (h1 f hf i hi)]
    simpa using h4 f hf i hi
  · rw [k1]
    have : (halfCube.real.translate ⟨-(1 / 2), -(1 / 2), 0⟩).translate ⟨1 / 2, 1 / 2, 0⟩ = halfCube.real := by
      simp only [Mesh.translate, Mesh.mapVertices, List.map_map]
      conv_rhs => rw [show halfCube.real = ⟨halfCube.real.vertices, halfCube.real.faces⟩ from rfl]
      congr 1
      conv_rhs => rw [← List.map_id halfCube.real.vertices]
      apply List.map_congr_left
      intro X _
      ext <;> simp
    refine wellSeparated_translate ?_ (t := ⟨1 / 2, 1 / 2, 0⟩) rfl (by rw [this]; exact h5)
    intro f hf i hi
    have := h1 f hf i hi
    simpa [Mesh.translate, Mesh.mapVertices, Mesh.nv] using this
  · obtain ⟨d1, _⟩ := halfCube_data hm hw ⟨1 / 2, 1 / 2, -1 / 4⟩
    show (Hydro.ofClipped halfCube.real ⟨1 / 2, 1 / 2, -1 / 4⟩ 1000 9 M3.one 0 false none false c).dispVolume ≠ 0
    rw [d1]; norm_num

/-! ## C82 -/

/-- A call on the object that returns, other than `equilibrate`. -/
inductive OkCall (srt : (ℕ → ℝ) → List ℕ → List ℕ) (a : State) : State → Prop
  | mass (t : ℝ) : OkCall srt a (a.setMass t).1
  | gravityCenter (v : V3 ℝ) (b : State) : a.setGravityCenter srt v = (b, none) → OkCall srt a b
  | zg (z : ℝ) (b : State) : a.setZg srt z = (b, none) → OkCall srt a b
  | gravity (g : ℝ) (b : State) : a.setGravity srt g = (b, none) → OkCall srt a b
  | rho (r : ℝ) (b : State) : a.setRho srt r = (b, none) → OkCall srt a b
  | addForce (i : ℕ) : OkCall srt a (a.addForce i)
  | setDisplacement (d : ℝ) (b : State) : a.setDisplacement srt d = (b, none) → OkCall srt a b
  | reset (b : State) : a.reset srt = (b, none) → OkCall srt a b

lemma Fresh.call {a b : State} (h : OkCall srt a b) (hf : Fresh srt a) : Fresh srt b := by
  obtain ⟨c, h1, h2, h3, h4⟩ := hf
  cases h with
  | mass t => rw [setMass_eq (Prod.mk.eta (p := a.setMass t)).symm]; exact ⟨c, h1, h2, h3, h4⟩
  | gravityCenter v _ hb => exact update_fresh hb (.inr ⟨c, h3, h1⟩)
  | zg z _ hb => exact update_fresh hb (.inr ⟨c, h3, h1⟩)
  | gravity g _ hb => exact update_fresh hb (.inr ⟨c, h3, h1⟩)
  | rho r _ hb => exact update_fresh hb (.inr ⟨c, h3, h1⟩)
  | addForce i => exact ⟨c, h1, h2, h3, h4⟩
  | setDisplacement d _ hb =>
    rcases setDisplacement_fresh hb with h | ⟨_, rfl⟩
    · exact h
    · exact ⟨c, h1, h2, h3, h4⟩
  | reset _ hb => exact reset_fresh hb

lemma init_fresh {heap : ℕ → Force} {m : Mesh ℝ} {cog : V3 ℝ} {mass : Option ℝ} {rho grav : ℝ} {a : State}
    (h : init srt heap m cog mass rho grav = .ok a) : Fresh srt a := by
  unfold init at h
  dsimp only at h
  split at h
  · simp at h
  · rename_i s hs
    obtain ⟨c, h1, h2, h3, h4⟩ := update_fresh hs (.inl rfl)
    split at h
    · split at h
      · simp only [Except.ok.injEq] at h; subst h; exact ⟨c, h1, h2, h3, h4⟩
      · split at h
        · simp at h
        · rename_i s' hs'
          simp only [Except.ok.injEq] at h
          subst h
          rw [setMass_eq hs']
          exact ⟨c, h1, h2, h3, h4⟩
    · simp only [Except.ok.injEq] at h; subst h; exact ⟨c, h1, h2, h3, h4⟩

/-- **C82 (what holds).** After the constructor and any sequence of calls that return (setters, `add_force`,
`set_displacement`, `reset`), the hydrostatic data of the object are those of its mesh in its current position, with the
current gravity centre, density and gravity. Missing: `equilibrate` (`C82_fails`). -/
theorem C82_up_to_date_partial (heap : ℕ → Force) (m : Mesh ℝ) (cog : V3 ℝ) (mass : Option ℝ) (rho grav : ℝ) (a b : State)
    (ha : init srt heap m cog mass rho grav = .ok a) (hb : Relation.ReflTransGen (OkCall srt) a b) : b.UpToDate srt := by
  have : Fresh srt b := by
    induction hb with
    | refl => exact init_fresh ha
    | tail _ h ih => exact ih.call h
  exact this.upToDate

/-- **C82 (after any history).** `reset`, and `set_displacement` with at least one iteration allowed, when they return,
bring the data up to date whatever happened before. -/
theorem C82_brought_up_to_date (a b : State) (h : a.reset srt = (b, none) ∨
    (a.itermax ≠ 0 ∧ ∃ d, a.setDisplacement srt d = (b, none))) : b.UpToDate srt := by
  rcases h with h | ⟨hi, d, h⟩
  · exact (reset_fresh h).upToDate
  · rcases setDisplacement_fresh h with h | ⟨h0, _⟩
    · exact h.upToDate
    · exact absurd h0 hi

/-- The half immersed cube, with its axis on the vertical axis. -/
lemma centredCube_compute (g : V3 ℝ) : ∃ h, Hydro.compute insArgsort (halfCube.real.translate ⟨-(1 / 2), -(1 / 2), 0⟩) g 1000 9 = .ok h ∧
    h.buoyancyCenter = ⟨0, 0, -1 / 4⟩ := by
  obtain ⟨c, hc, _, hm, hw, hp⟩ := halfCube_update
  set t : V3 ℝ := ⟨-(1 / 2), -(1 / 2), 0⟩ with ht
  have h1 := C69_translate insArgsort insArgsort_isArgsort insArgsort_compat ⟨⟨0, 0, 1⟩, 0⟩ (1 / 1000) true halfCube.real
    (by have := (Hydro.halfCube_meets_C79 0 9).1; rwa [workingMesh_self] at this) t
  have hpl : (⟨⟨0, 0, 1⟩, 0⟩ : Plane ℝ).translate t = ⟨⟨0, 0, 1⟩, 0⟩ := by
    simp [Plane.translate, V3.dot, ht]
  rw [hpl, hc] at h1
  simp only [Except.map] at h1
  have hcl : (Clipper.Clipped.translate t c).clipped = halfCubeClipped.translate t := by
    show c.clipped.translate t = _
    rw [hm]
  have h4 : (√4 : ℝ) = 2 := by rw [show (4 : ℝ) = 2 * 2 by norm_num]; exact Real.sqrt_mul_self (by norm_num)
  have hvol : (halfCubeClipped.translate t).volume = 1 / 2 := by
    rw [volume_eq]
    simp [halfCubeClipped, ht, Mesh.translate, Mesh.mapVertices, Mesh.faceProps, Mesh.faceIntegrals, Face.isTri, Mesh.quadPropsOf,
      quadProps, quadA1, quadA2, Mesh.vert, V3.norm, V3.normSq, V3.cross, V3.dot, Mesh.quadIntegralsOf, triIntegrals, triDelta, pf1]
    norm_num [sqrt_quarter, h4]
  have hcog : ((halfCubeClipped.translate t).evalPlain 1000).cog = ⟨0, 0, -1 / 4⟩ := by
    simp only [Mesh.evalPlain, Inertia.init, hvol, normalWeighted_eq]
    ext
    · simp [halfCubeClipped, ht, Mesh.translate, Mesh.mapVertices, Mesh.faceProps, Mesh.faceIntegrals, Face.isTri, Mesh.quadPropsOf,
        quadProps, quadA1, quadA2, Mesh.vert, V3.norm, V3.normSq, V3.cross, V3.dot, Mesh.quadIntegralsOf, triIntegrals, triDelta,
        pf1, pf2, pt2]
      norm_num [sqrt_quarter, h4]
    · simp [halfCubeClipped, ht, Mesh.translate, Mesh.mapVertices, Mesh.faceProps, Mesh.faceIntegrals, Face.isTri, Mesh.quadPropsOf,
        quadProps, quadA1, quadA2, Mesh.vert, V3.norm, V3.normSq, V3.cross, V3.dot, Mesh.quadIntegralsOf, triIntegrals, triDelta,
        pf1, pf2, pt2]
      norm_num [sqrt_quarter, h4]
    · simp [halfCubeClipped, ht, Mesh.translate, Mesh.mapVertices, Mesh.faceProps, Mesh.faceIntegrals, Face.isTri, Mesh.quadPropsOf,
        quadProps, quadA1, quadA2, Mesh.vert, V3.norm, V3.normSq, V3.cross, V3.dot, Mesh.quadIntegralsOf, triIntegrals, triDelta,
        pf1, pf2, pt2]
      norm_num [sqrt_quarter, h4]
  refine ⟨Hydro.ofClipped (halfCube.real.translate t) g 1000 9 M3.one 0 false none false (Clipper.Clipped.translate t c), ?_, ?_⟩
  · unfold Hydro.compute
    rw [workingMesh_self, h1]
    simp only
    rw [if_neg (show (Clipper.Clipped.translate t c).closedPolygons ≠ [] from hp)]
  · simp only [Hydro.ofClipped, hcl, hcog]
    ext <;> simp [M3.mulVec, M3.one, M3.transpose, M3.c0, M3.c1, M3.c2, V3.dot]

/-- **C82 (violation).** On the half immersed cube with its gravity centre on its axis, `equilibrate` returns 1 and translates
the cube onto the vertical axis. Then setting the gravity (to the same value) gives a buoyancy centre which is where the
cube was, 0.5 away in `x` and in `y` from that of the mesh: the data come from the mesh clipped before the translation. -/
theorem C82_fails (solve : M3 ℝ → V3 ℝ → Except PyErr (V3 ℝ)) (rand : ℕ → ℝ × ℝ) (heap : ℕ → Force) (initDisp : Bool) (fuel : ℕ) :
    ∃ a b b' d h, init insArgsort heap halfCube.real ⟨1 / 2, 1 / 2, -1 / 4⟩ none 1000 9 = .ok a ∧
      a.equilibrate insArgsort solve rand (fuel + 1) initDisp = (b, .code 1) ∧ b.setGravity insArgsort 9 = (b', none) ∧
      b'.data = some d ∧ Hydro.compute insArgsort b'.mesh b'.gc b'.rho b'.grav = .ok h ∧
      d.buoyancyCenter = ⟨1 / 2, 1 / 2, -1 / 4⟩ ∧ h.buoyancyCenter = ⟨0, 0, -1 / 4⟩ := by
  obtain ⟨a, b, c, ha, hb, _, k1, k2, k3, k4, k5, k6, hm, hw, _⟩ :=
    halfCube_equilibrate solve rand heap (-1 / 4) (by norm_num) initDisp fuel
  obtain ⟨h, hh, hB⟩ := centredCube_compute ⟨0, 0, -1 / 4⟩
  have hp : c.closedPolygons ≠ [] := by
    intro h0
    unfold Hydro.waterline at hw
    rw [h0] at hw
    simp at hw
  have hset : b.setGravity insArgsort 9 = ({ b with grav := 9, clipper := some c, data := some (Hydro.ofClipped b.mesh b.gc b.rho 9
      M3.one 0 false none false c) }, none) := by
    unfold State.setGravity State.update
    simp only [k6, State.updateWith, hm, halfCubeClipped_areas, hp, if_false, Bool.false_eq_true]
  refine ⟨a, b, _, _, h, ha, hb, hset, rfl, ?_, ?_, hB⟩
  · show Hydro.compute insArgsort b.mesh b.gc b.rho 9 = .ok h
    rw [k1, k2, k4]; exact hh
  · have hx := (halfCubeClipped_cog 1000).1
    have hy := (halfCubeClipped_cog 1000).2
    have hz := halfCubeClipped_cogz 1000
    simp only [Hydro.ofClipped, hm, k4]
    ext <;> simp [M3.mulVec, M3.one, M3.transpose, M3.c0, M3.c1, M3.c2, V3.dot, hx, hy, hz]

/-! ## C50 (mass) -/

/-- **C50 (mass, refused).** For a watertight hull with plane faces, setting the mass fails exactly when the body is heavier
than the water which fills its whole volume. -/
theorem C50_mass_refused (st : State) (tons : ℝ) (hwf : st.mesh.WF) (hcl : st.mesh.ClosedOriented)
    (hf : st.mesh.ConvexFaces) (o : V3 ℝ) :
    ((st.setMass tons).2 = some (.py .valueError) ↔ st.rho * st.mesh.solidIntegral o (fun _ => 1) < 1000 * tons) ∧
    ((st.setMass tons).2 = none ↔ 1000 * tons ≤ st.rho * st.mesh.solidIntegral o (fun _ => 1)) := by
  have hv := (C26_volume st.mesh hwf hcl hf).2.1 o
  unfold State.setMass
  dsimp only
  rw [← hv, mul_comm tons 1000]
  split_ifs with h
  · simp [h, not_le.2 h]
  · simp [not_lt.1 h, h]

/-- The hypotheses are met by the unit cube. -/
example : (cubeMesh ℝ).WF ∧ (cubeMesh ℝ).ClosedOriented ∧ (cubeMesh ℝ).ConvexFaces :=
  ⟨cubeMesh_wf ℝ, cubeMesh_closed ℝ, cubeMesh_convex⟩

end Old
end MM
