import Verif.Model.HydrostaticsOld
import Verif.Props.Plane
import Verif.Spec.Witness

/-!
# The old solver (C50, C68)
-/

namespace MM
namespace Old

set_option linter.unusedSectionVars false
set_option linter.unusedSimpArgs false

variable {srt : (ℕ → ℝ) → List ℕ → List ℕ}

/-! ## Specification -/

/-- `b` is `a` moved rigidly by the rotation `R` and the translation `T`: mesh, gravity centre, application points of the
forces, directions of the relative forces; the accumulated rotation is composed with `R`. -/
def Coupled (a b : State) (R : M3 ℝ) (T : V3 ℝ) : Prop :=
  R.IsRotation ∧ b.mesh = a.mesh.mapVertices (fun v => R.mulVec v + T) ∧ b.gc = R.mulVec a.gc + T ∧
  b.rotation = R.mul a.rotation ∧ b.refs = a.refs ∧
  ∀ i ∈ a.refs, (b.heap i).point = R.mulVec (a.heap i).point + T ∧ (b.heap i).relative = (a.heap i).relative ∧
    (b.heap i).value = if (a.heap i).relative then R.mulVec (a.heap i).value else (a.heap i).value

/-- A call of `set_displacement` (even if it raises) or a call of `equilibrate` that returns. -/
def Step (srt : (ℕ → ℝ) → List ℕ → List ℕ) (a b : State) : Prop :=
  (∃ d e, a.setDisplacement srt d = (b, e)) ∨
  (∃ solve rand fuel initDisp n, a.equilibrate srt solve rand fuel initDisp = (b, .code n))

/-! ## Lemmas -/

lemma one_isRotation : (M3.one : M3 ℝ).IsRotation := by
  have := cardan_isRotation 0 0 0
  simpa [cardanToRotmat, M3.one] using this

lemma foldl_update {α : Type*} (g : α → α) : ∀ (l : List ℕ) (h : ℕ → α), l.Nodup →
    ∀ i ∈ l, (l.foldl (fun h i => Function.update h i (g (h i))) h) i = g (h i) := by
  have out : ∀ (l : List ℕ) (h : ℕ → α) (i : ℕ), i ∉ l → (l.foldl (fun h i => Function.update h i (g (h i))) h) i = h i := by
    intro l
    induction l with
    | nil => intro h i _; rfl
    | cons a l ih =>
      intro h i hi
      simp only [List.mem_cons, not_or] at hi
      rw [List.foldl_cons, ih _ _ hi.2, Function.update_of_ne hi.1]
  intro l
  induction l with
  | nil => intro h _ i hi; simp at hi
  | cons a l ih =>
    intro h hn i hi
    rw [List.nodup_cons] at hn
    rw [List.foldl_cons]
    rcases List.mem_cons.1 hi with rfl | hi
    · rw [out l _ _ hn.1, Function.update_self]
    · have hia : i ≠ a := by rintro he; rw [he] at hi; exact hn.1 hi
      rw [ih _ hn.2 i hi, Function.update_of_ne hia]

lemma update_frame (st st' : State) (e : Option ClipErr) (h : st.update srt = (st', e)) :
    ∃ c d, st' = { st with clipper := c, data := d } := by
  have key : ∀ c, ∀ r, st.updateWith c = r → ∃ c d, r.1 = { st with clipper := c, data := d } := by
    intro c r hr
    subst hr
    unfold State.updateWith
    dsimp only
    split
    · exact ⟨_, _, rfl⟩
    · split <;> exact ⟨_, _, rfl⟩
  unfold State.update at h
  split at h
  · exact key _ _ h
  · split at h
    · simp only [Prod.mk.injEq] at h
      exact ⟨st.clipper, st.data, by rw [← h.1]⟩
    · exact key _ _ h

lemma update_data {st st' : State} (h : st.update srt = (st', none)) : ∃ d, st'.data = some d := by
  have key : ∀ c, st.updateWith c = (st', none) → ∃ d, st'.data = some d := by
    intro c hc
    unfold State.updateWith at hc
    dsimp only at hc
    split at hc
    · simp at hc
    · split at hc
      · simp at hc
      · simp only [Prod.mk.injEq, and_true] at hc
        rw [← hc]
        exact ⟨_, rfl⟩
  unfold State.update at h
  split at h
  · exact key _ h
  · split at h
    · simp at h
    · exact key _ h

lemma m3_mul_assoc (a b c : M3 ℝ) : (a.mul b).mul c = a.mul (b.mul c) := by
  ext <;> simp [M3.mul, M3.mulVec, M3.transpose, V3.dot, M3.c0, M3.c1, M3.c2] <;> ring

lemma mulVec_add' (a : M3 ℝ) (u v : V3 ℝ) : a.mulVec (u + v) = a.mulVec u + a.mulVec v := by
  ext <;> simp [M3.mulVec, V3.dot] <;> ring

lemma m3_one_mul (a : M3 ℝ) : M3.one.mul a = a := by
  ext <;> simp [M3.mul, M3.mulVec, M3.transpose, V3.dot, M3.one, M3.c0, M3.c1, M3.c2]

lemma rotateMatrix_one (m : Mesh ℝ) : m.rotateMatrix M3.one = m := by
  have : (M3.one : M3 ℝ).mulVec = id := funext (fun v => M3.one_mulVec v)
  simp [Mesh.rotateMatrix, Mesh.mapVertices, this]

lemma Coupled.refl (a : State) : Coupled a a M3.one 0 := by
  refine ⟨one_isRotation, ?_, ?_, (m3_one_mul _).symm, rfl, ?_⟩
  · simp [Mesh.mapVertices, M3.one_mulVec]
  · simp [M3.one_mulVec]
  · intro i _
    refine ⟨by simp [M3.one_mulVec], rfl, by simp [M3.one_mulVec]⟩

lemma Coupled.trans {a b c : State} {R R' : M3 ℝ} {T T' : V3 ℝ} (h : Coupled a b R T) (h' : Coupled b c R' T') :
    Coupled a c (R'.mul R) (R'.mulVec T + T') := by
  obtain ⟨h1, h2, h3, h4, h5, h6⟩ := h
  obtain ⟨k1, k2, k3, k4, k5, k6⟩ := h'
  refine ⟨M3.IsRotation.mul k1 h1, ?_, ?_, ?_, k5.trans h5, ?_⟩
  · rw [k2, h2]
    simp only [Mesh.mapVertices, List.map_map]
    congr 1
    refine List.map_congr_left (fun v _ => ?_)
    simp only [Function.comp, M3.mul_mulVec, mulVec_add', add_assoc]
  · rw [k3, h3, M3.mul_mulVec, mulVec_add', add_assoc]
  · rw [k4, h4, m3_mul_assoc]
  · intro i hi
    obtain ⟨a1, a2, a3⟩ := h6 i hi
    obtain ⟨b1, b2, b3⟩ := k6 i (by rw [h5]; exact hi)
    refine ⟨?_, b2.trans a2, ?_⟩
    · rw [b1, a1, M3.mul_mulVec, mulVec_add', add_assoc]
    · rw [b3, a3, a2]
      split <;> simp [M3.mul_mulVec]

/-- Only the six fields of the statement matter. -/
lemma Coupled.congr {a b b' : State} {R : M3 ℝ} {T : V3 ℝ} (h : Coupled a b R T) (h1 : b'.mesh = b.mesh)
    (h2 : b'.gc = b.gc) (h3 : b'.rotation = b.rotation) (h4 : b'.refs = b.refs) (h5 : b'.heap = b.heap) :
    Coupled a b' R T := by
  obtain ⟨k1, k2, k3, k4, k5, k6⟩ := h
  exact ⟨k1, h1.trans k2, h2.trans k3, h3.trans k4, h4.trans k5, by rw [h5]; exact k6⟩

/-- The move of an iteration: translation by `dz`, then rotation. -/
lemma coupled_move {a b : State} (hn : a.refs.Nodup) (dz : ℝ) (R : M3 ℝ) (hR : R.IsRotation)
    (h1 : b.mesh = (a.mesh.translateZ dz).rotateMatrix R) (h2 : b.gc = R.mulVec ⟨a.gc.x, a.gc.y, a.gc.z + dz⟩)
    (h3 : b.rotation = R.mul a.rotation) (h4 : b.refs = a.refs) (h5 : b.heap = moveForces dz R a.refs a.heap) :
    Coupled a b R (R.mulVec ⟨0, 0, dz⟩) := by
  have hz : ∀ v : V3 ℝ, (⟨v.x, v.y, v.z + dz⟩ : V3 ℝ) = v + ⟨0, 0, dz⟩ := by intro v; ext <;> simp
  refine ⟨hR, ?_, ?_, h3, h4, ?_⟩
  · rw [h1]
    simp only [Mesh.rotateMatrix, Mesh.translateZ, Mesh.mapVertices, List.map_map]
    congr 1
    refine List.map_congr_left (fun v _ => ?_)
    simp only [Function.comp, hz, mulVec_add']
  · rw [h2, hz, mulVec_add']
  · intro i hi
    have := foldl_update (fun f : Force => f.update dz R) a.refs a.heap hn i hi
    rw [h5]
    unfold moveForces
    rw [this]
    refine ⟨?_, rfl, rfl⟩
    simp only [Force.update, hz, mulVec_add']

lemma dispLoop_coupled : ∀ (fuel : ℕ) (dz : ℝ) (a b : State) (e : Option ClipErr), a.refs.Nodup →
    dispLoop srt fuel dz a = (b, e) → ∃ R T, Coupled a b R T := by
  intro fuel
  induction fuel with
  | zero =>
    intro dz a b e _ h
    simp only [dispLoop, Prod.mk.injEq] at h
    obtain ⟨rfl, _⟩ := h
    exact ⟨_, _, Coupled.refl _⟩
  | succ n ih =>
    intro dz a b e hn h
    unfold dispLoop at h
    dsimp only at h
    have hframe : ∀ s o, (State.update srt (State.reinit
        { (State.gcInPlace { a with mesh := a.mesh.translateZ dz } ⟨a.gc.x, a.gc.y, a.gc.z + dz⟩) with
          heap := moveForces dz M3.one a.refs a.heap })) = (s, o) → Coupled a s M3.one (M3.one.mulVec ⟨0, 0, dz⟩) ∧
          s.refs = a.refs := by
      intro s o hs
      obtain ⟨c, d, rfl⟩ := update_frame _ _ _ hs
      refine ⟨coupled_move hn dz M3.one one_isRotation ?_ ?_ ?_ rfl rfl, rfl⟩
      · show a.mesh.translateZ dz = _
        rw [rotateMatrix_one]
      · simp [State.reinit, State.gcInPlace, M3.one_mulVec]
      · simp [State.reinit, State.gcInPlace, m3_one_mul]
    split at h
    · rename_i s e' hs
      simp only [Prod.mk.injEq] at h
      exact ⟨_, _, h.1 ▸ (hframe _ _ hs).1⟩
    · rename_i s hs
      obtain ⟨hc, hr⟩ := hframe _ _ hs
      split at h
      · simp only [Prod.mk.injEq] at h
        exact ⟨_, _, h.1 ▸ hc⟩
      · split at h
        · simp only [Prod.mk.injEq] at h
          exact ⟨_, _, h.1 ▸ hc⟩
        · obtain ⟨R, T, h2⟩ := ih _ _ _ _ (by rw [hr]; exact hn) h
          exact ⟨_, _, hc.trans h2⟩

lemma setDisplacement_coupled {a b : State} {d : ℝ} {e : Option ClipErr} (hn : a.refs.Nodup)
    (h : a.setDisplacement srt d = (b, e)) : ∃ R T, Coupled a b R T := by
  have hm : ∀ s o, a.setMass d = (s, o) → s = { a with mass := d * 1000 } := by
    intro s o hs
    unfold State.setMass at hs
    dsimp only at hs
    split at hs <;> simp only [Prod.mk.injEq] at hs <;> exact hs.1.symm
  unfold State.setDisplacement at h
  split at h
  · rename_i s e' hs
    simp only [Prod.mk.injEq] at h
    rw [hm _ _ hs] at h
    exact ⟨_, _, (Coupled.refl a).congr (by rw [← h.1]) (by rw [← h.1]) (by rw [← h.1]) (by rw [← h.1]) (by rw [← h.1])⟩
  · rename_i s hs
    have := hm _ _ hs
    subst this
    obtain ⟨R, T, hc⟩ := dispLoop_coupled (srt := srt) _ _ _ _ _ (by exact hn) h
    exact ⟨R, T, hc⟩

lemma restart_coupled {a b : State} {t : ℝ × ℝ} (hn : a.refs.Nodup) (h : a.restart srt t = (b, none)) :
    ∃ R T, Coupled a b R T := by
  unfold State.restart at h
  dsimp only at h
  split at h
  · simp at h
  · rename_i s hs
    simp only [Prod.mk.injEq, and_true] at h
    obtain ⟨c, d, rfl⟩ := update_frame _ _ _ hs
    subst h
    refine ⟨_, _, coupled_move hn 0 _ (cardan_isRotation t.1 t.2 0) ?_ ?_ rfl rfl rfl⟩
    · simp [State.reinit, State.gcRebind, Mesh.rotate, Mesh.rotateMatrix, Mesh.translateZ, Mesh.mapVertices]
    · simp [State.reinit, State.gcRebind]

lemma move_coupled {a b : State} {v : Vars} {e : Option ClipErr} (hn : a.refs.Nodup) (h : a.move srt v = (b, e)) :
    ∃ R T, Coupled a b R T := by
  unfold State.move at h
  dsimp only at h
  obtain ⟨c, d, rfl⟩ := update_frame _ _ _ h
  refine ⟨_, _, coupled_move hn v.dz _ (cardan_isRotation v.tx v.ty 0) ?_ ?_ rfl rfl rfl⟩
  · simp [State.reinit, State.gcRebind, State.gcInPlace, Mesh.rotate]
  · simp [State.reinit, State.gcRebind, State.gcInPlace]

lemma equilLoop_coupled {solve : M3 ℝ → V3 ℝ → Except PyErr (V3 ℝ)} {rand : ℕ → ℝ × ℝ} :
    ∀ (fuel : ℕ) (v : Vars) (a b : State) (n : ℕ), a.refs.Nodup →
      equilLoop srt solve rand fuel v a = (b, .code n) → ∃ R T, Coupled a b R T := by
  intro fuel
  induction fuel with
  | zero => intro v a b n _ h; simp [equilLoop] at h
  | succ k ih =>
    intro v a b n hn h
    have main : ∀ (v : Vars) (s : State), s.refs.Nodup →
        (match s.move srt v with
          | (st, some e) => (st, Outcome.raised e)
          | (st, none) =>
            match st.data with
            | none => (st, .running)
            | some h =>
              match st.next solve h v with
              | .inl o => (st, o)
              | .inr v => equilLoop srt solve rand k v st) = (b, .code n) → ∃ R T, Coupled s b R T := by
      intro v s hs hb
      split at hb
      · simp at hb
      · rename_i s' hm
        obtain ⟨R, T, hc⟩ := move_coupled hs hm
        split at hb
        · simp at hb
        · split at hb
          · simp only [Prod.mk.injEq] at hb
            exact ⟨R, T, hb.1 ▸ hc⟩
          · obtain ⟨R', T', hc'⟩ := ih _ _ _ _ (by rw [hc.2.2.2.2.1]; exact hs) hb
            exact ⟨_, _, hc.trans hc'⟩
    unfold equilLoop at h
    dsimp only at h
    split at h
    · split at h
      · split at h
        · simp at h
        · rename_i s hs
          obtain ⟨R, T, hc⟩ := restart_coupled hn hs
          obtain ⟨R', T', hc'⟩ := main _ _ (by rw [hc.2.2.2.2.1]; exact hn) h
          exact ⟨_, _, hc.trans hc'⟩
      · simp only [Prod.mk.injEq] at h
        obtain ⟨rfl, _⟩ := h
        exact ⟨_, _, Coupled.refl _⟩
    · exact main _ _ hn h

lemma zeroXY_coupled (a : State) (hn : a.refs.Nodup) : Coupled a a.zeroXY M3.one ⟨-a.gc.x, -a.gc.y, 0⟩ := by
  refine ⟨one_isRotation, ?_, ?_, (m3_one_mul _).symm, rfl, ?_⟩
  · simp [State.zeroXY, State.gcInPlace, Mesh.translate, Mesh.mapVertices, M3.one_mulVec]
  · simp only [State.zeroXY, State.gcInPlace, M3.one_mulVec]
    ext <;> simp
  · intro i hi
    have := foldl_update (fun f : Force => f.updateXY (-a.gc.x) (-a.gc.y)) a.refs a.heap hn i hi
    have h2 : a.zeroXY.heap i = (a.heap i).updateXY (-a.gc.x) (-a.gc.y) := this
    rw [h2]
    refine ⟨?_, rfl, by simp [Force.updateXY, M3.one_mulVec]⟩
    simp only [Force.updateXY, M3.one_mulVec]
    ext <;> simp

lemma equilibrate_coupled {solve : M3 ℝ → V3 ℝ → Except PyErr (V3 ℝ)} {rand : ℕ → ℝ × ℝ} {fuel : ℕ} {initDisp : Bool}
    {a b : State} {n : ℕ} (hn : a.refs.Nodup) (h : a.equilibrate srt solve rand fuel initDisp = (b, .code n)) :
    ∃ R T, Coupled a b R T := by
  have start : ∀ s : State, s.refs.Nodup → (match equilLoop srt solve rand fuel ⟨0, 0, false, 0, 0, 0⟩ s with
      | (st, .code n) => (st.zeroXY, Outcome.code n)
      | r => r) = (b, .code n) → ∃ R T, Coupled s b R T := by
    intro s hs hb
    split at hb
    · rename_i s' m hm
      obtain ⟨R, T, hc⟩ := equilLoop_coupled _ _ _ _ _ hs hm
      simp only [Prod.mk.injEq] at hb
      have hz := zeroXY_coupled s' (by rw [hc.2.2.2.2.1]; exact hs)
      exact ⟨_, _, hb.1 ▸ hc.trans hz⟩
    · rename_i r hno
      exact absurd hb (fun hb => hno _ _ hb)
  unfold State.equilibrate at h
  dsimp only at h
  split at h
  · split at h
    · simp at h
    · rename_i s hs
      obtain ⟨R, T, hc⟩ := setDisplacement_coupled hn hs
      obtain ⟨R', T', hc'⟩ := start s (by rw [hc.2.2.2.2.1]; exact hn) h
      exact ⟨_, _, hc.trans hc'⟩
  · exact start a hn h

/-! ## C50 -/

/-- **C50 (rigid coupling).** Through any sequence of `set_displacement` (even when it raises) and `equilibrate` (when it
returns), whatever the hull response, the random restarts and the linear solver, the mesh, the gravity centre and the
distinct forces undergo the same rigid motion, whose rotation is the one accumulated. -/
theorem C50_rigid_coupling (a b : State) (hn : a.refs.Nodup) (h : Relation.ReflTransGen (Step srt) a b) :
    ∃ R T, Coupled a b R T := by
  induction h with
  | refl => exact ⟨_, _, Coupled.refl a⟩
  | tail _ hstep ih =>
    obtain ⟨R, T, hc⟩ := ih
    have hn' := hn
    rw [← hc.2.2.2.2.1] at hn'
    rcases hstep with ⟨d, e, hd⟩ | ⟨solve, rand, fuel, i, n, he⟩
    · obtain ⟨R', T', hc'⟩ := setDisplacement_coupled hn' hd
      exact ⟨_, _, hc.trans hc'⟩
    · obtain ⟨R', T', hc'⟩ := equilibrate_coupled hn' he
      exact ⟨_, _, hc.trans hc'⟩

/-- **C50 (violation).** A force added twice (the same object) moves twice as much as the mesh. -/
theorem C50_force_added_twice (heap : ℕ → Force) (i : ℕ) (dz : ℝ) :
    (moveForces dz M3.one [i, i] heap i).point =
      ⟨(heap i).point.x, (heap i).point.y, (heap i).point.z + 2 * dz⟩ := by
  simp only [moveForces, List.foldl_cons, List.foldl_nil, Function.update_self, Force.update, M3.one_mulVec]
  ext <;> simp
  ring

/-- **C50 (units).** The mass set in tons is the mass read back, also after `set_displacement`. -/
theorem C50_mass (st : State) (tons : ℝ) : (st.setMass tons).1.massTons = tons := by
  unfold State.setMass State.massTons
  dsimp only
  split <;> simp

/-- **C50 (violation).** The mass given to the constructor is not the mass read back: it is a thousand times that. -/
theorem C50_constructor_mass_fails (heap : ℕ → Force) (m : Mesh ℝ) (cog : V3 ℝ) (tons rho grav : ℝ) (ht : tons ≠ 0)
    (st : State) (h : init srt heap m cog (some tons) rho grav = .ok st) : st.massTons = 1000 * tons ∧ st.massTons ≠ tons := by
  have key : st.massTons = 1000 * tons := by
    unfold init at h
    dsimp only at h
    split at h
    · simp at h
    · rw [if_neg ht] at h
      split at h
      · simp at h
      · rename_i s hs
        simp only [Except.ok.injEq] at h
        subst h
        have := congrArg (fun r : State × Option ClipErr => r.1.massTons) hs
        simp only [C50_mass] at this
        rw [← this]
        ring
  refine ⟨key, ?_⟩
  rw [key]
  intro h
  exact ht (by linarith)

/-! ### Reset -/

/-- What a call does to the backups: the initial mesh is never changed; the gravity centre neither as long as it is not
shared with the current one. -/
def Keeps (a b : State) : Prop :=
  b.initMesh = a.initMesh ∧ (a.aliased = false → b.aliased = false ∧ b.backupGc = a.backupGc)

lemma Keeps.refl (a : State) : Keeps a a := ⟨rfl, fun h => ⟨h, rfl⟩⟩
lemma Keeps.trans {a b c : State} (h : Keeps a b) (h' : Keeps b c) : Keeps a c :=
  ⟨h'.1.trans h.1, fun ha => ⟨(h'.2 (h.2 ha).1).1, ((h'.2 (h.2 ha).1).2).trans (h.2 ha).2⟩⟩

lemma update_keeps {a b : State} {e : Option ClipErr} (h : a.update srt = (b, e)) : Keeps a b := by
  obtain ⟨c, d, rfl⟩ := update_frame _ _ _ h
  exact ⟨rfl, fun h => ⟨h, rfl⟩⟩

lemma setMass_eq {a s : State} {d : ℝ} {o : Option ClipErr} (hs : a.setMass d = (s, o)) : s = { a with mass := d * 1000 } := by
  unfold State.setMass at hs
  dsimp only at hs
  split at hs <;> simp only [Prod.mk.injEq] at hs <;> exact hs.1.symm

lemma gcInPlace_keeps (a : State) (v : V3 ℝ) : Keeps a (a.gcInPlace v) :=
  ⟨rfl, fun h => ⟨h, by simp [State.gcInPlace, h]⟩⟩

lemma dispLoop_keeps : ∀ (fuel : ℕ) (dz : ℝ) (a b : State) (e : Option ClipErr),
    dispLoop srt fuel dz a = (b, e) → Keeps a b := by
  intro fuel
  induction fuel with
  | zero =>
    intro dz a b e h
    simp only [dispLoop, Prod.mk.injEq] at h
    obtain ⟨rfl, _⟩ := h
    exact Keeps.refl _
  | succ n ih =>
    intro dz a b e h
    unfold dispLoop at h
    dsimp only at h
    have hframe : ∀ s o, (State.update srt (State.reinit
        { (State.gcInPlace { a with mesh := a.mesh.translateZ dz } ⟨a.gc.x, a.gc.y, a.gc.z + dz⟩) with
          heap := moveForces dz M3.one a.refs a.heap })) = (s, o) → Keeps a s := by
      intro s o hs
      have h1 := update_keeps hs
      refine Keeps.trans (b := State.gcInPlace { a with mesh := a.mesh.translateZ dz } ⟨a.gc.x, a.gc.y, a.gc.z + dz⟩) ?_ h1
      exact gcInPlace_keeps { a with mesh := a.mesh.translateZ dz } _
    split at h
    · rename_i s e' hs
      simp only [Prod.mk.injEq] at h
      exact h.1 ▸ hframe _ _ hs
    · rename_i s hs
      have hc := hframe _ _ hs
      split at h
      · simp only [Prod.mk.injEq] at h
        exact h.1 ▸ hc
      · split at h
        · simp only [Prod.mk.injEq] at h
          exact h.1 ▸ hc
        · exact hc.trans (ih _ _ _ _ h)

lemma setDisplacement_keeps {a b : State} {d : ℝ} {e : Option ClipErr} (h : a.setDisplacement srt d = (b, e)) :
    Keeps a b := by
  unfold State.setDisplacement at h
  split at h
  · rename_i s e' hs
    simp only [Prod.mk.injEq] at h
    rw [setMass_eq hs] at h
    rw [← h.1]
    exact ⟨rfl, fun h => ⟨h, rfl⟩⟩
  · rename_i s hs
    have := setMass_eq hs
    subst this
    have h1 := dispLoop_keeps _ _ _ _ _ h
    exact h1

lemma restart_keeps {a b : State} {t : ℝ × ℝ} {e : Option ClipErr} (h : a.restart srt t = (b, e)) : Keeps a b := by
  unfold State.restart at h
  dsimp only at h
  split at h
  · rename_i s _ hs
    simp only [Prod.mk.injEq] at h
    obtain ⟨c, d, rfl⟩ := update_frame _ _ _ hs
    rw [← h.1]
    exact ⟨rfl, fun _ => ⟨rfl, rfl⟩⟩
  · rename_i s hs
    simp only [Prod.mk.injEq] at h
    obtain ⟨c, d, rfl⟩ := update_frame _ _ _ hs
    rw [← h.1]
    exact ⟨rfl, fun _ => ⟨rfl, rfl⟩⟩

lemma move_keeps {a b : State} {v : Vars} {e : Option ClipErr} (h : a.move srt v = (b, e)) : Keeps a b := by
  unfold State.move at h
  dsimp only at h
  obtain ⟨c, d, rfl⟩ := update_frame _ _ _ h
  refine ⟨rfl, fun ha => ⟨rfl, ?_⟩⟩
  show (if a.aliased then _ else a.backupGc) = a.backupGc
  simp [ha]

lemma equilLoop_keeps {solve : M3 ℝ → V3 ℝ → Except PyErr (V3 ℝ)} {rand : ℕ → ℝ × ℝ} :
    ∀ (fuel : ℕ) (v : Vars) (a b : State) (o : Outcome), equilLoop srt solve rand fuel v a = (b, o) → Keeps a b := by
  intro fuel
  induction fuel with
  | zero =>
    intro v a b o h
    simp only [equilLoop, Prod.mk.injEq] at h
    obtain ⟨rfl, _⟩ := h
    exact Keeps.refl _
  | succ k ih =>
    intro v a b o h
    have main : ∀ (v : Vars) (s : State),
        (match s.move srt v with
          | (st, some e) => (st, Outcome.raised e)
          | (st, none) =>
            match st.data with
            | none => (st, .running)
            | some h =>
              match st.next solve h v with
              | .inl o => (st, o)
              | .inr v => equilLoop srt solve rand k v st) = (b, o) → Keeps s b := by
      intro v s hb
      split at hb
      · rename_i s' _ hm
        simp only [Prod.mk.injEq] at hb
        exact hb.1 ▸ move_keeps hm
      · rename_i s' hm
        have hc := move_keeps hm
        split at hb
        · simp only [Prod.mk.injEq] at hb
          exact hb.1 ▸ hc
        · split at hb
          · simp only [Prod.mk.injEq] at hb
            exact hb.1 ▸ hc
          · exact hc.trans (ih _ _ _ _ hb)
    unfold equilLoop at h
    dsimp only at h
    split at h
    · split at h
      · split at h
        · rename_i s _ hs
          simp only [Prod.mk.injEq] at h
          exact h.1 ▸ restart_keeps hs
        · rename_i s hs
          exact (restart_keeps hs).trans (main _ _ h)
      · simp only [Prod.mk.injEq] at h
        obtain ⟨rfl, _⟩ := h
        exact Keeps.refl _
    · exact main _ _ h

lemma zeroXY_keeps (a : State) : Keeps a a.zeroXY :=
  ⟨rfl, fun ha => ⟨ha, by simp [State.zeroXY, State.gcInPlace, ha]⟩⟩

lemma equilibrate_keeps {solve : M3 ℝ → V3 ℝ → Except PyErr (V3 ℝ)} {rand : ℕ → ℝ × ℝ} {fuel : ℕ} {initDisp : Bool}
    {a b : State} {o : Outcome} (h : a.equilibrate srt solve rand fuel initDisp = (b, o)) : Keeps a b := by
  have start : ∀ s : State, (match equilLoop srt solve rand fuel ⟨0, 0, false, 0, 0, 0⟩ s with
      | (st, .code n) => (st.zeroXY, Outcome.code n)
      | r => r) = (b, o) → Keeps s b := by
    intro s hb
    split at hb
    · rename_i s' m hm
      simp only [Prod.mk.injEq] at hb
      exact hb.1 ▸ (equilLoop_keeps _ _ _ _ _ hm).trans (zeroXY_keeps s')
    · exact equilLoop_keeps _ _ _ _ _ hb
  unfold State.equilibrate at h
  dsimp only at h
  split at h
  · split at h
    · rename_i s _ hs
      simp only [Prod.mk.injEq] at h
      exact h.1 ▸ setDisplacement_keeps hs
    · rename_i s hs
      exact (setDisplacement_keeps hs).trans (start s h)
  · exact start a h

/-- Any call on the object, whether it raises or not, except the setter of the gravity centre. -/
inductive Call (srt : (ℕ → ℝ) → List ℕ → List ℕ) (a : State) : State → Prop
  | mass (t : ℝ) : Call srt a (a.setMass t).1
  | zg (z : ℝ) : Call srt a (a.setZg srt z).1
  | gravity (g : ℝ) : Call srt a (a.setGravity srt g).1
  | rho (r : ℝ) : Call srt a (a.setRho srt r).1
  | addForce (i : ℕ) : Call srt a (a.addForce i)
  | setDisplacement (d : ℝ) : Call srt a (a.setDisplacement srt d).1
  | equilibrate (solve : M3 ℝ → V3 ℝ → Except PyErr (V3 ℝ)) (rand : ℕ → ℝ × ℝ) (fuel : ℕ) (initDisp : Bool) :
      Call srt a (a.equilibrate srt solve rand fuel initDisp).1
  | reset : Call srt a (a.reset srt).1

lemma reset_eq {a b : State} {e : Option ClipErr} (h : a.reset srt = (b, e)) :
    b.mesh = a.initMesh ∧ b.gc = a.backupGc ∧ b.heap = a.heap ∧ b.refs = a.refs ∧ (e = none → b.rotation = M3.one) ∧
    b.initMesh = a.initMesh ∧ b.aliased = false ∧ b.backupGc = a.backupGc ∧ b.mass = a.mass := by
  unfold State.reset at h
  split at h
  · rename_i s _ hs
    simp only [Prod.mk.injEq] at h
    obtain ⟨c, d, rfl⟩ := update_frame _ _ _ hs
    obtain ⟨rfl, rfl⟩ := h
    exact ⟨rfl, rfl, rfl, rfl, by simp, rfl, rfl, rfl, rfl⟩
  · rename_i s hs
    simp only [Prod.mk.injEq] at h
    obtain ⟨c, d, rfl⟩ := update_frame _ _ _ hs
    obtain ⟨rfl, rfl⟩ := h
    exact ⟨rfl, rfl, rfl, rfl, fun _ => rfl, rfl, rfl, rfl, rfl⟩

lemma call_keeps {a b : State} (h : Call srt a b) : Keeps a b := by
  cases h with
  | mass t => rw [setMass_eq (Prod.mk.eta (p := a.setMass t)).symm]; exact ⟨rfl, fun h => ⟨h, rfl⟩⟩
  | zg z => exact (gcInPlace_keeps a _).trans (update_keeps (Prod.mk.eta (p := State.update srt _)).symm)
  | gravity g =>
    exact Keeps.trans (b := { a with grav := g }) ⟨rfl, fun h => ⟨h, rfl⟩⟩
      (update_keeps (Prod.mk.eta (p := State.update srt _)).symm)
  | rho r =>
    exact Keeps.trans (b := { a with rho := r }) ⟨rfl, fun h => ⟨h, rfl⟩⟩
      (update_keeps (Prod.mk.eta (p := State.update srt _)).symm)
  | addForce i => exact ⟨rfl, fun h => ⟨h, rfl⟩⟩
  | setDisplacement d => exact setDisplacement_keeps (Prod.mk.eta (p := a.setDisplacement srt d)).symm
  | equilibrate solve rand fuel i =>
    exact equilibrate_keeps (Prod.mk.eta (p := a.equilibrate srt solve rand fuel i)).symm
  | reset =>
    obtain ⟨_, _, _, _, _, h1, h2, h3, _⟩ := reset_eq (Prod.mk.eta (p := a.reset srt)).symm
    exact ⟨h1, fun _ => ⟨h2, h3⟩⟩

/-- **C50 (reset, what holds).** After the constructor and any history of calls other than the setter of the gravity centre
(whether they raise or not), `reset` gives back the mesh and the gravity centre given to the constructor, and the identity
as the accumulated rotation. Missing: the setter of the gravity centre (`C50_reset_fails`), the forces and the mass
(`C50_reset_keeps_forces`). -/
theorem C50_reset_partial (heap : ℕ → Force) (m : Mesh ℝ) (cog : V3 ℝ) (mass : Option ℝ) (rho grav : ℝ) (a b c : State)
    (e : Option ClipErr) (ha : init srt heap m cog mass rho grav = .ok a) (hb : Relation.ReflTransGen (Call srt) a b)
    (hc : b.reset srt = (c, e)) : c.mesh = m ∧ c.gc = cog ∧ (e = none → c.rotation = M3.one) := by
  have h0 : a.initMesh = m ∧ a.backupGc = cog ∧ a.aliased = false := by
    unfold init at ha
    dsimp only at ha
    split at ha
    · simp at ha
    · rename_i s hs
      obtain ⟨c, d, rfl⟩ := update_frame _ _ _ hs
      split at ha
      · split at ha
        · simp only [Except.ok.injEq] at ha; subst ha; exact ⟨rfl, rfl, rfl⟩
        · split at ha
          · simp at ha
          · rename_i s' hs'
            simp only [Except.ok.injEq] at ha
            subst ha
            rw [setMass_eq hs']
            exact ⟨rfl, rfl, rfl⟩
      · simp only [Except.ok.injEq] at ha; subst ha; exact ⟨rfl, rfl, rfl⟩
  have hk : Keeps a b := by
    clear hc
    induction hb with
    | refl => exact Keeps.refl a
    | tail _ h ih => exact ih.trans (call_keeps h)
  obtain ⟨h1, h2, _, _, h3, _⟩ := reset_eq hc
  exact ⟨h1.trans (hk.1.trans h0.1), h2.trans ((hk.2 h0.2.2).2.trans h0.2.1), h3⟩

/-- The setter shares its array, and `set_displacement` keeps it shared. -/
lemma dispLoop_aliased : ∀ (fuel : ℕ) (dz : ℝ) (a b : State) (e : Option ClipErr),
    dispLoop srt fuel dz a = (b, e) → a.aliased = true → a.backupGc = a.gc → b.aliased = true ∧ b.backupGc = b.gc := by
  intro fuel
  induction fuel with
  | zero =>
    intro dz a b e h h1 h2
    simp only [dispLoop, Prod.mk.injEq] at h
    obtain ⟨rfl, _⟩ := h
    exact ⟨h1, h2⟩
  | succ n ih =>
    intro dz a b e h h1 h2
    unfold dispLoop at h
    dsimp only at h
    have hframe : ∀ s o, (State.update srt (State.reinit
        { (State.gcInPlace { a with mesh := a.mesh.translateZ dz } ⟨a.gc.x, a.gc.y, a.gc.z + dz⟩) with
          heap := moveForces dz M3.one a.refs a.heap })) = (s, o) → s.aliased = true ∧ s.backupGc = s.gc := by
      intro s o hs
      obtain ⟨c, d, rfl⟩ := update_frame _ _ _ hs
      exact ⟨h1, by simp [State.reinit, State.gcInPlace, h1]⟩
    split at h
    · rename_i s e' hs
      simp only [Prod.mk.injEq] at h
      exact h.1 ▸ hframe _ _ hs
    · rename_i s hs
      have hc := hframe _ _ hs
      split at h
      · simp only [Prod.mk.injEq] at h
        exact h.1 ▸ hc
      · split at h
        · simp only [Prod.mk.injEq] at h
          exact h.1 ▸ hc
        · exact ih _ _ _ _ h hc.1 hc.2

/-- **C50 (violation).** After the gravity centre was set with its setter, `set_displacement` then `reset` bring the mesh
back, but leave the gravity centre where `set_displacement` moved it: the backup moved with it. -/
theorem C50_reset_fails (a b c d : State) (v : V3 ℝ) (disp : ℝ) (e e' : Option ClipErr)
    (hb : a.setGravityCenter srt v = (b, none)) (hc : b.setDisplacement srt disp = (c, e)) (hd : c.reset srt = (d, e')) :
    d.mesh = a.initMesh ∧ d.gc = c.gc := by
  obtain ⟨x, y, rfl⟩ := update_frame _ _ _ hb
  have hk := setDisplacement_keeps hc
  obtain ⟨h1, h2, _⟩ := reset_eq hd
  refine ⟨h1.trans hk.1, h2.trans ?_⟩
  unfold State.setDisplacement at hc
  split at hc
  · rename_i s e' hs
    simp only [Prod.mk.injEq] at hc
    rw [← hc.1, setMass_eq hs]
  · rename_i s hs
    have := setMass_eq hs
    subst this
    exact (dispLoop_aliased _ _ _ _ _ hc rfl rfl).2

/-- **C50 (violation).** `reset` leaves the forces where they are, and the mass as it is. -/
theorem C50_reset_keeps_forces (a b : State) (e : Option ClipErr) (h : a.reset srt = (b, e)) :
    b.heap = a.heap ∧ b.refs = a.refs ∧ b.mass = a.mass := by
  obtain ⟨_, _, h1, h2, _, _, _, _, h3⟩ := reset_eq h
  exact ⟨h1, h2, h3⟩

/-! ## C68 -/

/-- The parameters of the solver are not changed by the solvers. -/
def Params (a b : State) : Prop := b.itermax = a.itermax ∧ b.maxRestart = a.maxRestart

lemma Params.trans {a b c : State} (h : Params a b) (h' : Params b c) : Params a c :=
  ⟨h'.1.trans h.1, h'.2.trans h.2⟩

lemma dispLoop_params : ∀ (fuel : ℕ) (dz : ℝ) (a b : State) (e : Option ClipErr),
    dispLoop srt fuel dz a = (b, e) → Params a b := by
  intro fuel
  induction fuel with
  | zero =>
    intro dz a b e h
    simp only [dispLoop, Prod.mk.injEq] at h
    obtain ⟨rfl, _⟩ := h
    exact ⟨rfl, rfl⟩
  | succ n ih =>
    intro dz a b e h
    unfold dispLoop at h
    dsimp only at h
    have hframe : ∀ s o, (State.update srt (State.reinit
        { (State.gcInPlace { a with mesh := a.mesh.translateZ dz } ⟨a.gc.x, a.gc.y, a.gc.z + dz⟩) with
          heap := moveForces dz M3.one a.refs a.heap })) = (s, o) → Params a s := by
      intro s o hs
      obtain ⟨c, d, rfl⟩ := update_frame _ _ _ hs
      exact ⟨rfl, rfl⟩
    split at h
    · rename_i s e' hs
      simp only [Prod.mk.injEq] at h
      exact h.1 ▸ hframe _ _ hs
    · rename_i s hs
      have hc := hframe _ _ hs
      split at h
      · simp only [Prod.mk.injEq] at h
        exact h.1 ▸ hc
      · split at h
        · simp only [Prod.mk.injEq] at h
          exact h.1 ▸ hc
        · exact hc.trans (ih _ _ _ _ h)

lemma setDisplacement_params {a b : State} {d : ℝ} {e : Option ClipErr} (h : a.setDisplacement srt d = (b, e)) :
    Params a b := by
  unfold State.setDisplacement at h
  split at h
  · rename_i s e' hs
    simp only [Prod.mk.injEq] at h
    rw [setMass_eq hs] at h
    rw [← h.1]
    exact ⟨rfl, rfl⟩
  · rename_i s hs
    have := setMass_eq hs
    subst this
    have h1 := dispLoop_params _ _ _ _ _ h
    exact h1

lemma restart_params {a b : State} {t : ℝ × ℝ} {e : Option ClipErr} (h : a.restart srt t = (b, e)) : Params a b := by
  unfold State.restart at h
  dsimp only at h
  split at h <;>
  · rename_i s hs
    simp only [Prod.mk.injEq] at h
    obtain ⟨c, d, rfl⟩ := update_frame _ _ _ hs
    rw [← h.1]
    exact ⟨rfl, rfl⟩

lemma move_params {a b : State} {v : Vars} {e : Option ClipErr} (h : a.move srt v = (b, e)) : Params a b := by
  unfold State.move at h
  dsimp only at h
  obtain ⟨c, d, rfl⟩ := update_frame _ _ _ h
  exact ⟨rfl, rfl⟩

lemma next_vars {solve : M3 ℝ → V3 ℝ → Except PyErr (V3 ℝ)} {a : State} {h : Hydro.HsData} {v w : Vars}
    (hn : a.next solve h v = .inr w) : w.iter = v.iter + 1 ∧ w.nbRestart = v.nbRestart := by
  unfold State.next at hn
  dsimp only at hn
  split at hn
  · split at hn
    · simp at hn
    · split at hn
      · simp at hn
      · simp only [Sum.inr.injEq] at hn; subst hn; exact ⟨rfl, rfl⟩
  · split at hn
    · simp at hn
    · simp only [Sum.inr.injEq] at hn; subst hn; exact ⟨rfl, rfl⟩

lemma next_outcome {solve : M3 ℝ → V3 ℝ → Except PyErr (V3 ℝ)} {a : State} {h : Hydro.HsData} {v : Vars} {o : Outcome}
    (hn : a.next solve h v = .inl o) : o ≠ .running := by
  unfold State.next at hn
  dsimp only at hn
  split at hn
  · split at hn
    · simp only [Sum.inl.injEq] at hn; subst hn; simp
    · split at hn
      · simp only [Sum.inl.injEq] at hn; subst hn; simp
      · simp at hn
  · split at hn
    · simp only [Sum.inl.injEq] at hn; subst hn; simp
    · simp at hn

lemma equilLoop_terminates {solve : M3 ℝ → V3 ℝ → Except PyErr (V3 ℝ)} {rand : ℕ → ℝ × ℝ} (N R : ℕ) (hN : 2 ≤ N) :
    ∀ (fuel : ℕ) (v : Vars) (a : State), a.itermax = N → a.maxRestart = R → v.nbRestart + 1 ≤ max 1 R →
      v.iter ≤ (v.nbRestart + 1) * (N - 1) → max 1 R * (N - 1) + 1 ≤ v.iter + fuel →
      ∀ b, equilLoop srt solve rand fuel v a ≠ (b, .running) := by
  intro fuel
  induction fuel with
  | zero =>
    intro v a _ _ h1 h2 h3 b
    exfalso
    have := Nat.mul_le_mul_right (N - 1) h1
    omega
  | succ k ih =>
    intro v a haN haR h1 h2 h3 b hb
    have main : ∀ (v : Vars) (s : State), s.itermax = N → s.maxRestart = R → v.nbRestart + 1 ≤ max 1 R →
        v.iter + 1 ≤ (v.nbRestart + 1) * (N - 1) → max 1 R * (N - 1) + 1 ≤ v.iter + 1 + k →
        (match s.move srt v with
          | (st, some e) => (st, Outcome.raised e)
          | (st, none) =>
            match st.data with
            | none => (st, .running)
            | some h =>
              match st.next solve h v with
              | .inl o => (st, o)
              | .inr v => equilLoop srt solve rand k v st) ≠ (b, .running) := by
      intro v s hs1 hs2 g1 g2 g3 hb
      split at hb
      · simp at hb
      · rename_i s' hm
        have hp := move_params hm
        have hd : ∃ d, s'.data = some d := by
          unfold State.move at hm
          exact update_data hm
        obtain ⟨d, hd⟩ := hd
        rw [hd] at hb
        dsimp only at hb
        split at hb
        · rename_i o ho
          simp only [Prod.mk.injEq] at hb
          exact next_outcome ho hb.2
        · rename_i w hw
          obtain ⟨w1, w2⟩ := next_vars hw
          exact ih w s' (hp.1.trans hs1) (hp.2.trans hs2) (w2 ▸ g1) (by rw [w1, w2]; exact g2) (by omega) b hb
    unfold equilLoop at hb
    dsimp only at hb
    split at hb
    · split at hb
      · rename_i hlt
        split at hb
        · simp at hb
        · rename_i s hs
          have hp := restart_params hs
          refine main _ s (hp.1.trans haN) (hp.2.trans haR) ?_ ?_ ?_ hb
          · show v.nbRestart + 1 + 1 ≤ max 1 R
            omega
          · show v.iter + 1 ≤ (v.nbRestart + 1 + 1) * (N - 1)
            have : (v.nbRestart + 1 + 1) * (N - 1) = (v.nbRestart + 1) * (N - 1) + (N - 1) := by ring
            omega
          · show max 1 R * (N - 1) + 1 ≤ v.iter + 1 + k
            omega
      · simp at hb
    · rename_i hne
      refine main v a haN haR h1 ?_ (by omega) hb
      simp only [haN, Bool.or_eq_true, beq_iff_eq, not_or] at hne
      omega

/-- **C68.** With at least two iterations allowed, `equilibrate` always stops, whatever the hull, the forces, the random
restarts and the linear solver: its loop makes at most `max 1 max_restart * (max_iterations - 1) + 1` iterations. -/
theorem C68_equilibrate_terminates (solve : M3 ℝ → V3 ℝ → Except PyErr (V3 ℝ)) (rand : ℕ → ℝ × ℝ) (initDisp : Bool)
    (a : State) (hit : 2 ≤ a.itermax) (fuel : ℕ) (hfuel : max 1 a.maxRestart * (a.itermax - 1) + 1 ≤ fuel) (b : State) :
    a.equilibrate srt solve rand fuel initDisp ≠ (b, .running) := by
  intro h
  have start : ∀ s : State, Params a s → (match equilLoop srt solve rand fuel ⟨0, 0, false, 0, 0, 0⟩ s with
      | (st, .code n) => (st.zeroXY, Outcome.code n)
      | r => r) ≠ (b, .running) := by
    intro s hp hb
    split at hb
    · simp at hb
    · exact equilLoop_terminates a.itermax a.maxRestart hit fuel ⟨0, 0, false, 0, 0, 0⟩ s hp.1 hp.2
        (by show 0 + 1 ≤ _; omega) (by simp) (by simpa using hfuel) b hb
  unfold State.equilibrate at h
  dsimp only at h
  split at h
  · split at h
    · simp at h
    · rename_i s hs
      exact start s (setDisplacement_params hs) h
  · exact start a ⟨rfl, rfl⟩ h

end Old
end MM
