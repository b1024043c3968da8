import Verif.Model.ClipperObject
import Verif.Props.Halves

/-!
# C95: what is read from a clipper is the result for its current plane, tolerance and source mesh
-/

namespace MM
namespace Clipper

set_option linter.unusedSectionVars false
set_option linter.unusedVariables false

section
variable {K : Type*} [Field K] [LinearOrder K] (srt : (ℕ → K) → List ℕ → List ℕ)

/-- All the accessors give the results of the run `c`. -/
def Internals.Gives (I : Internals K) (c : Clipped K) : Prop :=
  I.upper = some c.upper ∧ I.crown = some c.crown ∧ I.lower = some c.lower ∧ I.clippedCrown = some c.clippedCrown ∧
  I.closedPolygons = some c.closedPolygons ∧ I.openLines = some c.openLines ∧ I.clipped = some c.clipped

/-- The faces of the three parts read are those of the source mesh on each side of the plane. -/
def Internals.PartsOf (I : Internals K) (p : Plane K) (tol : K) (m : Mesh K) : Prop :=
  (∃ d part, vertexDists p tol m = .ok d ∧ partition tol d m = .ok part ∧
    I.upper = some part.upper ∧ I.crown = some part.crown ∧ I.lower = some part.lower) ∨
  (I.upper = none ∧ I.crown = none ∧ I.lower = none)

/-- What is read belongs to the plane `p`, the tolerance `tol` and the mesh `m`: either the whole result of clipping, or
(after an exception) no clipped mesh; and never parts of another run. -/
def Internals.Fresh (I : Internals K) (p : Plane K) (tol : K) (m : Mesh K) : Prop :=
  I.PartsOf p tol m ∧
  ((∃ c, clip srt p tol false m = .ok c ∧ I.Gives c) ∨
   (I.clipped = none ∧
    ((I.clippedCrown = none ∧ I.closedPolygons = none ∧ I.openLines = none) ∨
     ∃ d part r, vertexDists p tol m = .ok d ∧ partition tol d m = .ok part ∧
       clipCrown srt p tol part.crown part.crownDists = .ok r ∧ I.clippedCrown = some r.1 ∧
       I.closedPolygons = some (extractLines r.2.2 r.2.1.length r.2.1).1 ∧
       I.openLines = some (extractLines r.2.2 r.2.1.length r.2.1).2)))

/-- A run from an empty dictionary raises exactly what `clip` raises, and otherwise all accessors give its result. -/
theorem update_clip (p : Plane K) (tol : K) (b : Bool) (m : Mesh K) :
    match clip srt p tol b m with
    | .ok c => (update srt p tol b m {}).2 = none ∧ (update srt p tol b m {}).1.Gives c
    | .error e => (update srt p tol b m {}).2 = some e ∧ (update srt p tol b m {}).1.clipped = none := by
  unfold clip update
  rcases h1 : vertexDists p tol m with e | d
  · exact ⟨rfl, rfl⟩
  · rcases h2 : partition tol d m with e | part
    · simp [h2]
    · simp only [h2]
      rcases h3 : clipCrown srt p tol part.crown part.crownDists with e | ⟨cm, direct, inv⟩
      · exact ⟨rfl, rfl⟩
      · simp only []
        by_cases hb : (b && !(extractLines inv direct.length direct).2.isEmpty) = true
        · simp only [hb, if_true]; exact ⟨trivial, trivial⟩
        · have hb' : (b && !(extractLines inv direct.length direct).2.isEmpty) = false := by simpa using hb
          simp only [hb', Bool.false_eq_true, if_false]
          rcases h4 : Mesh.add srt part.lower cm with e | c
          · exact ⟨rfl, rfl⟩
          · simp [Internals.Gives]

theorem update_fresh (p : Plane K) (tol : K) (b : Bool) (m : Mesh K) : (update srt p tol b m {}).1.Fresh srt p tol m := by
  unfold update
  rcases h1 : vertexDists p tol m with e | d
  · exact ⟨Or.inr ⟨rfl, rfl, rfl⟩, Or.inr ⟨rfl, Or.inl ⟨rfl, rfl, rfl⟩⟩⟩
  · rcases h2 : partition tol d m with e | part
    · simp only [h2]
      exact ⟨Or.inr ⟨rfl, rfl, rfl⟩, Or.inr ⟨rfl, Or.inl ⟨rfl, rfl, rfl⟩⟩⟩
    · simp only [h2]
      rcases h3 : clipCrown srt p tol part.crown part.crownDists with e | ⟨cm, direct, inv⟩
      · exact ⟨Or.inl ⟨d, part, h1, h2, rfl, rfl, rfl⟩, Or.inr ⟨rfl, Or.inl ⟨rfl, rfl, rfl⟩⟩⟩
      · simp only []
        by_cases hb : (b && !(extractLines inv direct.length direct).2.isEmpty) = true
        · simp only [hb, if_true]
          exact ⟨Or.inl ⟨d, part, h1, h2, rfl, rfl, rfl⟩, Or.inr ⟨rfl, Or.inl ⟨rfl, rfl, rfl⟩⟩⟩
        · have hb' : (b && !(extractLines inv direct.length direct).2.isEmpty) = false := by simpa using hb
          simp only [hb', Bool.false_eq_true, if_false]
          rcases h4 : Mesh.add srt part.lower cm with e | c
          · exact ⟨Or.inl ⟨d, part, h1, h2, rfl, rfl, rfl⟩,
              Or.inr ⟨rfl, Or.inr ⟨d, part, (cm, direct, inv), h1, h2, h3, rfl, rfl, rfl⟩⟩⟩
          · refine ⟨Or.inl ⟨d, part, h1, h2, rfl, rfl, rfl⟩, Or.inl ⟨⟨part.upper, part.crown, part.lower, cm, (extractLines inv direct.length direct).1,
              (extractLines inv direct.length direct).2, c⟩, ?_, rfl, rfl, rfl, rfl, rfl, rfl, rfl⟩⟩
            unfold clip
            simp [h1, h2, h3, h4]

/-- Every clipper of the world reads fresh data. -/
def World.AllFresh (w : World K) : Prop :=
  ∀ o ∈ w.clippers, o.internals.Fresh srt (w.planes o.plane) o.tol (w.meshes o.mesh)

/-- The operation does not modify in place a plane or a mesh that a clipper refers to. -/
def World.Allows (w : World K) : Op K → Prop
  | .editPlane a _ => ∀ o ∈ w.clippers, o.plane ≠ a
  | .editMesh a _ => ∀ o ∈ w.clippers, o.mesh ≠ a
  | _ => True

lemma onClipper_fresh {w : World K} (h : w.AllFresh srt) (i : ℕ) (f : Obj K → Obj K × Option ClipErr)
    (hf : ∀ o ∈ w.clippers, (f o).1.internals.Fresh srt (w.planes (f o).1.plane) (f o).1.tol (w.meshes (f o).1.mesh)) :
    (w.onClipper i f).1.AllFresh srt := by
  unfold World.onClipper
  rcases hi : w.clippers[i]? with _ | o
  · exact h
  · intro o' ho'
    rcases List.mem_or_eq_of_mem_set ho' with h' | rfl
    · exact h o' h'
    · exact hf o (List.mem_of_getElem? hi)

lemma step_fresh {w : World K} (h : w.AllFresh srt) (op : Op K) (ha : w.Allows op) : (w.step srt op).1.AllFresh srt := by
  cases op with
  | create mesh plane tol b =>
    unfold World.step
    simp only
    rcases hr : (Obj.rerun srt w ⟨mesh, plane.getD 0, tol, b, {}⟩).2 with _ | e
    · intro o ho
      rcases List.mem_append.1 ho with ho | ho
      · exact h o ho
      · rw [List.mem_singleton.1 ho]
        exact update_fresh srt _ _ _ _
    · exact h
  | setPlane i a => exact onClipper_fresh srt h i _ (fun o _ => update_fresh srt _ _ _ _)
  | setTol i t => exact onClipper_fresh srt h i _ (fun o _ => update_fresh srt _ _ _ _)
  | assertOn i => exact onClipper_fresh srt h i _ (fun o ho => h o ho)
  | assertOff i => exact onClipper_fresh srt h i _ (fun o ho => h o ho)
  | editPlane a p =>
    intro o ho
    have := h o ho
    show o.internals.Fresh srt (Function.update w.planes a p o.plane) o.tol (w.meshes o.mesh)
    rwa [Function.update_of_ne (ha o ho)]
  | editMesh a m =>
    intro o ho
    have := h o ho
    show o.internals.Fresh srt (w.planes o.plane) o.tol (Function.update w.meshes a m o.mesh)
    rwa [Function.update_of_ne (ha o ho)]

/-- A history that never modifies in place a plane or a mesh in use. -/
def World.AllowsAll (w : World K) : List (Op K) → Prop
  | [] => True
  | op :: ops => w.Allows op ∧ (w.step srt op).1.AllowsAll ops

/-- **C95** (no modification in place of the planes and meshes in use): after any history of constructions, changes of plane,
of tolerance and of flag, with exceptions caught at any point, what is read from each clipper belongs to its current plane,
tolerance and source mesh. Data of a previous plane or tolerance are never read. -/
theorem C95_fresh_partial (w : World K) (h0 : w.clippers = []) (ops : List (Op K)) (h : w.AllowsAll srt ops) :
    (w.run srt ops).AllFresh srt := by
  have h1 : w.AllFresh srt := by intro o ho; rw [h0] at ho; cases ho
  clear h0
  induction ops generalizing w with
  | nil => exact h1
  | cons op ops ih => exact ih _ h.2 (step_fresh srt h1 op h.1)

/-- **C95**, setters and constructor: assigning the plane (or the tolerance) raises exactly what clipping by the new plane
raises; otherwise all the accessors give the result of clipping by the new plane. In both cases the clipper now has the new
plane. -/
theorem C95_setPlane (w : World K) (i : ℕ) (o : Obj K) (hi : w.clippers[i]? = some o) (a : ℕ) :
    ∃ o', (w.step srt (.setPlane i a)).1.clippers[i]? = some o' ∧ o'.plane = a ∧ o'.mesh = o.mesh ∧ o'.tol = o.tol ∧
      o'.assertClosed = o.assertClosed ∧
      match clip srt (w.planes a) o.tol o.assertClosed (w.meshes o.mesh) with
      | .ok c => (w.step srt (.setPlane i a)).2 = none ∧ o'.internals.Gives c
      | .error e => (w.step srt (.setPlane i a)).2 = some e ∧ o'.internals.clipped = none := by
  have hlt : i < w.clippers.length := (List.getElem?_eq_some_iff.1 hi).1
  refine ⟨(Obj.rerun srt w { o with plane := a }).1, ?_, rfl, rfl, rfl, rfl, ?_⟩
  · simp only [World.step, World.onClipper, hi]
    exact List.getElem?_set_self hlt
  · have := update_clip srt (w.planes a) o.tol o.assertClosed (w.meshes o.mesh)
    simp only [World.step, World.onClipper, hi]
    exact this

theorem C95_setTol (w : World K) (i : ℕ) (o : Obj K) (hi : w.clippers[i]? = some o) (t : K) :
    ∃ o', (w.step srt (.setTol i t)).1.clippers[i]? = some o' ∧ o'.plane = o.plane ∧ o'.mesh = o.mesh ∧ o'.tol = t ∧
      o'.assertClosed = o.assertClosed ∧
      match clip srt (w.planes o.plane) t o.assertClosed (w.meshes o.mesh) with
      | .ok c => (w.step srt (.setTol i t)).2 = none ∧ o'.internals.Gives c
      | .error e => (w.step srt (.setTol i t)).2 = some e ∧ o'.internals.clipped = none := by
  have hlt : i < w.clippers.length := (List.getElem?_eq_some_iff.1 hi).1
  refine ⟨(Obj.rerun srt w { o with tol := t }).1, ?_, rfl, rfl, rfl, rfl, ?_⟩
  · simp only [World.step, World.onClipper, hi]
    exact List.getElem?_set_self hlt
  · have := update_clip srt (w.planes o.plane) t o.assertClosed (w.meshes o.mesh)
    simp only [World.step, World.onClipper, hi]
    exact this

/-- The constructor gives a clipper exactly when clipping succeeds. -/
theorem C95_create (w : World K) (mesh : ℕ) (plane : Option ℕ) (t : K) (b : Bool) :
    match clip srt (w.planes (plane.getD 0)) t b (w.meshes mesh) with
    | .ok c => (w.step srt (.create mesh plane t b)).2 = none ∧ ∃ o, (w.step srt (.create mesh plane t b)).1.clippers =
        w.clippers ++ [o] ∧ o.internals.Gives c
    | .error e => w.step srt (.create mesh plane t b) = (w, some e) := by
  have h := update_clip srt (w.planes (plane.getD 0)) t b (w.meshes mesh)
  rcases hc : clip srt (w.planes (plane.getD 0)) t b (w.meshes mesh) with e | c
  · rw [hc] at h
    simp [World.step, Obj.rerun, h.1]
  · rw [hc] at h
    simp [World.step, Obj.rerun, h.1]
    exact h.2

end

/-! ## Witnesses -/

/-- A world with the half immersed cube (address 0) and a vertical square (other addresses), the default plane `z = 0`
(address 0), the plane `z = 1/4` (address 1) and the plane `z = 10` (other addresses). -/
def cubeWorld : World ℚ :=
  ⟨fun a => if a = 0 then halfCube else ⟨[⟨0, 0, -1⟩, ⟨1, 0, -1⟩, ⟨1, 0, 1⟩, ⟨0, 0, 1⟩], [⟨0, 1, 2, 3⟩]⟩,
   fun a => if a = 0 then ⟨⟨0, 0, 1⟩, 0⟩ else if a = 1 then ⟨⟨0, 0, 1⟩, 1 / 4⟩ else ⟨⟨0, 0, 1⟩, 10⟩, []⟩

/-- A history within the hypotheses of C95, with a plane that the mesh does not cross in the middle: the data disappear with the
exception and come back with the next plane. -/
def goodHistory : List (Op ℚ) :=
  [.create 0 none (1 / 1000) true, .setPlane 0 2, .setTol 0 (1 / 100), .editPlane 7 ⟨⟨1, 0, 0⟩, 0⟩, .setPlane 0 1]

theorem goodHistory_allowed : cubeWorld.AllowsAll insArgsort goodHistory ∧
    ((cubeWorld.run insArgsort (goodHistory.take 2)).clippers.map (fun o => o.internals.clipped)) = [none] ∧
    ((cubeWorld.run insArgsort (goodHistory.take 1)).step insArgsort (.setPlane 0 2)).2 = some .below ∧
    ((cubeWorld.run insArgsort goodHistory).clippers.map (fun o => (o.internals.clipped.map (fun m => m.nf)))) = [some 5] := by
  refine ⟨⟨trivial, trivial, trivial, ?_, trivial, trivial⟩, ?_, ?_, ?_⟩
  · have : ∀ o ∈ (cubeWorld.run insArgsort (goodHistory.take 3)).clippers, o.plane ≠ 7 := by decide +kernel
    exact this
  · decide +kernel
  · decide +kernel
  · decide +kernel

/-- **C95 fails** with modifications in place: after `clipper.plane.c = 1/4`, the clipper still gives the mesh clipped by
`z = 0`. -/
theorem C95_stale_fails : ∃ o c, (cubeWorld.run insArgsort
      [.create 0 (some 0) (1 / 1000) true, .editPlane 0 ⟨⟨0, 0, 1⟩, 1 / 4⟩]).clippers = [o] ∧
    clip insArgsort ⟨⟨0, 0, 1⟩, 1 / 4⟩ (1 / 1000) true halfCube = .ok c ∧ o.plane = 0 ∧
    ∃ m, o.internals.clipped = some m ∧ m ≠ c.clipped := by
  have h : (match (cubeWorld.run insArgsort
      [.create 0 (some 0) (1 / 1000) true, .editPlane 0 ⟨⟨0, 0, 1⟩, 1 / 4⟩]).clippers,
      clip insArgsort ⟨⟨0, 0, 1⟩, 1 / 4⟩ (1 / 1000) true halfCube with
      | [o], .ok c => decide (o.plane = 0 ∧ o.internals.clipped.any (fun m => m ≠ c.clipped))
      | _, _ => false) = true := by decide +kernel
  split at h
  · rename_i o c h1 h2
    obtain ⟨e1, e2⟩ := of_decide_eq_true h
    obtain ⟨m, hm, e3⟩ := (Option.any_eq_true _ _).1 e2
    exact ⟨o, c, h1, h2, e1, m, hm, by simpa using e3⟩
  · cases h

/-- **C95 fails**, default plane: all clippers built without a plane share the same plane object. After a clipper so built has
seen `clipper.plane.c = 1/4`, the next clipper built without a plane clips by `z = 1/4`, not by `z = 0`. -/
theorem C95_default_plane_fails : ∃ o o' c c', (cubeWorld.run insArgsort
      [.create 0 none (1 / 1000) true, .editPlane 0 ⟨⟨0, 0, 1⟩, 1 / 4⟩, .create 0 none (1 / 1000) true]).clippers = [o, o'] ∧
    clip insArgsort ⟨⟨0, 0, 1⟩, 0⟩ (1 / 1000) true halfCube = .ok c ∧
    clip insArgsort ⟨⟨0, 0, 1⟩, 1 / 4⟩ (1 / 1000) true halfCube = .ok c' ∧
    o.internals.clipped = some c.clipped ∧ o'.internals.clipped = some c'.clipped ∧ c.clipped ≠ c'.clipped := by
  have h : (match (cubeWorld.run insArgsort
      [.create 0 none (1 / 1000) true, .editPlane 0 ⟨⟨0, 0, 1⟩, 1 / 4⟩, .create 0 none (1 / 1000) true]).clippers,
      clip insArgsort ⟨⟨0, 0, 1⟩, 0⟩ (1 / 1000) true halfCube,
      clip insArgsort ⟨⟨0, 0, 1⟩, 1 / 4⟩ (1 / 1000) true halfCube with
      | [o, o'], .ok c, .ok c' => decide (o.internals.clipped = some c.clipped ∧ o'.internals.clipped = some c'.clipped ∧
          c.clipped ≠ c'.clipped)
      | _, _, _ => false) = true := by decide +kernel
  split at h
  · rename_i o o' c c' h1 h2 h3
    exact ⟨o, o', c, c', h1, h2, h3, of_decide_eq_true h⟩
  · cases h

/-- **C95 fails**, flag: `assert_closed_boundaries_on` does not run the clipper again. A clipper with the flag on can give open
lines, although clipping with the flag on raises. -/
theorem C95_flag_fails : ∃ o, (cubeWorld.run insArgsort [.create 1 none (1 / 1000) false, .assertOn 0]).clippers = [o] ∧
    o.assertClosed = true ∧ (∃ l, o.internals.openLines = some l ∧ l ≠ []) ∧
    clip insArgsort (cubeWorld.planes o.plane) o.tol true (cubeWorld.meshes o.mesh) = .error .openCurve := by
  have h : (match (cubeWorld.run insArgsort [.create 1 none (1 / 1000) false, .assertOn 0]).clippers with
      | [o] => decide (o.assertClosed = true ∧ o.internals.openLines.any (fun l => l ≠ []) ∧
          clip insArgsort (cubeWorld.planes o.plane) o.tol true (cubeWorld.meshes o.mesh) = .error .openCurve)
      | _ => false) = true := by decide +kernel
  split at h
  · rename_i o h1
    obtain ⟨e1, e2, e3⟩ := of_decide_eq_true h
    obtain ⟨l, hl, e4⟩ := (Option.any_eq_true _ _).1 e2
    exact ⟨o, h1, e1, ⟨l, hl, by simpa using e4⟩, e3⟩
  · cases h

end Clipper
end MM
