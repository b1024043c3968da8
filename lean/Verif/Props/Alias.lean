import Verif.Proofs.AliasWorld
import Verif.Props.Cache

/-!
# Properties C108 (meshes share no array) and C109 (arrays obtained from a mesh)
-/

namespace MM
namespace Alias

set_option linter.unusedSimpArgs false

/-! ## C108 -/

/-- C108: in every program the meshes and the arrays behave as values: what is seen of all the meshes and of all the
arrays of the program is what is seen when every mesh and every array is a value of its own. -/
theorem C108_values (srt : (ℕ → ℝ) → List ℕ → List ℕ) (ord : List ℕ → List ℕ) (program : List Act) :
    (World.run srt ord program {}).map World.values = Values.run srt ord program {} :=
  (run_agree srt ord program WfW.empty).1

/-- The states which programs reach. -/
def Reached (srt : (ℕ → ℝ) → List ℕ → List ℕ) (ord : List ℕ → List ℕ) (w : World) : Prop :=
  ∃ program, World.run srt ord program {} = .ok w

lemma Reached.wf {srt : (ℕ → ℝ) → List ℕ → List ℕ} {ord : List ℕ → List ℕ} {w : World}
    (h : Reached srt ord w) : WfW w := by
  obtain ⟨p, hp⟩ := h
  exact (run_agree srt ord p WfW.empty).2 w hp

/-- An action on mesh `k` itself. -/
def Act.On (k : ℕ) : Act → Prop
  | .call j _ | .setVertices j _ | .setFaces j _ | .pokeVertices j _ | .pokeFaces j _ => j = k
  | _ => False

lemma values_isolated {srt : (ℕ → ℝ) → List ℕ → List ℕ} {ord : List ℕ → List ℕ} {k : ℕ} {o : MeshObj} :
    ∀ (p : List Act) {v v' : Values}, v.run srt ord p = .ok v' → v.meshes[k]? = some o →
      (∀ a ∈ p, ¬ a.On k) → v'.meshes[k]? = some o
  | [], v, v', h, hk, _ => by cases h; exact hk
  | a :: p, v, v', h, hk, hp => by
    simp only [Values.run] at h
    rcases hs : v.step srt ord a with e | v1
    · rw [hs] at h; cases h
    · rw [hs] at h
      refine values_isolated p h ?_ (fun b hb => hp b (by simp [hb]))
      have ha := hp a (by simp)
      have hlt : k < v.meshes.length := by
        by_contra hc; rw [List.getElem?_eq_none (by omega)] at hk; cases hk
      cases a with
      | array x => cases hs; exact hk
      | write i x =>
        simp only [Values.step] at hs
        split at hs <;> cases hs
        exact hk
      | new x y =>
        simp only [Values.step] at hs
        rcases h1 : v.vecsArg x with e | lv <;> rw [h1] at hs
        · cases hs
        rcases h2 : v.facesArg y with e | lf <;> rw [h2] at hs
        · cases hs
        cases hs
        simpa [List.getElem?_append_left hlt] using hk
      | setVertices j s =>
        simp only [Values.step] at hs
        rcases h1 : v.vecsArg s with e | lv <;> rw [h1] at hs
        · cases hs
        rcases h2 : v.meshes[j]? with _ | q <;> simp [h2, bind, Except.bind] at hs
        subst hs
        simpa [List.getElem?_set_ne (fun e => ha e : j ≠ k)] using hk
      | setFaces j s =>
        simp only [Values.step] at hs
        rcases h1 : v.facesArg s with e | lv <;> rw [h1] at hs
        · cases hs
        rcases h2 : v.meshes[j]? with _ | q <;> simp [h2, bind, Except.bind] at hs
        subst hs
        simpa [List.getElem?_set_ne (fun e => ha e : j ≠ k)] using hk
      | copy j =>
        simp only [Values.step] at hs
        split at hs <;> cases hs
        simpa [List.getElem?_append_left hlt] using hk
      | add i j =>
        simp only [Values.step] at hs
        split at hs
        · split at hs <;> cases hs
          simpa [List.getElem?_append_left hlt] using hk
        · cases hs
      | extract j ids =>
        simp only [Values.step] at hs
        split at hs
        · cases hs
        · split at hs <;> cases hs
          simpa [List.getElem?_append_left hlt] using hk
      | call j op =>
        simp only [Values.step] at hs
        split at hs
        · cases hs
        · split at hs <;> cases hs
          simpa [List.getElem?_set_ne (fun e => ha e : j ≠ k)] using hk
      | pokeVertices j l =>
        simp only [Values.step] at hs
        split at hs
        · cases hs
        · split at hs <;> cases hs
          simpa [List.getElem?_set_ne (fun e => ha e : j ≠ k)] using hk
      | pokeFaces j l =>
        simp only [Values.step] at hs
        split at hs
        · cases hs
        · split at hs <;> cases hs
          simpa [List.getElem?_set_ne (fun e => ha e : j ≠ k)] using hk

lemma values_vars {srt : (ℕ → ℝ) → List ℕ → List ℕ} {ord : List ℕ → List ℕ} {i : ℕ} {x : Arr} :
    ∀ (p : List Act) {v v' : Values}, v.run srt ord p = .ok v' → v.vars[i]? = some x →
      (∀ y, Act.write i y ∉ p) → v'.vars[i]? = some x
  | [], v, v', h, hk, _ => by cases h; exact hk
  | a :: p, v, v', h, hk, hp => by
    simp only [Values.run] at h
    rcases hs : v.step srt ord a with e | v1
    · rw [hs] at h; cases h
    · rw [hs] at h
      refine values_vars p h ?_ (fun y hy => hp y (by simp [hy]))
      have ha : ∀ y, a ≠ .write i y := fun y e => hp y (by simp [e])
      have hlt : i < v.vars.length := by
        by_contra hc; rw [List.getElem?_eq_none (by omega)] at hk; cases hk
      cases a with
      | array x => cases hs; simpa [List.getElem?_append_left hlt] using hk
      | write j y =>
        simp only [Values.step] at hs
        split at hs <;> cases hs
        have : j ≠ i := fun e => ha y (by rw [e])
        simpa [List.getElem?_set_ne this] using hk
      | new x y =>
        simp only [Values.step] at hs
        rcases h1 : v.vecsArg x with e | lv <;> rw [h1] at hs
        · cases hs
        rcases h2 : v.facesArg y with e | lf <;> rw [h2] at hs
        · cases hs
        cases hs
        exact hk
      | setVertices j s =>
        simp only [Values.step] at hs
        rcases h1 : v.vecsArg s with e | lv <;> rw [h1] at hs
        · cases hs
        rcases h2 : v.meshes[j]? with _ | q <;> simp [h2, bind, Except.bind] at hs
        subst hs
        exact hk
      | setFaces j s =>
        simp only [Values.step] at hs
        rcases h1 : v.facesArg s with e | lv <;> rw [h1] at hs
        · cases hs
        rcases h2 : v.meshes[j]? with _ | q <;> simp [h2, bind, Except.bind] at hs
        subst hs
        exact hk
      | copy j =>
        simp only [Values.step] at hs
        split at hs <;> cases hs
        exact hk
      | add i j =>
        simp only [Values.step] at hs
        split at hs
        · split at hs <;> cases hs
          exact hk
        · cases hs
      | extract j ids =>
        simp only [Values.step] at hs
        split at hs
        · cases hs
        · split at hs <;> cases hs
          exact hk
      | call j op =>
        simp only [Values.step] at hs
        split at hs
        · cases hs
        · split at hs <;> cases hs
          exact hk
      | pokeVertices j l =>
        simp only [Values.step] at hs
        split at hs
        · cases hs
        · split at hs <;> cases hs
          exact hk
      | pokeFaces j l =>
        simp only [Values.step] at hs
        split at hs
        · cases hs
        · split at hs <;> cases hs
          exact hk

/-- C108: whatever a program does that is not an action on mesh `k` (operations on other meshes, also on its copies,
on meshes built from its arrays or extracted from it, sums, writing into the arrays it was built from) leaves mesh
`k` exactly as it is, with all it reports. -/
theorem C108_isolated (srt : (ℕ → ℝ) → List ℕ → List ℕ) (ord : List ℕ → List ℕ) (w w' : World)
    (hw : Reached srt ord w) (k : ℕ) (m : MeshRef) (hk : w.meshes[k]? = some m) (program : List Act)
    (hrun : w.run srt ord program = .ok w') (hp : ∀ a ∈ program, ¬ a.On k) :
    w'.values.meshes[k]? = some (view w.heap m) := by
  have h := (run_agree srt ord program hw.wf).1
  rw [hrun] at h
  exact values_isolated program h.symm (by rw [values_meshes, hk]; rfl) hp

/-- C108: the arrays of a program are modified only by the program itself: neither the constructor nor a setter nor
any operation modifies an array which it was given. -/
theorem C108_arrays (srt : (ℕ → ℝ) → List ℕ → List ℕ) (ord : List ℕ → List ℕ) (w w' : World)
    (hw : Reached srt ord w) (i a : ℕ) (hi : w.vars[i]? = some a) (x : Arr) (hx : w.heap[a]? = some x)
    (program : List Act) (hrun : w.run srt ord program = .ok w') (hp : ∀ y, Act.write i y ∉ program) :
    w'.values.vars[i]? = some x := by
  have h := (run_agree srt ord program hw.wf).1
  rw [hrun] at h
  exact values_vars program h.symm (by simp [World.values, hi, List.getD, hx]) hp

/-! ## C109 -/

/-- Array `a`, of kind `r` of mesh `k` at some time, belongs to nothing else. -/
structure Snap (k : ℕ) (r : Role) (a : ℕ) (w : World) : Prop where
  lt : a < w.heap.length
  vars : a ∉ w.vars
  meshes : ∀ (j : ℕ) (n : MeshRef) (r' : Role), w.meshes[j]? = some n → n.at r' = some a → j = k ∧ r' = r

lemma Snap.put {k : ℕ} {r : Role} {a : ℕ} {w : World} (S : Snap k r a w) {j : ℕ} {m : MeshRef}
    (hm : w.meshes[j]? = some m) {T : List Role} {s : St} (g : Good T (w.heap, m) s) (hT : j = k → r ∉ T) :
    Snap k r a (w.put j s) ∧ (w.put j s).heap[a]? = w.heap[a]? := by
  refine ⟨⟨lt_of_lt_of_le S.lt g.len, S.vars, ?_⟩, ?_⟩
  · intro i n r' hn hr
    rcases set_cases hn with ⟨rfl, rfl⟩ | ⟨_, hn'⟩
    · rcases g.old r' a hr with h | h
      · exact S.meshes i m r' hm h
      · have := S.lt; simp only at h; omega
    · exact S.meshes i n r' hn' hr
  · apply g.frame a S.lt
    intro r' hr' e
    obtain ⟨rfl, rfl⟩ := S.meshes j m r' hm e
    exact hT rfl hr'

lemma Snap.push {k : ℕ} {r : Role} {a : ℕ} {w : World} (S : Snap k r a w) {s : St} (f : Fresh w.heap s) :
    Snap k r a (w.push s) ∧ (w.push s).heap[a]? = w.heap[a]? := by
  refine ⟨⟨lt_of_lt_of_le S.lt f.len, S.vars, ?_⟩, f.frame a S.lt⟩
  intro i n r' hn hr
  rcases push_cases hn with ⟨rfl, rfl⟩ | ⟨_, hn'⟩
  · have := S.lt; have := f.new r' a hr; omega
  · exact S.meshes i n r' hn' hr

lemma Snap.step {srt : (ℕ → ℝ) → List ℕ → List ℕ} {ord : List ℕ → List ℕ} {k : ℕ} {r : Role} {a : ℕ} {w w' : World}
    (hw : WfW w) (S : Snap k r a w) {act : Act} (h : w.step srt ord act = .ok w') (hm : ¬ act.Modifies k r) :
    Snap k r a w' ∧ w'.heap[a]? = w.heap[a]? := by
  have e := S.lt
  cases act with
  | array x =>
    cases h
    refine ⟨⟨by simp; omega, ?_, S.meshes⟩, List.getElem?_append_left S.lt⟩
    simp only [List.mem_append, List.mem_singleton, not_or]
    exact ⟨S.vars, by omega⟩
  | write i x =>
    simp only [World.step] at h
    split at h
    · cases h
    · rename_i b hb
      cases h
      have : b ≠ a := by rintro rfl; exact S.vars (List.mem_of_getElem? hb)
      exact ⟨⟨by simpa using S.lt, S.vars, S.meshes⟩, List.getElem?_set_ne this⟩
  | new v f =>
    simp only [World.step] at h
    rcases h1 : w.vecsArg v with e | lv <;> rw [h1] at h
    · cases h
    rcases h2 : w.facesArg f with e | lf <;> rw [h2] at h
    · cases h
    cases h
    exact S.push (newMesh_fresh _ _ _)
  | setVertices j s =>
    simp only [World.step] at h
    rcases h1 : w.vecsArg s with e | l <;> rw [h1] at h
    · cases h
    rcases h2 : w.meshes[j]? with _ | m <;> simp [h2, bind, Except.bind] at h
    subst h
    have g := St.storeV_good (hw.mesh j m h2) l
    exact S.put h2 (g.trans (St.clear_good g.wf)) (by simp)
  | setFaces j s =>
    simp only [World.step] at h
    rcases h1 : w.facesArg s with e | l <;> rw [h1] at h
    · cases h
    rcases h2 : w.meshes[j]? with _ | m <;> simp [h2, bind, Except.bind] at h
    subst h
    have g := St.storeF_good (hw.mesh j m h2) l
    exact S.put h2 (g.trans (St.clear_good g.wf)) (by simp)
  | copy j =>
    simp only [World.step] at h
    split at h <;> cases h
    exact S.push (copyMesh_fresh _ _)
  | add i j =>
    simp only [World.step] at h
    split at h
    · split at h
      · cases h
      · rename_i m n _ _ _ s hs
        cases h
        have f := newMesh_fresh w.heap (Mesh.concat (view w.heap m).mesh (view w.heap n).mesh).vertices
          (Mesh.concat (view w.heap m).mesh (view w.heap n).mesh).faces
        exact S.push (f.good (St.mergeDuplicates_good f.wf hs))
    · cases h
  | extract j ids =>
    simp only [World.step] at h
    split at h
    · cases h
    · split at h <;> cases h
      exact S.push (newMesh_fresh _ _ _)
  | call j op =>
    simp only [World.step] at h
    split at h
    · cases h
    · rename_i m hj
      split at h
      · cases h
      · rename_i s hs
        cases h
        exact S.put hj (St.step_good (hw.mesh j m hj) hs) (fun hjk hr => hm ⟨hjk, hr⟩)
  | pokeVertices j l =>
    simp only [World.step] at h
    split at h
    · cases h
    · rename_i m hj
      split at h <;> cases h
      exact S.put hj (St.writeV_good (hw.mesh j m hj) l) (fun hjk hr => hm ⟨hjk, by simpa using hr⟩)
  | pokeFaces j l =>
    simp only [World.step] at h
    split at h
    · cases h
    · rename_i m hj
      split at h <;> cases h
      exact S.put hj (St.writeF_good (hw.mesh j m hj) l) (fun hjk hr => hm ⟨hjk, by simpa using hr⟩)

lemma Snap.run {srt : (ℕ → ℝ) → List ℕ → List ℕ} {ord : List ℕ → List ℕ} {k : ℕ} {r : Role} {a : ℕ} :
    ∀ (p : List Act) {w w' : World}, WfW w → Snap k r a w → w.run srt ord p = .ok w' →
      (∀ act ∈ p, ¬ act.Modifies k r) → w'.heap[a]? = w.heap[a]?
  | [], w, w', _, _, h, _ => by cases h; rfl
  | act :: p, w, w', hw, S, h, hp => by
    simp only [World.run] at h
    rcases hs : w.step srt ord act with e | w1 <;> rw [hs] at h
    · cases h
    · obtain ⟨S1, e1⟩ := S.step hw hs (hp act (by simp))
      rw [← e1]
      exact Snap.run p ((step_agree srt ord hw act).2 w1 hs) S1 h (fun b hb => hp b (by simp [hb]))

/-- C109, partial: an array obtained from a mesh (`vertices`, `faces`, `faces_areas`, `faces_normals`,
`faces_centers`) keeps its content whatever the program does later, except for the operations of the list `inPlace`
on that mesh, and for writing into it.

What is missing: the operations of `inPlace`, see the theorems below. -/
theorem C109_snapshot_partial (srt : (ℕ → ℝ) → List ℕ → List ℕ) (ord : List ℕ → List ℕ) (w w' : World)
    (hw : Reached srt ord w) (k : ℕ) (m : MeshRef) (hk : w.meshes[k]? = some m) (r : Role) (a : ℕ)
    (ha : m.at r = some a) (program : List Act) (hrun : w.run srt ord program = .ok w')
    (hp : ∀ act ∈ program, ¬ act.Modifies k r) :
    w'.heap[a]? = w.heap[a]? := by
  have W := hw.wf
  refine Snap.run (k := k) (r := r) program W ⟨(W.mesh k m hk).bound r a ha, ?_, ?_⟩ hrun hp
  · intro h
    obtain ⟨i, hi⟩ := List.mem_iff_getElem?.mp h
    exact W.varsSep i a k m r hi hk ha
  · intro j n r' hn hr'
    by_cases hjk : j = k
    · subst hjk
      rw [hk] at hn; cases hn
      exact ⟨rfl, (W.mesh j m hk).inj r' r a hr' ha⟩
    · exact absurd ha (W.sep j k n m hn hk hjk r' r a hr')

/-- C109: the array of the areas of the faces is never modified. -/
theorem C109_areas (srt : (ℕ → ℝ) → List ℕ → List ℕ) (ord : List ℕ → List ℕ) (w w' : World)
    (hw : Reached srt ord w) (k : ℕ) (m : MeshRef) (hk : w.meshes[k]? = some m) (a : ℕ)
    (ha : m.at .areas = some a) (program : List Act) (hrun : w.run srt ord program = .ok w') :
    w'.heap[a]? = w.heap[a]? := by
  refine C109_snapshot_partial srt ord w w' hw k m hk .areas a ha program hrun (fun act _ => ?_)
  cases act with
  | call j op => cases op <;> simp [Act.Modifies, inPlace]
  | _ => simp [Act.Modifies]

/-! ### The operations which modify arrays obtained earlier -/

lemma call_ok {srt : (ℕ → ℝ) → List ℕ → List ℕ} {ord : List ℕ → List ℕ} {w w' : World} {k : ℕ} {m : MeshRef}
    (hk : w.meshes[k]? = some m) {op : MeshObj.Op} (h : w.step srt ord (.call k op) = .ok w') :
    ∃ s, St.step srt ord (w.heap, m) op = .ok s ∧ w' = w.put k s := by
  simp only [World.step, hk] at h
  split at h
  · cases h
  · rename_i s hs
    cases h
    exact ⟨s, hs, rfl⟩

/-- C109 is false of `translate_x` and of `mirror`: the array obtained from `mesh.vertices` before the call holds the
moved vertices after it. -/
theorem C109_vertices_fails (srt : (ℕ → ℝ) → List ℕ → List ℕ) (ord : List ℕ → List ℕ) (w w' : World)
    (hw : Reached srt ord w) (k : ℕ) (m : MeshRef) (hk : w.meshes[k]? = some m) :
    (∀ t : ℝ, w.step srt ord (.call k (.translateX t)) = .ok w' →
      vecsAt w'.heap m.v = (vecsAt w.heap m.v).map (fun p => ⟨p.x + t, p.y, p.z⟩)) ∧
    (∀ p : Plane ℝ, w.step srt ord (.call k (.mirror p)) = .ok w' →
      vecsAt w'.heap m.v = (vecsAt w.heap m.v).map p.reflect) := by
  have W := hw.wf.mesh k m hk
  refine ⟨fun t h => ?_, fun p h => ?_⟩
  · obtain ⟨s, hs, rfl⟩ := call_ok hk h
    cases hs
    have e := congrArg (fun o : MeshObj => o.mesh.vertices) (St.translateX_view W t)
    have ev : (St.translateX t (w.heap, m)).2.v = m.v := by
      simp only [St.translateX, St.dropInts, St.addCentres, St.writeV]
      split <;> rfl
    simp only [St.view, view, ev] at e
    exact e
  · obtain ⟨s, hs, rfl⟩ := call_ok hk h
    cases hs
    have e := congrArg (fun o : MeshObj => o.mesh.vertices) (St.mirror_view W p)
    have ev : (St.mirror p (w.heap, m)).2.v = m.v := by
      simp only [St.mirror, St.clear, St.flipNormals, St.dropInts, St.negNormals, St.storeF, St.writeV]
      split <;> rfl
    simp only [St.view, view, ev] at e
    exact e

/-- C109 is false of `heal_triangles` and of `triangulate_quadrangles`: the array obtained from `mesh.faces` before
the call holds the healed faces, or is left with one triangle of each quadrangle. -/
theorem C109_faces_fails (srt : (ℕ → ℝ) → List ℕ → List ℕ) (ord : List ℕ → List ℕ) (w w' : World)
    (hw : Reached srt ord w) (k : ℕ) (m : MeshRef) (hk : w.meshes[k]? = some m) :
    (w.step srt ord (.call k .healTriangles) = .ok w' →
      facesAt w'.heap m.f = (view w.heap m).mesh.healTriangles.faces) ∧
    (w.step srt ord (.call k .triangulateQuadrangles) = .ok w' →
      facesAt w'.heap m.f = (view w'.heap (w'.meshes.getD k m)).mesh.faces.take (facesAt w.heap m.f).length) := by
  have W := hw.wf.mesh k m hk
  have hlt : k < w.meshes.length := by
    by_contra hc; rw [List.getElem?_eq_none (by omega)] at hk; cases hk
  refine ⟨fun h => ?_, fun h => ?_⟩
  · obtain ⟨s, hs, rfl⟩ := call_ok hk h
    cases hs
    have e := congrArg (fun o : MeshObj => o.mesh.faces) (St.healTriangles_view W)
    have ev : (St.healTriangles (w.heap, m)).2.f = m.f := by
      simp only [St.healTriangles, St.dropPropsIfAny, St.writeF]
      split <;> rfl
    simp only [St.view, view, ev] at e
    exact e
  · obtain ⟨s, hs, rfl⟩ := call_ok hk h
    have e := congrArg (fun o => o.map (fun o : MeshObj => o.mesh.faces)) (St.triangulate_view W)
    simp only [St.step] at hs
    rw [hs] at e
    simp only [Except.map] at e
    have hget : (w.put k s).meshes.getD k m = s.2 := by simp [World.put, List.getD, hlt]
    rw [hget]
    unfold St.triangulate at hs
    unfold MeshObj.doTriangulate at e
    dsimp only at hs e
    split at hs
    · rename_i hq
      rw [if_pos hq] at e
      simp only [Except.ok.injEq] at e
      have e2 : (view (w.put k s).heap s.2).mesh.faces =
        (MeshObj.triangulateWith (St.view (w.heap, m)).readIds.1.2 (St.view (w.heap, m)).mesh).faces := e
      rw [e2]
      cases hs
      obtain ⟨h1, h2, _⟩ := W.explicit
      have hl : (facesAt w.heap m.f).length = (St.secondTriangles (St.view (w.heap, m)).readIds.1.2
          (St.view (w.heap, m)).mesh).length := by
        unfold St.secondTriangles
        have : ∀ (q : List ℕ) (g : ℕ → Face) (l : List Face), (q.foldl (fun l k => l.set k (g k)) l).length = l.length := by
          intro q g
          induction q with
          | nil => intro l; rfl
          | cons x q ih => intro l; simp [ih]
        rw [this]
        rfl
      rw [hl]
      simp only [MeshObj.triangulateWith]
      rw [show (List.foldl (fun l k => l.set k ((fun f : Face => ⟨f.a, f.c, f.d, f.a⟩)
        ((St.view (w.heap, m)).mesh.faceAt k))) (St.view (w.heap, m)).mesh.faces (St.view (w.heap, m)).readIds.1.2) =
        St.secondTriangles (St.view (w.heap, m)).readIds.1.2 (St.view (w.heap, m)).mesh from rfl]
      rw [List.take_left]
      simp only [World.put, St.clear, St.storeF, St.writeF]
      rw [facesAt_append (by simpa using h2), facesAt_set h2]
    · cases hs

/-- C109 is false of the cached arrays: the translations move the array obtained from `mesh.faces_centers`,
`flip_normals` reverses the one obtained from `mesh.faces_normals`. -/
theorem C109_cached_fails (srt : (ℕ → ℝ) → List ℕ → List ℕ) (ord : List ℕ → List ℕ) (w w' : World)
    (hw : Reached srt ord w) (k : ℕ) (m : MeshRef) (hk : w.meshes[k]? = some m) (a n c : ℕ)
    (hp : m.props = some (a, n, c)) :
    (∀ t : V3 ℝ, w.step srt ord (.call k (.translate t)) = .ok w' →
      vecsAt w'.heap c = (vecsAt w.heap c).map (· + t)) ∧
    (∀ t : ℝ, w.step srt ord (.call k (.translateX t)) = .ok w' →
      vecsAt w'.heap c = (vecsAt w.heap c).map (· + ⟨t, 0, 0⟩)) ∧
    (∀ t : ℝ, w.step srt ord (.call k (.translateY t)) = .ok w' →
      vecsAt w'.heap c = (vecsAt w.heap c).map (· + ⟨0, t, 0⟩)) ∧
    (∀ t : ℝ, w.step srt ord (.call k (.translateZ t)) = .ok w' →
      vecsAt w'.heap c = (vecsAt w.heap c).map (· + ⟨0, 0, t⟩)) ∧
    (w.step srt ord (.call k .flipNormals) = .ok w' →
      vecsAt w'.heap n = (vecsAt w.heap n).map (fun x => -x)) := by
  have W := hw.wf.mesh k m hk
  obtain ⟨h1, h2, h3, h4⟩ := W.explicit
  obtain ⟨b1, b2, b3, k1, k2, k3, k4, k5, k6, k7, k8, k9⟩ := h4 a n c hp
  simp only at h1 h2 h3 b1 b2 b3 k1 k2 k3 k4 k5 k6
  have key : ∀ (t : V3 ℝ) (l : List (V3 ℝ)), vecsAt (St.moved t l (w.heap, m)).1 c = (vecsAt w.heap c).map (· + t) := by
    intro t l
    simp only [St.moved, St.dropInts, St.addCentres, St.storeV, hp]
    rw [vecsAt_set (by simp; omega), vecsAt_append b3]
  refine ⟨fun t h => ?_, fun t h => ?_, fun t h => ?_, fun t h => ?_, fun h => ?_⟩
  · obtain ⟨s, hs, rfl⟩ := call_ok hk h
    cases hs
    exact key t _
  · obtain ⟨s, hs, rfl⟩ := call_ok hk h
    cases hs
    simp only [World.put, St.translateX, St.dropInts, St.addCentres, St.writeV, hp]
    rw [vecsAt_set (by simpa using b3), vecsAt_set_ne k3.symm]
  · obtain ⟨s, hs, rfl⟩ := call_ok hk h
    cases hs
    exact key _ _
  · obtain ⟨s, hs, rfl⟩ := call_ok hk h
    cases hs
    exact key _ _
  · obtain ⟨s, hs, rfl⟩ := call_ok hk h
    cases hs
    simp only [World.put, St.flipNormals, St.dropInts, St.negNormals, St.storeF, hp]
    rw [vecsAt_set (by simp; omega), vecsAt_append b2]

/-! ### Programs -/

/-- `Mesh(v, f)` from two arrays of the program. -/
def build (v : List (V3 ℝ)) (f : List Face) : List Act := [.array (.vecs v), .array (.faces f), .new (.var 0) (.var 1)]

/-- The program has its two arrays and one mesh. -/
def built (v : List (V3 ℝ)) (f : List Face) : World :=
  ⟨[.vecs v, .faces f, .vecs v, .faces f], [{ v := 2, f := 3 }], [0, 1]⟩

lemma run_build (srt : (ℕ → ℝ) → List ℕ → List ℕ) (ord : List ℕ → List ℕ) (v : List (V3 ℝ)) (f : List Face) :
    World.run srt ord (build v f) {} = .ok (built v f) := rfl

/-- C108, a program: a mesh is built, copied, the copy is moved, the original is moved otherwise, the array it was
built from is overwritten: the three are what they should be. -/
theorem C108_sample (srt : (ℕ → ℝ) → List ℕ → List ℕ) (ord : List ℕ → List ℕ) :
    (World.run srt ord (build [⟨0, 0, 0⟩, ⟨1, 0, 0⟩, ⟨0, 1, 0⟩] [⟨0, 1, 2, 0⟩] ++
      [.copy 0, .call 1 (.translateX 5), .call 0 (.translate ⟨0, 0, 7⟩), .write 0 (.vecs [])]) {}).map World.values =
    .ok ⟨[MeshObj.new ⟨[⟨0, 0, 7⟩, ⟨1, 0, 7⟩, ⟨0, 1, 7⟩], [⟨0, 1, 2, 0⟩]⟩,
          MeshObj.new ⟨[⟨5, 0, 0⟩, ⟨6, 0, 0⟩, ⟨5, 1, 0⟩], [⟨0, 1, 2, 0⟩]⟩], [.vecs [], .faces [⟨0, 1, 2, 0⟩]]⟩ := by
  rw [C108_values]
  simp only [build, List.cons_append, List.nil_append, Values.run, Values.step, Values.vecsArg, Values.facesArg,
    bind, Except.bind, MeshObj.step, MeshObj.doTranslate, Mesh.translateX, Mesh.translate, Mesh.mapVertices,
    MeshObj.new, MeshObj.dropInts]
  simp
  constructorm* _ ∧ _ <;> (try ext) <;> norm_num

/-- C109, a program: `v = mesh.vertices; mesh.translate_x(1)` moves `v`, `mesh.translate_y(1)` does not. -/
theorem C109_sample (srt : (ℕ → ℝ) → List ℕ → List ℕ) (ord : List ℕ → List ℕ) (f : List Face) :
    (∃ w', (built [⟨0, 0, 0⟩] f).step srt ord (.call 0 (.translateX 1)) = .ok w' ∧ vecsAt w'.heap 2 = [⟨1, 0, 0⟩]) ∧
    (∃ w', (built [⟨0, 0, 0⟩] f).step srt ord (.call 0 (.translateY 1)) = .ok w' ∧ vecsAt w'.heap 2 = [⟨0, 0, 0⟩]) := by
  refine ⟨⟨_, rfl, ?_⟩, ⟨_, rfl, ?_⟩⟩
  · rw [(C109_vertices_fails srt ord (built [⟨0, 0, 0⟩] f) _ ⟨_, run_build srt ord _ f⟩ 0 { v := 2, f := 3 } rfl).1 1 rfl]
    simp [built, vecsAt]
  · rw [vecsAt_congr (C109_snapshot_partial srt ord (built [⟨0, 0, 0⟩] f) _ ⟨_, run_build srt ord _ f⟩ 0
      { v := 2, f := 3 } rfl .vertices 2 rfl [.call 0 (.translateY 1)] rfl (by simp [Act.Modifies, inPlace]))]
    simp [built, vecsAt]

/-- Two triangles of opposite orientations and another one, apart. -/
def twisted : List Face := [⟨0, 1, 2, 0⟩, ⟨1, 2, 3, 1⟩, ⟨4, 5, 6, 4⟩]
def untwisted : List Face := [⟨0, 1, 2, 0⟩, ⟨1, 3, 2, 1⟩, ⟨4, 5, 6, 4⟩]

/-- C109 is false of `heal_normals`: `f = mesh.faces; mesh.heal_normals()` reverses a face of `f`. -/
theorem C109_heal_normals_fails (srt : (ℕ → ℝ) → List ℕ → List ℕ) (v : List (V3 ℝ)) (hv : v.length = 7) :
    ∃ w', (built v twisted).step srt id (.call 0 .healNormals) = .ok w' ∧
      facesAt w'.heap 3 = untwisted := by
  obtain ⟨c, hc⟩ : ∃ c, connectivity id 7 twisted = .ok c := ⟨_, rfl⟩
  have b1 : (connectivity id 7 twisted).toOption.map (fun c => c.isClosed) = some false := by
    decide +kernel
  have b2 : (connectivity id 7 twisted).toOption.bind (fun c =>
      (healFlood id c.ff twisted).toOption.map (fun r => r.1)) =
      some untwisted := by decide +kernel
  rw [hc] at b1 b2
  simp only [Except.toOption, Option.map_some, Option.some.injEq, Option.bind_some] at b1 b2
  obtain ⟨r, hr⟩ : ∃ r, healFlood id c.ff twisted = .ok r := by
    cases hh : healFlood id c.ff twisted with
    | error e => rw [hh] at b2; simp at b2
    | ok r => exact ⟨r, rfl⟩
  obtain ⟨F, ff'⟩ := r
  rw [hr] at b2
  simp only [Option.map_some, Option.some.injEq] at b2
  subst b2
  refine ⟨(built v twisted).put 0 ((((St.setConn c ((built v twisted).heap,
    { v := 2, f := 3 })).readIds).writeF untwisted).setConn { c with ff := ff' }), ?_, rfl⟩
  have h0 : (built v twisted).meshes[0]? = some { v := 2, f := 3 } := rfl
  have h1 : St.readConn id ((built v twisted).heap, { v := 2, f := 3 }) =
      .ok (c, St.setConn c ((built v twisted).heap, { v := 2, f := 3 })) := by
    have : connectivity id v.length twisted = .ok c := by rw [hv]; exact hc
    unfold St.readConn
    dsimp only
    rw [show connectivity id (St.view ((built v twisted).heap,
      ({ v := 2, f := 3 } : MeshRef))).mesh.nv (St.view ((built v twisted).heap,
      ({ v := 2, f := 3 } : MeshRef))).mesh.faces = .ok c from this]
  simp only [World.step, h0, St.step, St.healNormals, h1]
  rw [show healFlood id c.ff (St.setConn c ((built v twisted).heap,
    ({ v := 2, f := 3 } : MeshRef))).readIds.view.mesh.faces = .ok (untwisted, ff') from hr]
  simp only [b1, Bool.false_eq_true, if_false]
  rfl

/-- Writing into the array obtained from `mesh.vertices` moves the mesh, but the areas already computed are still
returned: `mesh.faces_areas` then `mesh.vertices[...] = ...` leaves a mesh which is not the one of its arrays. -/
theorem C109_write_stale (srt : (ℕ → ℝ) → List ℕ → List ℕ) (ord : List ℕ → List ℕ) :
    ∃ w o, World.run srt ord (build cacheTri.vertices cacheTri.faces ++ [.call 0 .readProps,
        .pokeVertices 0 [⟨0, 0, 0⟩, ⟨2, 0, 0⟩, ⟨0, 2, 0⟩]]) {} = .ok w ∧
      w.values.meshes[0]? = some o ∧ o.mesh.vertices = [⟨0, 0, 0⟩, ⟨2, 0, 0⟩, ⟨0, 2, 0⟩] ∧
      ¬ o.GeometryUpToDate := by
  have hv := C108_values srt ord (build cacheTri.vertices cacheTri.faces ++ [.call 0 .readProps,
        .pokeVertices 0 [⟨0, 0, 0⟩, ⟨2, 0, 0⟩, ⟨0, 2, 0⟩]])
  have hr : Values.run srt ord (build cacheTri.vertices cacheTri.faces ++ [.call 0 .readProps,
        .pokeVertices 0 [⟨0, 0, 0⟩, ⟨2, 0, 0⟩, ⟨0, 2, 0⟩]]) {} =
      .ok ⟨[⟨⟨[⟨0, 0, 0⟩, ⟨2, 0, 0⟩, ⟨0, 2, 0⟩], cacheTri.faces⟩,
        { props := some cacheTri.facesProperties, ids := some (cacheTri.trianglesIds, cacheTri.quadranglesIds) }⟩],
        [.vecs cacheTri.vertices, .faces cacheTri.faces]⟩ := by
    simp only [build, List.cons_append, List.nil_append, Values.run, Values.step, Values.vecsArg, Values.facesArg,
      bind, Except.bind, List.getElem?_cons_zero, List.getElem?_cons_succ, MeshObj.step]
    rw [show (⟨cacheTri.vertices, cacheTri.faces⟩ : Mesh ℝ) = cacheTri from rfl, readProps_new cacheTri_WF]
    simp [Except.map, cacheTri]
  rw [hr] at hv
  rcases hw : World.run srt ord (build cacheTri.vertices cacheTri.faces ++ [.call 0 .readProps,
        .pokeVertices 0 [⟨0, 0, 0⟩, ⟨2, 0, 0⟩, ⟨0, 2, 0⟩]]) {} with e | w
  · rw [hw] at hv; simp [Except.map] at hv
  · rw [hw] at hv
    simp only [Except.map, Except.ok.injEq] at hv
    refine ⟨w, _, hw, by rw [hv]; rfl, rfl, ?_⟩
    rintro ⟨-, h, -⟩
    have hwf : (⟨[⟨0, 0, 0⟩, ⟨2, 0, 0⟩, ⟨0, 2, 0⟩], cacheTri.faces⟩ : Mesh ℝ).WF := by
      intro f hf i hi
      simpa [Mesh.nv, cacheTri] using cacheTri_WF f hf i hi
    rw [readProps_new hwf] at h
    simp only [MeshObj.readProps, SameOutcome] at h
    have h1 := h.1
    rw [facesProperties_eq, facesProperties_eq] at h1
    have h2 := congrArg (fun l : List ℝ => l.getD 0 0) h1
    simp [cacheTri, Mesh.faceProps, Face.isTri, Mesh.triPropsOf, Mesh.vert, triProps, V3.norm, V3.normSq, V3.dot,
      V3.cross] at h2
    norm_num at h2

end Alias
end MM
