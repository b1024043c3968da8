import Verif.Spec.Mesh
import Mathlib.Data.List.Nodup
import Mathlib.Data.List.Forall2

/-! Helper lemmas on renumbering. -/

namespace MM

variable {K : Type*}

theorem foldl_set_true_length (l : List ℕ) : ∀ a : List Bool,
    (l.foldl (fun mk i => mk.set i true) a).length = a.length := by
  induction l with
  | nil => simp
  | cons x l ih => intro a; simp [ih]

theorem foldl_set_true_getElem? (l : List ℕ) (i : ℕ) : ∀ a : List Bool, i < a.length →
    (l.foldl (fun mk i => mk.set i true) a)[i]? = if i ∈ l then some true else a[i]? := by
  induction l with
  | nil => simp
  | cons x l ih =>
    intro a hi
    rw [List.foldl_cons, ih _ (by simpa using hi)]
    simp only [List.mem_cons, List.getElem?_set]
    by_cases h2 : i ∈ l <;> by_cases h3 : i = x <;> simp [h2, h3] <;> grind

theorem usedMask_getD (nv : ℕ) (used : List ℕ) (i : ℕ) (hi : i < nv) :
    (Mesh.usedMask nv used).getD i false = decide (i ∈ used) := by
  unfold Mesh.usedMask
  rw [List.getD_eq_getElem?_getD, foldl_set_true_getElem? _ _ _ (by simpa using hi)]
  by_cases h : i ∈ used <;> simp [h, hi]

theorem mem_idV {nv : ℕ} {used : List ℕ} {i : ℕ} : i ∈ Mesh.idV nv used ↔ i < nv ∧ i ∈ used := by
  unfold Mesh.idV
  rw [List.mem_filter, List.mem_range]
  constructor
  · rintro ⟨h1, h2⟩
    rw [usedMask_getD _ _ _ h1] at h2
    exact ⟨h1, by simpa using h2⟩
  · rintro ⟨h1, h2⟩
    rw [usedMask_getD _ _ _ h1]
    exact ⟨h1, by simpa using h2⟩

theorem idV_pairwise (nv : ℕ) (used : List ℕ) : (Mesh.idV nv used).Pairwise (· < ·) :=
  List.Pairwise.filter _ List.pairwise_lt_range

theorem idV_nodup (nv : ℕ) (used : List ℕ) : (Mesh.idV nv used).Nodup :=
  (idV_pairwise nv used).imp (fun h => Nat.ne_of_lt h)

theorem foldl_setPair_length (l : List (ℕ × ℕ)) : ∀ a : List ℕ,
    (l.foldl (fun a p => a.set p.1 p.2) a).length = a.length := by
  induction l with
  | nil => simp
  | cons x l ih => intro a; simp [ih]

theorem foldl_setPair_not_mem (l : List (ℕ × ℕ)) (i : ℕ) (h : i ∉ l.map Prod.fst) :
    ∀ a : List ℕ, (l.foldl (fun a p => a.set p.1 p.2) a)[i]? = a[i]? := by
  induction l with
  | nil => simp
  | cons x l ih =>
    intro a
    simp at h
    rw [List.foldl_cons, ih (by simpa using h.2), List.getElem?_set_ne (Ne.symm h.1)]

theorem foldl_setPair_mem (l : List (ℕ × ℕ)) (hnd : (l.map Prod.fst).Nodup) (i k : ℕ)
    (h : (i, k) ∈ l) : ∀ a : List ℕ, i < a.length →
    (l.foldl (fun a p => a.set p.1 p.2) a)[i]? = some k := by
  induction l with
  | nil => simp at h
  | cons x l ih =>
    intro a hi
    rw [List.map_cons, List.nodup_cons] at hnd
    rw [List.foldl_cons]
    rcases List.mem_cons.1 h with rfl | h
    · rw [foldl_setPair_not_mem _ _ hnd.1]
      simp [hi]
    · exact ih hnd.2 h _ (by simpa using hi)

theorem newIds_getElem? (nv : ℕ) (ids : List ℕ) (hnd : ids.Nodup) (hlt : ∀ i ∈ ids, i < nv)
    (k i : ℕ) (h : ids[k]? = some i) : (Mesh.newIds nv ids)[i]? = some k := by
  unfold Mesh.newIds
  refine foldl_setPair_mem _ ?_ i k ?_ _ ?_
  · rw [List.zipIdx_map_fst]; exact hnd
  · rw [List.mem_zipIdx_iff_getElem?]; exact h
  · simpa using hlt i (List.mem_of_getElem? h)

/-- Every used vertex is found again through the renumbering. -/
theorem renumber_spec [CommRing K] (m : Mesh K) (used : List ℕ) (i : ℕ) (hi : i < m.nv)
    (hu : i ∈ used) :
    ∃ k, (Mesh.newIds m.nv (Mesh.idV m.nv used)).getD i 0 = k ∧
      (Mesh.idV m.nv used)[k]? = some i ∧
      ((Mesh.idV m.nv used).map m.vert)[k]? = m.vertices[i]? := by
  have hmem : i ∈ Mesh.idV m.nv used := mem_idV.2 ⟨hi, hu⟩
  obtain ⟨k, hk⟩ := List.mem_iff_getElem?.1 hmem
  have h1 := newIds_getElem? m.nv (Mesh.idV m.nv used) (idV_nodup _ _)
    (fun i hi => (mem_idV.1 hi).1) k i hk
  refine ⟨k, ?_, hk, ?_⟩
  · rw [List.getD_eq_getElem?_getD, h1]; rfl
  · have : i < m.vertices.length := hi
    rw [List.getElem?_map, hk]
    simp [Mesh.vert, this]

theorem cornerPoints_map (m m' : Mesh K) (g : ℕ → ℕ) (f : Face)
    (h : ∀ i ∈ f.toList, m'.vertices[g i]? = m.vertices[i]?) :
    m'.cornerPoints (f.map g) = m.cornerPoints f := by
  simp [Mesh.cornerPoints, Face.toList, Face.map] at *
  obtain ⟨h1, h2, h3, h4⟩ := h
  exact ⟨h1, h2, h3, h4⟩

theorem Face.toList_map (f : Face) (g : ℕ → ℕ) : (f.map g).toList = f.toList.map g := rfl

end MM
