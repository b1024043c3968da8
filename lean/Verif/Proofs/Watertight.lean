import Verif.Spec.Closed
import Verif.Proofs.FaceProps
import Mathlib.Data.List.Count
import Mathlib.Algebra.BigOperators.Group.List.Basic

/-!
# Watertight meshes and renumberings of vertices

A mesh is closed and oriented exactly when the sum over its directed edges of every antisymmetric function of two vertex numbers
vanishes. The sum over a face is unchanged by a renumbering of the vertices (applied to the function), by rolling the face, and
by cutting it; it is reversed by flipping the face.
-/

namespace MM

/-- The sum over the directed edges of a face of a function of two vertex numbers. -/
def Face.edgeSum (g : ℕ → ℕ → ℤ) (f : Face) : ℤ := (f.directedEdges.map fun e => g e.1 e.2).sum

def AntiSymm (g : ℕ → ℕ → ℤ) : Prop := ∀ i j, g j i = - g i j

lemma AntiSymm.self {g : ℕ → ℕ → ℤ} (h : AntiSymm g) (i : ℕ) : g i i = 0 := by
  have := h i i; omega

lemma AntiSymm.comp {g : ℕ → ℕ → ℤ} (h : AntiSymm g) (φ : ℕ → ℕ) : AntiSymm fun i j => g (φ i) (φ j) := fun _ _ => h _ _

/-- The four sides of a face; a triangle has its fourth side of length zero. -/
lemma Face.edgeSum_eq {g : ℕ → ℕ → ℤ} (h : AntiSymm g) (f : Face) :
    f.edgeSum g = g f.a f.b + g f.b f.c + g f.c f.d + g f.d f.a := by
  unfold Face.edgeSum Face.directedEdges
  split_ifs with e
  · rw [← e, h.self]; simp; ring
  · simp; ring

lemma Face.edgeSum_map {g : ℕ → ℕ → ℤ} (h : AntiSymm g) (φ : ℕ → ℕ) (f : Face) :
    (f.map φ).edgeSum g = f.edgeSum fun i j => g (φ i) (φ j) := by
  rw [Face.edgeSum_eq h, Face.edgeSum_eq (h.comp φ)]; rfl

lemma Face.edgeSum_flip {g : ℕ → ℕ → ℤ} (h : AntiSymm g) (f : Face) : f.flip.edgeSum g = - f.edgeSum g := by
  rw [Face.edgeSum_eq h, Face.edgeSum_eq h]
  simp only [Face.flip]
  rw [h f.c f.d, h f.b f.c, h f.a f.b, h f.d f.a]; ring

lemma Face.edgeSum_roll {g : ℕ → ℕ → ℤ} (h : AntiSymm g) (f : Face) : f.roll.edgeSum g = f.edgeSum g := by
  rw [Face.edgeSum_eq h, Face.edgeSum_eq h]
  simp only [Face.roll]; ring

/-- The sum over the directed edges of a list of faces. -/
def edgeSums (g : ℕ → ℕ → ℤ) (l : List Face) : ℤ := (l.map (Face.edgeSum g)).sum

lemma sum_edges (g : ℕ → ℕ → ℤ) (l : List Face) :
    ((l.flatMap Face.directedEdges).map fun e => g e.1 e.2).sum = edgeSums g l := by
  unfold edgeSums
  induction l with
  | nil => rfl
  | cons f l ih => simp [ih, Face.edgeSum]

lemma edgeSums_append (g : ℕ → ℕ → ℤ) (l k : List Face) : edgeSums g (l ++ k) = edgeSums g l + edgeSums g k := by
  simp [edgeSums]

lemma edgeSums_perm (g : ℕ → ℕ → ℤ) {l k : List Face} (h : l.Perm k) : edgeSums g l = edgeSums g k :=
  (h.map _).sum_eq

lemma edgeSums_map {g g' : ℕ → ℕ → ℤ} {F : Face → Face} (h : ∀ f, (F f).edgeSum g = f.edgeSum g') (l : List Face) :
    edgeSums g (l.map F) = edgeSums g' l := by
  simp [edgeSums, h, Function.comp_def]

lemma edgeSums_flatMap {g : ℕ → ℕ → ℤ} {F : Face → List Face} (h : ∀ f, edgeSums g (F f) = f.edgeSum g) (l : List Face) :
    edgeSums g (l.flatMap F) = edgeSums g l := by
  induction l with
  | nil => rfl
  | cons f l ih => rw [List.flatMap_cons, edgeSums_append, ih, h]; simp [edgeSums]

/-- The edges which are not traversed as often in both directions do not matter if the function vanishes on them. -/
lemma sum_antisymm_zero {L : List (ℕ × ℕ)} {g : ℕ → ℕ → ℤ} (hg : AntiSymm g)
    (h : ∀ i j, L.count (i, j) ≠ L.count (j, i) → g i j = 0) : (L.map fun e => g e.1 e.2).sum = 0 := by
  classical
  have key : ∀ P : List (ℕ × ℕ), (∀ i j, P.count (i, j) = P.count (j, i)) → (P.map fun e => g e.1 e.2).sum = 0 := by
    intro P hP
    have hperm : (P.map Prod.swap).Perm P := by
      rw [List.perm_iff_count]
      rintro ⟨i, j⟩
      have := List.count_map_of_injective P Prod.swap Prod.swap_injective (j, i)
      simp only [Prod.swap_prod_mk] at this
      rw [this, hP]
    have h1 := (hperm.map fun e => g e.1 e.2).sum_eq
    have h2 : ∀ Q : List (ℕ × ℕ), ((Q.map Prod.swap).map fun e => g e.1 e.2).sum = - (Q.map fun e => g e.1 e.2).sum := by
      intro Q
      induction Q with
      | nil => simp
      | cons e Q ih =>
        simp only [List.map_cons, List.sum_cons, ih, Prod.fst_swap, Prod.snd_swap]
        rw [hg e.1 e.2]; ring
    rw [h2] at h1
    omega
  have hf : ∀ Q : List (ℕ × ℕ), (Q.map fun e => g e.1 e.2).sum =
      ((Q.filter fun e => decide (L.count e = L.count e.swap)).map fun e => g e.1 e.2).sum := by
    intro Q
    induction Q with
    | nil => rfl
    | cons e Q ih =>
      by_cases he : L.count e = L.count e.swap
      · rw [List.filter_cons_of_pos (by simpa using he)]; simp [ih]
      · rw [List.filter_cons_of_neg (by simpa using he), List.map_cons, List.sum_cons, ih, h e.1 e.2 he, zero_add]
  rw [hf]
  apply key
  intro i j
  by_cases he : L.count (i, j) = L.count (j, i)
  · rw [List.count_filter (by simpa using he), List.count_filter (by simpa using he.symm), he]
  · rw [List.count_eq_zero_of_not_mem, List.count_eq_zero_of_not_mem]
    · simp [List.mem_filter]; intro _ hh; exact he hh.symm
    · simp [List.mem_filter]; intro _ hh; exact he hh

/-- A list of directed edges is balanced as soon as the sums of antisymmetric functions vanish. -/
lemma balanced_of_sums {L : List (ℕ × ℕ)} (h : ∀ g, AntiSymm g → (L.map fun e => g e.1 e.2).sum = 0) (i j : ℕ) :
    L.count (i, j) = L.count (j, i) := by
  have := h (fun a b => (if (a, b) = (i, j) then 1 else 0) - (if (a, b) = (j, i) then 1 else 0)) (by
    intro a b
    simp only [Prod.mk.injEq]
    by_cases h1 : a = i <;> by_cases h2 : b = j <;> by_cases h3 : a = j <;> by_cases h4 : b = i <;>
      simp [h1, h2, h3, h4] <;> grind)
  have hs : ∀ Q : List (ℕ × ℕ), (Q.map fun e => ((if (e.1, e.2) = (i, j) then 1 else 0) -
      (if (e.1, e.2) = (j, i) then 1 else 0) : ℤ)).sum = Q.count (i, j) - Q.count (j, i) := by
    intro Q
    induction Q with
    | nil => simp
    | cons e Q ih =>
      rw [List.map_cons, List.sum_cons, ih, List.count_cons, List.count_cons]
      simp only [Prod.mk.eta, beq_iff_eq]
      push_cast
      ring
  rw [hs] at this
  omega

variable {K : Type*}

lemma closedOriented_iff (m : Mesh K) : m.ClosedOriented ↔ ∀ g, AntiSymm g → edgeSums g m.faces = 0 := by
  constructor
  · intro h g hg
    rw [← sum_edges]
    exact sum_antisymm_zero hg fun i j hij => absurd (h i j) hij
  · intro h i j
    exact balanced_of_sums (fun g hg => by rw [← h g hg, ← sum_edges]; rfl) i j

end MM
