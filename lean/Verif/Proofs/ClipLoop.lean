import Verif.Proofs.ClipTable

/-!
# The loop over the crown faces
-/

namespace MM
namespace Clipper

set_option linter.unusedSectionVars false
set_option linter.unusedSimpArgs false

variable {K : Type*} [Field K] [LinearOrder K] [IsStrictOrderedRing K]

/-! ## Points computed by the clipper -/

lemma dist_comb (p : Plane K) (s t : K) (u v : V3 K) (h : s + t = 1) :
    p.dist (s • u + t • v) = s * p.dist u + t * p.dist v := by
  simp only [Plane.dist, V3.add_dot, V3.smul_dot]
  linear_combination p.c * h

lemma cut_ok {p : Plane K} {verts : List (V3 K)} {i j : ℕ} {x : V3 K} (h : cut p verts i j = .ok x) :
    p.dist x = 0 ∧ p.dist (verts.getD i 0) * p.dist (verts.getD j 0) ≤ 0 ∧
      p.dist (verts.getD i 0) ≠ p.dist (verts.getD j 0) ∧
      x = (1 - p.dist (verts.getD i 0) / (p.dist (verts.getD i 0) - p.dist (verts.getD j 0))) • verts.getD i 0 +
        (p.dist (verts.getD i 0) / (p.dist (verts.getD i 0) - p.dist (verts.getD j 0))) • verts.getD j 0 := by
  unfold cut at h
  cases h1 : p.edgeIntersection (verts.getD i 0) (verts.getD j 0) with
  | error e => rw [h1] at h; simp at h
  | ok o =>
    rw [h1] at h
    cases o with
    | none => simp at h
    | some y =>
      simp only [Except.ok.injEq] at h
      subst h
      obtain ⟨g1, g2⟩ := C29_edge_intersection p (verts.getD i 0) (verts.getD j 0)
      generalize verts.getD i 0 = a at *
      generalize verts.getD j 0 = b at *
      by_cases hp : 0 < p.dist a * p.dist b
      · rw [g2 hp] at h1; cases h1
      · have hp' := not_lt.1 hp
        have hne : a.dot p.normal - b.dot p.normal ≠ 0 := by
          intro h0
          rw [Plane.edgeIntersection] at h1
          simp only [h0, if_true] at h1
          split_ifs at h1
          simp at h1
        by_cases hz : p.dist a = 0 ∧ p.dist b = 0
        · exfalso
          rcases hz with ⟨z1, z2⟩
          simp only [Plane.dist] at z1 z2
          apply hne; linear_combination z1 - z2
        · obtain ⟨q, e1, e2, _, _⟩ := g1 hp' hz
          rw [h1] at e1
          cases e1
          refine ⟨e2, hp', ?_, ?_⟩
          · intro h; apply hne; simp only [Plane.dist] at h; linear_combination h
          · rw [Plane.edgeIntersection] at h1
            simp only [hne, if_false] at h1
            split_ifs at h1
            simp only [Except.ok.injEq, Option.some.injEq] at h1
            rw [← h1]
            simp only [Plane.dist]
            have : a.dot p.normal - p.c - (b.dot p.normal - p.c) = a.dot p.normal - b.dot p.normal := by ring
            rw [this]

lemma cut_isOk {p : Plane K} {verts : List (V3 K)} {i j : ℕ}
    (h : p.dist (verts.getD i 0) * p.dist (verts.getD j 0) < 0) : ∃ x, cut p verts i j = .ok x := by
  have hz : ¬ (p.dist (verts.getD i 0) = 0 ∧ p.dist (verts.getD j 0) = 0) := by
    rintro ⟨h1, h2⟩; rw [h1] at h; simp at h
  obtain ⟨q, e, _⟩ := (C29_edge_intersection p (verts.getD i 0) (verts.getD j 0)).1 h.le hz
  exact ⟨q, by simp only [cut, e]⟩

/-- The point cut on an edge does not depend on the direction of the edge. -/
lemma cut_symm {p : Plane K} {verts : List (V3 K)} {i j : ℕ} {x : V3 K} (h : cut p verts i j = .ok x) :
    cut p verts j i = .ok x := by
  obtain ⟨_, h2, h3, _⟩ := cut_ok h
  have hz : ¬ (p.dist (verts.getD i 0) = 0 ∧ p.dist (verts.getD j 0) = 0) := by
    rintro ⟨h4, h5⟩; rw [h4, h5] at h3; simp at h3
  obtain ⟨q, e, _, _, e'⟩ := (C29_edge_intersection p (verts.getD i 0) (verts.getD j 0)).1 h2 hz
  simp only [cut, e, Except.ok.injEq] at h
  simp only [cut, e', h]

lemma mapE_forall₂ {α β ε : Type*} {g : α → Except ε β} : ∀ {l : List α} {r : List β},
    mapE g l = .ok r → List.Forall₂ (fun a b => g a = .ok b) l r := by
  intro l
  induction l with
  | nil => intro r h; simp [mapE] at h; subst h; exact .nil
  | cons a l ih =>
    intro r h
    unfold mapE at h
    cases hga : g a with
    | error e => rw [hga] at h; simp at h
    | ok c =>
      rw [hga] at h
      cases hl : mapE g l with
      | error e => rw [hl] at h; simp at h
      | ok bs => rw [hl] at h; simp at h; subst h; exact .cons hga (ih hl)

/-- A successful `evalPlan`. -/
lemma evalPlan_ok {p : Plane K} {verts : List (V3 K)} {index : ℕ} {face : List ℕ} {pr : PlanRes} {r : FaceClip K}
    (h : evalPlan p verts index face pr = .ok r) :
    ∃ q, pr = .ok q ∧ r.faces = q.faces.map (fun l => l.map (evalRef face index)) ∧
      List.Forall₂ (fun ij x => cut p verts (face.getD ij.1 0) (face.getD ij.2 0) = .ok x) q.cuts r.pts ∧
      r.step = q.cuts.length ∧ r.pts.length = r.step ∧
      r.edge = q.edge.map (fun e => (evalRef face index e.1, evalRef face index e.2)) := by
  unfold evalPlan evalPlanWith at h
  cases pr with
  | unknown => simp at h
  | unpack => simp at h
  | ok q =>
    simp only at h
    cases hm : mapE (fun ij : ℕ × ℕ => cut p verts (face.getD ij.1 0) (face.getD ij.2 0)) q.cuts with
    | error e => rw [hm] at h; simp at h
    | ok pts =>
      rw [hm] at h
      simp only [Except.ok.injEq] at h
      subst h
      have := mapE_forall₂ hm
      exact ⟨q, rfl, rfl, this, rfl, this.length_eq.symm, rfl⟩

/-- A run of the loop, with the results for each face. -/
inductive Run (p : Plane K) (tol : K) (verts : List (V3 K)) (dists : List K) :
    List Face → LoopState K → List (ℕ × Face × FaceClip K) → LoopState K → Prop
  | nil (st : LoopState K) : Run p tol verts dists [] st [] st
  | cons {f : Face} {fs : List Face} {st st' : LoopState K} {r : FaceClip K} {l : List (ℕ × Face × FaceClip K)}
      (h : clipFace p tol verts dists st.index f.corners = .ok r)
      (hr : Run p tol verts dists fs (st.update r) l st') : Run p tol verts dists (f :: fs) st ((st.index, f, r) :: l) st'

lemma clipLoop_ok {p : Plane K} {tol : K} {verts : List (V3 K)} {dists : List K} :
    ∀ {fs : List Face} {st st' : LoopState K}, clipLoop p tol verts dists fs st = .ok st' →
      ∃ l, Run p tol verts dists fs st l st' := by
  intro fs
  induction fs with
  | nil => intro st st' h; simp [clipLoop] at h; subst h; exact ⟨[], .nil _⟩
  | cons f fs ih =>
    intro st st' h
    unfold clipLoop at h
    cases hc : clipFace p tol verts dists st.index f.corners with
    | error e => rw [hc] at h; simp at h
    | ok r =>
      rw [hc] at h
      obtain ⟨l, hl⟩ := ih h
      exact ⟨_, .cons hc hl⟩

lemma clipLoop_error {p : Plane K} {tol : K} {verts : List (V3 K)} {dists : List K} {e : ClipErr} :
    ∀ {fs : List Face} {st : LoopState K}, clipLoop p tol verts dists fs st = .error e →
      ∃ f ∈ fs, ∃ index, clipFace p tol verts dists index f.corners = .error e := by
  intro fs
  induction fs with
  | nil => intro st h; simp [clipLoop] at h
  | cons f fs ih =>
    intro st h
    unfold clipLoop at h
    cases hc : clipFace p tol verts dists st.index f.corners with
    | error e' => rw [hc] at h; simp at h; subst h; exact ⟨f, by simp, _, hc⟩
    | ok r =>
      rw [hc] at h
      obtain ⟨f', hf', i, hi⟩ := ih h
      exact ⟨f', List.mem_cons_of_mem _ hf', i, hi⟩

section
variable {p : Plane K} {tol : K} {verts : List (V3 K)} {dists : List K} {fs : List Face} {st st' : LoopState K}
  {l : List (ℕ × Face × FaceClip K)}

lemma Run.faces_eq (h : Run p tol verts dists fs st l st') : l.map (fun t => t.2.1) = fs := by
  induction h with
  | nil => rfl
  | cons _ _ ih => simp [ih]

lemma Run.ok (h : Run p tol verts dists fs st l st') :
    ∀ t ∈ l, clipFace p tol verts dists t.1 t.2.1.corners = .ok t.2.2 := by
  induction h with
  | nil => simp
  | cons h1 _ ih =>
    intro t ht
    rcases List.mem_cons.1 ht with rfl | ht
    · exact h1
    · exact ih t ht

lemma Run.crownFaces (h : Run p tol verts dists fs st l st') :
    st'.crownFaces = st.crownFaces ++ l.flatMap (fun t => t.2.2.faces) := by
  induction h with
  | nil => simp
  | cons _ _ ih => rw [ih]; simp [LoopState.update]

lemma Run.pts (h : Run p tol verts dists fs st l st') :
    st'.pts = st.pts ++ l.flatMap (fun t => t.2.2.pts) := by
  induction h with
  | nil => simp
  | cons _ _ ih => rw [ih]; simp [LoopState.update]

lemma Run.direct (h : Run p tol verts dists fs st l st') :
    st'.direct = (l.filterMap (fun t => t.2.2.edge)).foldl (fun d e => dictSet d e.1 e.2) st.direct := by
  induction h with
  | nil => simp
  | @cons f fs st st' r l _ _ ih =>
    rw [ih]
    cases he : r.edge <;> simp [LoopState.update, he]

lemma Run.inv (h : Run p tol verts dists fs st l st') :
    st'.inv = (l.filterMap (fun t => t.2.2.edge)).foldl (fun d e => dictSet d e.2 e.1) st.inv := by
  induction h with
  | nil => simp
  | @cons f fs st st' r l _ _ ih =>
    rw [ih]
    cases he : r.edge <;> simp [LoopState.update, he]

/-- The numbers given to the new points are their positions in the final array. -/
lemma Run.point (htol : 0 ≤ tol) (h : Run p tol verts dists fs st l st') :
    st.index = verts.length + st.pts.length →
    ∀ t ∈ l, t.1 + t.2.2.step ≤ verts.length + st'.pts.length ∧ verts.length ≤ t.1 ∧
      ∀ j < t.2.2.step, (verts ++ st'.pts)[t.1 + j]? = t.2.2.pts[j]? := by
  induction h with
  | nil => simp
  | @cons f fs st st' r l h1 hr ih =>
    intro hi t ht
    have hlen : r.pts.length = r.step := by
      rw [clipFace_plan htol] at h1
      obtain ⟨q, _, _, _, _, h5, _⟩ := evalPlan_ok h1
      exact h5
    have hi' : (st.update r).index = verts.length + (st.update r).pts.length := by
      simp [LoopState.update, hi, hlen]; omega
    rcases List.mem_cons.1 ht with rfl | ht
    · have hp := hr.pts
      simp only [LoopState.update, List.append_assoc] at hp
      rw [hp]
      refine ⟨by simp [hi]; omega, by omega, ?_⟩
      intro j hj
      simp only at hj ⊢
      rw [List.getElem?_append_right (by omega), List.getElem?_append_right (by omega),
        List.getElem?_append_left (by omega)]
      congr 1; omega
    · exact ih hi' t ht

end

lemma mkMesh_ok {verts : List (V3 K)} {faces : List (List ℕ)} {cm : Mesh K} (h : mkMesh verts faces = .ok cm) :
    faces ≠ [] ∧ cm.vertices = verts ∧ cm.faces.map Face.toList = faces := by
  unfold mkMesh at h
  split_ifs at h with h0
  split at h
  · simp at h
  · rename_i fs hm
    simp only [Except.ok.injEq] at h
    subst h
    refine ⟨h0, rfl, ?_⟩
    have := mapE_forall₂ hm
    clear hm h0
    induction this with
    | nil => rfl
    | @cons a b l r h1 _ ih =>
      simp only [List.map_cons, ih, List.cons.injEq, and_true]
      match a, h1 with
      | [a, b, c, d], h1 => simp [toFace] at h1; rw [← h1]; rfl
      | [], h1 => simp [toFace] at h1
      | [_], h1 => simp [toFace] at h1
      | [_, _], h1 => simp [toFace] at h1
      | [_, _, _], h1 => simp [toFace] at h1
      | _ :: _ :: _ :: _ :: _ :: _, h1 => simp [toFace] at h1

lemma corners_length (f : Face) : f.corners.length = 3 ∨ f.corners.length = 4 := by
  unfold Face.corners; split <;> simp

lemma clsList_mem {tol : K} {dists : List K} (f : Face) : clsList tol dists f.corners ∈ lists3 ++ lists4 := by
  apply mem_lists
  have := corners_length f
  simpa [clsList] using this

end Clipper
end MM
