import Verif.Model.Clipper
import Verif.Proofs.Clipper
import Verif.Proofs.Merge
import Verif.Props.Clipper
import Mathlib.Algebra.Order.Hom.Ring

/-!
# Naturality of the clipper

The run of the clipper commutes with an embedding of ordered fields followed by a translation of the mesh and the plane.
Used with the identity of `K` (translations) and with the inclusion of the rationals in the reals (concrete cases).
-/

namespace MM

set_option linter.unusedSectionVars false
set_option linter.unusedSimpArgs false

variable {K L : Type*} [Field K] [LinearOrder K] [IsStrictOrderedRing K] [Field L] [LinearOrder L]
  [IsStrictOrderedRing L]

/-- The two sorts look at the values only through their comparisons. -/
def SortCompat (srt : (ℕ → K) → List ℕ → List ℕ) (srt' : (ℕ → L) → List ℕ → List ℕ) : Prop :=
  ∀ f g l, (∀ i ∈ l, ∀ j ∈ l, f i ≤ f j ↔ g i ≤ g j) → srt' g l = srt f l

lemma insArgsort_compat : SortCompat (insArgsort (K := K)) (insArgsort (K := L)) := by
  intro f g l
  induction l with
  | nil => intro _; rfl
  | cons a l ih =>
    intro h
    have h' := ih (fun i hi j hj => h i (List.mem_cons_of_mem _ hi) j (List.mem_cons_of_mem _ hj))
    have hp : ∀ j ∈ insArgsort f l, decide (g j < g a) = decide (f j < f a) := by
      intro j hj
      have hj' : j ∈ l := (((insArgsort_isArgsort (K := K)) f l).1.mem_iff).1 hj
      have := h a List.mem_cons_self j (List.mem_cons_of_mem _ hj')
      simp only [decide_eq_decide]
      rw [← not_le, ← not_le, this]
    show (insArgsort g l).takeWhile _ ++ a :: (insArgsort g l).dropWhile _ =
      (insArgsort f l).takeWhile _ ++ a :: (insArgsort f l).dropWhile _
    rw [h']
    have tw : ∀ (s : List ℕ) (p q : ℕ → Bool), (∀ j ∈ s, p j = q j) → s.takeWhile p = s.takeWhile q ∧
        s.dropWhile p = s.dropWhile q := by
      intro s p q
      induction s with
      | nil => intro _; exact ⟨rfl, rfl⟩
      | cons b s ih =>
        intro hs
        have hb := hs b List.mem_cons_self
        obtain ⟨i1, i2⟩ := ih (fun j hj => hs j (List.mem_cons_of_mem _ hj))
        simp only [List.takeWhile_cons, List.dropWhile_cons, hb, i1, i2]
        exact ⟨trivial, trivial⟩
    obtain ⟨t1, t2⟩ := tw _ _ _ hp
    rw [t1, t2]

section Natural
variable (φ : K →+*o L) (t : V3 L)

/-- The map of points. -/
def affMap (v : V3 K) : V3 L := ⟨φ v.x + t.x, φ v.y + t.y, φ v.z + t.z⟩

/-- The map of meshes. -/
def Mesh.aff (m : Mesh K) : Mesh L := ⟨m.vertices.map (affMap φ t), m.faces⟩

/-- The map of planes. -/
def Plane.aff (p : Plane K) : Plane L :=
  let n : V3 L := ⟨φ p.normal.x, φ p.normal.y, φ p.normal.z⟩
  ⟨n, φ p.c + t.dot n⟩

variable {φ t}

lemma phi_strict : StrictMono φ := (OrderHomClass.mono φ).strictMono_of_injective (φ : K →+* L).injective

lemma phi_le {a b : K} : φ a ≤ φ b ↔ a ≤ b := phi_strict.le_iff_le
lemma phi_lt {a b : K} : φ a < φ b ↔ a < b := phi_strict.lt_iff_lt
lemma phi_abs (a : K) : φ |a| = |φ a| := by
  rcases le_total 0 a with h | h
  · rw [abs_of_nonneg h, abs_of_nonneg]; simpa using (phi_le (φ := φ)).2 h
  · rw [abs_of_nonpos h, abs_of_nonpos, map_neg]; simpa using (phi_le (φ := φ)).2 h

lemma aff_dist (p : Plane K) (v : V3 K) : (p.aff φ t).dist (affMap φ t v) = φ (p.dist v) := by
  simp [Plane.dist, Plane.aff, affMap, V3.dot]
  ring

lemma aff_dot_sub (p : Plane K) (v w : V3 K) :
    (affMap φ t v).dot (p.aff φ t).normal - (affMap φ t w).dot (p.aff φ t).normal =
      φ (v.dot p.normal - w.dot p.normal) := by
  simp [Plane.aff, affMap, V3.dot]
  ring

lemma aff_edge (p : Plane K) (v w : V3 K) : (p.aff φ t).edgeIntersection (affMap φ t v) (affMap φ t w) =
    (p.edgeIntersection v w).map (Option.map (affMap φ t)) := by
  have h1 := aff_dot_sub (φ := φ) (t := t) p v w
  have h2 := aff_dist (φ := φ) (t := t) p v
  unfold Plane.dist at h2
  unfold Plane.edgeIntersection
  dsimp only
  rw [h1, h2]
  simp only [map_eq_zero]
  split
  · split <;> rfl
  · rw [← map_div₀]
    have e0 : ∀ x : K, φ x < 0 ↔ x < 0 := fun x => by simpa using (phi_lt (φ := φ) (a := x) (b := 0))
    have e1 : ∀ x : K, φ x > 1 ↔ x > 1 := fun x => by simpa using (phi_lt (φ := φ) (a := 1) (b := x))
    simp only [e0, e1]
    split
    · rfl
    · simp only [Except.map, Option.map, Except.ok.injEq, Option.some.injEq]
      ext <;> simp [affMap] <;> ring

lemma getD_map_phi (l : List K) (i : ℕ) : (l.map φ).getD i 0 = φ (l.getD i 0) := by
  simp only [List.getD_eq_getElem?_getD, List.getElem?_map]
  cases l[i]? <;> simp

lemma getD_map_aff {l : List (V3 K)} {i : ℕ} (h : i < l.length) :
    (l.map (affMap φ t)).getD i 0 = affMap φ t (l.getD i 0) := by
  simp [List.getD_eq_getElem?_getD, h]

namespace Clipper

lemma isAbove_map (tol d : K) : isAbove (φ tol) (φ d) = isAbove tol d := by
  simp only [isAbove, gt_iff_lt, phi_lt]
lemma isOn_map (tol d : K) : isOn (φ tol) (φ d) = isOn tol d := by
  simp only [isOn, ← phi_abs, phi_lt]
lemma isBelow_map (tol d : K) : isBelow (φ tol) (φ d) = isBelow tol d := by
  simp only [isBelow, ← map_neg, phi_lt]

lemma posOf_map {m1 : K → Bool} {m2 : L → Bool} (h : ∀ d, m2 (φ d) = m1 d) (dists : List K) (face : List ℕ) :
    posOf m2 (dists.map φ) face = posOf m1 dists face := by
  unfold posOf
  simp only [getD_map_phi, h]

lemma cut_map {p : Plane K} {verts : List (V3 K)} {i j : ℕ} (hi : i < verts.length) (hj : j < verts.length) :
    cut (p.aff φ t) (verts.map (affMap φ t)) i j = (cut p verts i j).map (affMap φ t) := by
  unfold cut
  rw [getD_map_aff hi, getD_map_aff hj, aff_edge]
  cases p.edgeIntersection (verts.getD i 0) (verts.getD j 0) with
  | error e => rfl
  | ok o => cases o <;> rfl

/-- Image of the result for a face. -/
def FaceClip.aff (φ : K →+*o L) (t : V3 L) (r : FaceClip K) : FaceClip L :=
  ⟨r.faces, r.pts.map (affMap φ t), r.edge, r.step⟩

lemma clipFace_map {p : Plane K} {tol : K} {verts : List (V3 K)} {dists : List K} {index : ℕ} {face0 : List ℕ}
    (h0 : 0 < verts.length) (hf : ∀ i ∈ face0, i < verts.length) :
    clipFace (p.aff φ t) (φ tol) (verts.map (affMap φ t)) (dists.map φ) index face0 =
      (clipFace p tol verts dists index face0).map (FaceClip.aff φ t) := by
  have hget : ∀ k, face0.getD k 0 < verts.length := by
    intro k
    rw [List.getD_eq_getElem?_getD]
    cases h : face0[k]? with
    | none => simpa using h0
    | some x => simpa using hf x (List.mem_of_getElem? h)
  have hgetr : ∀ r k, (face0.rotate r).getD k 0 < verts.length := by
    intro r k
    rw [List.getD_eq_getElem?_getD]
    cases h : (face0.rotate r)[k]? with
    | none => simpa using h0
    | some x => simpa using hf x (List.mem_rotate.1 (List.mem_of_getElem? h))
  have hgeti : ∀ (c : Prop) [Decidable c] r k, (if c then face0.rotate r else face0).getD k 0 < verts.length := by
    intro c _ r k
    split
    · exact hgetr _ _
    · exact hget _
  have hneg : ∀ i, (φ (dists.getD i 0) < 0) = (dists.getD i 0 < 0) := by
    intro i
    simpa using (phi_lt (φ := φ) (a := dists.getD i 0) (b := 0))
  unfold clipFace clipFaceWith
  simp only [posOf_map (φ := φ) (isAbove_map tol), posOf_map (φ := φ) (isOn_map tol), posOf_map (φ := φ) (isBelow_map tol),
    getD_map_phi, hneg]
  generalize posOf (isAbove tol) dists face0 = va
  generalize posOf (isOn tol) dists face0 = vo
  generalize posOf (isBelow tol) dists face0 = vb
  generalize hA : va.length = A
  generalize hO : vo.length = O
  generalize hB : vb.length = B
  split <;> (try simp only [cut_map (hgeti _ _ _) (hgeti _ _ _), cut_map (hgetr _ _) (hgetr _ _)])
  all_goals try rfl
  all_goals try split_ifs
  all_goals try rfl
  all_goals
    generalize cut p verts _ _ = c1
    rcases c1 with e | x
    · rfl
    · first
      | rfl
      | (generalize cut p verts _ _ = c2
         rcases c2 with e | y <;> rfl)

/-- Image of the state of the loop. -/
def LoopState.aff (φ : K →+*o L) (t : V3 L) (st : LoopState K) : LoopState L :=
  ⟨st.crownFaces, st.pts.map (affMap φ t), st.direct, st.inv, st.index⟩

lemma clipLoop_map {p : Plane K} {tol : K} {verts : List (V3 K)} {dists : List K} : ∀ (fs : List Face)
    (st : LoopState K), (∀ f ∈ fs, ∀ i ∈ f.toList, i < verts.length) →
    clipLoop (p.aff φ t) (φ tol) (verts.map (affMap φ t)) (dists.map φ) fs (st.aff φ t) =
      (clipLoop p tol verts dists fs st).map (LoopState.aff φ t) := by
  intro fs
  induction fs with
  | nil => intro st _; rfl
  | cons f fs ih =>
    intro st h
    have h0 : 0 < verts.length := Nat.lt_of_le_of_lt (Nat.zero_le _) (h f List.mem_cons_self f.a (by simp [Face.toList]))
    have hf : ∀ i ∈ f.corners, i < verts.length := fun i hi => h f List.mem_cons_self i (Face.corners_sub f i hi)
    unfold clipLoop
    rw [show (st.aff φ t).index = st.index from rfl, clipFace_map h0 hf]
    cases clipFace p tol verts dists st.index f.corners with
    | error e => rfl
    | ok r =>
      show clipLoop _ _ _ _ fs ((st.aff φ t).update (r.aff φ t)) = Except.map _ (clipLoop p tol verts dists fs (st.update r))
      rw [← ih _ (fun g hg => h g (List.mem_cons_of_mem _ hg))]
      congr 1
      simp [LoopState.aff, LoopState.update, FaceClip.aff]

end Clipper

/-! ## Merge -/

/-- Image of an array of lines. -/
def rowAff (φ : K →+*o L) (t : V3 L) (r : Fin 3 → K) : Fin 3 → L := fun i => φ (r i) + t.coord i

lemma colVal_map (arr : List (Fin 3 → K)) (dim : Fin 3) {i : ℕ} (h : i < arr.length) :
    colVal (arr.map (rowAff φ t)) dim i = φ (colVal arr dim i) + t.coord dim := by
  simp [colVal, h, rowAff]

lemma splitRuns_map {atol : K} {f : ℕ → K} {g : ℕ → L} {c : L} : ∀ (l : List ℕ) (v : K) (cur : List ℕ),
    (∀ i ∈ l, g i = φ (f i) + c) → splitRuns (φ atol) g (φ v + c) cur l = splitRuns atol f v cur l := by
  intro l
  induction l with
  | nil => intro v cur _; rfl
  | cons a l ih =>
    intro v cur h
    have ha := h a List.mem_cons_self
    have h' := fun i hi => h i (List.mem_cons_of_mem _ hi)
    unfold splitRuns
    have : |g a - (φ v + c)| = φ |f a - v| := by
      rw [ha, phi_abs, map_sub]; congr 1; ring
    simp only [this, gt_iff_lt, phi_lt]
    rw [ha, ih _ _ h', ih _ _ h']

variable {srt : (ℕ → K) → List ℕ → List ℕ} {srt' : (ℕ → L) → List ℕ → List ℕ}

lemma splitLevel_map (hc : SortCompat srt srt') (hs : IsArgsort srt) {atol : K} {f : ℕ → K} {g : ℕ → L} {c : L}
    {l : List ℕ} (h : ∀ i ∈ l, g i = φ (f i) + c) : splitLevel srt' (φ atol) g l = splitLevel srt atol f l := by
  unfold splitLevel
  split
  · have h1 : srt' g l = srt f l := by
      apply hc
      intro i hi j hj
      rw [h i hi, h j hj, add_le_add_iff_right, phi_le]
    rw [h1]
    have hmem : ∀ i ∈ srt f l, i ∈ l := fun i hi => ((hs f l).1.mem_iff).1 hi
    cases hl : srt f l with
    | nil => rfl
    | cons a is =>
      rw [hl] at hmem
      dsimp only
      rw [h a (hmem a List.mem_cons_self)]
      exact splitRuns_map _ _ _ (fun i hi => h i (hmem i hi))
  · rfl

lemma mergeLoop_map (hc : SortCompat srt srt') (hs : IsArgsort srt) {atol : K} {arr : List (Fin 3 → K)} :
    ∀ (dims : List (Fin 3)) (levels : List (List ℕ)), (∀ l ∈ levels, ∀ i ∈ l, i < arr.length) →
    mergeLoop srt' (φ atol) (arr.map (rowAff φ t)) dims levels = mergeLoop srt atol arr dims levels := by
  intro dims
  induction dims with
  | nil => intro levels _; rfl
  | cons d dims ih =>
    intro levels h
    unfold mergeLoop
    have h1 : levels.flatMap (splitLevel srt' (φ atol) (colVal (arr.map (rowAff φ t)) d)) =
        levels.flatMap (splitLevel srt atol (colVal arr d)) := by
      apply List.flatMap_congr
      intro l hl
      exact splitLevel_map hc hs (fun i hi => colVal_map arr d (h l hl i hi))
    simp only [h1, List.length_map]
    split
    · rfl
    · apply ih
      intro l hl i hi
      obtain ⟨l0, hl0, hl1⟩ := List.mem_flatMap.1 hl
      exact h l0 hl0 i (((splitLevel_perm hs atol (colVal arr d) l0).mem_iff).1 (List.mem_flatten.2 ⟨l, hl1, hi⟩))

lemma levelReps_map {arr : List (Fin 3 → K)} : ∀ levels : List (List ℕ),
    levelReps (arr.map (rowAff φ t)) levels = (levelReps arr levels).map (List.map (rowAff φ t)) := by
  intro levels
  induction levels with
  | nil => rfl
  | cons l ls ih =>
    unfold levelReps
    rw [ih]
    have : (l.head?.bind fun i => (arr.map (rowAff φ t))[i]?) = (l.head?.bind fun i => arr[i]?).map (rowAff φ t) := by
      cases l.head? <;> simp
    rw [this]
    cases (l.head?.bind fun i => arr[i]?) with
    | none => rfl
    | some r => cases levelReps arr ls <;> rfl

lemma mergeRows_map (hc : SortCompat srt srt') (hs : IsArgsort srt) {atol : K} (arr : List (Fin 3 → K)) :
    mergeDuplicateRows srt' (φ atol) (arr.map (rowAff φ t)) =
      (mergeDuplicateRows srt atol arr).map (fun r => ⟨r.rows.map (rowAff φ t), r.newID⟩) := by
  unfold mergeDuplicateRows
  rw [List.length_map, mergeLoop_map hc hs _ _ (by simp)]
  cases mergeLoop srt atol arr (List.finRange 3) [List.range arr.length] with
  | none => rfl
  | some levels =>
    dsimp only
    rw [levelReps_map]
    cases levelReps arr levels <;> rfl

lemma merge_map (hc : SortCompat srt srt') (hs : IsArgsort srt) {atol : K} (m : Mesh K) :
    (m.aff φ t).mergeDuplicates srt' (φ atol) = (m.mergeDuplicates srt atol).map (fun r => (r.1.aff φ t, r.2)) := by
  have hv : (m.aff φ t).vertices.map V3.coord = (m.vertices.map V3.coord).map (rowAff φ t) := by
    simp only [Mesh.aff, List.map_map]
    apply List.map_congr_left
    intro v _
    funext i
    fin_cases i <;> rfl
  unfold Mesh.mergeDuplicates
  rw [hv, mergeRows_map hc hs]
  cases mergeDuplicateRows srt atol (m.vertices.map V3.coord) with
  | error e => rfl
  | ok r =>
    have hnv : (m.aff φ t).nv = m.nv := by simp [Mesh.nv, Mesh.aff]
    simp only [Except.map, hnv, show (m.aff φ t).faces = m.faces from rfl]
    split
    · simp only [Except.ok.injEq, Prod.mk.injEq, and_true]
      ext1
      · simp only [Mesh.aff, List.map_map]
        apply List.map_congr_left
        intro v _
        simp [V3.ofCoord, rowAff, affMap, V3.coord]
      · rfl
    · rfl

lemma concat_aff (m n : Mesh K) : (m.aff φ t).concat (n.aff φ t) = (m.concat n).aff φ t := by
  simp [Mesh.concat, Mesh.aff, Mesh.nv]

lemma add_map (hc : SortCompat srt srt') (hs : IsArgsort srt) (m n : Mesh K) :
    Mesh.add srt' (m.aff φ t) (n.aff φ t) = (Mesh.add srt m n).map (Mesh.aff φ t) := by
  unfold Mesh.add
  have : (Mesh.defaultAtol : L) = φ Mesh.defaultAtol := by
    simp only [Mesh.defaultAtol, map_div₀, map_one, map_ofNat]
  rw [concat_aff, this, merge_map hc hs]
  cases (m.concat n).mergeDuplicates srt Mesh.defaultAtol <;> rfl

lemma extract_map (m : Mesh K) (ids : List ℕ) :
    (m.aff φ t).extractFaces ids = (m.extractFaces ids).map (fun r => (r.1.aff φ t, r.2)) := by
  have hnv : (m.aff φ t).nv = m.nv := by simp [Mesh.nv, Mesh.aff]
  unfold Mesh.extractFaces
  simp only [hnv, show (m.aff φ t).faces = m.faces from rfl, show (m.aff φ t).nf = m.nf from rfl]
  split
  · split
    · simp only [Except.map, Except.ok.injEq, Prod.mk.injEq, and_true]
      ext1
      · simp only [Mesh.aff, List.map_map]
        apply List.map_congr_left
        intro i hi
        exact getD_map_aff (mem_idV.1 hi).1
      · rfl
    · rfl
  · rfl

namespace Clipper

/-- Image of the result of a run. -/
def Clipped.aff (φ : K →+*o L) (t : V3 L) (c : Clipped K) : Clipped L :=
  ⟨c.upper.aff φ t, c.crown.aff φ t, c.lower.aff φ t, c.clippedCrown.aff φ t, c.closedPolygons, c.openLines,
    c.clipped.aff φ t⟩

lemma vertexDists_map (p : Plane K) (tol : K) (m : Mesh K) :
    vertexDists (p.aff φ t) (φ tol) (m.aff φ t) = (vertexDists p tol m).map (List.map φ) := by
  have h : (m.aff φ t).vertices.map (p.aff φ t).dist = (m.vertices.map p.dist).map φ := by
    simp only [Mesh.aff, List.map_map]
    apply List.map_congr_left
    intro v _
    exact aff_dist p v
  unfold vertexDists
  simp only [h, List.all_map]
  rw [show (isAbove (φ tol)) ∘ φ = isAbove tol from funext (isAbove_map tol),
    show (isBelow (φ tol)) ∘ φ = isBelow tol from funext (isBelow_map tol)]
  split
  · rfl
  · split <;> rfl

lemma allFour_map {m1 : K → Bool} {m2 : L → Bool} (h : ∀ d, m2 (φ d) = m1 d) (dists : List K) (f : Face) :
    allFour m2 (dists.map φ) f = allFour m1 dists f := by
  unfold allFour
  simp only [getD_map_phi, h]

lemma partition_map (tol : K) (dists : List K) (m : Mesh K) :
    partition (φ tol) (dists.map φ) (m.aff φ t) = (partition tol dists m).map (fun q : Partition K =>
      (⟨q.upper.aff φ t, q.crown.aff φ t, q.lower.aff φ t, q.crownDists.map φ⟩ : Partition L)) := by
  unfold partition aboveIds belowIds crownIds
  simp only [allFour_map (φ := φ) (isAbove_map tol), allFour_map (φ := φ) (isBelow_map tol), extract_map,
    show (m.aff φ t).nf = m.nf from rfl, show (m.aff φ t).faces = m.faces from rfl]
  generalize m.extractFaces _ = a
  cases a with
  | error e => rfl
  | ok a =>
    generalize m.extractFaces _ = b
    cases b with
    | error e => rfl
    | ok b =>
      generalize m.extractFaces _ = c
      cases c with
      | error e => rfl
      | ok c =>
        simp only [Except.map, bind, Except.bind, getD_map_phi, List.map_map]
        rfl

lemma mkMesh_map (vs : List (V3 K)) (faces : List (List ℕ)) :
    mkMesh (vs.map (affMap φ t)) faces = (mkMesh vs faces).map (Mesh.aff φ t) := by
  unfold mkMesh
  split
  · rfl
  · generalize mapE _ faces = r
    cases r <;> rfl

lemma clipCrown_map (hc : SortCompat srt srt') (hs : IsArgsort srt) (p : Plane K) (tol : K) (crown : Mesh K)
    (hwf : crown.WF) (dists : List K) :
    clipCrown srt' (p.aff φ t) (φ tol) (crown.aff φ t) (dists.map φ) =
      (clipCrown srt p tol crown dists).map (fun r => (r.1.aff φ t, r.2)) := by
  unfold clipCrown
  have h1 := clipLoop_map (φ := φ) (t := t) (p := p) (tol := tol) (dists := dists) crown.faces ⟨[], [], [], [], crown.nv⟩ hwf
  have h2 : (⟨[], [], [], [], crown.nv⟩ : LoopState K).aff φ t = ⟨[], [], [], [], (crown.aff φ t).nv⟩ := by
    simp [LoopState.aff, Mesh.nv, Mesh.aff]
  rw [h2] at h1
  rw [show (crown.aff φ t).vertices = crown.vertices.map (affMap φ t) from rfl, show (crown.aff φ t).faces = crown.faces from rfl,
    h1]
  cases clipLoop p tol crown.vertices dists crown.faces ⟨[], [], [], [], crown.nv⟩ with
  | error e => rfl
  | ok st =>
    have h3 : mkMesh (crown.vertices.map (affMap φ t) ++ (st.aff φ t).pts) (st.aff φ t).crownFaces =
        (mkMesh (crown.vertices ++ st.pts) st.crownFaces).map (Mesh.aff φ t) := by
      rw [← mkMesh_map, List.map_append]; rfl
    simp only [Except.map]
    rw [h3]
    cases mkMesh (crown.vertices ++ st.pts) st.crownFaces with
    | error e => rfl
    | ok cm =>
      simp only [Except.map]
      have : (1 / 100000 : L) = φ (1 / 100000) := by simp only [map_div₀, map_one, map_ofNat]
      rw [this, merge_map hc hs]
      cases cm.mergeDuplicates srt (1 / 100000) <;> rfl

/-- The clipper commutes with embeddings of ordered fields and translations. -/
theorem clip_map (hc : SortCompat srt srt') (hs : IsArgsort srt) (p : Plane K) (tol : K) (b : Bool) (m : Mesh K)
    (hwf : m.WF) : clip srt' (p.aff φ t) (φ tol) b (m.aff φ t) = (clip srt p tol b m).map (Clipped.aff φ t) := by
  unfold clip
  rw [vertexDists_map]
  cases hd : vertexDists p tol m with
  | error e => rfl
  | ok dists =>
    have hdd : dists = m.vertices.map p.dist := by
      unfold vertexDists at hd
      dsimp only at hd
      split at hd
      · simp at hd
      · split at hd
        · simp at hd
        · simpa using hd.symm
    subst hdd
    simp only [Except.map]
    rw [partition_map]
    obtain ⟨part, gu, gc, gl, e1, e2, e3, e4, e5⟩ := partition_spec p tol m hwf
    rw [e1]
    simp only [Except.map]
    rw [clipCrown_map hc hs p tol part.crown e3.wf]
    cases clipCrown srt p tol part.crown part.crownDists with
    | error e => rfl
    | ok r =>
      obtain ⟨cm, direct, inv⟩ := r
      simp only [Except.map]
      split
      · rfl
      · rw [add_map hc hs]
        cases Mesh.add srt part.lower cm <;> rfl

end Clipper
end Natural
end MM
