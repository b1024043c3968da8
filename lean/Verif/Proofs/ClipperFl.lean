import Verif.Model.ClipperFl
import Verif.Proofs.ClipPlanned
import Verif.Proofs.PlaneFl
import Verif.Props.MergeStable

/-!
# A run of the clipper in floating point follows the exact run
-/

namespace MM
namespace Clipper

set_option linter.unusedSectionVars false

variable {K : Type*} [Field K] [LinearOrder K] [IsStrictOrderedRing K]

/-! ## One face -/

/-- A distance and its computed value are on the same side. -/
def Agree (tol d d' : K) : Prop := (d > tol ∧ d' > tol) ∨ (|d| < tol ∧ |d'| < tol) ∨ (d < -tol ∧ d' < -tol)

/-- Forget the sign of a point of the slab. -/
def Cls.co : Cls → Cls
  | .Om => .Op
  | c => c

theorem table_co : ∀ c ∈ lists3 ++ lists4, c.any Cls.isBad = false → plan (c.map Cls.co) = plan c := by decide +kernel

lemma Agree.cls {tol d d' : K} (h0 : 0 ≤ tol) (h : Agree tol d d') :
    (classOf tol d).co = (classOf tol d').co ∧ (classOf tol d).isBad = false ∧ (classOf tol d').isBad = false := by
  have key : ∀ x : K, (x > tol → classOf tol x = .A) ∧ (|x| < tol → classOf tol x = .Om ∨ classOf tol x = .Op) ∧
      (x < -tol → classOf tol x = .B) := by
    intro x
    refine ⟨fun h => by simp [classOf, h], fun h => ?_, fun h => ?_⟩
    · have := (abs_lt.1 h).2
      unfold classOf
      rw [if_neg (not_lt.2 this.le), if_pos h]
      split_ifs <;> simp
    · have h1 : ¬ x > tol := by intro h'; linarith
      have h2 : ¬ |x| < tol := by intro h'; linarith [(abs_lt.1 h').1]
      simp [classOf, h1, h2, h]
  obtain ⟨a1, a2, a3⟩ := key d
  obtain ⟨b1, b2, b3⟩ := key d'
  rcases h with ⟨h, h'⟩ | ⟨h, h'⟩ | ⟨h, h'⟩
  · rw [a1 h, b1 h']; decide
  · rcases a2 h with e | e <;> rcases b2 h' with e' | e' <;> rw [e, e'] <;> decide
  · rw [a3 h, b3 h']; decide

lemma mapE_sim {α β ε : Type*} {R : β → β → Prop} {g g' : α → Except ε β} : ∀ {l : List α},
    (∀ a ∈ l, ∃ x x', g a = .ok x ∧ g' a = .ok x' ∧ R x x') →
    ∃ r r', mapE g l = .ok r ∧ mapE g' l = .ok r' ∧ List.Forall₂ R r r' := by
  intro l
  induction l with
  | nil => intro _; exact ⟨[], [], rfl, rfl, .nil⟩
  | cons a l ih =>
    intro h
    obtain ⟨x, x', h1, h2, h3⟩ := h a (by simp)
    obtain ⟨r, r', k1, k2, k3⟩ := ih fun b hb => h b (by simp [hb])
    exact ⟨x :: r, x' :: r', by simp [mapE, h1, k1], by simp [mapE, h2, k2], .cons h3 k3⟩

/-- The two cuts of an edge are close. -/
def CutsNear (e tol : K) (cutf cutf' : ℕ → ℕ → Except ClipErr (V3 K)) (dists : List K) (is : List ℕ) : Prop :=
  ∀ i ∈ is, ∀ j ∈ is, (dists.getD i 0 > tol ∧ dists.getD j 0 < -tol) ∨ (dists.getD i 0 < -tol ∧ dists.getD j 0 > tol) →
    ∃ x x', cutf i j = .ok x ∧ cutf' i j = .ok x' ∧ V3.Close e x x'

lemma clipFaceWith_sim {cutf cutf' : ℕ → ℕ → Except ClipErr (V3 K)} {tol e : K} (htol : 0 ≤ tol) {dists dists' : List K}
    (index : ℕ) (f : Face) (hag : ∀ i ∈ f.corners, Agree tol (dists.getD i 0) (dists'.getD i 0))
    (hcut : CutsNear e tol cutf cutf' dists f.corners) :
    (∃ er, clipFaceWith cutf tol dists index f.corners = .error er ∧
      clipFaceWith cutf' tol dists' index f.corners = .error er) ∨
    ∃ r r', clipFaceWith cutf tol dists index f.corners = .ok r ∧
      clipFaceWith cutf' tol dists' index f.corners = .ok r' ∧ r'.faces = r.faces ∧ r'.edge = r.edge ∧
      r'.step = r.step ∧ List.Forall₂ (V3.Close e) r.pts r'.pts := by
  rw [clipFaceWith_plan htol, clipFaceWith_plan htol]
  have hbad : (clsList tol dists f.corners).any Cls.isBad = false := by
    rw [List.any_eq_false]
    intro c hc
    obtain ⟨i, hi, rfl⟩ := List.mem_map.1 hc
    exact Bool.eq_false_iff.1 ((hag i hi).cls htol).2.1
  have hbad' : (clsList tol dists' f.corners).any Cls.isBad = false := by
    rw [List.any_eq_false]
    intro c hc
    obtain ⟨i, hi, rfl⟩ := List.mem_map.1 hc
    exact Bool.eq_false_iff.1 ((hag i hi).cls htol).2.2
  have hplan : plan (clsList tol dists' f.corners) = plan (clsList tol dists f.corners) := by
    rw [← table_co _ (clsList_mem f) hbad, ← table_co _ (clsList_mem f) hbad']
    congr 1
    simp only [clsList, List.map_map]
    refine List.map_congr_left fun i hi => ?_
    exact (((hag i hi).cls htol).1).symm
  rw [hplan]
  have hrange := table_range _ (clsList_mem (tol := tol) (dists := dists) f)
  have hknown := (table_known _ (clsList_mem f) hbad).2
  have hlen : (clsList tol dists f.corners).length = f.corners.length := by simp [clsList]
  generalize hq : plan (clsList tol dists f.corners) = pr at *
  cases pr with
  | unknown => exact .inl ⟨_, rfl, rfl⟩
  | unpack => exact .inl ⟨_, rfl, rfl⟩
  | ok q =>
    right
    simp only [PlanRes.check, Plan.inRange, Plan.cutsAB, Bool.and_eq_true, List.all_eq_true, hlen] at hrange hknown
    obtain ⟨pts, pts', h1, h2, h3⟩ := mapE_sim (R := V3.Close e) (l := q.cuts)
      (g := fun ij : ℕ × ℕ => cutf (f.corners.getD ij.1 0) (f.corners.getD ij.2 0))
      (g' := fun ij : ℕ × ℕ => cutf' (f.corners.getD ij.1 0) (f.corners.getD ij.2 0)) (by
        intro ij hij
        have hr := hrange.1.2 _ hij
        have hk := hknown.2 _ hij
        simp only [Bool.and_eq_true, decide_eq_true_eq, Bool.or_eq_true] at hr hk
        rw [clsList_getD hr.1, clsList_getD hr.2, isA_iff, isA_iff, isB_iff htol, isB_iff htol] at hk
        have m1 : f.corners.getD ij.1 0 ∈ f.corners := by
          rw [List.getD_eq_getElem?_getD, List.getElem?_eq_getElem hr.1]; exact List.getElem_mem _
        have m2 : f.corners.getD ij.2 0 ∈ f.corners := by
          rw [List.getD_eq_getElem?_getD, List.getElem?_eq_getElem hr.2]; exact List.getElem_mem _
        exact hcut _ m1 _ m2 hk)
    simp only [evalPlanWith, h1, h2]
    exact ⟨_, _, rfl, rfl, rfl, rfl, rfl, h3⟩

/-! ## The loop -/

lemma clipLoop_eq (p : Plane K) (tol : K) (verts : List (V3 K)) (dists : List K) : ∀ (fs : List Face) (st : LoopState K),
    clipLoop p tol verts dists fs st = clipLoopWith (cut p verts) tol dists fs st := by
  intro fs
  induction fs with
  | nil => intro st; rfl
  | cons f fs ih =>
    intro st
    unfold clipLoop clipLoopWith
    rw [show clipFace p tol verts dists st.index f.corners = clipFaceWith (cut p verts) tol dists st.index f.corners from rfl]
    cases clipFaceWith (cut p verts) tol dists st.index f.corners with
    | error e => rfl
    | ok r => exact ih _

lemma clipLoopWith_sim {cutf cutf' : ℕ → ℕ → Except ClipErr (V3 K)} {tol e : K} (htol : 0 ≤ tol) {dists dists' : List K} :
    ∀ (fs : List Face) (st st' : LoopState K),
      (∀ f ∈ fs, ∀ i ∈ f.corners, Agree tol (dists.getD i 0) (dists'.getD i 0)) →
      (∀ f ∈ fs, CutsNear e tol cutf cutf' dists f.corners) →
      st'.crownFaces = st.crownFaces → st'.direct = st.direct → st'.inv = st.inv → st'.index = st.index →
      List.Forall₂ (V3.Close e) st.pts st'.pts →
      (∃ er, clipLoopWith cutf tol dists fs st = .error er ∧ clipLoopWith cutf' tol dists' fs st' = .error er) ∨
      ∃ s s', clipLoopWith cutf tol dists fs st = .ok s ∧ clipLoopWith cutf' tol dists' fs st' = .ok s' ∧
        s'.crownFaces = s.crownFaces ∧ s'.direct = s.direct ∧ s'.inv = s.inv ∧ s'.index = s.index ∧
        List.Forall₂ (V3.Close e) s.pts s'.pts := by
  intro fs
  induction fs with
  | nil => intro st st' _ _ h1 h2 h3 h4 h5; exact .inr ⟨st, st', rfl, rfl, h1, h2, h3, h4, h5⟩
  | cons f fs ih =>
    intro st st' hag hcut h1 h2 h3 h4 h5
    unfold clipLoopWith
    rw [h4]
    rcases clipFaceWith_sim htol st.index f (hag f (by simp)) (hcut f (by simp)) with ⟨er, k1, k2⟩ | ⟨r, r', k1, k2, k3, k4, k5, k6⟩
    · left
      rw [k1, k2]
      exact ⟨er, rfl, rfl⟩
    · rw [k1, k2]
      refine ih _ _ (fun g hg => hag g (by simp [hg])) (fun g hg => hcut g (by simp [hg])) ?_ ?_ ?_ ?_ ?_
      · simp [LoopState.update, h1, k3]
      · simp [LoopState.update, h2, k4]
      · simp [LoopState.update, h3, k4]
      · simp [LoopState.update, h4, k5]
      · exact List.rel_append h5 k6

/-! ## The cuts -/

lemma cut_near {u g : K} (hu : 0 ≤ u) (hu1 : u < 1) {rnd : K → K} (hr : IsRounding u rnd) (hone : rnd 1 = 1)
    {dot dot' : V3 K → V3 K → K} (hd : IsDot g dot) (hd' : IsDot g dot') {p : Plane K} {tol B R e : K} (hg : 0 ≤ g)
    (htol0 : 0 < tol) (htol : 2 * g * (1 + u) * B ≤ tol) {verts : List (V3 K)} {i j : ℕ}
    (hBi : absDot (verts.getD i 0) p.normal + |p.c| ≤ B) (hBj : absDot (verts.getD j 0) p.normal + |p.c| ≤ B)
    (hRi : ∀ k, |(verts.getD i 0).coord k| ≤ R) (hRj : ∀ k, |(verts.getD j 0).coord k| ≤ R)
    (he : (g + ((1 + u) ^ 2 / (1 - u) - 1) * (1 + 3 * g)) * B / tol * R + ((1 + u) ^ 3 - 1) * R ≤ e)
    (hs : (p.dist (verts.getD i 0) > tol ∧ p.dist (verts.getD j 0) < -tol) ∨
      (p.dist (verts.getD i 0) < -tol ∧ p.dist (verts.getD j 0) > tol))
    (hs' : (p.distFl rnd dot' (verts.getD i 0) > tol ∧ p.distFl rnd dot' (verts.getD j 0) < -tol) ∨
      (p.distFl rnd dot' (verts.getD i 0) < -tol ∧ p.distFl rnd dot' (verts.getD j 0) > tol)) :
    ∃ x x', cut p verts i j = .ok x ∧ cutFl rnd dot p verts i j = .ok x' ∧ V3.Close e x x' := by
  obtain ⟨x', t, hx', ht0, ht1, cx, cy, cz, hm⟩ := intersectionFl_spec u g hu hu1 rnd hr hone dot dot' hd hd' p tol B _ _
    hBi hBj hg htol hs'
  have hprod : p.dist (verts.getD i 0) * p.dist (verts.getD j 0) < 0 := by
    rcases hs with ⟨h1, h2⟩ | ⟨h1, h2⟩
    · exact mul_neg_of_pos_of_neg (by linarith) (by linarith)
    · exact mul_neg_of_neg_of_pos (by linarith) (by linarith)
  obtain ⟨x, hx⟩ := cut_isOk hprod
  refine ⟨x, x', hx, by simp only [cutFl, hx'], ?_⟩
  obtain ⟨_, _, hne, hxe⟩ := cut_ok hx
  generalize verts.getD i 0 = a at *
  generalize verts.getD j 0 = b at *
  set M := (g + ((1 + u) ^ 2 / (1 - u) - 1) * (1 + 3 * g)) * B with hM
  set w := (1 + u) ^ 3 - 1 with hw
  have w0 : 0 ≤ w := by rw [hw]; nlinarith [mul_nonneg hu hu, mul_nonneg hu (mul_nonneg hu hu)]
  set τ := p.dist a / (p.dist a - p.dist b) with hτ
  have hD : p.dist a - p.dist b ≠ 0 := sub_ne_zero.2 hne
  have hτe : τ * (p.dist a - p.dist b) = p.dist a := div_mul_cancel₀ _ hD
  have hid : (1 - t) * p.dist a + t * p.dist b = (τ - t) * (p.dist a - p.dist b) := by
    linear_combination -hτe
  have hDabs : 2 * tol ≤ |p.dist a - p.dist b| := by
    rcases hs with ⟨h1, h2⟩ | ⟨h1, h2⟩
    · exact le_trans (by linarith) (le_abs_self _)
    · exact le_trans (by linarith) (neg_le_abs _)
  have hτt : |τ - t| ≤ M / (2 * tol) := by
    rw [hid, abs_mul] at hm
    rw [le_div_iff₀ (by linarith)]
    exact (mul_le_mul_of_nonneg_left hDabs (abs_nonneg _)).trans hm
  have R0 : 0 ≤ R := (abs_nonneg _).trans (hRi 0)
  have coord : ∀ α β ξ ξ' : K, |α| ≤ R → |β| ≤ R → |ξ' - ((1 - t) * α + t * β)| ≤ w * ((1 - t) * |α| + t * |β|) →
      ξ = (1 - τ) * α + τ * β → |ξ - ξ'| ≤ e := by
    intro α β ξ ξ' hα hβ h1 h2
    have k1 : (1 - t) * |α| + t * |β| ≤ R := by
      have := mul_le_mul_of_nonneg_left hα (sub_nonneg.2 ht1)
      have := mul_le_mul_of_nonneg_left hβ ht0
      linarith
    have k2 : |β - α| ≤ 2 * R := (abs_sub _ _).trans (by linarith)
    have k3 : |(τ - t) * (β - α)| ≤ M / tol * R := by
      rw [abs_mul]
      calc |τ - t| * |β - α| ≤ M / (2 * tol) * (2 * R) := mul_le_mul hτt k2 (abs_nonneg _) ((abs_nonneg _).trans hτt)
        _ = M / tol * R := by field_simp
    have k4 : ξ - ξ' = (τ - t) * (β - α) - (ξ' - ((1 - t) * α + t * β)) := by rw [h2]; ring
    rw [k4]
    refine (abs_sub _ _).trans ((add_le_add k3 (h1.trans (mul_le_mul_of_nonneg_left k1 w0))).trans he)
  have ex : x.x = (1 - τ) * a.x + τ * b.x := by rw [hxe]; rfl
  have ey : x.y = (1 - τ) * a.y + τ * b.y := by rw [hxe]; rfl
  have ez : x.z = (1 - τ) * a.z + τ * b.z := by rw [hxe]; rfl
  exact ⟨coord _ _ _ _ (hRi 0) (hRj 0) cx ex, coord _ _ _ _ (hRi 1) (hRj 1) cy ey, coord _ _ _ _ (hRi 2) (hRj 2) cz ez⟩

/-! ## The merges -/

lemma close_iff_coord {e : K} {a b : V3 K} : V3.Close e a b ↔ ∀ k, |a.coord k - b.coord k| ≤ e := by
  constructor
  · rintro ⟨h1, h2, h3⟩ k
    fin_cases k <;> assumption
  · intro h
    exact ⟨h 0, h 1, h 2⟩

/-- No difference of coordinates is near the tolerance `a`. -/
def Gap (u e a : K) (X Y : V3 K) : Prop :=
  ∀ k, |X.coord k - Y.coord k| + 2 * e ≤ (1 - u) * a ∨ (1 + u) / (1 - u) * a + 2 * e < |X.coord k - Y.coord k|

lemma mergeDuplicates_sim {u : K} (hu : 0 ≤ u) (hu1 : u < 1) {rnd : K → K} (hr : IsRounding u rnd)
    {srt srt' : (ℕ → K) → List ℕ → List ℕ} (hsrt : IsArgsort srt) (hsrt' : IsArgsort srt') {a e : K} (h0 : 0 ≤ a)
    (he : 0 ≤ e) (ha : rnd (rnd a) = rnd a) {m m' : Mesh K} (hf : m'.faces = m.faces)
    (hv : List.Forall₂ (V3.Close e) m.vertices m'.vertices)
    (hgap : ∀ X ∈ m.vertices, ∀ Y ∈ m.vertices, Gap u e a X Y)
    (hsep : ∀ X ∈ m.vertices, ∀ Y ∈ m.vertices, V3.Close a X Y → X = Y) :
    (∃ er, m.mergeDuplicates srt a = .error er ∧ m'.mergeDuplicatesFl rnd srt' (rnd a) = .error er) ∨
    ∃ n n' ids, m.mergeDuplicates srt a = .ok (n, ids) ∧ m'.mergeDuplicatesFl rnd srt' (rnd a) = .ok (n', ids) ∧
      n'.faces = n.faces ∧ List.Forall₂ (V3.Close e) n.vertices n'.vertices ∧ ∀ v ∈ n.vertices, v ∈ m.vertices := by
  have v : 0 < 1 - u := by linarith
  have hra := abs_le.1 (hr.near a)
  rw [abs_of_nonneg h0] at hra
  have hra0 : 0 ≤ rnd a := by
    have := mul_nonneg v.le h0
    linarith [hra.1]
  obtain ⟨a', h1, h2, h3⟩ := C117_as_exact u rnd hr srt' (rnd a) hra0 ha (m'.vertices.map V3.coord)
  have hnv : m'.nv = m.nv := hv.length_eq.symm
  unfold Mesh.mergeDuplicates Mesh.mergeDuplicatesFl
  rw [h3, hf, hnv]
  by_cases hne : m.vertices = []
  · left
    have hne' : m'.vertices = [] := by rw [hne] at hv; exact List.forall₂_nil_left_iff.1 hv
    rw [hne, hne', List.map_nil, (C03_renumbering_total_in_range_onto srt hsrt a h0 _).1 rfl,
      (C03_renumbering_total_in_range_onto srt' hsrt' a' (hra0.trans h1) _).1 rfl]
    exact ⟨_, rfl, rfl⟩
  have hlen : (m.vertices.map V3.coord).length = (m'.vertices.map V3.coord).length := by simp [hv.length_eq]
  have hcol : ∀ dim, NearCols (m.vertices.map V3.coord).length a a' (colVal (m.vertices.map V3.coord) dim)
      (colVal (m'.vertices.map V3.coord) dim) := by
    intro dim
    have hc1 : (1 - u) * a ≤ a' := by linarith [hra.1]
    have hc2 : a' ≤ (1 + u) / (1 - u) * a := by
      rw [div_mul_eq_mul_div, le_div_iff₀ v]
      linarith [hra.2]
    have hc3 : a ≤ (1 + u) / (1 - u) * a := by
      rw [div_mul_eq_mul_div, le_div_iff₀ v]
      nlinarith [mul_nonneg hu h0]
    refine ⟨e, (1 - u) * a - 2 * e, (1 + u) / (1 - u) * a + 2 * e, he, ?_, by linarith, by linarith, by linarith, ?_, ?_⟩
    · linarith [mul_nonneg hu h0]
    · intro i hi
      have hi1 : i < m.vertices.length := by simpa using hi
      have hi2 : i < m'.vertices.length := hv.length_eq ▸ hi1
      have e1 : (m.vertices.map V3.coord)[i]? = some (m.vertices[i].coord) := by simp [hi1]
      have e2 : (m'.vertices.map V3.coord)[i]? = some (m'.vertices[i].coord) := by simp [hi2]
      rw [colVal_eq e1, colVal_eq e2]
      exact close_iff_coord.1 ((List.forall₂_iff_get.1 hv).2 i hi1 hi2) dim
    · intro i hi j hj
      have hi1 : i < m.vertices.length := by simpa using hi
      have hj1 : j < m.vertices.length := by simpa using hj
      have e1 : (m.vertices.map V3.coord)[i]? = some (m.vertices[i].coord) := by simp [hi1]
      have e2 : (m.vertices.map V3.coord)[j]? = some (m.vertices[j].coord) := by simp [hj1]
      rw [colVal_eq e1, colVal_eq e2]
      rcases hgap _ (List.getElem_mem hi1) _ (List.getElem_mem hj1) dim with h | h
      · left; linarith
      · right; exact h
  obtain ⟨r, r', k1, k2, k3, k4, k5⟩ := merge_stable h0 (hra0.trans h1) hsrt hsrt' (by simpa using hne) hlen hcol
  obtain ⟨c1, -⟩ := C01_merged_rows_within_tolerance srt hsrt a h0 _ r k1
  rw [k1, k2]
  simp only [k3]
  by_cases hall : m.faces.all (fun f => f.toList.all (fun i => decide (i < m.nv))) = true
  · right
    rw [if_pos hall, if_pos hall]
    have hrow : ∀ id (h : id < r.rows.length) (h' : id < r'.rows.length),
        V3.Close e (V3.ofCoord r.rows[id]) (V3.ofCoord r'.rows[id]) ∧ V3.ofCoord r.rows[id] ∈ m.vertices := by
      intro id h h'
      obtain ⟨i, j, n1, n2, n3, n4⟩ := k5 id h
      rw [List.getElem?_eq_getElem h] at n3
      rw [List.getElem?_eq_getElem h'] at n4
      obtain ⟨hi, e1⟩ := List.getElem?_eq_some_iff.1 n3.symm
      obtain ⟨hj', e2⟩ := List.getElem?_eq_some_iff.1 n4.symm
      have hi1 : i < m.vertices.length := by simpa using hi
      have hj1 : j < m'.vertices.length := by simpa using hj'
      have hj2 : j < m.vertices.length := hv.length_eq ▸ hj1
      simp only [List.getElem_map] at e1 e2
      have q1 : (m.vertices.map V3.coord)[i]? = some (m.vertices[i].coord) := by simp [hi1]
      have q2 : (m.vertices.map V3.coord)[j]? = some (m.vertices[j].coord) := by simp [hj2]
      have hc := close_iff_coord.2 (c1 i j _ _ id q1 q2 n1 n2)
      have heq := hsep _ (List.getElem_mem hi1) _ (List.getElem_mem hj2) hc
      rw [← e1, ← e2, V3.ofCoord_coord, V3.ofCoord_coord]
      refine ⟨?_, List.getElem_mem _⟩
      rw [heq]
      exact (List.forall₂_iff_get.1 hv).2 j hj2 hj1
    refine ⟨_, _, _, rfl, rfl, rfl, ?_, ?_⟩
    · refine List.forall₂_iff_get.2 ⟨by simp [k4], fun i h h' => ?_⟩
      have := (hrow i (by simpa using h) (by simpa using h')).1
      simpa using this
    · intro x hx
      obtain ⟨w, hw, rfl⟩ := List.mem_map.1 hx
      obtain ⟨id, hid, rfl⟩ := List.mem_iff_getElem.1 hw
      exact (hrow id hid (by omega)).2
  · left
    rw [if_neg hall, if_neg hall]
    exact ⟨_, rfl, rfl⟩

/-! ## The points of the loop -/

/-- The points computed by the loop are points of the spec. -/
lemma loop_clipPoints {p : Plane K} {tol : K} (htol : 0 ≤ tol) {m : Mesh K} (hwf : m.WF)
    (hpos : ∀ f ∈ m.faces, ∀ i ∈ f.toList, |p.dist (m.vert i)| ≠ tol) {part : Partition K}
    (hp : partition tol (m.vertices.map p.dist) m = .ok part) {st : LoopState K}
    (e1 : clipLoop p tol part.crown.vertices part.crownDists part.crown.faces ⟨[], [], [], [], part.crown.nv⟩ = .ok st) :
    ∀ v ∈ st.pts, m.TolClipPoint p tol v := by
  obtain ⟨part', gu, gc, gl, hp', su, sc, sl, hcd⟩ := partition_spec p tol m hwf
  rw [hp] at hp'
  cases hp'
  rw [hcd] at e1
  obtain ⟨l, hrun⟩ := clipLoop_ok e1
  have cpos : ∀ f ∈ part.crown.faces, ∀ i ∈ f.toList, |p.dist (part.crown.vert i)| ≠ tol := by
    intro f' hf' i hi
    obtain ⟨f, hf, _, rfl, _, hvv⟩ := sc.face hf'
    rw [Face.toList_map] at hi
    obtain ⟨j, hj, rfl⟩ := List.mem_map.1 hi
    rw [hvv j hj]; exact hpos f hf j hj
  intro v hvm
  rw [hrun.pts, List.nil_append, List.mem_flatMap] at hvm
  obtain ⟨t, ht, hvt⟩ := hvm
  obtain ⟨hbad, _, q, hpl, _, k2, k3, k4⟩ := run_cuts htol sc.wf cpos hrun (raw := ⟨part.crown.vertices ++ st.pts, []⟩) rfl ht
  have hfc : t.2.1 ∈ part.crown.faces := by rw [← hrun.faces_eq]; exact List.mem_map_of_mem ht
  obtain ⟨f, hf, hqf, hfeq, _, hvv⟩ := sc.face hfc
  have hinj : gc f.a = gc f.d → f.a = f.d := fun he =>
    sc.inj f (List.mem_filter.2 ⟨hf, hqf⟩) _ (by simp [Face.toList]) f (List.mem_filter.2 ⟨hf, hqf⟩) _ (by simp [Face.toList]) he
  have hcut : ∀ e ∈ t.2.1.directedEdges, ∀ x, (tol < p.dist (part.crown.vert e.1) ∧ p.dist (part.crown.vert e.2) < -tol) ∨
      (p.dist (part.crown.vert e.1) < -tol ∧ tol < p.dist (part.crown.vert e.2)) →
      IsCut p (part.crown.vert e.1) (part.crown.vert e.2) x → m.TolClipPoint p tol x := by
    intro e he x hs hx
    rw [hfeq, directedEdges_map hinj] at he
    obtain ⟨e0, he0, rfl⟩ := List.mem_map.1 he
    simp only [hvv _ (edges_mem_toList he0).1, hvv _ (edges_mem_toList he0).2] at hx hs
    exact .inr ⟨e0, List.mem_flatMap.2 ⟨f, hf, he0⟩, hs, IsCut.eq_cutPt hx⟩
  obtain ⟨j, hj, rfl⟩ := List.mem_iff_getElem.1 hvt
  have hj3 := k3 j hj
  rw [List.getElem?_eq_getElem hj, Option.some.injEq] at hj3
  have hj' : j < q.cuts.length := by omega
  have hget : q.cuts[j]? = some (q.cuts[j]) := List.getElem?_eq_getElem hj'
  have hcj := k4 j _ hget
  have hrange := PlanRes.check_ok (table_range _ (cornerCls_mem p tol part.crown.vert t.2.1)) hpl
  have hadj := PlanRes.check_ok (table_adjacent _ (cornerCls_mem p tol part.crown.vert t.2.1) hbad) hpl
  have hknown := PlanRes.check_ok (table_known _ (cornerCls_mem p tol part.crown.vert t.2.1) hbad).2 hpl
  simp only [Plan.inRange, Plan.cutsAB, Bool.and_eq_true, List.all_eq_true, cornerCls_length] at hrange hadj hknown
  have hr := hrange.1.2 _ (List.getElem_mem hj')
  have ha := hadj _ (List.getElem_mem hj')
  have hk := hknown.2 _ (List.getElem_mem hj')
  simp only [Bool.and_eq_true, decide_eq_true_eq, Bool.or_eq_true, beq_iff_eq] at hr ha hk
  have hcl : ∀ k, k < t.2.1.corners.length → (cornerCls p tol part.crown.vert t.2.1).getD k .P =
      classOf tol (p.dist (cornerPt part.crown.vert t.2.1 k)) := by
    intro k hk
    rw [cornerCls]
    simp [List.getD_eq_getElem?_getD, hk, cornerPt]
  rw [hcl _ hr.1, hcl _ hr.2, isA_iff, isA_iff, isB_iff htol, isB_iff htol] at hk
  rw [hj3]
  rcases ha with ha | ha
  · rw [ha] at hcj hk
    exact hcut _ (corner_edge t.2.1 hr.1) _ hk hcj
  · rw [ha] at hcj hk
    exact hcut _ (corner_edge t.2.1 hr.2) _ (hk.symm.imp And.symm And.symm) hcj.symm

/-- The distances kept with the crown, for any function which computes them. -/
lemma partition_dists {tol : K} {m : Mesh K} (hwf : m.WF) {φ : V3 K → K} {part : Partition K}
    (h : partition tol (m.vertices.map φ) m = .ok part) : part.crownDists = part.crown.vertices.map φ := by
  obtain ⟨u, iu, gu, e1, _⟩ := extract_spec m hwf (fun f => allFour (isAbove tol) (m.vertices.map φ) f)
  obtain ⟨c, ic, gc, c1, c2, c3, c4, _⟩ :=
    extract_spec m hwf (fun f => !allFour (isAbove tol) (m.vertices.map φ) f &&
        !allFour (isBelow tol) (m.vertices.map φ) f)
  obtain ⟨l, il, gl, l1, _⟩ :=
    extract_spec m hwf (fun f => allFour (isBelow tol) (m.vertices.map φ) f)
  unfold partition aboveIds crownIds belowIds at h
  rw [e1, c1, l1] at h
  have h := Except.ok.inj h
  subst h
  simp only [c3, List.map_map]
  refine List.map_congr_left fun i hi => ?_
  have : i < m.vertices.length := c4 i hi
  simp [Mesh.vert, List.getD_eq_getElem?_getD, this]

end Clipper
end MM
