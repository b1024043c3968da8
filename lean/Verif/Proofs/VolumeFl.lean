import Verif.Model.VolumeFl
import Verif.Spec.VolumeFl
import Verif.Spec.Rounding
import Mathlib.Tactic.Linarith
import Mathlib.Tactic.Positivity
import Mathlib.Tactic.FieldSimp
import Mathlib.Tactic.Ring
import Mathlib.Data.List.Perm.Basic
import Mathlib.Algebra.BigOperators.Group.List.Basic

/-!
# Forward error analysis of sums and products
-/

namespace MM

variable {K : Type*} [Field K] [LinearOrder K] [IsStrictOrderedRing K] {u : K} {rnd : K → K}

lemma pow_sub_nonneg (hu : 0 ≤ u) (n : ℕ) : 0 ≤ (1 + u) ^ n - 1 := by
  have := one_le_pow₀ (n := n) (by linarith : 1 ≤ 1 + u)
  linarith

lemma Err.nonneg {n : ℕ} {A x y : K} (h : Err u n A x y) : 0 ≤ A := (abs_nonneg _).trans h.1

lemma Err.exact (x : K) : Err u 0 |x| x x := ⟨le_rfl, by simp⟩

lemma Err.mono (hu : 0 ≤ u) {n k : ℕ} {A x y : K} (h : Err u n A x y) (hk : n ≤ k) : Err u k A x y := by
  refine ⟨h.1, h.2.trans (mul_le_mul_of_nonneg_right ?_ h.nonneg)⟩
  have := pow_le_pow_right₀ (by linarith : 1 ≤ 1 + u) hk
  linarith

lemma Err.bound {n : ℕ} {A x y : K} (h : Err u n A x y) : |x| ≤ (1 + u) ^ n * A := by
  calc |x| = |(x - y) + y| := by rw [sub_add_cancel]
    _ ≤ |x - y| + |y| := abs_add_le _ _
    _ ≤ ((1 + u) ^ n - 1) * A + A := add_le_add h.2 h.1
    _ = (1 + u) ^ n * A := by ring

lemma Err.add {n : ℕ} {A B x y x' y' : K} (h : Err u n A x x') (h' : Err u n B y y') :
    Err u n (A + B) (x + y) (x' + y') := by
  refine ⟨(abs_add_le _ _).trans (add_le_add h.1 h'.1), ?_⟩
  calc |x + y - (x' + y')| = |(x - x') + (y - y')| := by congr 1; ring
    _ ≤ |x - x'| + |y - y'| := abs_add_le _ _
    _ ≤ ((1 + u) ^ n - 1) * A + ((1 + u) ^ n - 1) * B := add_le_add h.2 h'.2
    _ = _ := by ring

lemma Err.neg {n : ℕ} {A x y : K} (h : Err u n A x y) : Err u n A (-x) (-y) := by
  refine ⟨by rw [abs_neg]; exact h.1, ?_⟩
  rw [show -x - -y = -(x - y) by ring, abs_neg]
  exact h.2

lemma Err.mul (hu : 0 ≤ u) {n k : ℕ} {A B x y x' y' : K} (h : Err u n A x x') (h' : Err u k B y y') :
    Err u (n + k) (A * B) (x * y) (x' * y') := by
  refine ⟨by rw [abs_mul]; exact mul_le_mul h.1 h'.1 (abs_nonneg _) h.nonneg, ?_⟩
  have hA := h.nonneg
  have hB := h'.nonneg
  have hn := pow_sub_nonneg hu n
  calc |x * y - x' * y'| = |(x - x') * y + x' * (y - y')| := by congr 1; ring
    _ ≤ |(x - x') * y| + |x' * (y - y')| := abs_add_le _ _
    _ = |x - x'| * |y| + |x'| * |y - y'| := by rw [abs_mul, abs_mul]
    _ ≤ ((1 + u) ^ n - 1) * A * ((1 + u) ^ k * B) + A * (((1 + u) ^ k - 1) * B) :=
      add_le_add (mul_le_mul h.2 h'.bound (abs_nonneg _) (by positivity)) (mul_le_mul h.1 h'.2 (abs_nonneg _) hA)
    _ = ((1 + u) ^ (n + k) - 1) * (A * B) := by rw [pow_add]; ring

lemma rnd_factor (hr : IsRounding u rnd) (x : K) : ∃ θ, |θ| ≤ u ∧ rnd x = x * (1 + θ) := by
  by_cases hx : x = 0
  · subst hx
    refine ⟨0, ?_, ?_⟩
    · have := hr.near 1
      rw [abs_one, mul_one] at this
      simpa using (abs_nonneg _).trans this
    · have := hr.near 0
      simp only [sub_zero, abs_zero, mul_zero] at this
      rw [zero_mul]
      exact abs_eq_zero.1 (le_antisymm this (abs_nonneg _))
  · refine ⟨(rnd x - x) / x, ?_, by field_simp; ring⟩
    rw [abs_div, div_le_iff₀ (abs_pos.2 hx)]
    exact hr.near x

lemma Err.factor (hu : 0 ≤ u) {n : ℕ} {A x y θ : K} (h : Err u n A x y) (hθ : |θ| ≤ u) : Err u (n + 1) A (x * (1 + θ)) y := by
  refine ⟨h.1, ?_⟩
  calc |x * (1 + θ) - y| = |x * θ + (x - y)| := by congr 1; ring
    _ ≤ |x * θ| + |x - y| := abs_add_le _ _
    _ = |x| * |θ| + |x - y| := by rw [abs_mul]
    _ ≤ (1 + u) ^ n * A * u + ((1 + u) ^ n - 1) * A :=
      add_le_add (mul_le_mul h.bound hθ (abs_nonneg _) (mul_nonneg (by positivity) h.nonneg)) h.2
    _ = _ := by rw [pow_succ]; ring

lemma Err.round (hu : 0 ≤ u) (hr : IsRounding u rnd) {n : ℕ} {A x y : K} (h : Err u n A x y) : Err u (n + 1) A (rnd x) y := by
  obtain ⟨θ, h1, h2⟩ := rnd_factor hr x
  rw [h2]; exact h.factor hu h1

lemma Err.div {n : ℕ} {A x y : K} (h : Err u n A x y) {q : K} (hq : 0 < q) : Err u n (A / q) (x / q) (y / q) := by
  refine ⟨by rw [abs_div, abs_of_pos hq]; exact div_le_div_of_nonneg_right h.1 hq.le, ?_⟩
  rw [← sub_div, abs_div, abs_of_pos hq, ← mul_div_assoc]
  exact div_le_div_of_nonneg_right h.2 hq.le

/-- A sum in any order. -/
lemma Err.sum (hu : 0 ≤ u) (hr : IsRounding u rnd) {n : ℕ} {l : List K} {s : K} (h : SumFl rnd l s) :
    ∀ L : List (K × K), List.Forall₂ (fun t x => Err u n t.1 x t.2) L l →
      Err u (n + (L.length - 1)) (L.map Prod.fst).sum s (L.map Prod.snd).sum := by
  induction h with
  | nil =>
    intro L hL
    cases hL
    exact ⟨by simp, by simp⟩
  | one x =>
    intro L hL
    obtain ⟨t, L, h1, h2, rfl⟩ := List.forall₂_cons_right_iff.1 hL
    cases h2
    simpa using h1
  | @add l l₁ l₂ s₁ s₂ hp n₁ n₂ r₁ r₂ i₁ i₂ =>
    intro L hL
    obtain ⟨L', hL', hLL⟩ := List.perm_comp_forall₂ hp.symm hL.flip
    have hL' := hL'.flip
    have e1 := List.forall₂_take_append L' l₁ l₂ hL'
    have e2 := List.forall₂_drop_append L' l₁ l₂ hL'
    have j1 := i₁ _ e1
    have j2 := i₂ _ e2
    have len : L'.length = l₁.length + l₂.length := by rw [hL'.length_eq, List.length_append]
    have len1 := e1.length_eq
    have len2 := e2.length_eq
    have p1 := List.length_pos_iff.2 n₁
    have p2 := List.length_pos_iff.2 n₂
    have j := ((j1.mono hu (k := n + (L.length - 2)) (by rw [← hLL.length_eq]; omega)).add
      (j2.mono hu (k := n + (L.length - 2)) (by rw [← hLL.length_eq]; omega))).round hu hr
    rw [← List.sum_append, ← List.sum_append, ← List.map_append, ← List.map_append, List.take_append_drop,
      (hLL.map Prod.fst).sum_eq, (hLL.map Prod.snd).sum_eq] at j
    exact j.mono hu (by rw [← hLL.length_eq]; omega)

/-! ### The triangle -/

lemma err_sub (hu : 0 ≤ u) (hr : IsRounding u rnd) (a b : K) : Err u 1 |a - b| (rnd (a - b)) (a - b) := (Err.exact _).round hu hr

lemma err_cross (hu : 0 ≤ u) (hr : IsRounding u rnd) {a b c d a' b' c' d' : K} (ha : Err u 1 |a| a' a) (hb : Err u 1 |b| b' b)
    (hc : Err u 1 |c| c' c) (hd : Err u 1 |d| d' d) :
    Err u 4 (|a| * |b| + |c| * |d|) (rnd (rnd (a' * b') - rnd (c' * d'))) (a * b - c * d) := by
  have h := (((ha.mul hu hb).round hu hr).add ((hc.mul hu hd).round hu hr).neg).round hu hr
  simpa only [← sub_eq_add_neg] using h

lemma err_triCross (hu : 0 ≤ u) (hr : IsRounding u rnd) (p q r : V3 K) :
    Err u 4 (absAreaV p q r).x (triCrossFl rnd p q r).x (areaV p q r).x ∧
    Err u 4 (absAreaV p q r).y (triCrossFl rnd p q r).y (areaV p q r).y ∧
    Err u 4 (absAreaV p q r).z (triCrossFl rnd p q r).z (areaV p q r).z :=
  ⟨err_cross hu hr (err_sub hu hr _ _) (err_sub hu hr _ _) (err_sub hu hr _ _) (err_sub hu hr _ _),
   err_cross hu hr (err_sub hu hr _ _) (err_sub hu hr _ _) (err_sub hu hr _ _) (err_sub hu hr _ _),
   err_cross hu hr (err_sub hu hr _ _) (err_sub hu hr _ _) (err_sub hu hr _ _) (err_sub hu hr _ _)⟩

lemma Err.congr {n : ℕ} {A B x y z : K} (h : Err u n A x y) (hA : A = B) (hy : y = z) : Err u n B x z := hA ▸ hy ▸ h

lemma err_t0 (hu : 0 ≤ u) (hr : IsRounding u rnd) (a b : K) : Err u 1 (|a| + |b|) (rnd (a + b)) (a + b) :=
  ((Err.exact a).add (Err.exact b)).round hu hr

lemma err_f1 (hu : 0 ≤ u) (hr : IsRounding u rnd) (a b c : K) : Err u 2 (h1 |a| |b| |c|) (f1Fl rnd a b c) (h1 a b c) :=
  ((err_t0 hu hr a b).add ((Err.exact c).mono hu (by omega))).round hu hr

lemma err_t2 (hu : 0 ≤ u) (hr : IsRounding u rnd) (a b : K) :
    Err u 3 (|a| * |a| + |b| * (|a| + |b|)) (t2Fl rnd a b) (a * a + b * (a + b)) := by
  have e1 := (((Err.exact (u := u) a).mul hu (Err.exact a)).round hu hr).mono hu (k := 2) (by omega)
  have e2 := ((Err.exact (u := u) b).mul hu (err_t0 hu hr a b)).round hu hr
  exact (e1.add e2).round hu hr

lemma err_f2 (hu : 0 ≤ u) (hr : IsRounding u rnd) (a b c : K) : Err u 4 (h2 |a| |b| |c|) (f2Fl rnd a b c) (h2 a b c) := by
  have e1 := ((Err.exact (u := u) c).mul hu (err_f1 hu hr a b c)).round hu hr
  exact (((err_t2 hu hr a b).add e1).round hu hr).congr (by unfold h1 h2; ring) (by unfold h1 h2; ring)

lemma err_f3 (hu : 0 ≤ u) (hr : IsRounding u rnd) (a b c : K) : Err u 6 (h3 |a| |b| |c|) (f3Fl rnd a b c) (h3 a b c) := by
  have e0 := ((Err.exact (u := u) a).mul hu (Err.exact a)).round hu hr
  have e1 := (((Err.exact (u := u) a).mul hu e0).round hu hr).mono hu (k := 4) (by omega)
  have e2 := ((Err.exact (u := u) b).mul hu (err_t2 hu hr a b)).round hu hr
  have e3 := ((Err.exact (u := u) c).mul hu (err_f2 hu hr a b c)).round hu hr
  exact ((((e1.add e2).round hu hr).add e3).round hu hr).congr (by unfold h2 h3; ring) (by unfold h2 h3; ring)

lemma err_g (hu : 0 ≤ u) (hr : IsRounding u rnd) (s a b c : K) :
    Err u 5 (h2 |a| |b| |c| + |s| * (h1 |a| |b| |c| + |s|)) (gFl rnd s a b c) (h2 a b c + s * (h1 a b c + s)) := by
  have e1 := ((err_f1 hu hr a b c).add ((Err.exact s).mono hu (by omega))).round hu hr
  have e2 := ((Err.exact (u := u) s).mul hu e1).round hu hr
  exact ((err_f2 hu hr a b c).add (e2.mono hu (by omega))).round hu hr

lemma err_mix (hu : 0 ≤ u) (hr : IsRounding u rnd) (y0 y1 y2 a b c : K) :
    Err u 8 (hmix |y0| |y1| |y2| |a| |b| |c|) (mixFl rnd y0 y1 y2 a b c) (hmix y0 y1 y2 a b c) := by
  have e0 := ((Err.exact (u := u) y0).mul hu (err_g hu hr a a b c)).round hu hr
  have e1 := ((Err.exact (u := u) y1).mul hu (err_g hu hr b a b c)).round hu hr
  have e2 := ((Err.exact (u := u) y2).mul hu (err_g hu hr c a b c)).round hu hr
  exact ((((e0.add e1).round hu hr).add (e2.mono hu (by omega))).round hu hr)

/-- The norm of the vector product cancels. -/
lemma err_term (hu : 0 ≤ u) (hr : IsRounding u rnd) {nrm : V3 K → K} {c : V3 K} (hn : nrm c ≠ 0) {k : ℕ} {C F n n' f f' q : K}
    (hc : Err u 4 C n n') (hf : Err u k F f f') (hq : 0 < q) :
    Err u (k + 8) (C * F / q) (termFl rnd nrm c n f q) (n' * f' / q) := by
  unfold termFl
  obtain ⟨θ1, a1, e1⟩ := rnd_factor hr (n / nrm c)
  obtain ⟨θ2, a2, e2⟩ := rnd_factor hr (nrm c * f)
  rw [e1, e2]
  obtain ⟨θ3, a3, e3⟩ := rnd_factor hr (nrm c * f * (1 + θ2) / q)
  rw [e3]
  obtain ⟨θ4, a4, e4⟩ := rnd_factor hr (n / nrm c * (1 + θ1) * (nrm c * f * (1 + θ2) / q * (1 + θ3)))
  rw [e4]
  have e : n / nrm c * (1 + θ1) * (nrm c * f * (1 + θ2) / q * (1 + θ3)) * (1 + θ4) =
      n * f / q * (1 + θ1) * (1 + θ2) * (1 + θ3) * (1 + θ4) := by field_simp
  rw [e]
  exact ((((((hc.mul hu hf).div hq).factor hu a1).factor hu a2).factor hu a3).factor hu a4).mono hu (by omega)

/-- The errors of the three components. -/
def ErrV (u : K) (n : ℕ) (A x y : V3 K) : Prop := Err u n A.x x.x y.x ∧ Err u n A.y x.y y.y ∧ Err u n A.z x.z y.z

lemma err_vol0 (hu : 0 ≤ u) (hr : IsRounding u rnd) {nrm : V3 K → K} {p q r : V3 K} (hn : nrm (triCrossFl rnd p q r) ≠ 0) :
    ErrV u 10 (size1 p q r) (vol0Fl rnd nrm p q r) (flux1 p q r) := by
  obtain ⟨h1, h2, h3⟩ := err_triCross hu hr p q r
  exact ⟨err_term hu hr hn h1 (err_f1 hu hr _ _ _) (by norm_num), err_term hu hr hn h2 (err_f1 hu hr _ _ _) (by norm_num),
    err_term hu hr hn h3 (err_f1 hu hr _ _ _) (by norm_num)⟩

lemma err_vol6 (hu : 0 ≤ u) (hr : IsRounding u rnd) {nrm : V3 K → K} {p q r : V3 K} (hn : nrm (triCrossFl rnd p q r) ≠ 0) :
    ErrV u 12 (size2 p q r) (vol6Fl rnd nrm p q r) (flux2 p q r) := by
  obtain ⟨h1, h2, h3⟩ := err_triCross hu hr p q r
  exact ⟨err_term hu hr hn h1 (err_f2 hu hr _ _ _) (by norm_num), err_term hu hr hn h2 (err_f2 hu hr _ _ _) (by norm_num),
    err_term hu hr hn h3 (err_f2 hu hr _ _ _) (by norm_num)⟩

lemma err_vol9 (hu : 0 ≤ u) (hr : IsRounding u rnd) {nrm : V3 K → K} {p q r : V3 K} (hn : nrm (triCrossFl rnd p q r) ≠ 0) :
    ErrV u 14 (size3 p q r) (vol9Fl rnd nrm p q r) (flux3 p q r) := by
  obtain ⟨h1, h2, h3⟩ := err_triCross hu hr p q r
  exact ⟨err_term hu hr hn h1 (err_f3 hu hr _ _ _) (by norm_num), err_term hu hr hn h2 (err_f3 hu hr _ _ _) (by norm_num),
    err_term hu hr hn h3 (err_f3 hu hr _ _ _) (by norm_num)⟩

lemma err_vol12 (hu : 0 ≤ u) (hr : IsRounding u rnd) {nrm : V3 K → K} {p q r : V3 K} (hn : nrm (triCrossFl rnd p q r) ≠ 0) :
    ErrV u 16 (sizeMix p q r) (vol12Fl rnd nrm p q r) (fluxMix p q r) := by
  obtain ⟨h1, h2, h3⟩ := err_triCross hu hr p q r
  exact ⟨err_term hu hr hn h1 (err_mix hu hr _ _ _ _ _ _) (by norm_num), err_term hu hr hn h2 (err_mix hu hr _ _ _ _ _ _) (by norm_num),
    err_term hu hr hn h3 (err_mix hu hr _ _ _ _ _ _) (by norm_num)⟩

/-! ### The mesh -/

/-- The norm computed for each face is not zero (otherwise the normal of the face is NaN). -/
def Mesh.NormsNonzero (rnd : K → K) (nrm : V3 K → K) (m : Mesh K) : Prop :=
  ∀ f ∈ m.faces, nrm (triCrossFl rnd (m.vert f.a) (m.vert f.b) (m.vert f.c)) ≠ 0

lemma err_coord (hu : 0 ≤ u) (hr : IsRounding u rnd) (m : Mesh K) {n : ℕ} {S X Y : V3 K → V3 K → V3 K → V3 K} (co : V3 K → K)
    (h : ∀ f ∈ m.faces, Err u n (co (S (m.vert f.a) (m.vert f.b) (m.vert f.c))) (co (X (m.vert f.a) (m.vert f.b) (m.vert f.c)))
      (co (Y (m.vert f.a) (m.vert f.b) (m.vert f.c)))) {s : K} (hs : SumFl rnd ((m.onTriangles X).map co) s) :
    Err u (n + m.faces.length) (m.triSum (fun p q r => co (S p q r))) s (m.triSum (fun p q r => co (Y p q r))) := by
  have key := Err.sum (n := n) hu hr hs (m.faces.map (fun f => (co (S (m.vert f.a) (m.vert f.b) (m.vert f.c)),
    co (Y (m.vert f.a) (m.vert f.b) (m.vert f.c))))) (by
      unfold Mesh.onTriangles
      rw [List.map_map]
      clear hs
      generalize m.faces = l at h
      induction l with
      | nil => exact .nil
      | cons f l ih => exact .cons (h f (by simp)) (ih (fun f hf => h f (by simp [hf]))))
  rw [List.map_map, List.map_map, List.length_map] at key
  exact key.mono hu (by omega)

lemma err_sums (hu : 0 ≤ u) (hr : IsRounding u rnd) (m : Mesh K) {n : ℕ} {S X Y : V3 K → V3 K → V3 K → V3 K}
    (h : ∀ f ∈ m.faces, ErrV u n (S (m.vert f.a) (m.vert f.b) (m.vert f.c)) (X (m.vert f.a) (m.vert f.b) (m.vert f.c))
      (Y (m.vert f.a) (m.vert f.b) (m.vert f.c))) {s : V3 K} (hs : Mesh.SumsFl rnd (m.onTriangles X) s) :
    Err u (n + m.faces.length) (m.triSum (fun p q r => (S p q r).x)) s.x (m.triSum (fun p q r => (Y p q r).x)) ∧
    Err u (n + m.faces.length) (m.triSum (fun p q r => (S p q r).y)) s.y (m.triSum (fun p q r => (Y p q r).y)) ∧
    Err u (n + m.faces.length) (m.triSum (fun p q r => (S p q r).z)) s.z (m.triSum (fun p q r => (Y p q r).z)) :=
  ⟨err_coord hu hr m V3.x (fun f hf => (h f hf).1) hs.1, err_coord hu hr m V3.y (fun f hf => (h f hf).2.1) hs.2.1,
   err_coord hu hr m V3.z (fun f hf => (h f hf).2.2) hs.2.2⟩

lemma err_volume (hu : 0 ≤ u) (hr : IsRounding u rnd) {nrm : V3 K → K} (m : Mesh K) (hn : m.NormsNonzero rnd nrm) {V : K}
    (hV : m.VolumeFl rnd nrm V) :
    Err u (3 * m.faces.length + 11) (m.triSum (fun p q r => (size1 p q r).x + (size1 p q r).y + (size1 p q r).z) / 3) V
      (m.triSum (fun p q r => (flux1 p q r).x + (flux1 p q r).y + (flux1 p q r).z) / 3) := by
  obtain ⟨s, hs, rfl⟩ := hV
  have key := Err.sum (n := 10) hu hr hs (m.faces.flatMap (fun f =>
    let S := size1 (m.vert f.a) (m.vert f.b) (m.vert f.c)
    let Y := flux1 (m.vert f.a) (m.vert f.b) (m.vert f.c)
    [(S.x, Y.x), (S.y, Y.y), (S.z, Y.z)])) (by
      unfold Mesh.onTriangles
      clear hs
      have hn : ∀ f ∈ m.faces, nrm (triCrossFl rnd (m.vert f.a) (m.vert f.b) (m.vert f.c)) ≠ 0 := hn
      generalize m.faces = l at hn
      induction l with
      | nil => exact .nil
      | cons f l ih =>
        obtain ⟨a, b, c⟩ := err_vol0 hu hr (hn f (by simp))
        exact .cons a (.cons b (.cons c (ih (fun f hf => hn f (by simp [hf]))))))
  have e1 : ∀ (g : V3 K → V3 K → V3 K → V3 K) (k : V3 K → V3 K → V3 K → V3 K) (l : List Face),
      ((l.flatMap (fun f =>
        let S := g (m.vert f.a) (m.vert f.b) (m.vert f.c)
        let Y := k (m.vert f.a) (m.vert f.b) (m.vert f.c)
        [(S.x, Y.x), (S.y, Y.y), (S.z, Y.z)])).map Prod.fst).sum = (l.map (fun f =>
        (g (m.vert f.a) (m.vert f.b) (m.vert f.c)).x + (g (m.vert f.a) (m.vert f.b) (m.vert f.c)).y +
        (g (m.vert f.a) (m.vert f.b) (m.vert f.c)).z)).sum ∧
      ((l.flatMap (fun f =>
        let S := g (m.vert f.a) (m.vert f.b) (m.vert f.c)
        let Y := k (m.vert f.a) (m.vert f.b) (m.vert f.c)
        [(S.x, Y.x), (S.y, Y.y), (S.z, Y.z)])).map Prod.snd).sum = (l.map (fun f =>
        (k (m.vert f.a) (m.vert f.b) (m.vert f.c)).x + (k (m.vert f.a) (m.vert f.b) (m.vert f.c)).y +
        (k (m.vert f.a) (m.vert f.b) (m.vert f.c)).z)).sum ∧
      (l.flatMap (fun f =>
        let S := g (m.vert f.a) (m.vert f.b) (m.vert f.c)
        let Y := k (m.vert f.a) (m.vert f.b) (m.vert f.c)
        [(S.x, Y.x), (S.y, Y.y), (S.z, Y.z)])).length = 3 * l.length := by
    intro g k l
    induction l with
    | nil => simp
    | cons f l ih =>
      obtain ⟨i1, i2, i3⟩ := ih
      refine ⟨?_, ?_, ?_⟩
      · simp only [List.flatMap_cons, List.map_append, List.sum_append, i1, List.map_cons, List.map_nil, List.sum_cons, List.sum_nil]
        ring
      · simp only [List.flatMap_cons, List.map_append, List.sum_append, i2, List.map_cons, List.map_nil, List.sum_cons, List.sum_nil]
        ring
      · simp only [List.flatMap_cons, List.length_append, i3, List.length_cons, List.length_nil]; ring
  obtain ⟨k1, k2, k3⟩ := e1 size1 flux1 m.faces
  rw [k1, k2, k3] at key
  exact ((key.div (q := 3) (by norm_num)).round hu hr).mono hu (by omega)

end MM
