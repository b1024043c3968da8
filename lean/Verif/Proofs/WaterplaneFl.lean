import Verif.Model.WaterplaneFl
import Verif.Spec.Connectivity
import Verif.Proofs.InertiaQuadFl
import Verif.Props.Hydrostatics
import Verif.Props.VolumeFl

/-!
# Errors on the line sums of the waterplane
-/

namespace MM
namespace Hydro
open QuadFl

variable {u ε R : ℝ} {rnd : ℝ → ℝ}

/-- The rounded contributions of a side. -/
def sideFl (rnd : ℝ → ℝ) (e : (ℝ × ℝ) × (ℝ × ℝ)) : Sigmas ℝ :=
  let a := e.1
  let b := e.2
  let dx := rnd (b.1 - a.1)
  let dy := rnd (b.2 - a.2)
  let px := rnd (a.1 + b.1)
  let py := rnd (a.2 + b.2)
  { s0 := rnd (dy * px)
    s1 := rnd (dy * rnd (rnd (px * px) - rnd (a.1 * b.1)))
    s2 := rnd (dx * rnd (rnd (py * py) - rnd (a.2 * b.2)))
    s3 := rnd (dy * rnd (rnd (rnd (rnd (py * px) * px) + rnd (rnd (a.2 * a.1) * a.1)) + rnd (rnd (b.2 * b.1) * b.1)))
    s4 := rnd (rnd (dy * rnd (rnd (a.1 * a.1) + rnd (b.1 * b.1))) * px)
    s5 := rnd (rnd (dx * rnd (rnd (a.2 * a.2) + rnd (b.2 * b.2))) * py) }

lemma stepFl_eq (s : Sigmas ℝ) (a b : ℝ × ℝ) : s.stepFl rnd a b =
    let t := sideFl rnd (a, b)
    ⟨rnd (s.s0 + t.s0), rnd (s.s1 + t.s1), rnd (s.s2 + t.s2), rnd (s.s3 + t.s3), rnd (s.s4 + t.s4), rnd (s.s5 + t.s5)⟩ := rfl

lemma polyFl_eq (s : Sigmas ℝ) (l : List (ℝ × ℝ)) (c : Sigmas ℝ → ℝ)
    (hc : ∀ (s : Sigmas ℝ) a b, c (s.stepFl rnd a b) = rnd (c s + c (sideFl rnd (a, b)))) :
    c (s.polyFl rnd l) = ((chainPairs l).map (fun e => c (sideFl rnd e))).foldl (fun s y => rnd (s + y)) (c s) := by
  induction l generalizing s with
  | nil => simp [Sigmas.polyFl, chainPairs]
  | cons a l ih =>
    cases l with
    | nil => simp [Sigmas.polyFl, chainPairs]
    | cons b l => rw [Sigmas.polyFl, ih, chainPairs_cons_cons, List.map_cons, List.foldl_cons, hc]

lemma polysFl_eq (ls : List (List (ℝ × ℝ))) (s : Sigmas ℝ) (c : Sigmas ℝ → ℝ)
    (hc : ∀ (s : Sigmas ℝ) a b, c (s.stepFl rnd a b) = rnd (c s + c (sideFl rnd (a, b)))) :
    c (ls.foldl (Sigmas.polyFl rnd) s) =
      ((ls.flatMap chainPairs).map (fun e => c (sideFl rnd e))).foldl (fun s y => rnd (s + y)) (c s) := by
  induction ls generalizing s with
  | nil => simp
  | cons l ls ih => rw [List.foldl_cons, ih, polyFl_eq _ _ _ hc, List.flatMap_cons, List.map_append, List.foldl_append]

lemma polys_flat (ls : List (List (ℝ × ℝ))) (c : Sigmas ℝ → ℝ) (h0 : c ⟨0, 0, 0, 0, 0, 0⟩ = 0)
    (hc : ∀ s t : Sigmas ℝ, c (s.plus t) = c s + c t) :
    c (ls.foldl Sigmas.poly ⟨0, 0, 0, 0, 0, 0⟩) = ((ls.flatMap chainPairs).map (fun e => c (side e.1 e.2))).sum := by
  rw [polys_eq _ _ _ hc, h0, zero_add]
  induction ls with
  | nil => simp
  | cons l ls ih => rw [List.map_cons, List.sum_cons, ih, List.flatMap_cons, List.map_append, List.sum_append]

/-- A point, and its image in floating point. -/
def PtNear (ε R : ℝ) (a a' : ℝ × ℝ) : Prop := Ap ε 1 1 R a'.1 a.1 ∧ Ap ε 1 1 R a'.2 a.2

lemma chainPairs_near : ∀ {l l' : List (ℝ × ℝ)}, List.Forall₂ (PtNear ε R) l l' →
    List.Forall₂ (fun e e' => PtNear ε R e.1 e'.1 ∧ PtNear ε R e.2 e'.2) (chainPairs l) (chainPairs l')
  | _, _, .nil => by simp [chainPairs]
  | _, _, .cons h .nil => by simp [chainPairs]
  | _, _, .cons h (.cons h' t) => by
    rw [chainPairs_cons_cons, chainPairs_cons_cons]
    exact .cons ⟨h, h'⟩ (chainPairs_near (.cons h' t))

lemma flat_near {ls ls' : List (List (ℝ × ℝ))} (h : List.Forall₂ (List.Forall₂ (PtNear ε R)) ls ls') :
    List.Forall₂ (fun e e' => PtNear ε R e.1 e'.1 ∧ PtNear ε R e.2 e'.2) (ls.flatMap chainPairs) (ls'.flatMap chainPairs) := by
  induction h with
  | nil => simp
  | cons h t ih => rw [List.flatMap_cons, List.flatMap_cons]; exact List.rel_append (chainPairs_near h) ih

section
variable (hr : IsRounding u rnd) (hu : u ≤ ε) (h0 : 0 ≤ ε) (h1 : ε ≤ 1 / 100)
include hr hu h0 h1

lemma _root_.MM.QuadFl.Ap.sub {e₁ e₂ k₁ k₂ X x' x y' y : ℝ} (hX : 0 ≤ X) (h : Ap ε e₁ k₁ X x' x) (h' : Ap ε e₂ k₂ X y' y)
    (he₁ : 0 ≤ e₁) (he₂ : 0 ≤ e₂) : Ap ε ((e₁ + e₂) * 1.01 + (k₁ + k₂)) (k₁ + k₂) X (rnd (x' - y')) (x - y) := by
  have hn : Ap ε e₂ k₂ X (-y') (-y) := ⟨by rw [neg_sub_neg, abs_sub_comm]; exact h'.1, by rw [abs_neg]; exact h'.2⟩
  have := h.add hr hu h0 h1 hX hn he₁ he₂
  rw [← sub_eq_add_neg, ← sub_eq_add_neg] at this
  exact this

variable (hR : 0 ≤ R)
include hR

lemma side_near {e e' : (ℝ × ℝ) × (ℝ × ℝ)} (h : PtNear ε R e.1 e'.1 ∧ PtNear ε R e.2 e'.2) :
    Ap ε 21 4 (R * R) (sideFl rnd e').s0 (side e.1 e.2).s0 ∧
    Ap ε 93 10 (R * (R * R)) (sideFl rnd e').s1 (side e.1 e.2).s1 ∧
    Ap ε 93 10 (R * (R * R)) (sideFl rnd e').s2 (side e.1 e.2).s2 ∧
    Ap ε 268 20 (R * (R * (R * R))) (sideFl rnd e').s3 (side e.1 e.2).s3 ∧
    Ap ε 86 8 (R * (R * (R * R))) (sideFl rnd e').s4 (side e.1 e.2).s4 ∧
    Ap ε 86 8 (R * (R * (R * R))) (sideFl rnd e').s5 (side e.1 e.2).s5 := by
  obtain ⟨⟨ax, ay⟩, bx, by'⟩ := h
  have R2 : 0 ≤ R * R := by positivity
  have R3 : 0 ≤ R * (R * R) := by positivity
  have R4 : 0 ≤ R * (R * (R * R)) := by positivity
  have dx := (bx.sub hr hu h0 h1 hR ax (by norm_num) (by norm_num)).mono (e' := 4.1) (k' := 2) h0 hR (by norm_num) (by norm_num)
  have dy := (by'.sub hr hu h0 h1 hR ay (by norm_num) (by norm_num)).mono (e' := 4.1) (k' := 2) h0 hR (by norm_num) (by norm_num)
  have px := (ax.add hr hu h0 h1 hR bx (by norm_num) (by norm_num)).mono (e' := 4.1) (k' := 2) h0 hR (by norm_num) (by norm_num)
  have py := (ay.add hr hu h0 h1 hR by' (by norm_num) (by norm_num)).mono (e' := 4.1) (k' := 2) h0 hR (by norm_num) (by norm_num)
  -- products of two coordinates
  have m11 : ∀ {x x' y y' : ℝ}, Ap ε 1 1 R x' x → Ap ε 1 1 R y' y → Ap ε 3.1 1 (R * R) (rnd (x' * y')) (x * y) := fun h k =>
    (h.mul hr hu h0 h1 hR hR k (by norm_num) (by norm_num) (by norm_num) (by norm_num)).mono h0 R2 (by norm_num) (by norm_num)
  have m22 : ∀ {x x' y y' : ℝ}, Ap ε 4.1 2 R x' x → Ap ε 4.1 2 R y' y → Ap ε 21 4 (R * R) (rnd (x' * y')) (x * y) := fun h k =>
    (h.mul hr hu h0 h1 hR hR k (by norm_num) (by norm_num) (by norm_num) (by norm_num)).mono h0 R2 (by norm_num) (by norm_num)
  have first : ∀ {d d' p p' a a' b b' : ℝ}, Ap ε 4.1 2 R d' d → Ap ε 4.1 2 R p' p → Ap ε 1 1 R a' a → Ap ε 1 1 R b' b →
      Ap ε 93 10 (R * (R * R)) (rnd (d' * rnd (rnd (p' * p') - rnd (a' * b')))) (d * (p * p - a * b)) := fun hd hp ha hb =>
    (hd.mul hr hu h0 h1 hR R2 (((m22 hp hp).sub hr hu h0 h1 R2 (m11 ha hb) (by norm_num) (by norm_num)).mono (e' := 30) (k' := 5) h0 R2
      (by norm_num) (by norm_num)) (by norm_num) (by norm_num) (by norm_num) (by norm_num)).mono h0 R3 (by norm_num) (by norm_num)
  have second : ∀ {d d' p p' a a' b b' : ℝ}, Ap ε 4.1 2 R d' d → Ap ε 4.1 2 R p' p → Ap ε 1 1 R a' a → Ap ε 1 1 R b' b →
      Ap ε 86 8 (R * (R * (R * R))) (rnd (rnd (d' * rnd (rnd (a' * a') + rnd (b' * b'))) * p')) (d * (a * a + b * b) * p) := by
    intro d d' p p' a a' b b' hd hp ha hb
    have s := ((m11 ha ha).add hr hu h0 h1 R2 (m11 hb hb) (by norm_num) (by norm_num)).mono (e' := 8.3) (k' := 2) h0 R2 (by norm_num)
      (by norm_num)
    have t := (hd.mul hr hu h0 h1 hR R2 s (by norm_num) (by norm_num) (by norm_num) (by norm_num)).mono (e' := 29.5) (k' := 4) h0 R3
      (by norm_num) (by norm_num)
    have v := (t.mul hr hu h0 h1 R3 hR hp (by norm_num) (by norm_num) (by norm_num) (by norm_num)).mono (e' := 86) (k' := 8) h0
      (by positivity) (by norm_num) (by norm_num)
    rw [mul_comm (R * (R * R)) R] at v
    exact v
  have cube : ∀ {x x' y y' : ℝ}, Ap ε 1 1 R x' x → Ap ε 1 1 R y' y →
      Ap ε 5.2 1 (R * (R * R)) (rnd (rnd (y' * x') * x')) (y * x * x) := by
    intro x x' y y' hx hy
    have v := ((m11 hy hx).mul hr hu h0 h1 R2 hR hx (by norm_num) (by norm_num) (by norm_num) (by norm_num)).mono (e' := 5.2) (k' := 1)
      h0 (by positivity) (by norm_num) (by norm_num)
    rw [mul_comm (R * R) R] at v
    exact v
  have ppp : Ap ε 68 8 (R * (R * R)) (rnd (rnd (rnd (e'.1.2 + e'.2.2) * rnd (e'.1.1 + e'.2.1)) * rnd (e'.1.1 + e'.2.1)))
      ((e.1.2 + e.2.2) * (e.1.1 + e.2.1) * (e.1.1 + e.2.1)) := by
    have v := ((m22 py px).mul hr hu h0 h1 R2 hR px (by norm_num) (by norm_num) (by norm_num) (by norm_num)).mono (e' := 68) (k' := 8)
      h0 (by positivity) (by norm_num) (by norm_num)
    rw [mul_comm (R * R) R] at v
    exact v
  have q1 := (ppp.add hr hu h0 h1 R3 (cube ax ay) (by norm_num) (by norm_num)).mono (e' := 83) (k' := 9) h0 R3 (by norm_num) (by norm_num)
  have q2 := (q1.add hr hu h0 h1 R3 (cube bx by') (by norm_num) (by norm_num)).mono (e' := 100) (k' := 10) h0 R3 (by norm_num)
    (by norm_num)
  have q3 := (dy.mul hr hu h0 h1 hR R3 q2 (by norm_num) (by norm_num) (by norm_num) (by norm_num)).mono (e' := 268) (k' := 20) h0 R4
    (by norm_num) (by norm_num)
  unfold side Sigmas.step
  simp only [zero_add]
  exact ⟨m22 dy px, first dy px ax bx, first dx py ay by', q3, second dy px ax bx, second dx py ay by'⟩

end

/-- The sum of the loop, of terms near their exact values. -/
lemma loop_near (hu0 : 0 ≤ u) (hr : IsRounding u rnd) {α β : Type*} {l : List α} {l' : List β} {P : α → β → Prop}
    (hl : List.Forall₂ P l l') {t : β → ℝ} {x : α → ℝ} {a k X : ℝ} (h1 : ε ≤ 1 / 100) (ha : 0 ≤ a) (hX : 0 ≤ X)
    (h : ∀ i j, P i j → Ap ε a k X (t j) (x i)) :
    ∃ A y, Err u l.length A ((l'.map t).foldl (fun s y => rnd (s + y)) 0) y ∧ A ≤ l.length * ((k + a / 100) * X) ∧
      |y - (l.map x).sum| ≤ l.length * (a * (ε * X)) := by
  have s1 : ε * X ≤ 1 / 100 * X := mul_le_mul_of_nonneg_right h1 hX
  have s2 := mul_le_mul_of_nonneg_left s1 ha
  have sums : |(l'.map t).sum - (l.map x).sum| ≤ l.length * (a * (ε * X)) ∧
      ((l'.map t).map (fun x => |x|)).sum ≤ l.length * ((k + a / 100) * X) := by
    induction hl with
    | nil => simp
    | @cons i j l l' hij _ ih =>
      obtain ⟨i1, i2⟩ := ih
      obtain ⟨b, c⟩ := h i j hij
      have q : |t j| ≤ (k + a / 100) * X := by
        have := abs_add_le (t j - x i) (x i)
        rw [sub_add_cancel] at this
        linarith
      simp only [List.map_cons, List.sum_cons, List.length_cons, Nat.cast_add, Nat.cast_one]
      refine ⟨?_, by linarith⟩
      rw [abs_le] at b i1 ⊢
      constructor <;> linarith [b.1, b.2, i1.1, i1.2]
  have hs := SumFl.seq rnd 0 (l'.map t)
  have E := Err.sum (u := u) (n := 0) hu0 hr hs ((0 :: l'.map t).map (fun x => (|x|, x))) (by
    rw [List.forall₂_map_left_iff]
    exact List.forall₂_same.2 (fun x _ => Err.exact x))
  have E' := E.mono hu0 (k := l.length) (by simp [hl.length_eq])
  have e1 : ∀ L : List ℝ, (L.map (fun x => (|x|, x))).map Prod.fst = L.map (fun x => |x|) := by intro L; rw [List.map_map]; rfl
  have e2 : ∀ L : List ℝ, (L.map (fun x => (|x|, x))).map Prod.snd = L := by intro L; rw [List.map_map]; exact List.map_id L
  rw [e1, e2, List.map_cons, List.sum_cons, List.sum_cons, abs_zero, zero_add, zero_add] at E'
  exact ⟨_, _, E', sums.2, sums.1⟩

end Hydro
end MM
