import Verif.Model.ShellFl
import Verif.Props.WaterplaneFl

/-!
# Mass, centre of gravity and inertia of a shell in floating point (C141)
-/

namespace MM

open QuadFl Clipper

variable {rnd : ℝ → ℝ} {u ε R : ℝ}

section
variable (hr : IsRounding u rnd) (hu : u ≤ ε) (h0 : 0 ≤ ε) (h1 : ε ≤ 1 / 100) (hR : 0 ≤ R)
include hr hu h0 h1 hR

lemma poly1 : PolyNear ε R (6 * 6) (6 / 2) R (fun p q r => f1Fl rnd p.x q.x r.x) (fun p q r => 6 * triPoly p q r 0) ∧
    PolyNear ε R (6 * 6) (6 / 2) R (fun p q r => f1Fl rnd p.y q.y r.y) (fun p q r => 6 * triPoly p q r 1) ∧
    PolyNear ε R (6 * 6) (6 / 2) R (fun p q r => f1Fl rnd p.z q.z r.z) (fun p q r => 6 * triPoly p q r 2) := by
  have e : ∀ a b c : ℝ, 6 * (pf1 a b c / 6) = MM.h1 a b c := by intro a b c; unfold pf1 MM.h1; ring
  refine ⟨?_, ?_, ?_⟩ <;> intro p q r p' q' r' bp bq br cp cq cr <;> have kp := close_ap cp bp <;> have kq := close_ap cq bq <;>
    have kr := close_ap cr br
  · show Ap ε _ _ R _ (6 * (pf1 p.x q.x r.x / 6))
    rw [e]; exact (ap_f1 hr hu h0 h1 hR kp.1 kq.1 kr.1).mono h0 hR (by norm_num) (by norm_num)
  · show Ap ε _ _ R _ (6 * (pf1 p.y q.y r.y / 6))
    rw [e]; exact (ap_f1 hr hu h0 h1 hR kp.2.1 kq.2.1 kr.2.1).mono h0 hR (by norm_num) (by norm_num)
  · show Ap ε _ _ R _ (6 * (pf1 p.z q.z r.z / 6))
    rw [e]; exact (ap_f1 hr hu h0 h1 hR kp.2.2 kq.2.2 kr.2.2).mono h0 hR (by norm_num) (by norm_num)

lemma ap_prod {a b c y z w a' b' c' y' z' w' : ℝ} (ha : Ap ε 1 1 R a' a) (hb : Ap ε 1 1 R b' b) (hc : Ap ε 1 1 R c' c)
    (hy : Ap ε 1 1 R y' y) (hz : Ap ε 1 1 R z' z) (hw : Ap ε 1 1 R w' w) :
    Ap ε 216 18 (R * R) (prodFl rnd a' b' c' y' z' w')
      (6 * a * y + 3 * (b * z + c * w) - a * MM.h1 y z w - y * MM.h1 a b c) := by
  have R2 : 0 ≤ R * R := by positivity
  have k6 : Ap ε 0 6 1 (6 : ℝ) 6 := ⟨by simp, by norm_num [abs_of_pos]⟩
  have k3 : Ap ε 0 3 1 (3 : ℝ) 3 := ⟨by simp, by norm_num [abs_of_pos]⟩
  have x1 := k6.mul hr hu h0 h1 zero_le_one hR ha (by norm_num) (by norm_num) (by norm_num) (by norm_num)
  rw [one_mul R] at x1
  have x2 := x1.mul hr hu h0 h1 hR hR hy (by norm_num) (by norm_num) (by norm_num) (by norm_num)
  have y1 := (hb.mul hr hu h0 h1 hR hR hz (by norm_num) (by norm_num) (by norm_num) (by norm_num)).add hr hu h0 h1 R2
    (hc.mul hr hu h0 h1 hR hR hw (by norm_num) (by norm_num) (by norm_num) (by norm_num)) (by norm_num) (by norm_num)
  have y2 := k3.mul hr hu h0 h1 zero_le_one R2 y1 (by norm_num) (by norm_num) (by norm_num) (by norm_num)
  rw [one_mul (R * R)] at y2
  have z1 := ha.mul hr hu h0 h1 hR hR (ap_f1 hr hu h0 h1 hR hy hz hw) (by norm_num) (by norm_num) (by norm_num) (by norm_num)
  have z2 := hy.mul hr hu h0 h1 hR hR (ap_f1 hr hu h0 h1 hR ha hb hc) (by norm_num) (by norm_num) (by norm_num) (by norm_num)
  exact (((x2.add hr hu h0 h1 R2 y2 (by norm_num) (by norm_num)).sub hr hu h0 h1 R2 z1 (by norm_num) (by norm_num)).sub hr hu h0 h1 R2
    z2 (by norm_num) (by norm_num)).mono h0 R2 (by norm_num) (by norm_num)

lemma polyProd :
    PolyNear ε R (6 * 12) (12 / 2) (3 * (R * R)) (fun p q r => prodFl rnd p.y q.y r.y p.z q.z r.z) (fun p q r => 12 * triPoly p q r 3) ∧
    PolyNear ε R (6 * 12) (12 / 2) (3 * (R * R)) (fun p q r => prodFl rnd p.x q.x r.x p.z q.z r.z) (fun p q r => 12 * triPoly p q r 4) ∧
    PolyNear ε R (6 * 12) (12 / 2) (3 * (R * R)) (fun p q r => prodFl rnd p.x q.x r.x p.y q.y r.y)
      (fun p q r => 12 * triPoly p q r 5) := by
  have e : ∀ a b c y z w : ℝ, 12 * ((6 * a * y + 3 * (b * z + c * w) - a * pf1 y z w - y * pf1 a b c) / 12) =
      6 * a * y + 3 * (b * z + c * w) - a * MM.h1 y z w - y * MM.h1 a b c := by
    intro a b c y z w; unfold pf1 MM.h1; ring
  have k : ∀ {x' x : ℝ}, Ap ε 216 18 (R * R) x' x → Ap ε (6 * 12) (12 / 2) (3 * (R * R)) x' x := by
    intro x' x h
    exact ⟨h.1.trans (le_of_eq (by ring)), h.2.trans (le_of_eq (by ring))⟩
  refine ⟨?_, ?_, ?_⟩ <;> intro p q r p' q' r' bp bq br cp cq cr <;> have kp := close_ap cp bp <;> have kq := close_ap cq bq <;>
    have kr := close_ap cr br
  · have := k (ap_prod hr hu h0 h1 hR kp.2.1 kq.2.1 kr.2.1 kp.2.2 kq.2.2 kr.2.2)
    rw [← e] at this; exact this
  · have := k (ap_prod hr hu h0 h1 hR kp.1 kq.1 kr.1 kp.2.2 kq.2.2 kr.2.2)
    rw [← e] at this; exact this
  · have := k (ap_prod hr hu h0 h1 hR kp.1 kq.1 kr.1 kp.2.1 kq.2.1 kr.2.1)
    rw [← e] at this; exact this

lemma poly2' : PolyNear ε R (6 * 12) (12 / 2) (R * R) (fun p q r => f2Fl rnd p.x q.x r.x) (fun p q r => 12 * triPoly p q r 6) ∧
    PolyNear ε R (6 * 12) (12 / 2) (R * R) (fun p q r => f2Fl rnd p.y q.y r.y) (fun p q r => 12 * triPoly p q r 7) ∧
    PolyNear ε R (6 * 12) (12 / 2) (R * R) (fun p q r => f2Fl rnd p.z q.z r.z) (fun p q r => 12 * triPoly p q r 8) := by
  have e : ∀ x : ℝ, 12 * (x / 12) = x := by intro x; ring
  have h := poly2 hr hu h0 h1 hR
  have t := fun p q r => (triPoly_h p q r).1
  simp only [fun p q r => (t p q r).1, fun p q r => (t p q r).2.1, fun p q r => (t p q r).2.2, e]
  exact h

variable {g : ℝ} (hg : g ≤ ε) {nrm : V3 ℝ → ℝ} (hnrm : ∀ v, |nrm v - v.norm| ≤ g * v.norm) {m m' : Mesh ℝ}
    (hv : List.Forall₂ (V3.Close (ε * R)) m.vertices m'.vertices) (hb : ∀ v ∈ m.vertices, ∀ k, |v.coord k| ≤ R)
include hg hnrm hv hb

/-- A row of the integrals of a face. -/
lemma row_near {P d : ℝ} (hP : 0 ≤ P) (hd : 0 < d) {fl : V3 ℝ → V3 ℝ → V3 ℝ → ℝ} {i : Fin 15}
    (hf : PolyNear ε R (6 * d) (d / 2) P fl (fun p q r => d * triPoly p q r i)) (f : Face) :
    |m'.rowFl rnd nrm fl d f - m.faceIntegrals f i| ≤ 360 * (ε * (R ^ 2 * P)) ∧ |m.faceIntegrals f i| ≤ 14 * (R ^ 2 * P) := by
  have n := Clipper.vert_near hR (by positivity) hv hb
  have t0 : 0 ≤ ε * (R ^ 2 * P) := by positivity
  have T0 : 0 ≤ R ^ 2 * P := by positivity
  have t1 : ε * (ε * (R ^ 2 * P)) ≤ 1 / 100 * (ε * (R ^ 2 * P)) := mul_le_mul_of_nonneg_right h1 t0
  have sub := fun i j => subV_near hr hu h0 h1 hR (n i).1 (n j).1 (n i).2 (n j).2
  have tri : ∀ i₀ i₁ i₂, |integralFl rnd nrm (triCrossFl rnd (m'.vert i₀) (m'.vert i₁) (m'.vert i₂)) (fl (m'.vert i₀) (m'.vert i₁)
      (m'.vert i₂)) d - triIntegrals (m.vert i₀) (m.vert i₁) (m.vert i₂) i| ≤ 170 * (ε * (R ^ 2 * P)) ∧
      |triIntegrals (m.vert i₀) (m.vert i₁) (m.vert i₂) i| ≤ 7 * (R ^ 2 * P) := by
    intro i₀ i₁ i₂
    have C := crossV_near hr hu h0 h1 hR (sub i₁ i₀) (sub i₂ i₀)
    have I := integralP_near hr hu h0 h1 hg hnrm hP hd C (hf _ _ _ _ _ _ (n i₀).1 (n i₁).1 (n i₂).1 (n i₀).2 (n i₁).2 (n i₂).2)
    have e : ((m.vert i₁ - m.vert i₀).cross (m.vert i₂ - m.vert i₀)).norm * (d * triPoly (m.vert i₀) (m.vert i₁) (m.vert i₂) i) / d =
        triIntegrals (m.vert i₀) (m.vert i₁) (m.vert i₂) i := by
      rw [triIntegrals_eq]
      unfold triDelta
      field_simp
    rw [e] at I
    refine ⟨I.1, I.2.trans ?_⟩
    have := mul_le_mul_of_nonneg_right C.2 hP
    linarith
  unfold Mesh.rowFl Mesh.faceIntegrals
  by_cases ht : f.a = f.d
  · have htri : f.isTri = true := by simpa [Face.isTri] using ht
    simp only [htri, if_true, if_pos ht, Mesh.triIntegralsOf]
    obtain ⟨a, b⟩ := tri f.a f.b f.c
    exact ⟨a.trans (by linarith), b.trans (by linarith)⟩
  · have htri : f.isTri = false := by simpa [Face.isTri] using ht
    simp only [htri, Bool.false_eq_true, if_false, if_neg ht, Mesh.quadIntegralsOf, Pi.add_apply]
    obtain ⟨a, b⟩ := tri f.a f.b f.c
    obtain ⟨a', b'⟩ := tri f.a f.c f.d
    generalize integralFl rnd nrm _ _ d = x' at a ⊢
    generalize integralFl rnd nrm _ _ d = y' at a' ⊢
    generalize triIntegrals _ _ _ i = x at a b ⊢
    generalize triIntegrals _ _ _ i = y at a' b' ⊢
    have dd : |x' + y' - (x + y)| ≤ 340 * (ε * (R ^ 2 * P)) := by
      rw [show x' + y' - (x + y) = (x' - x) + (y' - y) by ring]
      have := abs_add_le (x' - x) (y' - y)
      linarith
    have k : |x + y| ≤ 14 * (R ^ 2 * P) := (abs_add_le _ _).trans (by linarith)
    have r := rnd_near hr hu h0 dd k
    rw [show ε * (14 * (R ^ 2 * P) + 340 * (ε * (R ^ 2 * P))) = 14 * (ε * (R ^ 2 * P)) + 340 * (ε * (ε * (R ^ 2 * P))) by ring] at r
    exact ⟨by linarith, k⟩

end

/-- A sum, in any order, of terms near their exact values. -/
lemma sumG (hu0 : 0 ≤ u) (hr : IsRounding u rnd) (h1 : ε ≤ 1 / 100) {a b T : ℝ} (ha : 0 ≤ a) (hT : 0 ≤ T) {l : List Face}
    {t e : Face → ℝ} (h : ∀ f ∈ l, |t f - e f| ≤ a * (ε * T) ∧ |e f| ≤ b * T) {s : ℝ} (hs : SumFl rnd (l.map t) s) :
    ∃ A y, Err u l.length A s y ∧ A ≤ l.length * ((b + a / 100) * T) ∧ |y - (l.map e).sum| ≤ l.length * (a * (ε * T)) := by
  have s1 : a * (ε * T) ≤ a / 100 * T := by
    have := mul_le_mul_of_nonneg_left (mul_le_mul_of_nonneg_right h1 hT) ha
    linarith
  have sums : |(l.map t).sum - (l.map e).sum| ≤ l.length * (a * (ε * T)) ∧
      ((l.map t).map (fun x => |x|)).sum ≤ l.length * ((b + a / 100) * T) := by
    clear hs
    induction l with
    | nil => simp
    | cons f l ih =>
      obtain ⟨i1, i2⟩ := ih (fun f hf => h f (by simp [hf]))
      obtain ⟨d, k⟩ := h f (by simp)
      have k : |t f| ≤ (b + a / 100) * T := by
        have := abs_add_le (t f - e f) (e f)
        rw [sub_add_cancel] at this
        linarith
      simp only [List.map_cons, List.sum_cons, List.length_cons, Nat.cast_add, Nat.cast_one]
      refine ⟨?_, by linarith⟩
      rw [abs_le] at d i1 ⊢
      constructor <;> linarith [d.1, d.2, i1.1, i1.2]
  have E := Err.sum (u := u) (n := 0) hu0 hr hs ((l.map t).map (fun x => (|x|, x))) (by
    rw [List.forall₂_map_left_iff]
    exact List.forall₂_same.2 (fun x _ => Err.exact x))
  have E' := E.mono hu0 (k := l.length) (by simp)
  have e1 : ∀ L : List ℝ, (L.map (fun x => (|x|, x))).map Prod.fst = L.map (fun x => |x|) := by intro L; rw [List.map_map]; rfl
  have e2 : ∀ L : List ℝ, (L.map (fun x => (|x|, x))).map Prod.snd = L := by intro L; rw [List.map_map]; exact List.map_id L
  rw [e1, e2] at E'
  exact ⟨_, _, E', sums.2, sums.1⟩

lemma totalIntegrals_row (m : Mesh ℝ) (i : Fin 15) : m.totalIntegrals i = (m.faces.map (fun f => m.faceIntegrals f i)).sum := by
  rw [totalIntegrals_eq]
  induction m.faces with
  | nil => rfl
  | cons f l ih => simp only [List.map_cons, List.sum_cons, Pi.add_apply, ih]

lemma areaOfSurface_eq (m : Mesh ℝ) : m.areaOfSurface = m.shellIntegral (fun _ => 1) := by
  unfold Mesh.areaOfSurface Mesh.shellIntegral Mesh.surfaceSum
  congr 1
  apply List.map_congr_left
  intro f _
  unfold Mesh.areaOfFace Mesh.faceSum
  simp only [triangleIntegral_one]
  rfl

section
variable (hu0 : 0 ≤ u) (hu : u ≤ ε) (h1 : ε ≤ 1 / 100) (hR : 0 ≤ R) (hr : IsRounding u rnd) {g : ℝ} (hg : g ≤ ε)
    {nrm : V3 ℝ → ℝ} (hnrm : ∀ v, |nrm v - v.norm| ≤ g * v.norm) {m m' : Mesh ℝ} (hfaces : m'.faces = m.faces)
    (hv : List.Forall₂ (V3.Close (ε * R)) m.vertices m'.vertices) (hb : ∀ v ∈ m.vertices, ∀ k, |v.coord k| ≤ R)
include hu0 hu h1 hR hr hg hnrm hfaces hv hb

/-- The sum of a row. -/
lemma rowSum_err {P d : ℝ} (hP : 0 ≤ P) (hd : 0 < d) {fl : V3 ℝ → V3 ℝ → V3 ℝ → ℝ} {i : Fin 15}
    (hf : PolyNear ε R (6 * d) (d / 2) P fl (fun p q r => d * triPoly p q r i)) {s : ℝ} (hs : m'.RowSumFl rnd nrm fl d s) :
    ∃ A y, Err u m.faces.length A s y ∧ A ≤ m.faces.length * (18 * (R ^ 2 * P)) ∧
      |y - m.totalIntegrals i| ≤ m.faces.length * (360 * (ε * (R ^ 2 * P))) := by
  unfold Mesh.RowSumFl at hs
  rw [hfaces] at hs
  have T0 : 0 ≤ R ^ 2 * P := by positivity
  obtain ⟨A, y, E, hA, hy⟩ := sumG (a := 360) (b := 14) hu0 hr h1 (by norm_num) T0
    (fun f _ => row_near hr hu (hu0.trans hu) h1 hR hg hnrm hv hb hP hd hf f) hs
  refine ⟨A, y, E, hA.trans ?_, by rw [totalIntegrals_row]; exact hy⟩
  exact mul_le_mul_of_nonneg_left (by linarith) (by positivity)

/-- The area of the surface. -/
lemma area_err {s : ℝ} (hs : m'.AreaFl rnd nrm s) :
    ∃ A y, Err u m.faces.length A s y ∧ A ≤ m.faces.length * (16 * R ^ 2) ∧
      |y - m.shellIntegral (fun _ => 1)| ≤ m.faces.length * (152 * (ε * R ^ 2)) := by
  unfold Mesh.AreaFl at hs
  rw [hfaces] at hs
  have T0 : 0 ≤ R ^ 2 := by positivity
  obtain ⟨A, y, E, hA, hy⟩ := sumG (a := 152) (b := 14) hu0 hr h1 (by norm_num) T0
    (fun f _ => by
      obtain ⟨a, b, c⟩ := faceArea_near hr hu (hu0.trans hu) h1 hR hg hnrm hv hb f
      exact ⟨a, by rw [abs_of_nonneg b]; exact c⟩) hs
  refine ⟨A, y, E, hA.trans ?_, by rw [← areaOfSurface_eq]; exact hy⟩
  exact mul_le_mul_of_nonneg_left (by linarith) (by positivity)

end

/-- **C141.** Mass and moments of inertia of a shell computed in floating point by `eval_shell_mesh_inertias`, whatever the order in which the
terms are added, from norms of relative error at most `ε`, against the integrals over the faces. The vertices may themselves be off by at most
`ε R`. Nothing is asked of the faces: they may be degenerate, or not plane. -/
theorem C141_inertia (u ε g R : ℝ) (hu0 : 0 ≤ u) (hu : u ≤ ε) (h1 : ε ≤ 1 / 100) (hR : 0 ≤ R) (rnd : ℝ → ℝ) (hr : IsRounding u rnd)
    (hg : g ≤ ε) (nrm : V3 ℝ → ℝ) (hnrm : ∀ v, |nrm v - v.norm| ≤ g * v.norm) (m m' : Mesh ℝ)
    (hfaces : m'.faces = m.faces) (hv : List.Forall₂ (V3.Close (ε * R)) m.vertices m'.vertices)
    (hb : ∀ v ∈ m.vertices, ∀ k, |v.coord k| ≤ R) (rho thickness : ℝ) (r : Mesh.Plain ℝ) (h : m'.ShellFl rnd nrm rho thickness r) :
    let n := m.faces.length
    let σ := rho * thickness
    let shell := m.shellIntegral
    let δ := |σ| * n * R ^ 4 * (720 * ε + 36 * ((1 + u) ^ (n + 3) - 1))
    |r.mass - σ * shell (fun _ => 1)| ≤ |σ| * n * R ^ 2 * (152 * ε + 16 * ((1 + u) ^ (n + 2) - 1)) ∧
    |r.xx - σ * shell (fun p => p.y ^ 2 + p.z ^ 2)| ≤ δ ∧ |r.yy - σ * shell (fun p => p.x ^ 2 + p.z ^ 2)| ≤ δ ∧
    |r.zz - σ * shell (fun p => p.x ^ 2 + p.y ^ 2)| ≤ δ := by
  have h0 : 0 ≤ ε := hu0.trans hu
  obtain ⟨A, s0, s1, s2, s3, s4, s5, s6, s7, s8, hA, -, -, -, -, -, -, h6, h7, h8, rfl⟩ := h
  intro n σ shell δ
  obtain ⟨B, y, E, hB, hy⟩ := area_err hu0 hu h1 hR hr hg hnrm hfaces hv hb hA
  have p2 := poly2' hr hu h0 h1 hR
  have R2 : 0 ≤ R * R := by positivity
  obtain ⟨A6, y6, E6, a6, d6⟩ := rowSum_err hu0 hu h1 hR hr hg hnrm hfaces hv hb R2 (by norm_num) p2.1 h6
  obtain ⟨A7, y7, E7, a7, d7⟩ := rowSum_err hu0 hu h1 hR hr hg hnrm hfaces hv hb R2 (by norm_num) p2.2.1 h7
  obtain ⟨A8, y8, E8, a8, d8⟩ := rowSum_err hu0 hu h1 hR hr hg hnrm hfaces hv hb R2 (by norm_num) p2.2.2 h8
  rw [show m.totalIntegrals 6 = m.shellIntegral (fun p => p.x ^ 2) from shell_row m 6 (by decide) (by decide) (by decide)] at d6
  rw [show m.totalIntegrals 7 = m.shellIntegral (fun p => p.y ^ 2) from shell_row m 7 (by decide) (by decide) (by decide)] at d7
  rw [show m.totalIntegrals 8 = m.shellIntegral (fun p => p.z ^ 2) from shell_row m 8 (by decide) (by decide) (by decide)] at d8
  have r0 := abs_nonneg σ
  have S : Err u 1 |σ| (rnd (rho * thickness)) σ := (Err.exact (u := u) σ).round hu0 hr
  have key : ∀ {A B x y x' y' X Y : ℝ}, Err u n A x x' → Err u n B y y' → A ≤ n * (18 * (R ^ 2 * (R * R))) →
      B ≤ n * (18 * (R ^ 2 * (R * R))) → |x' - X| ≤ n * (360 * (ε * (R ^ 2 * (R * R)))) →
      |y' - Y| ≤ n * (360 * (ε * (R ^ 2 * (R * R)))) → |rnd (rnd (rho * thickness) * rnd (x + y)) - σ * (X + Y)| ≤ δ := by
    intro A B x y x' y' X Y e e' hA hB hx hy
    have M := ((S.mul hu0 ((e.add e').round hu0 hr)).round hu0 hr).mono hu0 (k := n + 3) (by omega)
    have hAB : |σ| * (A + B) ≤ |σ| * (n * (36 * R ^ 4)) := by
      have := mul_le_mul_of_nonneg_left (add_le_add hA hB) r0
      linarith
    have hD : |σ * (x' + y') - σ * (X + Y)| ≤ |σ| * (n * (720 * (ε * R ^ 4))) := by
      rw [show σ * (x' + y') - σ * (X + Y) = σ * ((x' - X) + (y' - Y)) by ring, abs_mul]
      have k := mul_le_mul_of_nonneg_left ((abs_add_le (x' - X) (y' - Y)).trans (add_le_add hx hy)) r0
      linarith
    exact (err_total hu0 M hAB hD).trans (le_of_eq (by simp only [δ]; ring))
  refine ⟨?_, ?_, ?_, ?_⟩
  · have M := ((S.mul hu0 E).round hu0 hr).mono hu0 (k := n + 2) (by omega)
    have hAB : |σ| * B ≤ |σ| * (n * (16 * R ^ 2)) := mul_le_mul_of_nonneg_left hB r0
    have hD : |σ * y - σ * shell (fun _ => 1)| ≤ |σ| * (n * (152 * (ε * R ^ 2))) := by
      rw [← mul_sub, abs_mul]; exact mul_le_mul_of_nonneg_left hy r0
    exact (err_total hu0 M hAB hD).trans (le_of_eq (by ring))
  · have := key E7 E8 a7 a8 d7 d8
    rw [← shell_sq_add m (·.y) (·.z) affine_y affine_z] at this
    exact this
  · have := key E6 E8 a6 a8 d6 d8
    rw [← shell_sq_add m (·.x) (·.z) affine_x affine_z] at this
    exact this
  · have := key E6 E7 a6 a7 d6 d7
    rw [← shell_sq_add m (·.x) (·.y) affine_x affine_y] at this
    exact this

/-- **C141.** The products of inertia of a shell computed in floating point are near those of the exact calculation (which are not the
integrals, see C28). -/
theorem C141_products (u ε g R : ℝ) (hu0 : 0 ≤ u) (hu : u ≤ ε) (h1 : ε ≤ 1 / 100) (hR : 0 ≤ R) (rnd : ℝ → ℝ) (hr : IsRounding u rnd)
    (hg : g ≤ ε) (nrm : V3 ℝ → ℝ) (hnrm : ∀ v, |nrm v - v.norm| ≤ g * v.norm) (m m' : Mesh ℝ)
    (hfaces : m'.faces = m.faces) (hv : List.Forall₂ (V3.Close (ε * R)) m.vertices m'.vertices)
    (hb : ∀ v ∈ m.vertices, ∀ k, |v.coord k| ≤ R) (rho thickness : ℝ) (r : Mesh.Plain ℝ) (h : m'.ShellFl rnd nrm rho thickness r) :
    let n := m.faces.length
    let I := m.evalShell rho thickness
    let δ := |rho * thickness| * n * R ^ 4 * (1080 * ε + 54 * ((1 + u) ^ (n + 2) - 1))
    |r.yz - I.yz| ≤ δ ∧ |r.xz - I.xz| ≤ δ ∧ |r.xy - I.xy| ≤ δ := by
  have h0 : 0 ≤ ε := hu0.trans hu
  obtain ⟨A, s0, s1, s2, s3, s4, s5, s6, s7, s8, -, -, -, -, h3, h4, h5, -, -, -, rfl⟩ := h
  intro n I δ
  have pp := polyProd hr hu h0 h1 hR
  have R2 : 0 ≤ 3 * (R * R) := by positivity
  obtain ⟨A3, y3, E3, a3, d3⟩ := rowSum_err hu0 hu h1 hR hr hg hnrm hfaces hv hb R2 (by norm_num) pp.1 h3
  obtain ⟨A4, y4, E4, a4, d4⟩ := rowSum_err hu0 hu h1 hR hr hg hnrm hfaces hv hb R2 (by norm_num) pp.2.1 h4
  obtain ⟨A5, y5, E5, a5, d5⟩ := rowSum_err hu0 hu h1 hR hr hg hnrm hfaces hv hb R2 (by norm_num) pp.2.2 h5
  have r0 := abs_nonneg (rho * thickness)
  have S : Err u 1 |rho * thickness| (rnd (rho * thickness)) (rho * thickness) := (Err.exact (u := u) (rho * thickness)).round hu0 hr
  have key : ∀ {A x x' X : ℝ}, Err u n A x x' → A ≤ n * (18 * (R ^ 2 * (3 * (R * R)))) →
      |x' - X| ≤ n * (360 * (ε * (R ^ 2 * (3 * (R * R))))) → |rnd (rnd (rho * thickness) * x) - rho * thickness * X| ≤ δ := by
    intro A x x' X e hA hx
    have M := ((S.mul hu0 e).round hu0 hr).mono hu0 (k := n + 2) (by omega)
    have hAB : |rho * thickness| * A ≤ |rho * thickness| * (n * (54 * R ^ 4)) := by
      have := mul_le_mul_of_nonneg_left hA r0
      linarith
    have hD : |rho * thickness * x' - rho * thickness * X| ≤ |rho * thickness| * (n * (1080 * (ε * R ^ 4))) := by
      rw [← mul_sub, abs_mul]
      have k := mul_le_mul_of_nonneg_left hx r0
      linarith
    exact (err_total hu0 M hAB hD).trans (le_of_eq (by simp only [δ]; ring))
  refine ⟨?_, ?_, ?_⟩
  · rw [show I.yz = rho * thickness * m.totalIntegrals 3 from neg_neg _]; exact key E3 a3 d3
  · rw [show I.xz = rho * thickness * m.totalIntegrals 4 from neg_neg _]; exact key E4 a4 d4
  · rw [show I.xy = rho * thickness * m.totalIntegrals 5 from neg_neg _]; exact key E5 a5 d5

/-- **C141.** The centre of gravity of a shell computed in floating point, when the error `d` on the area is less than the area. -/
theorem C141_centre (u ε g R : ℝ) (hu0 : 0 ≤ u) (hu : u ≤ ε) (h1 : ε ≤ 1 / 100) (hR : 0 ≤ R) (rnd : ℝ → ℝ) (hr : IsRounding u rnd)
    (hg : g ≤ ε) (nrm : V3 ℝ → ℝ) (hnrm : ∀ v, |nrm v - v.norm| ≤ g * v.norm) (m m' : Mesh ℝ)
    (hfaces : m'.faces = m.faces) (hv : List.Forall₂ (V3.Close (ε * R)) m.vertices m'.vertices)
    (hb : ∀ v ∈ m.vertices, ∀ k, |v.coord k| ≤ R) (rho thickness : ℝ) (r : Mesh.Plain ℝ) (h : m'.ShellFl rnd nrm rho thickness r) (d : ℝ)
    (hd : d = m.faces.length * R ^ 2 * (152 * ε + 16 * ((1 + u) ^ m.faces.length - 1))) (hA : d < m.shellIntegral (fun _ => 1)) :
    let shell := m.shellIntegral
    let e := m.faces.length * R ^ 3 * (360 * ε + 18 * ((1 + u) ^ m.faces.length - 1))
    let bound := fun x : ℝ => (1 + u) * ((e + |x| * d) / (shell (fun _ => 1) - d)) + u * |x|
    let G : V3 ℝ := ⟨shell (fun p => p.x) / shell (fun _ => 1), shell (fun p => p.y) / shell (fun _ => 1),
      shell (fun p => p.z) / shell (fun _ => 1)⟩
    |r.cog.x - G.x| ≤ bound G.x ∧ |r.cog.y - G.y| ≤ bound G.y ∧ |r.cog.z - G.z| ≤ bound G.z := by
  have h0 : 0 ≤ ε := hu0.trans hu
  obtain ⟨A, s0, s1, s2, s3, s4, s5, s6, s7, s8, hA', h0', h1', h2', -, -, -, -, -, -, rfl⟩ := h
  intro shell e bound G
  obtain ⟨B, y, E, hB, hy⟩ := area_err hu0 hu h1 hR hr hg hnrm hfaces hv hb hA'
  have pp := poly1 hr hu h0 h1 hR
  obtain ⟨A0, y0, E0, a0, d0⟩ := rowSum_err hu0 hu h1 hR hr hg hnrm hfaces hv hb hR (by norm_num) pp.1 h0'
  obtain ⟨A1, y1, E1, a1, d1⟩ := rowSum_err hu0 hu h1 hR hr hg hnrm hfaces hv hb hR (by norm_num) pp.2.1 h1'
  obtain ⟨A2, y2, E2, a2, d2⟩ := rowSum_err hu0 hu h1 hR hr hg hnrm hfaces hv hb hR (by norm_num) pp.2.2 h2'
  rw [show m.totalIntegrals 0 = m.shellIntegral (fun p => p.x) from shell_row m 0 (by decide) (by decide) (by decide)] at d0
  rw [show m.totalIntegrals 1 = m.shellIntegral (fun p => p.y) from shell_row m 1 (by decide) (by decide) (by decide)] at d1
  rw [show m.totalIntegrals 2 = m.shellIntegral (fun p => p.z) from shell_row m 2 (by decide) (by decide) (by decide)] at d2
  have D : |A - shell (fun _ => 1)| ≤ d := (err_total hu0 E hB hy).trans (le_of_eq (by rw [hd]; ring))
  have P := pow_sub_nonneg hu0 m.faces.length
  have dn : 0 ≤ d := by rw [hd]; positivity
  have S : |shell (fun _ => 1)| = shell (fun _ => 1) := abs_of_nonneg (dn.trans hA.le)
  have key : ∀ {A' x y X : ℝ}, Err u m.faces.length A' x y → A' ≤ m.faces.length * (18 * (R ^ 2 * R)) →
      |y - X| ≤ m.faces.length * (360 * (ε * (R ^ 2 * R))) →
      |rnd (x / A) - X / shell (fun _ => 1)| ≤ bound (X / shell (fun _ => 1)) := by
    intro A' x y X e1 hA1 hx
    have := div_near hr hu0 ((err_total hu0 e1 hA1 hx).trans (le_of_eq (by simp only [e]; ring : _ = e))) D (by rw [S]; exact hA)
    rw [S] at this
    exact this
  exact ⟨key E0 a0 d0, key E1 a1 d1, key E2 a2 d2⟩

/-- A square and a triangle with a common side. -/
def shellSample : Mesh ℝ :=
  ⟨[⟨0, 0, 0⟩, ⟨1, 0, 0⟩, ⟨1, 1, 0⟩, ⟨0, 1, 0⟩, ⟨0, 0, 1⟩], [⟨0, 1, 2, 3⟩, ⟨0, 1, 4, 0⟩]⟩

/-- The hypotheses of C141 are met by a square and a triangle, of area 3/2: the centre of gravity is computed within `10⁻¹⁰`. -/
theorem shellSample_meets_C141 :
    (∃ r, shellSample.ShellFl (topRound (1 / 2 ^ 53)) V3.norm 7850 (1 / 50) r) ∧
    ∀ r, shellSample.ShellFl (topRound (1 / 2 ^ 53)) V3.norm 7850 (1 / 50) r →
      |r.mass - 471 / 2| ≤ 1 / 10 ^ 9 ∧ |r.cog.x - 4 / 9| ≤ 1 / 10 ^ 10 ∧ |r.cog.y - 1 / 3| ≤ 1 / 10 ^ 10 ∧
      |r.cog.z - 1 / 9| ≤ 1 / 10 ^ 10 := by
  constructor
  · have h : ∀ fl q, ∃ s, shellSample.RowSumFl (topRound (1 / 2 ^ 53)) V3.norm fl q s := fun fl q => SumFl.exists _ _
    obtain ⟨A, hA⟩ := SumFl.exists (topRound (1 / 2 ^ 53)) (shellSample.faces.map (shellSample.faceAreaFl (topRound (1 / 2 ^ 53)) V3.norm))
    exact ⟨_, A, _, _, _, _, _, _, _, _, _, hA, (h _ _).choose_spec, (h _ _).choose_spec, (h _ _).choose_spec, (h _ _).choose_spec,
      (h _ _).choose_spec, (h _ _).choose_spec, (h _ _).choose_spec, (h _ _).choose_spec, (h _ _).choose_spec, rfl⟩
  · intro r h
    have hu : (0 : ℝ) ≤ 1 / 2 ^ 53 := by norm_num
    have hr := topRound_isRounding hu
    have hb : ∀ v ∈ shellSample.vertices, ∀ k, |v.coord k| ≤ 1 := by
      intro v hv k
      simp only [shellSample, List.mem_cons, List.not_mem_nil, or_false] at hv
      rcases hv with rfl | rfl | rfl | rfl | rfl <;> fin_cases k <;> simp [V3.coord]
    have hv : List.Forall₂ (V3.Close (1 / 2 ^ 53 * 1)) shellSample.vertices shellSample.vertices :=
      List.forall₂_same.2 (fun v _ => by simp [V3.Close])
    have a0 : shellSample.shellIntegral (fun _ => 1) = 3 / 2 := by
      rw [← areaOfSurface_eq]
      simp [shellSample, Mesh.areaOfSurface, Mesh.areaOfFace, Mesh.vert, areaVec, V3.cross, V3.norm, V3.normSq, V3.dot]
      norm_num
    have tot : ∀ i, shellSample.totalIntegrals i = triIntegrals ⟨0, 0, 0⟩ ⟨1, 0, 0⟩ ⟨1, 1, 0⟩ i + triIntegrals ⟨0, 0, 0⟩ ⟨1, 1, 0⟩ ⟨0, 1, 0⟩ i +
        triIntegrals ⟨0, 0, 0⟩ ⟨1, 0, 0⟩ ⟨0, 0, 1⟩ i := by
      intro i
      rw [totalIntegrals_row]
      simp [shellSample, Mesh.faceIntegrals, Face.isTri, Mesh.quadIntegralsOf, Mesh.triIntegralsOf, Mesh.vert]
    have ax : shellSample.shellIntegral (fun p => p.x) = 2 / 3 := by
      rw [← show shellSample.totalIntegrals 0 = shellSample.shellIntegral (fun p => p.x) from shell_row _ 0 (by decide) (by decide) (by decide), tot]
      simp [triIntegrals, triDelta, pf1, V3.cross, V3.norm, V3.normSq, V3.dot]
      norm_num
    have ay : shellSample.shellIntegral (fun p => p.y) = 1 / 2 := by
      rw [← show shellSample.totalIntegrals 1 = shellSample.shellIntegral (fun p => p.y) from shell_row _ 1 (by decide) (by decide) (by decide), tot]
      simp [triIntegrals, triDelta, pf1, V3.cross, V3.norm, V3.normSq, V3.dot]
      norm_num
    have az : shellSample.shellIntegral (fun p => p.z) = 1 / 6 := by
      rw [← show shellSample.totalIntegrals 2 = shellSample.shellIntegral (fun p => p.z) from shell_row _ 2 (by decide) (by decide) (by decide), tot]
      simp [triIntegrals, triDelta, pf1, V3.cross, V3.norm, V3.normSq, V3.dot]
    have I := (C141_inertia (1 / 2 ^ 53) (1 / 2 ^ 53) 0 1 hu le_rfl (by norm_num) zero_le_one _ hr (by norm_num) V3.norm (by simp)
      shellSample shellSample rfl hv hb 7850 (1 / 50) r h).1
    have C := C141_centre (1 / 2 ^ 53) (1 / 2 ^ 53) 0 1 hu le_rfl (by norm_num) zero_le_one _ hr (by norm_num) V3.norm (by simp)
      shellSample shellSample rfl hv hb 7850 (1 / 50) r h _ rfl (by rw [a0]; simp only [shellSample, List.length_cons, List.length_nil]; norm_num)
    dsimp only at I C
    rw [a0] at I
    rw [a0, ax, ay, az] at C
    simp only [shellSample, List.length_cons, List.length_nil] at I C
    refine ⟨?_, ?_, ?_, ?_⟩
    · rw [show (471 / 2 : ℝ) = 7850 * (1 / 50) * (3 / 2) by norm_num]
      exact I.trans (by norm_num [abs_of_pos])
    · rw [show (4 / 9 : ℝ) = 2 / 3 / (3 / 2) by norm_num]
      exact C.1.trans (by norm_num [abs_of_pos])
    · rw [show (1 / 3 : ℝ) = 1 / 2 / (3 / 2) by norm_num]
      exact C.2.1.trans (by norm_num [abs_of_pos])
    · rw [show (1 / 9 : ℝ) = 1 / 6 / (3 / 2) by norm_num]
      exact C.2.2.trans (by norm_num [abs_of_pos])

end MM
