import Verif.Proofs.InertiaQuadFl
import Verif.Props.AreaFl
import Verif.Props.Inertia
import Verif.Props.EquilibrateOld

/-!
# Mass, centre of gravity and inertia of a mesh of triangles and quadrangles in floating point (C136)
-/

namespace MM

open QuadFl Clipper

variable {rnd : ℝ → ℝ} {u ε R : ℝ}

section
variable (hr : IsRounding u rnd) (hu : u ≤ ε) (h0 : 0 ≤ ε) (h1 : ε ≤ 1 / 100) (hR : 0 ≤ R)
include hr hu h0 h1 hR

omit hr hu h0 h1 hR in
lemma close_ap {a b : V3 ℝ} (h : V3.Close (ε * R) a b) (hb : ∀ k, |a.coord k| ≤ R) :
    Ap ε 1 1 R b.x a.x ∧ Ap ε 1 1 R b.y a.y ∧ Ap ε 1 1 R b.z a.z := by
  refine ⟨⟨?_, ?_⟩, ⟨?_, ?_⟩, ⟨?_, ?_⟩⟩
  · rw [one_mul, abs_sub_comm]; exact h.1
  · rw [one_mul]; exact hb 0
  · rw [one_mul, abs_sub_comm]; exact h.2.1
  · rw [one_mul]; exact hb 1
  · rw [one_mul, abs_sub_comm]; exact h.2.2
  · rw [one_mul]; exact hb 2

lemma poly2 : PolyNear ε R (6 * 12) (12 / 2) (R * R) (fun p q r => f2Fl rnd p.x q.x r.x) (fun p q r => h2 p.x q.x r.x) ∧
    PolyNear ε R (6 * 12) (12 / 2) (R * R) (fun p q r => f2Fl rnd p.y q.y r.y) (fun p q r => h2 p.y q.y r.y) ∧
    PolyNear ε R (6 * 12) (12 / 2) (R * R) (fun p q r => f2Fl rnd p.z q.z r.z) (fun p q r => h2 p.z q.z r.z) := by
  refine ⟨?_, ?_, ?_⟩ <;> intro p q r p' q' r' bp bq br cp cq cr <;> have kp := close_ap cp bp <;> have kq := close_ap cq bq <;>
    have kr := close_ap cr br
  · exact (ap_f2 hr hu h0 h1 hR kp.1 kq.1 kr.1).mono h0 (by positivity) (by norm_num) (by norm_num)
  · exact (ap_f2 hr hu h0 h1 hR kp.2.1 kq.2.1 kr.2.1).mono h0 (by positivity) (by norm_num) (by norm_num)
  · exact (ap_f2 hr hu h0 h1 hR kp.2.2 kq.2.2 kr.2.2).mono h0 (by positivity) (by norm_num) (by norm_num)

lemma poly3 : PolyNear ε R (6 * 20) (20 / 2) (R * (R * R)) (fun p q r => f3Fl rnd p.x q.x r.x) (fun p q r => h3 p.x q.x r.x) ∧
    PolyNear ε R (6 * 20) (20 / 2) (R * (R * R)) (fun p q r => f3Fl rnd p.y q.y r.y) (fun p q r => h3 p.y q.y r.y) ∧
    PolyNear ε R (6 * 20) (20 / 2) (R * (R * R)) (fun p q r => f3Fl rnd p.z q.z r.z) (fun p q r => h3 p.z q.z r.z) := by
  refine ⟨?_, ?_, ?_⟩ <;> intro p q r p' q' r' bp bq br cp cq cr <;> have kp := close_ap cp bp <;> have kq := close_ap cq bq <;>
    have kr := close_ap cr br
  · exact (ap_f3 hr hu h0 h1 hR kp.1 kq.1 kr.1).mono h0 (by positivity) (by norm_num) (by norm_num)
  · exact (ap_f3 hr hu h0 h1 hR kp.2.1 kq.2.1 kr.2.1).mono h0 (by positivity) (by norm_num) (by norm_num)
  · exact (ap_f3 hr hu h0 h1 hR kp.2.2 kq.2.2 kr.2.2).mono h0 (by positivity) (by norm_num) (by norm_num)

lemma polyMix :
    PolyNear ε R (6 * 60) (60 / 2) (R * (R * R)) (fun p q r => mixFl rnd p.y q.y r.y p.x q.x r.x)
      (fun p q r => hmix p.y q.y r.y p.x q.x r.x) ∧
    PolyNear ε R (6 * 60) (60 / 2) (R * (R * R)) (fun p q r => mixFl rnd p.z q.z r.z p.y q.y r.y)
      (fun p q r => hmix p.z q.z r.z p.y q.y r.y) ∧
    PolyNear ε R (6 * 60) (60 / 2) (R * (R * R)) (fun p q r => mixFl rnd p.x q.x r.x p.z q.z r.z)
      (fun p q r => hmix p.x q.x r.x p.z q.z r.z) := by
  refine ⟨?_, ?_, ?_⟩ <;> intro p q r p' q' r' bp bq br cp cq cr <;> have kp := close_ap cp bp <;> have kq := close_ap cq bq <;>
    have kr := close_ap cr br
  · exact (ap_mix hr hu h0 h1 hR kp.2.1 kq.2.1 kr.2.1 kp.1 kq.1 kr.1).mono h0 (by positivity) (by norm_num) (by norm_num)
  · exact (ap_mix hr hu h0 h1 hR kp.2.2 kq.2.2 kr.2.2 kp.2.1 kq.2.1 kr.2.1).mono h0 (by positivity) (by norm_num) (by norm_num)
  · exact (ap_mix hr hu h0 h1 hR kp.1 kq.1 kr.1 kp.2.2 kq.2.2 kr.2.2).mono h0 (by positivity) (by norm_num) (by norm_num)

variable {g : ℝ} (hg : g ≤ ε) {nrm : V3 ℝ → ℝ} (hnrm : ∀ v, |nrm v - v.norm| ≤ g * v.norm) {m m' : Mesh ℝ} (hflat : m.FlatFaces)
    (hv : List.Forall₂ (V3.Close (ε * R)) m.vertices m'.vertices) (hb : ∀ v ∈ m.vertices, ∀ k, |v.coord k| ≤ R)
include hg hnrm hflat hv hb

lemma faceP_near {P d : ℝ} (hP : 0 ≤ P) (hd : 0 < d) {fx fy fz hx hy hz : V3 ℝ → V3 ℝ → V3 ℝ → ℝ}
    (hfx : PolyNear ε R (6 * d) (d / 2) P fx hx) (hfy : PolyNear ε R (6 * d) (d / 2) P fy hy)
    (hfz : PolyNear ε R (6 * d) (d / 2) P fz hz) {f : Face} (hf : f ∈ m.faces) (hn : nrm (m'.faceCrossFl rnd f) ≠ 0) :
    NearT ε (R ^ 2 * P)
      (if f.a = f.d then termsFl rnd nrm (triCrossFl rnd (m'.vert f.a) (m'.vert f.b) (m'.vert f.c))
          (fx (m'.vert f.a) (m'.vert f.b) (m'.vert f.c)) (fy (m'.vert f.a) (m'.vert f.b) (m'.vert f.c))
          (fz (m'.vert f.a) (m'.vert f.b) (m'.vert f.c)) d
        else quadTermsFl rnd nrm (m'.vert f.a) (m'.vert f.b) (m'.vert f.c) (m'.vert f.d) fx fy fz d)
      ⟨m.faceSum (fun p q r => (areaVec p q r).x * hx p q r / d) f, m.faceSum (fun p q r => (areaVec p q r).y * hy p q r / d) f,
        m.faceSum (fun p q r => (areaVec p q r).z * hz p q r / d) f⟩ := by
  have n := Clipper.vert_near hR (by positivity) hv hb
  have hF := hflat f hf
  unfold Mesh.faceSum
  unfold Mesh.faceCrossFl at hn
  split_ifs at hF hn ⊢
  · exact triP_near hr hu h0 h1 hR hg hnrm hP hd hfx hfy hfz (n f.a).1 (n f.b).1 (n f.c).1 (n f.a).2 (n f.b).2 (n f.c).2 hF hn
  · exact quadP_near hr hu h0 h1 hR hg hnrm hP hd hfx hfy hfz (n f.a).1 (n f.b).1 (n f.c).1 (n f.d).1 (n f.a).2 (n f.b).2 (n f.c).2
      (n f.d).2 hF hn

end

/-- A sum, in any order, of terms near their exact values. -/
lemma sumT (hu0 : 0 ≤ u) (hr : IsRounding u rnd) (h1 : ε ≤ 1 / 100) {T : ℝ} (hT : 0 ≤ T) {l : List Face}
    {t e : Face → ℝ} (h : ∀ f ∈ l, |t f - e f| ≤ 500 * (ε * T) ∧ |e f| ≤ 7 * T) {s : ℝ} (hs : SumFl rnd (l.map t) s) :
    ∃ A y, Err u l.length A s y ∧ A ≤ l.length * (12 * T) ∧ |y - (l.map e).sum| ≤ l.length * (500 * (ε * T)) := by
  have s1 : ε * T ≤ 1 / 100 * T := mul_le_mul_of_nonneg_right h1 hT
  have sums : |(l.map t).sum - (l.map e).sum| ≤ l.length * (500 * (ε * T)) ∧ ((l.map t).map (fun x => |x|)).sum ≤ l.length * (12 * T) := by
    clear hs
    induction l with
    | nil => simp
    | cons f l ih =>
      obtain ⟨i1, i2⟩ := ih (fun f hf => h f (by simp [hf]))
      obtain ⟨a, b⟩ := h f (by simp)
      have k : |t f| ≤ 12 * T := by
        have := abs_add_le (t f - e f) (e f)
        rw [sub_add_cancel] at this
        linarith
      simp only [List.map_cons, List.sum_cons, List.length_cons, Nat.cast_add, Nat.cast_one]
      refine ⟨?_, by linarith⟩
      rw [abs_le] at a i1 ⊢
      constructor <;> linarith [a.1, a.2, i1.1, i1.2]
  have E := Err.sum (u := u) (n := 0) hu0 hr hs ((l.map t).map (fun x => (|x|, x))) (by
    rw [List.forall₂_map_left_iff]
    exact List.forall₂_same.2 (fun x _ => Err.exact x))
  have E' := E.mono hu0 (k := l.length) (by simp)
  have e1 : ∀ L : List ℝ, (L.map (fun x => (|x|, x))).map Prod.fst = L.map (fun x => |x|) := by intro L; rw [List.map_map]; rfl
  have e2 : ∀ L : List ℝ, (L.map (fun x => (|x|, x))).map Prod.snd = L := by intro L; rw [List.map_map]; exact List.map_id L
  rw [e1, e2] at E'
  exact ⟨_, _, E', sums.2, sums.1⟩

/-- The error of a quantity computed from sums near their exact values. -/
lemma err_total {k : ℕ} {A B x y z D : ℝ} (hu0 : 0 ≤ u) (h : Err u k A x y) (hA : A ≤ B) (hy : |y - z| ≤ D) :
    |x - z| ≤ D + ((1 + u) ^ k - 1) * B := by
  have P := mul_le_mul_of_nonneg_left hA (pow_sub_nonneg hu0 k)
  have := abs_sub_le x y z
  linarith [h.2]

lemma triPoly_h (p q r : V3 ℝ) :
    (triPoly p q r 6 = h2 p.x q.x r.x / 12 ∧ triPoly p q r 7 = h2 p.y q.y r.y / 12 ∧ triPoly p q r 8 = h2 p.z q.z r.z / 12) ∧
    (triPoly p q r 9 = h3 p.x q.x r.x / 20 ∧ triPoly p q r 10 = h3 p.y q.y r.y / 20 ∧ triPoly p q r 11 = h3 p.z q.z r.z / 20) ∧
    (triPoly p q r 12 = hmix p.y q.y r.y p.x q.x r.x / 60 ∧ triPoly p q r 13 = hmix p.z q.z r.z p.y q.y r.y / 60 ∧
      triPoly p q r 14 = hmix p.x q.x r.x p.z q.z r.z / 60) := by
  have f2 : ∀ a b c : ℝ, pf2 a b c = h2 a b c := by intro a b c; unfold pf2 pt2 pf1 h2; ring
  have f3 : ∀ a b c : ℝ, pf3 a b c = h3 a b c := by intro a b c; unfold pf3 pf2 pt2 pf1 h3; ring
  have fm : ∀ y0 y1 y2 a b c : ℝ, y0 * pg0 a b c + y1 * pg1 a b c + y2 * pg2 a b c = hmix y0 y1 y2 a b c := by
    intro y0 y1 y2 a b c; unfold pg0 pg1 pg2 pf2 pt2 pf1 hmix h2 h1; ring
  simp only [← f2, ← f3, ← fm]
  exact ⟨⟨rfl, rfl, rfl⟩, ⟨rfl, rfl, rfl⟩, rfl, rfl, rfl⟩

/-- The sums of `eval_plain_mesh_inertias`, with their errors. -/
lemma plain_sums (hu0 : 0 ≤ u) (hu : u ≤ ε) (h1 : ε ≤ 1 / 100) (hR : 0 ≤ R) (hr : IsRounding u rnd) {g : ℝ} (hg : g ≤ ε)
    {nrm : V3 ℝ → ℝ} (hnrm : ∀ v, |nrm v - v.norm| ≤ g * v.norm) {m m' : Mesh ℝ} (hflat : m.FlatFaces)
    (hfaces : m'.faces = m.faces) (hv : List.Forall₂ (V3.Close (ε * R)) m.vertices m'.vertices)
    (hb : ∀ v ∈ m.vertices, ∀ k, |v.coord k| ≤ R) (hn : ∀ f ∈ m'.faces, nrm (m'.faceCrossFl rnd f) ≠ 0) {P d : ℝ} (hP : 0 ≤ P)
    (hd : 0 < d) {fx fy fz hx hy hz : V3 ℝ → V3 ℝ → V3 ℝ → ℝ}
    (hfx : PolyNear ε R (6 * d) (d / 2) P fx hx) (hfy : PolyNear ε R (6 * d) (d / 2) P fy hy)
    (hfz : PolyNear ε R (6 * d) (d / 2) P fz hz) {i j k : Fin 15} (hi : ∀ p q r, triPoly p q r i = hx p q r / d)
    (hj : ∀ p q r, triPoly p q r j = hy p q r / d) (hk : ∀ p q r, triPoly p q r k = hz p q r / d) {F : Face → V3 ℝ}
    (hF : ∀ f, F f = if f.a = f.d then termsFl rnd nrm (triCrossFl rnd (m'.vert f.a) (m'.vert f.b) (m'.vert f.c))
          (fx (m'.vert f.a) (m'.vert f.b) (m'.vert f.c)) (fy (m'.vert f.a) (m'.vert f.b) (m'.vert f.c))
          (fz (m'.vert f.a) (m'.vert f.b) (m'.vert f.c)) d
        else quadTermsFl rnd nrm (m'.vert f.a) (m'.vert f.b) (m'.vert f.c) (m'.vert f.d) fx fy fz d) {s : V3 ℝ}
    (hs : Mesh.SumsFl rnd (m'.faces.map F) s) :
    let w := Mesh.normalWeighted m.facesProperties m.surfaceIntegrals i j k
    let near := fun x z : ℝ => ∃ A y, Err u m.faces.length A x y ∧ A ≤ m.faces.length * (12 * (R ^ 2 * P)) ∧
      |y - z| ≤ m.faces.length * (500 * (ε * (R ^ 2 * P)))
    near s.x w.x ∧ near s.y w.y ∧ near s.z w.z := by
  have h0 : 0 ≤ ε := hu0.trans hu
  have T0 : 0 ≤ R ^ 2 * P := by positivity
  rw [hfaces] at hs hn
  have H := fun f hf => faceP_near hr hu h0 h1 hR hg hnrm hflat hv hb hP hd hfx hfy hfz (f := f) hf (hn f hf)
  simp only [← hF] at H
  have ex : (fun p q r => (areaVec p q r).x * triPoly p q r i) = fun p q r => (areaVec p q r).x * hx p q r / d := by
    funext p q r; rw [hi, mul_div_assoc]
  have ey : (fun p q r => (areaVec p q r).y * triPoly p q r j) = fun p q r => (areaVec p q r).y * hy p q r / d := by
    funext p q r; rw [hj, mul_div_assoc]
  have ez : (fun p q r => (areaVec p q r).z * triPoly p q r k) = fun p q r => (areaVec p q r).z * hz p q r / d := by
    funext p q r; rw [hk, mul_div_assoc]
  rw [normalWeighted_flux m hflat, ex, ey, ez]
  obtain ⟨s1, s2, s3⟩ := hs
  rw [List.map_map] at s1 s2 s3
  exact ⟨sumT hu0 hr h1 T0 (fun f hf => (H f hf).1) s1, sumT hu0 hr h1 T0 (fun f hf => (H f hf).2.1) s2,
    sumT hu0 hr h1 T0 (fun f hf => (H f hf).2.2) s3⟩

/-- The volume, with its error. -/
lemma volume_err (hu0 : 0 ≤ u) (hu : u ≤ ε) (h1 : ε ≤ 1 / 100) (hR : 0 ≤ R) (hr : IsRounding u rnd) {g : ℝ} (hg : g ≤ ε)
    {nrm : V3 ℝ → ℝ} (hnrm : ∀ v, |nrm v - v.norm| ≤ g * v.norm) {m m' : Mesh ℝ} (hflat : m.FlatFaces)
    (hfaces : m'.faces = m.faces) (hv : List.Forall₂ (V3.Close (ε * R)) m.vertices m'.vertices)
    (hb : ∀ v ∈ m.vertices, ∀ k, |v.coord k| ≤ R) (hn : ∀ f ∈ m'.faces, nrm (m'.faceCrossFl rnd f) ≠ 0) {V : ℝ}
    (hV : m'.VolumeAllFl rnd nrm V) :
    ∃ A y, Err u (3 * m.faces.length + 1) A V y ∧ A ≤ m.faces.length * (11 * R ^ 3) ∧
      |y - m.volume| ≤ m.faces.length * (357 * (ε * R ^ 3)) := by
  have h0 : 0 ≤ ε := hu0.trans hu
  obtain ⟨s, hs, rfl⟩ := hV
  rw [hfaces] at hs hn
  obtain ⟨e1, e2, e3⟩ := sum_terms (rnd := rnd) (m := m) (m' := m') (nrm := nrm) h0 h1 hR m.faces
    (fun f hf => face_near hr hu h0 h1 hR hg hnrm hflat hv hb hf (hn f hf))
  set l := (m.faces.map (m'.face0Fl rnd nrm)).flatMap (fun t => [t.x, t.y, t.z]) with hl
  have E := Err.sum (u := u) (n := 0) hu0 hr hs (l.map (fun x => (|x|, x))) (by
    rw [List.forall₂_map_left_iff]
    exact List.forall₂_same.2 (fun x _ => Err.exact x))
  have E' := ((E.div (q := 3) (by norm_num)).round hu0 hr).mono hu0 (k := 3 * m.faces.length + 1) (by
    rw [List.length_map, e3]; omega)
  rw [List.map_map, List.map_map] at E'
  refine ⟨_, _, E', ?_, ?_⟩
  · have : (Prod.fst ∘ fun x : ℝ => (|x|, x)) = fun x => |x| := rfl
    rw [this]
    linarith
  · have : (Prod.snd ∘ fun x : ℝ => (|x|, x)) = id := rfl
    rw [this, List.map_id, volume_eq_signedVolume m hflat]
    exact e1

/-- **C136.** Mass and moments of inertia computed in floating point for a mesh of triangles and of plane quadrangles, whatever the order in
which the terms are added, from norms of relative error at most `ε`. The vertices may themselves be off by at most `ε R`. -/
theorem C136_inertia (u ε g R : ℝ) (hu0 : 0 ≤ u) (hu : u ≤ ε) (h1 : ε ≤ 1 / 100) (hR : 0 ≤ R) (rnd : ℝ → ℝ) (hr : IsRounding u rnd)
    (hg : g ≤ ε) (nrm : V3 ℝ → ℝ) (hnrm : ∀ v, |nrm v - v.norm| ≤ g * v.norm) (m m' : Mesh ℝ) (hflat : m.FlatFaces)
    (hfaces : m'.faces = m.faces) (hv : List.Forall₂ (V3.Close (ε * R)) m.vertices m'.vertices)
    (hb : ∀ v ∈ m.vertices, ∀ k, |v.coord k| ≤ R) (hn : ∀ f ∈ m'.faces, nrm (m'.faceCrossFl rnd f) ≠ 0) (rho : ℝ) (r : Mesh.Plain ℝ)
    (h : m'.PlainAllFl rnd nrm rho r) :
    let n := m.faces.length
    let I := m.evalPlain rho
    let δ := |rho| * n * R ^ 5 * (334 * ε + 8 * ((1 + u) ^ (n + 3) - 1))
    let δ' := |rho| * n * R ^ 5 * (250 * ε + 6 * ((1 + u) ^ (n + 2) - 1))
    |r.mass - I.mass| ≤ |rho| * n * R ^ 3 * (357 * ε + 11 * ((1 + u) ^ (3 * n + 2) - 1)) ∧
    (|r.xx - I.xx| ≤ δ ∧ |r.yy - I.yy| ≤ δ ∧ |r.zz - I.zz| ≤ δ) ∧
    (|r.yz - I.yz| ≤ δ' ∧ |r.xz - I.xz| ≤ δ' ∧ |r.xy - I.xy| ≤ δ') := by
  have h0 : 0 ≤ ε := hu0.trans hu
  obtain ⟨V, s6, s9, s12, hV, -, h9, h12, rfl⟩ := h
  intro n I δ δ'
  obtain ⟨A, y, E, hA, hy⟩ := volume_err hu0 hu h1 hR hr hg hnrm hflat hfaces hv hb hn hV
  have p3 := poly3 hr hu h0 h1 hR
  have pm := polyMix hr hu h0 h1 hR
  obtain ⟨⟨A1, y1, E1, a1, d1⟩, ⟨A2, y2, E2, a2, d2⟩, ⟨A3, y3, E3, a3, d3⟩⟩ := plain_sums hu0 hu h1 hR hr hg hnrm hflat hfaces hv hb hn
    (by positivity) (by norm_num) p3.1 p3.2.1 p3.2.2 (fun p q r => (triPoly_h p q r).2.1.1) (fun p q r => (triPoly_h p q r).2.1.2.1)
    (fun p q r => (triPoly_h p q r).2.1.2.2) (fun f => rfl) h9
  obtain ⟨⟨B1, z1, F1, b1, c1⟩, ⟨B2, z2, F2, b2, c2⟩, ⟨B3, z3, F3, b3, c3⟩⟩ := plain_sums hu0 hu h1 hR hr hg hnrm hflat hfaces hv hb hn
    (by positivity) (by norm_num) pm.1 pm.2.1 pm.2.2 (fun p q r => (triPoly_h p q r).2.2.1) (fun p q r => (triPoly_h p q r).2.2.2.1)
    (fun p q r => (triPoly_h p q r).2.2.2.2) (fun f => rfl) h12
  have r0 := abs_nonneg rho
  have key3 : ∀ {A B x y x' y' X Y : ℝ}, Err u n A x x' → Err u n B y y' → A ≤ n * (12 * (R ^ 2 * (R * (R * R)))) →
      B ≤ n * (12 * (R ^ 2 * (R * (R * R)))) → |x' - X| ≤ n * (500 * (ε * (R ^ 2 * (R * (R * R))))) →
      |y' - Y| ≤ n * (500 * (ε * (R ^ 2 * (R * (R * R))))) → |rnd (rnd (rho * rnd (x + y)) / 3) - rho * (X + Y) / 3| ≤ δ := by
    intro A B x y x' y' X Y e e' hA hB hx hy
    have hAB : |rho| * (A + B) / 3 ≤ |rho| * (n * (8 * R ^ 5)) := by
      have := mul_le_mul_of_nonneg_left (add_le_add hA hB) r0
      linarith
    have hD : |rho * (x' + y') / 3 - rho * (X + Y) / 3| ≤ |rho| * (n * (334 * (ε * R ^ 5))) := by
      rw [show rho * (x' + y') / 3 - rho * (X + Y) / 3 = rho * ((x' - X) + (y' - Y)) / 3 by ring, abs_div, abs_mul,
        abs_of_pos (by norm_num : (0 : ℝ) < 3)]
      have k := mul_le_mul_of_nonneg_left ((abs_add_le (x' - X) (y' - Y)).trans (add_le_add hx hy)) r0
      have : 0 ≤ |rho| * (n * (ε * R ^ 5)) := by positivity
      linarith
    exact (err_total hu0 (err_plain3 hu0 hr rho e e') hAB hD).trans (le_of_eq (by simp only [δ]; ring))
  have key2 : ∀ {A x x' X : ℝ}, Err u n A x x' → A ≤ n * (12 * (R ^ 2 * (R * (R * R)))) →
      |x' - X| ≤ n * (500 * (ε * (R ^ 2 * (R * (R * R))))) → |rnd (rnd (rho * x) / 2) - rho * X / 2| ≤ δ' := by
    intro A x x' X e hA hx
    have hAB : |rho| * A / 2 ≤ |rho| * (n * (6 * R ^ 5)) := by
      have := mul_le_mul_of_nonneg_left hA r0
      linarith
    have hD : |rho * x' / 2 - rho * X / 2| ≤ |rho| * (n * (250 * (ε * R ^ 5))) := by
      rw [show rho * x' / 2 - rho * X / 2 = rho * (x' - X) / 2 by ring, abs_div, abs_mul, abs_of_pos (by norm_num : (0 : ℝ) < 2)]
      have k := mul_le_mul_of_nonneg_left hx r0
      linarith
    exact (err_total hu0 (err_plain2 hu0 hr rho e) hAB hD).trans (le_of_eq (by simp only [δ']; ring))
  refine ⟨?_, ⟨key3 E2 E3 a2 a3 d2 d3, key3 E1 E3 a1 a3 d1 d3, key3 E1 E2 a1 a2 d1 d2⟩, ?_, ?_, ?_⟩
  · have M := ((Err.exact (u := u) rho).mul hu0 E).round hu0 hr
    have M' := M.mono hu0 (k := 3 * m.faces.length + 2) (by omega)
    have hAB : |rho| * A ≤ |rho| * (n * (11 * R ^ 3)) := mul_le_mul_of_nonneg_left hA r0
    have hD : |rho * y - rho * m.volume| ≤ |rho| * (n * (357 * (ε * R ^ 3))) := by
      rw [← mul_sub, abs_mul]; exact mul_le_mul_of_nonneg_left hy r0
    exact (err_total hu0 M' hAB hD).trans (le_of_eq (by ring))
  · have := key2 F2 b2 c2
    rw [show I.yz = rho * _ / 2 from neg_neg _]; exact this
  · have := key2 F3 b3 c3
    rw [show I.xz = rho * _ / 2 from neg_neg _]; exact this
  · have := key2 F1 b1 c1
    rw [show I.xy = rho * _ / 2 from neg_neg _]; exact this

/-- **C136.** The centre of gravity computed in floating point, when the error on the volume is less than the volume: `e` is the error
of a moment, `d` that of twice the volume. -/
theorem C136_centre (u ε g R : ℝ) (hu0 : 0 ≤ u) (hu : u ≤ ε) (h1 : ε ≤ 1 / 100) (hR : 0 ≤ R) (rnd : ℝ → ℝ) (hr : IsRounding u rnd)
    (hg : g ≤ ε) (nrm : V3 ℝ → ℝ) (hnrm : ∀ v, |nrm v - v.norm| ≤ g * v.norm) (m m' : Mesh ℝ) (hflat : m.FlatFaces)
    (hfaces : m'.faces = m.faces) (hv : List.Forall₂ (V3.Close (ε * R)) m.vertices m'.vertices)
    (hb : ∀ v ∈ m.vertices, ∀ k, |v.coord k| ≤ R) (hn : ∀ f ∈ m'.faces, nrm (m'.faceCrossFl rnd f) ≠ 0) (rho : ℝ) (r : Mesh.Plain ℝ)
    (h : m'.PlainAllFl rnd nrm rho r) (d : ℝ)
    (hd : d = 2 * (m.faces.length * R ^ 3 * (357 * ε + 11 * ((1 + u) ^ (3 * m.faces.length + 2) - 1)))) (hV : d < |2 * m.volume|) :
    let e := m.faces.length * R ^ 4 * (500 * ε + 12 * ((1 + u) ^ m.faces.length - 1))
    let bound := fun x : ℝ => (1 + u) * ((e + |x| * d) / (|2 * m.volume| - d)) + u * |x|
    let G := (m.evalPlain rho).cog
    |r.cog.x - G.x| ≤ bound G.x ∧ |r.cog.y - G.y| ≤ bound G.y ∧ |r.cog.z - G.z| ≤ bound G.z := by
  have h0 : 0 ≤ ε := hu0.trans hu
  obtain ⟨V, s6, s9, s12, hV', h6, -, -, rfl⟩ := h
  intro e bound G
  obtain ⟨A, y, E, hA, hy⟩ := volume_err hu0 hu h1 hR hr hg hnrm hflat hfaces hv hb hn hV'
  have p2 := poly2 hr hu h0 h1 hR
  obtain ⟨⟨A1, y1, E1, a1, d1⟩, ⟨A2, y2, E2, a2, d2⟩, ⟨A3, y3, E3, a3, d3⟩⟩ := plain_sums hu0 hu h1 hR hr hg hnrm hflat hfaces hv hb hn
    (by positivity) (by norm_num) p2.1 p2.2.1 p2.2.2 (fun p q r => (triPoly_h p q r).1.1) (fun p q r => (triPoly_h p q r).1.2.1)
    (fun p q r => (triPoly_h p q r).1.2.2) (fun f => rfl) h6
  have D : |rnd (2 * V) - 2 * m.volume| ≤ d := by
    have M := (((Err.exact (u := u) 2).mul hu0 E).round hu0 hr).mono hu0 (k := 3 * m.faces.length + 2) (by omega)
    have hAB : |(2 : ℝ)| * A ≤ 2 * (m.faces.length * (11 * R ^ 3)) := by
      rw [abs_of_pos (by norm_num : (0 : ℝ) < 2)]; linarith
    have hD : |2 * y - 2 * m.volume| ≤ 2 * (m.faces.length * (357 * (ε * R ^ 3))) := by
      rw [← mul_sub, abs_mul, abs_of_pos (by norm_num : (0 : ℝ) < 2)]; linarith
    exact (err_total hu0 M hAB hD).trans (le_of_eq (by rw [hd]; ring))
  have key : ∀ {A x y X : ℝ}, Err u m.faces.length A x y → A ≤ m.faces.length * (12 * (R ^ 2 * (R * R))) →
      |y - X| ≤ m.faces.length * (500 * (ε * (R ^ 2 * (R * R)))) →
      |rnd (x / rnd (2 * V)) - 1 / (2 * m.volume) * X| ≤ bound (1 / (2 * m.volume) * X) := by
    intro A x y X e1 hA hx
    rw [show 1 / (2 * m.volume) * X = X / (2 * m.volume) by ring]
    exact div_near hr hu0 ((err_total hu0 e1 hA hx).trans (le_of_eq (by simp only [e]; ring))) D hV
  exact ⟨key E1 a1 d1, key E2 a2 d2, key E3 a3 d3⟩

/-- **C136.** The same for a closed mesh, against the integrals over the body it bounds: mass, matrix of inertia at the origin and
centre of gravity. -/
theorem C136_body (u ε g R : ℝ) (hu0 : 0 ≤ u) (hu : u ≤ ε) (h1 : ε ≤ 1 / 100) (hR : 0 ≤ R) (rnd : ℝ → ℝ) (hr : IsRounding u rnd)
    (hg : g ≤ ε) (nrm : V3 ℝ → ℝ) (hnrm : ∀ v, |nrm v - v.norm| ≤ g * v.norm) (m m' : Mesh ℝ) (hc : m.ClosedOriented)
    (hflat : m.FlatFaces) (hfaces : m'.faces = m.faces) (hv : List.Forall₂ (V3.Close (ε * R)) m.vertices m'.vertices)
    (hb : ∀ v ∈ m.vertices, ∀ k, |v.coord k| ≤ R) (hn : ∀ f ∈ m'.faces, nrm (m'.faceCrossFl rnd f) ≠ 0) (rho : ℝ) (r : Mesh.Plain ℝ)
    (h : m'.PlainAllFl rnd nrm rho r) (o : V3 ℝ) (d : ℝ)
    (hd : d = 2 * (m.faces.length * R ^ 3 * (357 * ε + 11 * ((1 + u) ^ (3 * m.faces.length + 2) - 1))))
    (hV : d < |2 * m.solidIntegral o (fun _ => 1)|) :
    let n := m.faces.length
    let body := m.solidIntegral o
    let δ := |rho| * n * R ^ 5 * (334 * ε + 8 * ((1 + u) ^ (n + 3) - 1))
    let δ' := |rho| * n * R ^ 5 * (250 * ε + 6 * ((1 + u) ^ (n + 2) - 1))
    let e := n * R ^ 4 * (500 * ε + 12 * ((1 + u) ^ n - 1))
    let bound := fun x : ℝ => (1 + u) * ((e + |x| * d) / (|2 * body (fun _ => 1)| - d)) + u * |x|
    let G : V3 ℝ := ⟨body (fun p => p.x) / body (fun _ => 1), body (fun p => p.y) / body (fun _ => 1),
      body (fun p => p.z) / body (fun _ => 1)⟩
    |r.mass - rho * body (fun _ => 1)| ≤ |rho| * n * R ^ 3 * (357 * ε + 11 * ((1 + u) ^ (3 * n + 2) - 1)) ∧
    (|r.xx - rho * body (fun p => p.y ^ 2 + p.z ^ 2)| ≤ δ ∧ |r.yy - rho * body (fun p => p.x ^ 2 + p.z ^ 2)| ≤ δ ∧
      |r.zz - rho * body (fun p => p.x ^ 2 + p.y ^ 2)| ≤ δ) ∧
    (|r.yz - rho * body (fun p => p.y * p.z)| ≤ δ' ∧ |r.xz - rho * body (fun p => p.x * p.z)| ≤ δ' ∧
      |r.xy - rho * body (fun p => p.x * p.y)| ≤ δ') ∧
    (|r.cog.x - G.x| ≤ bound G.x ∧ |r.cog.y - G.y| ≤ bound G.y ∧ |r.cog.z - G.z| ≤ bound G.z) := by
  intro n body δ δ' e bound G
  have hvol : m.volume = body (fun _ => 1) := by
    rw [Mesh.volume, Mesh.volumeWith, normalWeighted_flux m hflat]
    simp only [body, flux_x0 m hc o, flux_y1 m hc o, flux_z2 m hc o, Mesh.solidIntegral]
    ring
  have P := pow_sub_nonneg hu0 (3 * m.faces.length + 2)
  have d0 : 0 ≤ d := by
    have : 0 ≤ ε := hu0.trans hu
    rw [hd]; positivity
  have hV' : d < |2 * m.volume| := by rw [hvol]; exact hV
  have v0 : m.volume ≠ 0 := by
    intro h'
    rw [h', mul_zero, abs_zero] at hV'
    linarith
  obtain ⟨i1, i2, -, -⟩ := C27_plain_inertia m hc hflat v0 rho o
  obtain ⟨j1, j2, j3, j4, j5, j6⟩ := C27_moments m hc hflat v0 rho o
  have H := C136_inertia u ε g R hu0 hu h1 hR rnd hr hg nrm hnrm m m' hflat hfaces hv hb hn rho r h
  have C := C136_centre u ε g R hu0 hu h1 hR rnd hr hg nrm hnrm m m' hflat hfaces hv hb hn rho r h d hd hV'
  have b0 : body (fun _ => 1) ≠ 0 := by rw [← hvol]; exact v0
  have eG : (m.evalPlain rho).cog = G := by
    have hx := congrArg V3.x i2
    have hy := congrArg V3.y i2
    have hz := congrArg V3.z i2
    rw [V3.smul_x] at hx
    rw [V3.smul_y] at hy
    rw [V3.smul_z] at hz
    apply V3.ext
    · exact eq_div_of_mul_eq b0 (by rw [mul_comm]; exact hx)
    · exact eq_div_of_mul_eq b0 (by rw [mul_comm]; exact hy)
    · exact eq_div_of_mul_eq b0 (by rw [mul_comm]; exact hz)
  simp only at H C
  rw [i1, j1, j2, j3, j4, j5, j6] at H
  rw [eG, hvol] at C
  exact ⟨H.1, H.2.1, H.2.2, C⟩

/-- **C136.** Displaced mass and centre of buoyancy, as in `compute_hydrostatics`: the mesh is clipped in floating point, then its plain
inertia is computed in floating point. Under the conditions of C121 (with vertices computed within `e`), the result is that of the exact
calculation, up to an error that tends to 0 with `ε`. -/
theorem C136_buoyancy_centre (u g : ℝ) (hu : 0 ≤ u) (hu1 : u < 1) (rnd : ℝ → ℝ) (hr : IsRounding u rnd) (hone : rnd 1 = 1)
    (hidem : ∀ a ∈ [1 / 100000, 1 / 100000000], rnd (rnd a) = rnd a) (dot dot' : V3 ℝ → V3 ℝ → ℝ) (hd : IsDot g dot) (hd' : IsDot g dot') (hg : 0 ≤ g)
    (srt srt' : (ℕ → ℝ) → List ℕ → List ℕ) (hsrt : IsArgsort srt) (hsrt' : IsArgsort srt') (p : Plane ℝ) (tol B R e : ℝ)
    (htol0 : 0 < tol) (htol : 2 * g * (1 + u) * B ≤ tol) (b : Bool) (m : Mesh ℝ) (hwf : m.WF)
    (hclear : ∀ v ∈ m.vertices,
      g * absDot v p.normal + u * (|p.dist v| + g * absDot v p.normal) < |p.dist v - tol| ∧
      g * absDot v p.normal + u * (|p.dist v| + g * absDot v p.normal) < |p.dist v + tol|)
    (hB : ∀ v ∈ m.vertices, absDot v p.normal + |p.c| ≤ B) (hR : ∀ v ∈ m.vertices, ∀ k, |v.coord k| ≤ R)
    (he0 : 0 ≤ e) (he : (g + ((1 + u) ^ 2 / (1 - u) - 1) * (1 + 3 * g)) * B / tol * R + ((1 + u) ^ 3 - 1) * R ≤ e)
    (hsep : m.TolSeparated p tol)
    (hgap : ∀ X Y, m.TolClipPoint p tol X → m.TolClipPoint p tol Y → ∀ a ∈ [1 / 100000, 1 / 100000000], ∀ k,
      |X.coord k - Y.coord k| + 2 * e ≤ (1 - u) * a ∨ (1 + u) / (1 - u) * a + 2 * e < |X.coord k - Y.coord k|)
    (hR0 : 0 ≤ R) (hcv : m.StrictlyConvexFaces) (c : Clipped ℝ) (hc : clip srt p tol b m = .ok c)
    (ε g' : ℝ) (huε : u ≤ ε) (hgε : g' ≤ ε) (h1 : ε ≤ 1 / 100) (heε : e ≤ ε * R) (nrm : V3 ℝ → ℝ)
    (hnrm : ∀ v, |nrm v - v.norm| ≤ g' * v.norm)
    (hA : ∀ f ∈ c.clipped.faces, 104 * (ε * R ^ 2) < (c.clipped.twiceArea f).norm)
    (d : ℝ) (hd0 : d = 2 * (c.clipped.faces.length * R ^ 3 * (357 * ε + 11 * ((1 + u) ^ (3 * c.clipped.faces.length + 2) - 1))))
    (hV : d < |2 * c.clipped.volume|) :
    let n := c.clipped.faces.length
    let e' := n * R ^ 4 * (500 * ε + 12 * ((1 + u) ^ n - 1))
    let bound := fun x : ℝ => (1 + u) * ((e' + |x| * d) / (|2 * c.clipped.volume| - d)) + u * |x|
    ∃ c', clipFl rnd dot dot' srt' p tol b m = .ok c' ∧
      ∀ rho r, c'.clipped.PlainAllFl rnd nrm rho r →
        let I := c.clipped.evalPlain rho
        |r.mass - I.mass| ≤ |rho| * n * R ^ 3 * (357 * ε + 11 * ((1 + u) ^ (3 * n + 2) - 1)) ∧
        |r.cog.x - I.cog.x| ≤ bound I.cog.x ∧ |r.cog.y - I.cog.y| ≤ bound I.cog.y ∧ |r.cog.z - I.cog.z| ≤ bound I.cog.z := by
  intro n e' bound
  have t0 : ∀ v ∈ m.vertices, |p.dist v| ≠ tol := by
    intro v hv h
    have k1 := (hclear v hv)
    have k0 : 0 ≤ g * absDot v p.normal + u * (|p.dist v| + g * absDot v p.normal) := by
      have : 0 ≤ absDot v p.normal := by unfold absDot; positivity
      positivity
    rcases abs_choice (p.dist v) with h' | h' <;> rw [h'] at h
    · have := k1.1
      rw [show p.dist v - tol = 0 by linarith, abs_zero] at this
      linarith
    · have := k1.2
      rw [show p.dist v + tol = 0 by linarith, abs_zero] at this
      linarith
  have hvm : ∀ f ∈ m.faces, ∀ i ∈ f.toList, m.vert i ∈ m.vertices := by
    intro f hf i hi
    have hi' : i < m.vertices.length := hwf f hf i hi
    simp [Mesh.vert, List.getD_eq_getElem?_getD, hi']
  have hflat : c.clipped.FlatFaces := StrictlyConvexFaces.flat (clip_convex_tol hsrt htol0.le hwf
    (fun f hf i hi => t0 _ (hvm f hf i hi)) (strictlyConvex_cross hcv) hsep hcv hc)
  obtain ⟨c', h2, h3, h4, hb⟩ := clipFl_near u g hu hu1 rnd hr hone hidem dot dot' hd hd' hg srt srt' hsrt hsrt' p tol B R e
    htol0 htol b m hwf hclear hB hR he0 he hsep hgap c hc
  have hv : List.Forall₂ (V3.Close (ε * R)) c.clipped.vertices c'.clipped.vertices :=
    h4.imp fun _ _ h => ⟨h.1.trans heε, h.2.1.trans heε, h.2.2.trans heε⟩
  have hn : ∀ f ∈ c'.clipped.faces, nrm (c'.clipped.faceCrossFl rnd f) ≠ 0 := by
    rw [h3]
    exact fun f hf => cross_ne_zero hr huε (hu.trans huε) h1 hR0 hgε hnrm hv hb (hA f hf)
  exact ⟨c', h2, fun rho r h => ⟨
    (C136_inertia u ε g' R hu huε h1 hR0 rnd hr hgε nrm hnrm _ _ hflat h3 hv hb hn rho r h).1,
    C136_centre u ε g' R hu huε h1 hR0 rnd hr hgε nrm hnrm _ _ hflat h3 hv hb hn rho r h d hd0 hV⟩⟩

/-- The hypotheses of C136 are met by the half immersed cube, whose centre of buoyancy is computed within `10⁻⁷`. -/
theorem halfCube_meets_C136 :
    ∃ c', clipFl (topRound (1 / 2 ^ 53)) (dotFl (topRound (1 / 2 ^ 53))) (dotFma (topRound (1 / 2 ^ 53))) insArgsort
        ⟨⟨0, 0, 1⟩, 0⟩ (1 / 1000) true halfCube.real = .ok c' ∧
      ∀ rho r, c'.clipped.PlainAllFl (topRound (1 / 2 ^ 53)) V3.norm rho r →
        |r.cog.x - 1 / 2| ≤ 1 / 10 ^ 7 ∧ |r.cog.y - 1 / 2| ≤ 1 / 10 ^ 7 ∧ |r.cog.z + 1 / 4| ≤ 1 / 10 ^ 7 := by
  obtain ⟨c, hc, hp, hm⟩ := halfCube_clip
  have hmesh : (c.aff ratReal 0).clipped = halfCubeClipped := by
    show c.clipped.aff ratReal 0 = _
    rw [hm]
    simp [Mesh.aff, affMap, ratReal_apply, halfCubeClipped]
  have hR := clip_real (by decide +kernel) hc
  have hu : (0 : ℝ) ≤ 1 / 2 ^ 53 := by norm_num
  have hr := topRound_isRounding hu
  have verts : ∀ v ∈ halfCube.real.vertices, (|v.x| ≤ 1 ∧ |v.y| ≤ 1) ∧ |v.z| = 1 / 2 := by
    have : ∀ v ∈ halfCube.vertices, (|v.x| ≤ 1 ∧ |v.y| ≤ 1) ∧ |v.z| = 1 / 2 := by decide +kernel
    intro v hv
    rw [Mesh.real_vertices, List.mem_map] at hv
    obtain ⟨w, hw, rfl⟩ := hv
    obtain ⟨⟨a, b⟩, c⟩ := this w hw
    refine ⟨⟨?_, ?_⟩, ?_⟩
    · show |(w.x : ℝ)| ≤ 1
      exact_mod_cast a
    · show |(w.y : ℝ)| ≤ 1
      exact_mod_cast b
    · have : ((|w.z| : ℚ) : ℝ) = ((1 / 2 : ℚ) : ℝ) := by rw [c]
      push_cast at this
      exact this
  have gap : ∀ X Y, halfCube.real.TolClipPoint ⟨⟨0, 0, 1⟩, 0⟩ (1 / 1000) X → halfCube.real.TolClipPoint ⟨⟨0, 0, 1⟩, 0⟩ (1 / 1000) Y →
      ∀ k, X.coord k = Y.coord k ∨ 1 / 2 ≤ |X.coord k - Y.coord k| := by
    intro X Y hX hY k
    obtain ⟨a, ha⟩ := halfCube_points hX k
    obtain ⟨b, hb⟩ := halfCube_points hY k
    rw [ha, hb]
    by_cases h : a = b
    · left; rw [h]
    · right
      rw [← sub_div, abs_div, abs_of_pos (by norm_num : (0 : ℝ) < 2)]
      have : (1 : ℤ) ≤ |a - b| := Int.one_le_abs (sub_ne_zero.2 h)
      have : (1 : ℝ) ≤ |(a : ℝ) - b| := by exact_mod_cast this
      linarith
  obtain ⟨c', h1, h2⟩ := C136_buoyancy_centre (1 / 2 ^ 53) ((1 + 1 / 2 ^ 53) ^ 3 - 1) hu (by norm_num) (topRound (1 / 2 ^ 53)) hr
    (by simp [topRound]) (by
      intro a ha
      have : |a| ≤ 1 := by
        rcases List.mem_cons.1 ha with rfl | ha
        · norm_num [abs_of_pos]
        · rw [List.mem_singleton.1 ha]; norm_num [abs_of_pos]
      simp [topRound, this]) (dotFl (topRound (1 / 2 ^ 53))) (dotFma (topRound (1 / 2 ^ 53))) (dotFl_isDot hr hu) (dotFma_isDot hr hu)
    (by norm_num) insArgsort insArgsort insArgsort_isArgsort insArgsort_isArgsort ⟨⟨0, 0, 1⟩, 0⟩ (1 / 1000) (1 / 2) 1 (1 / 10 ^ 12)
    (by norm_num) (by norm_num) true halfCube.real (Mesh.WF.real (by decide +kernel)) (by
      intro v hv
      have z := (verts v hv).2
      have d : (⟨⟨0, 0, 1⟩, 0⟩ : Plane ℝ).dist v = v.z := by simp [Plane.dist, V3.dot]
      have a : absDot v (⟨0, 0, 1⟩ : V3 ℝ) = 1 / 2 := by simp [absDot, z]
      rw [d, a, z]
      rcases abs_eq (by norm_num : (0 : ℝ) ≤ 1 / 2) |>.1 z with h | h <;> rw [h] <;> norm_num [abs_of_pos, abs_of_neg]) (by
      intro v hv
      have z := (verts v hv).2
      simp [absDot, z]) (by
      intro v hv k
      obtain ⟨⟨a, b⟩, c⟩ := verts v hv
      fin_cases k
      · exact a
      · exact b
      · show |v.z| ≤ 1
        rw [c]; norm_num) (by norm_num) (by norm_num) (by
      intro X Y hX hY hXY
      have k : ∀ k, |X.coord k - Y.coord k| ≤ 1 / 100000 → X.coord k = Y.coord k := by
        intro k h
        rcases gap X Y hX hY k with h' | h'
        · exact h'
        · exfalso; linarith [(by norm_num : (1 / 100000 : ℝ) < 1 / 2)]
      exact V3.ext (k 0 hXY.1) (k 1 hXY.2.1) (k 2 hXY.2.2)) (by
      intro X Y hX hY a ha k
      have a1 : 1 / 100000000 ≤ a ∧ a ≤ 1 / 100000 := by
        rcases List.mem_cons.1 ha with rfl | ha
        · norm_num
        · rw [List.mem_singleton.1 ha]; norm_num
      rcases gap X Y hX hY k with h | h
      · left
        rw [h, sub_self, abs_zero]
        have := mul_le_mul_of_nonneg_left a1.1 (by norm_num : (0 : ℝ) ≤ 1 - 1 / 2 ^ 53)
        refine le_trans ?_ this
        norm_num
      · right
        have := mul_le_mul_of_nonneg_left a1.2 (by norm_num : (0 : ℝ) ≤ (1 + 1 / 2 ^ 53) / (1 - 1 / 2 ^ 53))
        refine lt_of_lt_of_le (lt_of_le_of_lt (add_le_add_left this _) ?_) h
        norm_num) (by norm_num) (Mesh.StrictlyConvexFaces.real Hydro.halfCube_strictlyConvex) _ hR (1 / 10 ^ 12) 0 (by norm_num) (by norm_num) (by norm_num) (by norm_num)
    V3.norm (by simp) (by
      rw [hmesh]
      intro f hf
      have h2 : 1 / 2 ≤ (halfCubeClipped.twiceArea f).norm := by
        simp only [halfCubeClipped, List.mem_cons, List.not_mem_nil, or_false] at hf
        have k := coord_le_norm (halfCubeClipped.twiceArea f)
        rcases hf with rfl | rfl | rfl | rfl | rfl
        · refine le_trans ?_ k.2.2
          simp [halfCubeClipped, Mesh.twiceArea, Mesh.vert, V3.cross]; norm_num
        · refine le_trans ?_ k.2.1
          simp [halfCubeClipped, Mesh.twiceArea, Mesh.vert, V3.cross]; norm_num
        · refine le_trans ?_ k.2.1
          simp [halfCubeClipped, Mesh.twiceArea, Mesh.vert, V3.cross]; norm_num
        · refine le_trans ?_ k.1
          simp [halfCubeClipped, Mesh.twiceArea, Mesh.vert, V3.cross]; norm_num
        · refine le_trans ?_ k.1
          simp [halfCubeClipped, Mesh.twiceArea, Mesh.vert, V3.cross]; norm_num
      refine lt_of_lt_of_le ?_ h2
      norm_num) _ rfl (by
      rw [hmesh, halfCubeClipped_volume]
      simp only [halfCubeClipped, List.length_cons, List.length_nil]
      norm_num)
  refine ⟨c', h1, fun rho r hrr => ?_⟩
  have h3 := (h2 rho r hrr).2
  rw [hmesh, (halfCubeClipped_cog rho).1, (halfCubeClipped_cog rho).2, Old.halfCubeClipped_cogz rho, halfCubeClipped_volume] at h3
  have a1 : |(1 / 2 : ℝ)| = 1 / 2 := abs_of_pos (by norm_num)
  have a2 : |(-1 / 4 : ℝ)| = 1 / 4 := by rw [abs_of_neg (by norm_num)]; norm_num
  have a3 : |(2 * (1 / 2) : ℝ)| = 1 := by rw [abs_of_pos (by norm_num)]; norm_num
  simp only [a1, a2, a3, halfCubeClipped, List.length_cons, List.length_nil] at h3
  obtain ⟨a, b, c⟩ := h3
  refine ⟨a.trans ?_, b.trans ?_, ?_⟩
  · norm_num
  · norm_num
  · rw [show (r.cog.z + 1 / 4) = r.cog.z - -1 / 4 by ring]
    refine c.trans ?_
    norm_num

/-- The hypotheses of `C136_body` are met by a cube. -/
theorem cube_meets_C136_body : (cubeMesh ℝ).ClosedOriented ∧ (cubeMesh ℝ).FlatFaces ∧
    List.Forall₂ (V3.Close (1 / 10 ^ 12 * 2)) (cubeMesh ℝ).vertices (cubeMesh ℝ).vertices ∧
    (∀ v ∈ (cubeMesh ℝ).vertices, ∀ k, |v.coord k| ≤ 2) ∧
    (∀ f ∈ (cubeMesh ℝ).faces, ((cubeMesh ℝ).faceCrossFl (topRound (1 / 2 ^ 53)) f).norm ≠ 0) ∧
    (∃ r, (cubeMesh ℝ).PlainAllFl (topRound (1 / 2 ^ 53)) V3.norm 1025 r) ∧
    2 * ((cubeMesh ℝ).faces.length * 2 ^ 3 * (357 * (1 / 10 ^ 12) +
      11 * ((1 + 1 / 2 ^ 53 : ℝ) ^ (3 * (cubeMesh ℝ).faces.length + 2) - 1))) < |2 * (cubeMesh ℝ).solidIntegral 0 (fun _ => 1)| := by
  have hflat : (cubeMesh ℝ).FlatFaces := cubeMesh_convex.flat
  have hc := cubeMesh_closed ℝ
  have hv : List.Forall₂ (V3.Close (1 / 10 ^ 12 * 2)) (cubeMesh ℝ).vertices (cubeMesh ℝ).vertices :=
    List.forall₂_same.2 (fun v _ => by simp [V3.Close])
  have hb : ∀ v ∈ (cubeMesh ℝ).vertices, ∀ k, |v.coord k| ≤ 2 := by
    intro v hv k
    simp only [cubeMesh, List.mem_cons, List.not_mem_nil, or_false] at hv
    rcases hv with rfl | rfl | rfl | rfl | rfl | rfl | rfl | rfl <;> fin_cases k <;> simp [V3.coord]
  refine ⟨hc, hflat, hv, hb, ?_, ?_, ?_⟩
  · intro f hf
    refine cross_ne_zero (topRound_isRounding (by norm_num)) (by norm_num : (1 / 2 ^ 53 : ℝ) ≤ 1 / 10 ^ 12) (by norm_num)
      (by norm_num) (by norm_num) (by norm_num : (0 : ℝ) ≤ 1 / 10 ^ 12) (nrm := V3.norm) (by simp) hv hb ?_
    have h2 : 1 ≤ ((cubeMesh ℝ).twiceArea f).norm := by
      simp only [cubeMesh, cubeFaces, List.mem_cons, List.not_mem_nil, or_false] at hf
      have k := coord_le_norm ((cubeMesh ℝ).twiceArea f)
      rcases hf with rfl | rfl | rfl | rfl | rfl | rfl | rfl <;>
      first
        | (refine le_trans ?_ k.1; simp [cubeMesh, Mesh.twiceArea, Mesh.vert, V3.cross] <;> norm_num; done)
        | (refine le_trans ?_ k.2.1; simp [cubeMesh, Mesh.twiceArea, Mesh.vert, V3.cross] <;> norm_num; done)
        | (refine le_trans ?_ k.2.2; simp [cubeMesh, Mesh.twiceArea, Mesh.vert, V3.cross] <;> norm_num; done)
    refine lt_of_lt_of_le ?_ h2
    norm_num
  · have h : ∀ l : List (V3 ℝ), ∃ s, Mesh.SumsFl (topRound (1 / 2 ^ 53)) l s := by
      intro l
      obtain ⟨x, hx⟩ := SumFl.exists (topRound (1 / 2 ^ 53)) (l.map V3.x)
      obtain ⟨y, hy⟩ := SumFl.exists (topRound (1 / 2 ^ 53)) (l.map V3.y)
      obtain ⟨z, hz⟩ := SumFl.exists (topRound (1 / 2 ^ 53)) (l.map V3.z)
      exact ⟨⟨x, y, z⟩, hx, hy, hz⟩
    obtain ⟨s, hs⟩ := SumFl.exists (topRound (1 / 2 ^ 53))
      (((cubeMesh ℝ).faces.map ((cubeMesh ℝ).face0Fl (topRound (1 / 2 ^ 53)) V3.norm)).flatMap (fun t => [t.x, t.y, t.z]))
    obtain ⟨s6, h6⟩ := h ((cubeMesh ℝ).faces.map ((cubeMesh ℝ).face6Fl (topRound (1 / 2 ^ 53)) V3.norm))
    obtain ⟨s9, h9⟩ := h ((cubeMesh ℝ).faces.map ((cubeMesh ℝ).face9Fl (topRound (1 / 2 ^ 53)) V3.norm))
    obtain ⟨s12, h12⟩ := h ((cubeMesh ℝ).faces.map ((cubeMesh ℝ).face12Fl (topRound (1 / 2 ^ 53)) V3.norm))
    exact ⟨_, _, s6, s9, s12, ⟨s, hs, rfl⟩, h6, h9, h12, rfl⟩
  · have hvol : (cubeMesh ℝ).volume = (cubeMesh ℝ).solidIntegral 0 (fun _ => 1) := by
      rw [Mesh.volume, Mesh.volumeWith, normalWeighted_flux _ hflat]
      simp only [flux_x0 _ hc 0, flux_y1 _ hc 0, flux_z2 _ hc 0, Mesh.solidIntegral]
      ring
    rw [← hvol, volume_eq_signedVolume _ hflat, cubeMesh_volume]
    simp only [cubeMesh, cubeFaces, List.length_cons, List.length_nil]
    norm_num

end MM
