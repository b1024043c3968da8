import Verif.Model.Plane
import Verif.Props.Rotations

/-!
# Properties C29–C33 and C64: planes
-/

namespace MM

set_option linter.unusedSectionVars false

open Real

/-! ## C29 -/

section
variable {K : Type*} [Field K] [LinearOrder K] [IsStrictOrderedRing K]

/-- **C29.** When the end points are not strictly on the same side of the plane and not both on it, the
result is a point of the plane on the segment, and it does not depend on the order of the end points; when
they are strictly on the same side, an error is raised. -/
theorem C29_edge_intersection (p : Plane K) (p0 p1 : V3 K) :
    (p.dist p0 * p.dist p1 ≤ 0 → ¬ (p.dist p0 = 0 ∧ p.dist p1 = 0) →
      ∃ q, p.edgeIntersection p0 p1 = .ok (some q) ∧ p.dist q = 0 ∧
        (∃ s : K, 0 ≤ s ∧ s ≤ 1 ∧ q = (1 - s) • p0 + s • p1) ∧
        p.edgeIntersection p1 p0 = .ok (some q)) ∧
    (0 < p.dist p0 * p.dist p1 → p.edgeIntersection p0 p1 = .error .runtimeError) := by
  simp only [Plane.edgeIntersection, Plane.dist]
  set a := p0.dot p.normal with ha
  set b := p1.dot p.normal with hb
  constructor
  · intro h1 h2
    have hne : a - b ≠ 0 := by
      intro h
      have hab : a = b := by linarith
      rw [hab] at h1 h2
      have : b - p.c = 0 := mul_self_eq_zero.1 (le_antisymm h1 (mul_self_nonneg _))
      exact h2 ⟨this, this⟩
    have hne' : b - a ≠ 0 := by intro h; apply hne; linarith
    have hsq : 0 < (a - b) * (a - b) := mul_self_pos.2 hne
    have ht0 : 0 ≤ (a - p.c) / (a - b) := by
      rw [← mul_div_mul_right _ _ hne]
      apply div_nonneg _ hsq.le
      nlinarith [mul_self_nonneg (a - p.c)]
    have ht1 : (a - p.c) / (a - b) ≤ 1 := by
      rw [← mul_div_mul_right _ _ hne, div_le_one hsq]
      nlinarith [mul_self_nonneg (b - p.c)]
    have hswap : (b - p.c) / (b - a) = 1 - (a - p.c) / (a - b) := by
      rw [eq_sub_iff_add_eq, div_add_div _ _ hne' hne, div_eq_one_iff_eq (mul_ne_zero hne' hne)]
      ring
    refine ⟨(1 - (a - p.c) / (a - b)) • p0 + ((a - p.c) / (a - b)) • p1, ?_, ?_, ⟨(a - p.c) / (a - b), ht0, ht1, rfl⟩, ?_⟩
    · rw [if_neg hne, if_neg (by rw [not_or]; exact ⟨not_lt.2 ht0, not_lt.2 ht1⟩)]
    · rw [V3.add_dot, V3.smul_dot, V3.smul_dot, ← ha, ← hb]
      field_simp
      ring
    · rw [if_neg hne', hswap, if_neg (by rw [not_or]; exact ⟨not_lt.2 (by linarith), not_lt.2 (by linarith)⟩)]
      rw [sub_sub_cancel, add_comm]
  · intro h
    by_cases hab : a - b = 0
    · rw [if_pos hab, if_neg]
      intro h0; rw [h0, zero_mul] at h; exact lt_irrefl _ h
    · rw [if_neg hab, if_pos]
      have hsq : 0 < (a - b) * (a - b) := mul_self_pos.2 hab
      by_contra hc
      rw [not_or, not_lt, not_lt] at hc
      obtain ⟨h0, h1⟩ := hc
      rw [← mul_div_mul_right _ _ hab] at h0 h1
      rw [div_le_one hsq] at h1
      have h0' : 0 ≤ (a - p.c) * (a - b) := by
        by_contra hcon
        exact absurd h0 (not_le.2 (div_neg_of_neg_of_pos (not_le.1 hcon) hsq))
      have e1 : (a - p.c) * (a - b) = (a - p.c) * (a - p.c) - (a - p.c) * (b - p.c) := by ring
      have e2 : (a - b) * (a - b) - (a - p.c) * (a - b) =
        (b - p.c) * (b - p.c) - (a - p.c) * (b - p.c) := by ring
      have h0'' : (a - p.c) * (b - p.c) ≤ (a - p.c) * (a - p.c) := by linarith
      have h1'' : (a - p.c) * (b - p.c) ≤ (b - p.c) * (b - p.c) := by linarith
      -- |a'| ≤ |b'| ≤ |a'| with the same sign, so a' = b'
      apply hab
      rcases pos_and_pos_or_neg_and_neg_of_mul_pos h with ⟨p1, p2⟩ | ⟨p1, p2⟩
      · have g1 := le_of_mul_le_mul_left h0'' p1
        have g2 := le_of_mul_le_mul_right h1'' p2
        linarith
      · have g1 : -(b - p.c) ≤ -(a - p.c) := by
          apply le_of_mul_le_mul_left _ (neg_pos.2 p1); linarith
        have g2 : -(a - p.c) ≤ -(b - p.c) := by
          apply le_of_mul_le_mul_right _ (neg_pos.2 p2); linarith
        linarith

/-! ## C30 -/

/-- **C30.** For a unit normal, the orthogonal projection is a point of the plane, the only point of the
plane nearest to the point, unchanged by a second projection; the signed distance is positive on the side
of the normal and its square is the squared distance to the projection. -/
theorem C30_orthogonal_projection (p : Plane K) (hn : p.normal.normSq = 1) (v : V3 K) :
    p.dist (p.project v) = 0 ∧
    (∀ q, p.dist q = 0 → (v - p.project v).normSq ≤ (v - q).normSq ∧
      ((v - q).normSq = (v - p.project v).normSq → q = p.project v)) ∧
    p.project (p.project v) = p.project v ∧
    (v - p.project v).normSq = p.dist v ^ 2 ∧
    v = p.project v + p.dist v • p.normal ∧
    p.dist p.origin = 0 := by
  have hn' : p.normal.dot p.normal = 1 := hn
  have h0 : p.dist (p.project v) = 0 := by
    simp only [Plane.project, Plane.dist, V3.sub_dot, V3.smul_dot, hn']; ring
  have hd : v - p.project v = p.dist v • p.normal := by
    ext <;> simp [Plane.project]
  have hpyth : ∀ q, p.dist q = 0 →
      (v - q).normSq = (v - p.project v).normSq + (p.project v - q).normSq := by
    intro q hq
    have : v - q = p.dist v • p.normal + (p.project v - q) := by rw [← hd]; abel
    have horth : (p.project v - q).dot p.normal = 0 := by
      simp only [Plane.dist] at h0 hq
      rw [V3.sub_dot]; linarith
    rw [hd, this]
    simp only [V3.normSq, V3.add_dot, V3.dot_add, V3.smul_dot, V3.dot_smul, V3.dot_comm p.normal
      (p.project v - q), horth]
    ring
  refine ⟨h0, ?_, ?_, ?_, ?_, ?_⟩
  · intro q hq
    have := hpyth q hq
    refine ⟨by have := V3.normSq_nonneg (p.project v - q); linarith, fun he => ?_⟩
    have : (p.project v - q).normSq = 0 := by linarith
    exact (sub_eq_zero.1 (V3.normSq_eq_zero.1 this)).symm
  · rw [Plane.project, h0]; simp
  · rw [hd, V3.normSq_smul, hn, mul_one]
  · rw [← hd]; abel
  · simp only [Plane.dist, Plane.origin, V3.smul_dot, hn']; ring

end

/-! ## C31 -/

theorem V3.norm_one_iff {v : V3 ℝ} : v.norm = 1 ↔ v.normSq = 1 := by
  constructor
  · intro h; rw [← V3.norm_sq, h, one_pow]
  · intro h; exact V3.norm_of_sq zero_le_one (by rw [h, one_pow])

theorem normalize_normSq {v : V3 ℝ} (h : v ≠ 0) : (PlaneObj.normalize v).normSq = 1 := by
  rw [PlaneObj.normalize, V3.normSq_smul, ← V3.norm_sq]
  have := (V3.norm_pos h).ne'
  field_simp

theorem normalize_unit {v : V3 ℝ} (h : v.normSq = 1) : PlaneObj.normalize v = v := by
  rw [PlaneObj.normalize, V3.norm_one_iff.2 h]; simp

theorem V3.ne_zero_of_unit {v : V3 ℝ} (h : v.normSq = 1) : v ≠ 0 := by
  rintro rfl; simp at h

theorem setAngles_unit (p : PlaneObj) (tx ty : ℝ) : (p.setNormalFromAngles tx ty).normal.normSq = 1 := by
  unfold PlaneObj.setNormalFromAngles
  simp only
  split_ifs with h
  · simp [V3.normSq, V3.dot]
  · have hs : √(tx * tx + ty * ty) * √(tx * tx + ty * ty) = tx * tx + ty * ty :=
      Real.mul_self_sqrt (by nlinarith [mul_self_nonneg tx, mul_self_nonneg ty])
    have h1 := sin_sq_add_cos_sq √(tx * tx + ty * ty)
    generalize √(tx * tx + ty * ty) = th at *
    simp only [V3.normSq, V3.dot]
    have : sin th / th * ty * (sin th / th * ty) + -(sin th / th) * tx * (-(sin th / th) * tx) =
        sin th ^ 2 := by
      field_simp; linear_combination (-sin th ^ 2) * hs
    linarith

/-- The matrix used for a pair of angles sends the vertical to the normal built from these angles. -/
theorem rodrigues_ez (p : PlaneObj) (tx ty : ℝ) :
    (p.setNormalFromAngles tx ty).rot.mulVec ⟨0, 0, 1⟩ = (p.setNormalFromAngles tx ty).normal ∧
    (rodrigues tx ty).mulVec ⟨0, 0, 1⟩ = (p.setNormalFromAngles tx ty).normal := by
  unfold PlaneObj.setNormalFromAngles rodrigues
  simp only
  split_ifs with h
  · simp [M3.mulVec, V3.dot, M3.one]
  · constructor <;> (ext <;> simp [M3.mulVec, V3.dot] <;> ring)

theorem orientation_setAngles (p : PlaneObj) (tx ty : ℝ)
    (h1 : √(tx * tx + ty * ty) < π) :
    PlaneObj.orientation (p.setNormalFromAngles tx ty).normal = (tx, ty) := by
  unfold PlaneObj.setNormalFromAngles
  simp only
  by_cases h : √(tx * tx + ty * ty) = 0
  · have h0 : tx * tx + ty * ty = 0 :=
      (Real.sqrt_eq_zero (by nlinarith [mul_self_nonneg tx, mul_self_nonneg ty])).1 h
    have hx : tx = 0 := mul_self_eq_zero.1 (by nlinarith [mul_self_nonneg tx, mul_self_nonneg ty])
    have hy : ty = 0 := mul_self_eq_zero.1 (by nlinarith [mul_self_nonneg tx, mul_self_nonneg ty])
    rw [if_pos h]
    simp [PlaneObj.orientation, hx, hy]
  · rw [if_neg h]
    have hpos : 0 < √(tx * tx + ty * ty) := lt_of_le_of_ne (Real.sqrt_nonneg _) (Ne.symm h)
    have hs : √(tx * tx + ty * ty) * √(tx * tx + ty * ty) = tx * tx + ty * ty :=
      Real.mul_self_sqrt (by nlinarith [mul_self_nonneg tx, mul_self_nonneg ty])
    generalize √(tx * tx + ty * ty) = th at *
    have hsin : 0 < sin th := Real.sin_pos_of_pos_of_lt_pi hpos h1
    have hst : √(sin th / th * ty * (sin th / th * ty) + -(sin th / th) * tx * (-(sin th / th) * tx)) =
        sin th := by
      rw [Real.sqrt_eq_iff_mul_self_eq _ hsin.le]
      · field_simp; linear_combination -hs
      · nlinarith [mul_self_nonneg (sin th / th * ty), mul_self_nonneg (-(sin th / th) * tx)]
    unfold PlaneObj.orientation
    simp only [hst, if_neg hsin.ne']
    have hat : atan2 (sin th) (cos th) = th := by
      have := atan2_polar (l := 1) (t := th) one_pos (by linarith) h1.le
      simpa using this
    rw [hat]
    have := hsin.ne'
    ext
    · simp only; field_simp
    · simp only; field_simp

theorem setAngles_orientation (p : PlaneObj) (n : V3 ℝ) (hn : n.normSq = 1) :
    (p.setNormalFromAngles (PlaneObj.orientation n).1 (PlaneObj.orientation n).2).normal = n := by
  have hn' : n.x * n.x + n.y * n.y + n.z * n.z = 1 := hn
  have hnn : 0 ≤ n.x * n.x + n.y * n.y := by nlinarith [mul_self_nonneg n.x, mul_self_nonneg n.y]
  by_cases h : √(n.x * n.x + n.y * n.y) = 0
  · have h0 : n.x * n.x + n.y * n.y = 0 := (Real.sqrt_eq_zero hnn).1 h
    have hx : n.x = 0 := mul_self_eq_zero.1 (by nlinarith [mul_self_nonneg n.x, mul_self_nonneg n.y])
    have hy : n.y = 0 := mul_self_eq_zero.1 (by nlinarith [mul_self_nonneg n.x, mul_self_nonneg n.y])
    have hz : n.z = 1 ∨ n.z = -1 := by
      have : n.z * n.z = 1 * 1 := by linarith
      simpa using mul_self_eq_mul_self_iff.1 this
    unfold PlaneObj.orientation
    simp only [h, if_true]
    rcases hz with hz | hz
    · simp only [hz, if_true]
      simp only [PlaneObj.setNormalFromAngles, mul_zero, add_zero, Real.sqrt_zero, if_true]
      ext <;> simp [hx, hy, hz]
    · have : ¬ (-1 : ℝ) = 1 := by norm_num
      simp only [hz, this, if_true, if_false]
      have hpi : √(π * π + 0 * 0) = π := by
        rw [mul_zero, add_zero, Real.sqrt_mul_self Real.pi_pos.le]
      simp only [PlaneObj.setNormalFromAngles, hpi, Real.pi_pos.ne', if_false, Real.sin_pi, Real.cos_pi]
      ext <;> simp [hx, hy, hz]
  · have hpos : 0 < √(n.x * n.x + n.y * n.y) := lt_of_le_of_ne (Real.sqrt_nonneg _) (Ne.symm h)
    have hss : √(n.x * n.x + n.y * n.y) * √(n.x * n.x + n.y * n.y) = n.x * n.x + n.y * n.y :=
      Real.mul_self_sqrt hnn
    unfold PlaneObj.orientation
    simp only [if_neg h]
    generalize √(n.x * n.x + n.y * n.y) = st at *
    have hc := cos_atan2 (x := n.z) (y := st) one_pos (by linarith)
    have hs := sin_atan2 (x := n.z) (y := st) one_pos (by linarith)
    have hθpos : 0 < atan2 st n.z := by
      have hnonneg : 0 ≤ atan2 st n.z := by
        unfold atan2; rw [Complex.arg_nonneg_iff]; exact hpos.le
      rcases hnonneg.lt_or_eq with h' | h'
      · exact h'
      · rw [← h', Real.sin_zero, mul_zero] at hs; exact absurd hs.symm h
    rw [one_mul] at hc hs
    generalize atan2 st n.z = th at *
    have hsq : √(-(th / st) * n.y * (-(th / st) * n.y) + th / st * n.x * (th / st * n.x)) = th := by
      rw [Real.sqrt_eq_iff_mul_self_eq _ hθpos.le]
      · field_simp; linear_combination -hss
      · nlinarith [mul_self_nonneg (-(th / st) * n.y), mul_self_nonneg (th / st * n.x)]
    simp only [PlaneObj.setNormalFromAngles, hsq, if_neg hθpos.ne', hs, hc]
    have := hθpos.ne'
    ext
    · simp only; field_simp
    · simp only; field_simp
    · rfl

/-- The operations on a plane. -/
inductive PlaneOp where
  | setNormal (v : V3 ℝ)
  | setC (c : ℝ)
  | rotateNormal (tx ty : ℝ)
  | setNormalFromAngles (tx ty : ℝ)
  | setPlaneParameters (scalar tx ty : ℝ)
  | flipNormal

noncomputable def PlaneOp.run (p : PlaneObj) : PlaneOp → PlaneObj
  | .setNormal v => p.setNormal v
  | .setC c => p.setC c
  | .rotateNormal tx ty => p.rotateNormal tx ty
  | .setNormalFromAngles tx ty => p.setNormalFromAngles tx ty
  | .setPlaneParameters s tx ty => p.setPlaneParameters s tx ty
  | .flipNormal => p.flipNormal

/-- A normal can only be set to a non-zero vector (numpy divides by its norm). -/
def PlaneOp.Valid : PlaneOp → Prop
  | .setNormal v => v ≠ 0
  | _ => True

theorem rotateNormal_unit (p : PlaneObj) (tx ty : ℝ) (h : p.normal.normSq = 1) :
    (p.rotateNormal tx ty).normal = (rodrigues tx ty).mulVec p.normal ∧
    (p.rotateNormal tx ty).normal.normSq = 1 := by
  have hr : ((rodrigues tx ty).mulVec p.normal).normSq = 1 := by
    rw [(rodrigues_isRotation tx ty).normSq_mulVec, h]
  unfold PlaneObj.rotateNormal
  simp only [normalize_unit hr]
  exact ⟨trivial, hr⟩

theorem run_unit (p : PlaneObj) (op : PlaneOp) (hv : op.Valid) (h : p.normal.normSq = 1) :
    (op.run p).normal.normSq = 1 := by
  cases op with
  | setNormal v => exact normalize_normSq hv
  | setC c => exact h
  | rotateNormal tx ty => exact (rotateNormal_unit p tx ty h).2
  | setNormalFromAngles tx ty => exact setAngles_unit p tx ty
  | setPlaneParameters s tx ty => exact (rotateNormal_unit p tx ty h).2
  | flipNormal =>
    show (PlaneObj.normalize (-p.normal)).normSq = 1
    rw [normalize_unit] <;> rw [V3.normSq_neg, h]

/-- **C31.** Angles set on a plane are read back (total tilt below π), the angles read from any unit normal
give back this normal, and the normal of a plane is a unit vector after any history of modifications. -/
theorem C31_plane_angles :
    (∀ (p : PlaneObj) (tx ty : ℝ), √(tx * tx + ty * ty) < π →
      PlaneObj.orientation (p.setNormalFromAngles tx ty).normal = (tx, ty)) ∧
    (∀ (p : PlaneObj) (n : V3 ℝ), n.normSq = 1 →
      (p.setNormalFromAngles (PlaneObj.orientation n).1 (PlaneObj.orientation n).2).normal = n) ∧
    (∀ (n : V3 ℝ) (c : ℝ) (ops : List PlaneOp), n ≠ 0 → (∀ o ∈ ops, o.Valid) →
      (ops.foldl PlaneOp.run (PlaneObj.init n c)).normal.normSq = 1) := by
  refine ⟨orientation_setAngles, setAngles_orientation, ?_⟩
  intro n c ops hn hv
  have h0 : (PlaneObj.init n c).normal.normSq = 1 := normalize_normSq hn
  generalize PlaneObj.init n c = p at h0
  induction ops generalizing p with
  | nil => exact h0
  | cons o ops ih =>
    exact ih (fun o ho => hv o (List.mem_cons_of_mem _ ho)) _
      (run_unit p o (hv o List.mem_cons_self) h0)

/-! ## C64: the frame attached to a plane -/

/-- The frame of the plane is right: `rot` is a rotation that sends the vertical axis to the normal. -/
def PlaneObj.FrameOk (p : PlaneObj) : Prop :=
  p.normal.normSq = 1 ∧ p.rot.IsRotation ∧ p.rot.mulVec ⟨0, 0, 1⟩ = p.normal

theorem M3.IsRotation.mul {m n : M3 ℝ} (ha : m.IsRotation) (hb : n.IsRotation) : (m.mul n).IsRotation := by
  have A := ha.eqs
  have B := hb.eqs
  obtain ⟨⟨a, b, c⟩, ⟨d, e, f⟩, ⟨g, h, i⟩⟩ := m
  obtain ⟨⟨a', b', c'⟩, ⟨d', e', f'⟩, ⟨g', h', i'⟩⟩ := n
  simp only at A B
  have hdet := ha.det_one
  have hdet' := hb.det_one
  simp only [M3.det, V3.dot, V3.cross] at hdet hdet'
  obtain ⟨-, -, -, -, -, -, -, -, -, r0, r1, r2, k0, k1, k2, r01, r02, r12, k01, k02, k12⟩ := A
  obtain ⟨-, -, -, -, -, -, -, -, -, r0', r1', r2', k0', k1', k2', r01', r02', r12', k01', k02', k12'⟩ := B
  have col : ∀ x y z u v w : ℝ, (a * x + b * y + c * z) * (a * u + b * v + c * w) +
      (d * x + e * y + f * z) * (d * u + e * v + f * w) +
      (g * x + h * y + i * z) * (g * u + h * v + i * w) = x * u + y * v + z * w := by
    intro x y z u v w
    linear_combination x * u * k0 + y * v * k1 + z * w * k2 + (x * v + y * u) * k01 +
      (x * w + z * u) * k02 + (y * w + z * v) * k12
  have row : ∀ x y z u v w : ℝ, (x * a' + y * d' + z * g') * (u * a' + v * d' + w * g') +
      (x * b' + y * e' + z * h') * (u * b' + v * e' + w * h') +
      (x * c' + y * f' + z * i') * (u * c' + v * f' + w * i') = x * u + y * v + z * w := by
    intro x y z u v w
    linear_combination x * u * r0' + y * v * r1' + z * w * r2' + (x * v + y * u) * r01' +
      (x * w + z * u) * r02' + (y * w + z * v) * r12'
  simp only [M3.mul, M3.c0, M3.c1, M3.c2, V3.dot]
  apply M3.isRotation_of
  · rw [col, k0']
  · rw [col, k1']
  · rw [col, k2']
  · rw [col, k01']
  · rw [col, k02']
  · rw [col, k12']
  · rw [row, r0]
  · rw [row, r1]
  · rw [row, r2]
  · rw [row, r01]
  · rw [row, r02]
  · rw [row, r12]
  · linear_combination (a' * (e' * i' - f' * h') + b' * (f' * g' - d' * i') + c' * (d' * h' - e' * g')) * hdet
      + hdet'

theorem one_isRotation : (M3.one : M3 ℝ).IsRotation := by
  unfold M3.one; apply M3.isRotation_of <;> norm_num

theorem frame_of_orientation (n : V3 ℝ) (hn : n.normSq = 1) :
    (rodrigues (PlaneObj.orientation n).1 (PlaneObj.orientation n).2).mulVec ⟨0, 0, 1⟩ = n := by
  have h := (rodrigues_ez ⟨n, 0, M3.one⟩ (PlaneObj.orientation n).1 (PlaneObj.orientation n).2).2
  rw [h, setAngles_orientation _ n hn]

/-- **C64.** The rotation matrix stored by a plane is a rotation sending the vertical axis to the normal
after construction and after any history of `rotate_normal`, `set_normal_from_angles`,
`set_plane_parameters`, `flip_normal` and changes of the scalar. Missing: assigning `plane.normal` leaves the
matrix of the former normal (`C64_setter_fails`). -/
theorem C64_plane_frame_partial (n : V3 ℝ) (c : ℝ) (ops : List PlaneOp) (hn : n ≠ 0)
    (hops : ∀ o ∈ ops, ∀ v, o ≠ .setNormal v) :
    (ops.foldl PlaneOp.run (PlaneObj.init n c)).FrameOk := by
  have h0 : (PlaneObj.init n c).FrameOk :=
    ⟨normalize_normSq hn, rodrigues_isRotation _ _, frame_of_orientation _ (normalize_normSq hn)⟩
  generalize PlaneObj.init n c = p at h0
  induction ops generalizing p with
  | nil => exact h0
  | cons o ops ih =>
    refine ih (fun o ho => hops o (List.mem_cons_of_mem _ ho)) _ ?_
    have ho := hops o List.mem_cons_self
    have rn : ∀ tx ty, (p.rotateNormal tx ty).FrameOk := by
      intro tx ty
      obtain ⟨e, hu⟩ := rotateNormal_unit p tx ty h0.1
      refine ⟨hu, (rodrigues_isRotation tx ty).mul h0.2.1, ?_⟩
      rw [e]
      show ((rodrigues tx ty).mul p.rot).mulVec _ = _
      rw [M3.mul_mulVec, h0.2.2]
    cases o with
    | setNormal v => exact absurd rfl (ho v)
    | setC c => exact h0
    | rotateNormal tx ty => exact rn tx ty
    | setNormalFromAngles tx ty =>
      refine ⟨setAngles_unit p tx ty, ?_, (rodrigues_ez p tx ty).1⟩
      show (p.setNormalFromAngles tx ty).rot.IsRotation
      unfold PlaneObj.setNormalFromAngles
      simp only
      split_ifs
      · exact one_isRotation
      · exact rodrigues_isRotation tx ty
    | setPlaneParameters s tx ty => exact rn tx ty
    | flipNormal =>
      have hu : (PlaneObj.normalize (-p.normal)).normSq = 1 := run_unit p .flipNormal trivial h0.1
      exact ⟨hu, rodrigues_isRotation _ _, frame_of_orientation _ hu⟩

/-- **C64 (violation).** After `Plane()` and `plane.normal = (1, 0, 0)`, the stored matrix still sends the
vertical axis to itself. -/
theorem C64_setter_fails : ¬ ((PlaneObj.init ⟨0, 0, 1⟩ 0).setNormal ⟨1, 0, 0⟩).FrameOk := by
  have hu : (⟨0, 0, 1⟩ : V3 ℝ).normSq = 1 := by simp [V3.normSq, V3.dot]
  have hu' : (⟨1, 0, 0⟩ : V3 ℝ).normSq = 1 := by simp [V3.normSq, V3.dot]
  rintro ⟨_, _, h⟩
  have h1 : (PlaneObj.init ⟨0, 0, 1⟩ 0).rot.mulVec ⟨0, 0, 1⟩ = ⟨0, 0, 1⟩ := by
    show (rodrigues _ _).mulVec _ = _
    rw [normalize_unit hu]
    exact frame_of_orientation _ hu
  have h2 : (⟨0, 0, 1⟩ : V3 ℝ) = ⟨1, 0, 0⟩ := by
    rw [← h1]
    have : ((PlaneObj.init ⟨0, 0, 1⟩ 0).setNormal ⟨1, 0, 0⟩).normal = (⟨1, 0, 0⟩ : V3 ℝ) := normalize_unit hu'
    rw [this] at h
    exact h
  simp at h2

/-! ## C32 -/

/-- **C32 (what holds).** `coord_in_plane` is an isometry when the stored matrix is a rotation, and its
third coordinate is the signed distance to the plane when the plane is horizontal (normal upwards). Missing:
other planes (`C32_fails`): the code applies the stored rotation instead of its transpose and subtracts
the offset along the normal of the global frame. -/
theorem C32_coord_in_plane_partial (p : PlaneObj) (h : p.FrameOk) :
    (∀ u v, (p.coordInPlane u - p.coordInPlane v).norm = (u - v).norm) ∧
    (p.normal = ⟨0, 0, 1⟩ → ∀ v, (p.coordInPlane v).z = p.plane.dist v) := by
  obtain ⟨hu, hr, hz⟩ := h
  constructor
  · intro u v
    have : p.coordInPlane u - p.coordInPlane v = p.rot.mulVec (u - v) := by
      rw [PlaneObj.coordInPlane, PlaneObj.coordInPlane, M3.mulVec_sub]; abel
    rw [this, hr.norm_mulVec]
  · intro hn v
    have H := hr.eqs
    rw [hn] at hz
    simp only [M3.mulVec, V3.dot, V3.ext_iff] at hz
    obtain ⟨z0, z1, z2⟩ := hz
    simp only [PlaneObj.coordInPlane, M3.mulVec, V3.add_z, V3.smul_z, hn, PlaneObj.plane, Plane.dist,
      V3.dot]
    have hi : p.rot.r2.z = 1 := by linarith
    have e := H.r2
    rw [hi] at e
    have hx : p.rot.r2.x = 0 := mul_self_eq_zero.1 (by
      nlinarith [mul_self_nonneg p.rot.r2.x, mul_self_nonneg p.rot.r2.y])
    have hy : p.rot.r2.y = 0 := mul_self_eq_zero.1 (by
      nlinarith [mul_self_nonneg p.rot.r2.x, mul_self_nonneg p.rot.r2.y])
    rw [hx, hy, hi]; ring

/-- **C32 (violation).** For the vertical plane `Plane((1, 0, 0), 0)` the point `(1, 0, 0)` is at
distance one and its third coordinate is `-1`. -/
theorem C32_fails : ∃ p : PlaneObj, p = PlaneObj.init ⟨1, 0, 0⟩ 0 ∧ p.FrameOk ∧
    p.plane.dist ⟨1, 0, 0⟩ = 1 ∧ (p.coordInPlane ⟨1, 0, 0⟩).z = -1 := by
  have hu : (⟨1, 0, 0⟩ : V3 ℝ).normSq = 1 := by simp [V3.normSq, V3.dot]
  refine ⟨_, rfl, C64_plane_frame_partial ⟨1, 0, 0⟩ 0 [] (V3.ne_zero_of_unit hu) (by simp), ?_, ?_⟩
  · simp only [PlaneObj.init, PlaneObj.plane, Plane.dist, normalize_unit hu]
    simp [V3.dot]
  · have ho : PlaneObj.orientation ⟨1, 0, 0⟩ = (0, π / 2) := by
      have : atan2 1 0 = π / 2 := by
        have := atan2_polar (l := 1) (t := π / 2) one_pos (by linarith [Real.pi_pos]) (by linarith [Real.pi_pos])
        simpa using this
      simp [PlaneObj.orientation, this]
    have hs : √(π / 2 * (π / 2)) = π / 2 := Real.sqrt_mul_self (by positivity)
    have hne : π / 2 ≠ 0 := by positivity
    simp only [PlaneObj.init, PlaneObj.coordInPlane, normalize_unit hu, ho, rodrigues, mul_zero, zero_add,
      hs, hne, if_false, M3.mulVec, V3.dot, Real.sin_pi_div_two, div_self hne]
    simp

/-! ## C33 -/

/-- **C33 (what holds).** `flip_normal` negates the normal; applied twice it restores normal and scalar; for
a plane through the origin it exchanges the two sides. In general the distance becomes `-dist - 2 c`.
Missing: planes with `c ≠ 0` (`C33_fails`). -/
theorem C33_flip_normal_partial (p : PlaneObj) (hu : p.normal.normSq = 1) :
    p.flipNormal.normal = -p.normal ∧
    p.flipNormal.flipNormal.plane = p.plane ∧
    (∀ v, p.flipNormal.plane.dist v = -p.plane.dist v - 2 * p.c) ∧
    (p.c = 0 → ∀ v, p.flipNormal.plane.dist v = -p.plane.dist v) := by
  have h1 : p.flipNormal.normal = -p.normal := by
    show PlaneObj.normalize (-p.normal) = _
    apply normalize_unit; rw [V3.normSq_neg, hu]
  have hc : p.flipNormal.c = p.c := rfl
  have h3 : ∀ v, p.flipNormal.plane.dist v = -p.plane.dist v - 2 * p.c := by
    intro v
    simp only [PlaneObj.plane, Plane.dist, h1, hc, V3.dot_neg]; ring
  refine ⟨h1, ?_, h3, ?_⟩
  · show (⟨PlaneObj.normalize (-p.flipNormal.normal), p.c⟩ : Plane ℝ) = _
    rw [h1, neg_neg, normalize_unit hu]; rfl
  · intro h0 v; rw [h3, h0]; ring

/-- **C33 (violation).** Flipping the horizontal plane `z = 1` gives the plane `z = -1`: the point
`(0, 0, 1)` is on the first and not on the second. -/
theorem C33_fails : ∃ p : PlaneObj, p = PlaneObj.init ⟨0, 0, 1⟩ 1 ∧
    p.plane.dist ⟨0, 0, 1⟩ = 0 ∧ p.flipNormal.plane.dist ⟨0, 0, 1⟩ ≠ 0 := by
  have hu : (⟨0, 0, 1⟩ : V3 ℝ).normSq = 1 := by simp [V3.normSq, V3.dot]
  have hd : (PlaneObj.init ⟨0, 0, 1⟩ 1).plane.dist ⟨0, 0, 1⟩ = 0 := by
    simp only [PlaneObj.init, PlaneObj.plane, Plane.dist, normalize_unit hu]
    simp [V3.dot]
  refine ⟨_, rfl, hd, ?_⟩
  rw [(C33_flip_normal_partial (PlaneObj.init ⟨0, 0, 1⟩ 1) (normalize_normSq (V3.ne_zero_of_unit hu))).2.2.1,
    hd]
  show (-0 - 2 * 1 : ℝ) ≠ 0
  norm_num

/-! ## C67 -/

/-- **C67 (what holds).** For a horizontal plane (normal upwards), `set_plane_parameters(scalar, theta_x, theta_y)` rotates
the plane about its point on the vertical axis, by the rotation of vector `(theta_x, theta_y, 0)`, then translates it by
`scalar` along its new normal. Missing: other planes (`C67_fails`). -/
theorem C67_set_plane_parameters_partial (p : PlaneObj) (h : p.normal = ⟨0, 0, 1⟩) (scalar tx ty : ℝ) (u : V3 ℝ) :
    (p.setPlaneParameters scalar tx ty).plane.dist
      (⟨0, 0, p.c⟩ + (rodrigues tx ty).mulVec u + scalar • (rodrigues tx ty).mulVec ⟨0, 0, 1⟩) =
      p.plane.dist (⟨0, 0, p.c⟩ + u) := by
  have hu : p.normal.normSq = 1 := by rw [h]; simp [V3.normSq, V3.dot]
  obtain ⟨e, _⟩ := rotateNormal_unit p tx ty hu
  have hz : ((rodrigues tx ty).mulVec ⟨0, 0, 1⟩).z = Real.cos (Real.sqrt (tx * tx + ty * ty)) := by
    unfold rodrigues
    by_cases h0 : Real.sqrt (tx * tx + ty * ty) = 0
    · simp [M3.mulVec, V3.dot, h0]
    · simp [M3.mulVec, V3.dot, h0]
  have hd := (rodrigues_isRotation tx ty).dot_mulVec
  have d1 := hd u ⟨0, 0, 1⟩
  have d2 := hd ⟨0, 0, 1⟩ ⟨0, 0, 1⟩
  simp only [PlaneObj.setPlaneParameters, PlaneObj.plane, Plane.dist]
  rw [e, h, ← hz]
  generalize (rodrigues tx ty).mulVec ⟨0, 0, 1⟩ = n at *
  generalize (rodrigues tx ty).mulVec u = w at *
  simp only [V3.dot, V3.add_x, V3.add_y, V3.add_z, V3.smul_x, V3.smul_y, V3.smul_z] at *
  linear_combination d1 + scalar * d2

/-- **C67 (violation).** The plane `3x + 4z = 4` crosses the vertical axis at height 1. After a rotation of a quarter of a
turn about `Oy` and no translation the plane does not contain this point. -/
theorem C67_fails : ∃ p : PlaneObj, p = PlaneObj.init ⟨3 / 5, 0, 4 / 5⟩ (4 / 5) ∧ p.plane.dist ⟨0, 0, 1⟩ = 0 ∧
    (p.setPlaneParameters 0 0 (Real.pi / 2)).plane.dist ⟨0, 0, 1⟩ ≠ 0 := by
  have hu : (⟨3 / 5, 0, 4 / 5⟩ : V3 ℝ).normSq = 1 := by simp [V3.normSq, V3.dot]; norm_num
  have hn : (PlaneObj.init ⟨3 / 5, 0, 4 / 5⟩ (4 / 5)).normal = ⟨3 / 5, 0, 4 / 5⟩ := normalize_unit hu
  have hc : (PlaneObj.init ⟨3 / 5, 0, 4 / 5⟩ (4 / 5)).c = 4 / 5 := rfl
  refine ⟨_, rfl, ?_, ?_⟩
  · simp only [PlaneObj.plane, Plane.dist, hn, hc]; simp [V3.dot]
  · obtain ⟨e, _⟩ := rotateNormal_unit (PlaneObj.init ⟨3 / 5, 0, 4 / 5⟩ (4 / 5)) 0 (Real.pi / 2) (by rw [hn]; exact hu)
    have hpi : Real.sqrt (Real.pi / 2 * (Real.pi / 2)) = Real.pi / 2 := Real.sqrt_mul_self (by positivity)
    have hpi0 : Real.pi / 2 ≠ 0 := by positivity
    simp only [PlaneObj.setPlaneParameters, PlaneObj.plane, Plane.dist]
    rw [e, hn, hc]
    simp only [rodrigues, mul_zero, zero_add, hpi, hpi0, if_false, Real.cos_pi_div_two, Real.sin_pi_div_two]
    have := Real.pi_ne_zero
    simp [M3.mulVec, V3.dot]

/-! ## Non-vacuity -/

example : (PlaneObj.init ⟨0, 0, 1⟩ 3).normal = ⟨0, 0, 1⟩ := normalize_unit (by simp [V3.normSq, V3.dot])

example : (⟨⟨0, 0, 1⟩, 2⟩ : Plane ℚ).edgeIntersection ⟨1, 1, 1⟩ ⟨3, 1, 5⟩ = .ok (some ⟨3 / 2, 1, 2⟩) := by
  decide +kernel
example : (⟨⟨0, 0, 1⟩, 2⟩ : Plane ℚ).dist ⟨1, 1, 1⟩ * (⟨⟨0, 0, 1⟩, 2⟩ : Plane ℚ).dist ⟨3, 1, 5⟩ ≤ 0 ∧
    ¬ ((⟨⟨0, 0, 1⟩, 2⟩ : Plane ℚ).dist ⟨1, 1, 1⟩ = 0 ∧ (⟨⟨0, 0, 1⟩, 2⟩ : Plane ℚ).dist ⟨3, 1, 5⟩ = 0) := by
  decide +kernel
example : (⟨⟨2 / 3, 1 / 3, -2 / 3⟩, 5⟩ : Plane ℚ).normal.normSq = 1 := by decide +kernel
example : ∀ o ∈ [PlaneOp.rotateNormal 1 2, .setC 3, .flipNormal, .setNormal ⟨1, 2, 3⟩], o.Valid := by
  simp [PlaneOp.Valid, V3.ext_iff]

end MM
