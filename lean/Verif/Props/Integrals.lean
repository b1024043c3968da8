import Verif.Proofs.Integrals
import Verif.Proofs.FaceProps
import Verif.Props.Motion

/-!
# C25: closed-form triangle integrals, C26: volume
-/

namespace MM

set_option linter.unusedSectionVars false

/-- The fifteen functions integrated over each face (documented in mesh.py:2053-2067). -/
def integrand : Fin 15 → V3 ℝ → ℝ :=
  ![fun p => p.x, fun p => p.y, fun p => p.z,
    fun p => p.y * p.z, fun p => p.x * p.z, fun p => p.x * p.y,
    fun p => p.x ^ 2, fun p => p.y ^ 2, fun p => p.z ^ 2,
    fun p => p.x ^ 3, fun p => p.y ^ 3, fun p => p.z ^ 3,
    fun p => p.x ^ 2 * p.y, fun p => p.y ^ 2 * p.z, fun p => p.z ^ 2 * p.x]

/-- Integral over a triangle of the product of three affine functions with the given corner values. -/
theorem triangle_affine3 (a0 a1 a2 b0 b1 b2 c0 c1 c2 : ℝ) :
    ∫ u in (0 : ℝ)..1, ∫ v in (0 : ℝ)..(1 - u),
      ((a0 + u * (a1 - a0) + v * (a2 - a0)) * (b0 + u * (b1 - b0) + v * (b2 - b0)) *
        (c0 + u * (c1 - c0) + v * (c2 - c0))) =
    ((a0 + a1 + a2) * (b0 + b1 + b2) * (c0 + c1 + c2) + (a0 + a1 + a2) * (b0 * c0 + b1 * c1 + b2 * c2) +
      (b0 + b1 + b2) * (a0 * c0 + a1 * c1 + a2 * c2) + (c0 + c1 + c2) * (a0 * b0 + a1 * b1 + a2 * b2) +
      2 * (a0 * b0 * c0 + a1 * b1 * c1 + a2 * b2 * c2)) / 120 := by
  rw [triangle_cubic (a0 * b0 * c0)
    ((a1 - a0) * b0 * c0 + a0 * (b1 - b0) * c0 + a0 * b0 * (c1 - c0))
    ((a2 - a0) * b0 * c0 + a0 * (b2 - b0) * c0 + a0 * b0 * (c2 - c0))
    ((a1 - a0) * (b1 - b0) * c0 + a0 * (b1 - b0) * (c1 - c0) + (a1 - a0) * b0 * (c1 - c0))
    ((a1 - a0) * (b2 - b0) * c0 + a0 * (b1 - b0) * (c2 - c0) + (a1 - a0) * b0 * (c2 - c0) +
     (a2 - a0) * (b1 - b0) * c0 + a0 * (b2 - b0) * (c1 - c0) + (a2 - a0) * b0 * (c1 - c0))
    ((a2 - a0) * (b2 - b0) * c0 + a0 * (b2 - b0) * (c2 - c0) + (a2 - a0) * b0 * (c2 - c0))
    ((a1 - a0) * (b1 - b0) * (c1 - c0))
    ((a1 - a0) * (b1 - b0) * (c2 - c0) + (a1 - a0) * (b2 - b0) * (c1 - c0) + (a2 - a0) * (b1 - b0) * (c1 - c0))
    ((a2 - a0) * (b2 - b0) * (c1 - c0) + (a2 - a0) * (b1 - b0) * (c2 - c0) + (a1 - a0) * (b2 - b0) * (c2 - c0))
    ((a2 - a0) * (b2 - b0) * (c2 - c0)) (fun u v => by ring)]
  ring

theorem triangleIntegral_affine3 (a b c : V3 ℝ → ℝ)
    (ha : ∀ p q r : V3 ℝ, ∀ u v : ℝ, a (p + u • (q - p) + v • (r - p)) = a p + u * (a q - a p) + v * (a r - a p))
    (hb : ∀ p q r : V3 ℝ, ∀ u v : ℝ, b (p + u • (q - p) + v • (r - p)) = b p + u * (b q - b p) + v * (b r - b p))
    (hc : ∀ p q r : V3 ℝ, ∀ u v : ℝ, c (p + u • (q - p) + v • (r - p)) = c p + u * (c q - c p) + v * (c r - c p))
    (p q r : V3 ℝ) :
    triangleIntegral (fun x => a x * b x * c x) p q r = triDelta p q r *
    (((a p + a q + a r) * (b p + b q + b r) * (c p + c q + c r) +
      (a p + a q + a r) * (b p * c p + b q * c q + b r * c r) +
      (b p + b q + b r) * (a p * c p + a q * c q + a r * c r) +
      (c p + c q + c r) * (a p * b p + a q * b q + a r * b r) +
      2 * (a p * b p * c p + a q * b q * c q + a r * b r * c r)) / 120) := by
  rw [triangleIntegral]
  simp only [ha, hb, hc]
  rw [triangle_affine3]; rfl

/-- The coordinates and the constant one are affine. -/
theorem affine_x (p q r : V3 ℝ) (u v : ℝ) :
    (p + u • (q - p) + v • (r - p)).x = p.x + u * (q.x - p.x) + v * (r.x - p.x) := by simp
theorem affine_y (p q r : V3 ℝ) (u v : ℝ) :
    (p + u • (q - p) + v • (r - p)).y = p.y + u * (q.y - p.y) + v * (r.y - p.y) := by simp
theorem affine_z (p q r : V3 ℝ) (u v : ℝ) :
    (p + u • (q - p) + v • (r - p)).z = p.z + u * (q.z - p.z) + v * (r.z - p.z) := by simp
theorem affine_one (p q r : V3 ℝ) (u v : ℝ) :
    (fun _ => (1 : ℝ)) (p + u • (q - p) + v • (r - p)) = 1 + u * (1 - 1) + v * (1 - 1) := by simp

/-- **C25** (twelve of the fifteen rows). For every triangle, the values of rows 0–2 and 6–14 are the
surface integrals of `x, y, z, x², y², z², x³, y³, z³, x²y, y²z, z²x`.  Missing: rows 3–5 (`yz, xz, xy`),
for which the code is wrong, see `C25_fails`. -/
theorem C25_triangle_integrals_partial (p q r : V3 ℝ) (i : Fin 15) (h3 : i ≠ 3) (h4 : i ≠ 4) (h5 : i ≠ 5) :
    triIntegrals p q r i = triangleIntegral (integrand i) p q r := by
  have key := triangleIntegral_affine3
  match i, h3, h4, h5 with
  | 0, _, _, _ =>
    have := key (·.x) (fun _ => 1) (fun _ => 1) affine_x affine_one affine_one p q r
    simp only [mul_one] at this
    show triDelta p q r * pf1 p.x q.x r.x / 6 = triangleIntegral (fun p => p.x) p q r
    rw [this, pf1]; ring
  | 1, _, _, _ =>
    have := key (·.y) (fun _ => 1) (fun _ => 1) affine_y affine_one affine_one p q r
    simp only [mul_one] at this
    show triDelta p q r * pf1 p.y q.y r.y / 6 = triangleIntegral (fun p => p.y) p q r
    rw [this, pf1]; ring
  | 2, _, _, _ =>
    have := key (·.z) (fun _ => 1) (fun _ => 1) affine_z affine_one affine_one p q r
    simp only [mul_one] at this
    show triDelta p q r * pf1 p.z q.z r.z / 6 = triangleIntegral (fun p => p.z) p q r
    rw [this, pf1]; ring
  | 3, h, _, _ => exact absurd rfl h
  | 4, _, h, _ => exact absurd rfl h
  | 5, _, _, h => exact absurd rfl h
  | 6, _, _, _ =>
    have := key (·.x) (·.x) (fun _ => 1) affine_x affine_x affine_one p q r
    simp only [mul_one, ← sq] at this
    show triDelta p q r * pf2 p.x q.x r.x / 12 = triangleIntegral (fun p => p.x ^ 2) p q r
    rw [this, pf2, pf1, pt2]; ring
  | 7, _, _, _ =>
    have := key (·.y) (·.y) (fun _ => 1) affine_y affine_y affine_one p q r
    simp only [mul_one, ← sq] at this
    show triDelta p q r * pf2 p.y q.y r.y / 12 = triangleIntegral (fun p => p.y ^ 2) p q r
    rw [this, pf2, pf1, pt2]; ring
  | 8, _, _, _ =>
    have := key (·.z) (·.z) (fun _ => 1) affine_z affine_z affine_one p q r
    simp only [mul_one, ← sq] at this
    show triDelta p q r * pf2 p.z q.z r.z / 12 = triangleIntegral (fun p => p.z ^ 2) p q r
    rw [this, pf2, pf1, pt2]; ring
  | 9, _, _, _ =>
    have := key (·.x) (·.x) (·.x) affine_x affine_x affine_x p q r
    have e : (fun p : V3 ℝ => p.x ^ 3) = fun p => p.x * p.x * p.x := by funext; ring
    show triDelta p q r * pf3 p.x q.x r.x / 20 = triangleIntegral (fun p => p.x ^ 3) p q r
    rw [e, this, pf3, pf2, pf1, pt2]; ring
  | 10, _, _, _ =>
    have := key (·.y) (·.y) (·.y) affine_y affine_y affine_y p q r
    have e : (fun p : V3 ℝ => p.y ^ 3) = fun p => p.y * p.y * p.y := by funext; ring
    show triDelta p q r * pf3 p.y q.y r.y / 20 = triangleIntegral (fun p => p.y ^ 3) p q r
    rw [e, this, pf3, pf2, pf1, pt2]; ring
  | 11, _, _, _ =>
    have := key (·.z) (·.z) (·.z) affine_z affine_z affine_z p q r
    have e : (fun p : V3 ℝ => p.z ^ 3) = fun p => p.z * p.z * p.z := by funext; ring
    show triDelta p q r * pf3 p.z q.z r.z / 20 = triangleIntegral (fun p => p.z ^ 3) p q r
    rw [e, this, pf3, pf2, pf1, pt2]; ring
  | 12, _, _, _ =>
    have := key (·.x) (·.x) (·.y) affine_x affine_x affine_y p q r
    simp only [← sq] at this
    show triDelta p q r * (p.y * pg0 p.x q.x r.x + q.y * pg1 p.x q.x r.x + r.y * pg2 p.x q.x r.x) / 60 =
      triangleIntegral (fun p => p.x ^ 2 * p.y) p q r
    rw [this, pg0, pg1, pg2, pf2, pf1, pt2]; ring
  | 13, _, _, _ =>
    have := key (·.y) (·.y) (·.z) affine_y affine_y affine_z p q r
    simp only [← sq] at this
    show triDelta p q r * (p.z * pg0 p.y q.y r.y + q.z * pg1 p.y q.y r.y + r.z * pg2 p.y q.y r.y) / 60 =
      triangleIntegral (fun p => p.y ^ 2 * p.z) p q r
    rw [this, pg0, pg1, pg2, pf2, pf1, pt2]; ring
  | 14, _, _, _ =>
    have := key (·.z) (·.z) (·.x) affine_z affine_z affine_x p q r
    simp only [← sq] at this
    show triDelta p q r * (p.x * pg0 p.z q.z r.z + q.x * pg1 p.z q.z r.z + r.x * pg2 p.z q.z r.z) / 60 =
      triangleIntegral (fun p => p.z ^ 2 * p.x) p q r
    rw [this, pg0, pg1, pg2, pf2, pf1, pt2]; ring

/-- The rows 3–5 are wrong: over the triangle `(0,0,0) (0,1,0) (0,0,1)` of the plane `x = 0` the code gives
`0` for `∫ yz`, which is `1/24`; the same holds for the two other products. -/
theorem C25_fails :
    (triIntegrals ⟨0, 0, 0⟩ ⟨0, 1, 0⟩ ⟨0, 0, 1⟩ 3 = 0 ∧
      triangleIntegral (integrand 3) ⟨0, 0, 0⟩ ⟨0, 1, 0⟩ ⟨0, 0, 1⟩ = 1 / 24) ∧
    (triIntegrals ⟨0, 0, 0⟩ ⟨1, 0, 0⟩ ⟨0, 0, 1⟩ 4 = 0 ∧
      triangleIntegral (integrand 4) ⟨0, 0, 0⟩ ⟨1, 0, 0⟩ ⟨0, 0, 1⟩ = 1 / 24) ∧
    (triIntegrals ⟨0, 0, 0⟩ ⟨1, 0, 0⟩ ⟨0, 1, 0⟩ 5 = 0 ∧
      triangleIntegral (integrand 5) ⟨0, 0, 0⟩ ⟨1, 0, 0⟩ ⟨0, 1, 0⟩ = 1 / 24) := by
  have key := triangleIntegral_affine3
  refine ⟨⟨?_, ?_⟩, ⟨?_, ?_⟩, ⟨?_, ?_⟩⟩
  · simp [triIntegrals, pf1]
  · have := key (·.y) (·.z) (fun _ => 1) affine_y affine_z affine_one ⟨0, 0, 0⟩ ⟨0, 1, 0⟩ ⟨0, 0, 1⟩
    simp only [mul_one] at this
    show triangleIntegral (fun p => p.y * p.z) _ _ _ = _
    rw [this]; simp [triDelta, V3.norm, V3.cross, V3.normSq, V3.dot]; norm_num
  · simp [triIntegrals, pf1]
  · have := key (·.x) (·.z) (fun _ => 1) affine_x affine_z affine_one ⟨0, 0, 0⟩ ⟨1, 0, 0⟩ ⟨0, 0, 1⟩
    simp only [mul_one] at this
    show triangleIntegral (fun p => p.x * p.z) _ _ _ = _
    rw [this]; simp [triDelta, V3.norm, V3.cross, V3.normSq, V3.dot]; norm_num
  · simp [triIntegrals, pf1]
  · have := key (·.x) (·.y) (fun _ => 1) affine_x affine_y affine_one ⟨0, 0, 0⟩ ⟨1, 0, 0⟩ ⟨0, 1, 0⟩
    simp only [mul_one] at this
    show triangleIntegral (fun p => p.x * p.y) _ _ _ = _
    rw [this]; simp [triDelta, V3.norm, V3.cross, V3.normSq, V3.dot]; norm_num

end MM
