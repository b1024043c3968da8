import Verif.Model.Rotations
import Verif.Proofs.FaceProps

/-!
# Scalar equations of rotation matrices
-/

namespace MM

/-- The scalar equations satisfied by the entries (row by row) of a rotation matrix. -/
structure RotEqs (a b c d e f g h i : ℝ) : Prop where
  ca : e * i - f * h = a
  cb : f * g - d * i = b
  cc : d * h - e * g = c
  cd : h * c - i * b = d
  ce : i * a - g * c = e
  cf : g * b - h * a = f
  cg : b * f - c * e = g
  ch : c * d - a * f = h
  ci : a * e - b * d = i
  r0 : a * a + b * b + c * c = 1
  r1 : d * d + e * e + f * f = 1
  r2 : g * g + h * h + i * i = 1
  k0 : a * a + d * d + g * g = 1
  k1 : b * b + e * e + h * h = 1
  k2 : c * c + f * f + i * i = 1
  r01 : a * d + b * e + c * f = 0
  r02 : a * g + b * h + c * i = 0
  r12 : d * g + e * h + f * i = 0
  k01 : a * b + d * e + g * h = 0
  k02 : a * c + d * f + g * i = 0
  k12 : b * c + e * f + h * i = 0

theorem M3.IsRotation.eqs {r : M3 ℝ} (h : r.IsRotation) :
    RotEqs r.r0.x r.r0.y r.r0.z r.r1.x r.r1.y r.r1.z r.r2.x r.r2.y r.r2.z := by
  obtain ⟨h0, h1, h2⟩ := h.rows
  have o := h.orth
  have o' := h.orth'
  simp only [M3.mul, M3.transpose, M3.c0, M3.c1, M3.c2, M3.one, V3.dot, M3.mk.injEq, V3.mk.injEq] at o o'
  simp only [V3.ext_iff, V3.cross] at h0 h1 h2
  obtain ⟨⟨a1, a2, a3⟩, ⟨a4, a5, a6⟩, ⟨a7, a8, a9⟩⟩ := o
  obtain ⟨⟨b1, b2, b3⟩, ⟨b4, b5, b6⟩, ⟨b7, b8, b9⟩⟩ := o'
  obtain ⟨c1, c2, c3⟩ := h0
  obtain ⟨d1, d2, d3⟩ := h1
  obtain ⟨e1, e2, e3⟩ := h2
  constructor <;> assumption

/-- A matrix whose transpose is a right and left inverse and of determinant one, from scalar equations. -/
theorem M3.isRotation_of {a b c d e f g h i : ℝ}
    (k0 : a * a + d * d + g * g = 1) (k1 : b * b + e * e + h * h = 1) (k2 : c * c + f * f + i * i = 1)
    (k01 : a * b + d * e + g * h = 0) (k02 : a * c + d * f + g * i = 0) (k12 : b * c + e * f + h * i = 0)
    (r0 : a * a + b * b + c * c = 1) (r1 : d * d + e * e + f * f = 1) (r2 : g * g + h * h + i * i = 1)
    (r01 : a * d + b * e + c * f = 0) (r02 : a * g + b * h + c * i = 0) (r12 : d * g + e * h + f * i = 0)
    (hdet : a * (e * i - f * h) + b * (f * g - d * i) + c * (d * h - e * g) = 1) :
    (⟨⟨a, b, c⟩, ⟨d, e, f⟩, ⟨g, h, i⟩⟩ : M3 ℝ).IsRotation where
  orth := by
    simp only [M3.mul, M3.transpose, M3.c0, M3.c1, M3.c2, M3.one, V3.dot, M3.mk.injEq, V3.mk.injEq]
    refine ⟨⟨k0, k01, k02⟩, ⟨by linarith, k1, k12⟩, ⟨by linarith, by linarith, k2⟩⟩
  orth' := by
    simp only [M3.mul, M3.transpose, M3.c0, M3.c1, M3.c2, M3.one, V3.dot, M3.mk.injEq, V3.mk.injEq]
    refine ⟨⟨r0, r01, r02⟩, ⟨by linarith, r1, r12⟩, ⟨by linarith, by linarith, r2⟩⟩
  det_one := by
    simp only [M3.det, V3.dot, V3.cross]; linarith

/-- The sixteen products `4 q_i q_j`, in terms of the matrix: a matrix of rank one. -/
theorem RotEqs.rank_one {a b c d e f g h i : ℝ} (H : RotEqs a b c d e f g h i) :
    -- pivot 0
    ((h - f) * (h - f) = (1 + a + e + i) * (1 + a - e - i) ∧
     (c - g) * (c - g) = (1 + a + e + i) * (1 - a + e - i) ∧
     (d - b) * (d - b) = (1 + a + e + i) * (1 - a - e + i) ∧
     (h - f) * (c - g) = (1 + a + e + i) * (d + b) ∧
     (h - f) * (d - b) = (1 + a + e + i) * (g + c) ∧
     (c - g) * (d - b) = (1 + a + e + i) * (h + f)) ∧
    -- pivot 1
    ((d + b) * (d + b) = (1 + a - e - i) * (1 - a + e - i) ∧
     (g + c) * (g + c) = (1 + a - e - i) * (1 - a - e + i) ∧
     (h - f) * (d + b) = (1 + a - e - i) * (c - g) ∧
     (h - f) * (g + c) = (1 + a - e - i) * (d - b) ∧
     (d + b) * (g + c) = (1 + a - e - i) * (h + f)) ∧
    -- pivot 2
    ((h + f) * (h + f) = (1 - a + e - i) * (1 - a - e + i) ∧
     (c - g) * (d + b) = (1 - a + e - i) * (h - f) ∧
     (c - g) * (h + f) = (1 - a + e - i) * (d - b) ∧
     (d + b) * (h + f) = (1 - a + e - i) * (g + c)) ∧
    -- pivot 3
    ((d - b) * (g + c) = (1 - a - e + i) * (h - f) ∧
     (d - b) * (h + f) = (1 - a - e + i) * (c - g) ∧
     (g + c) * (h + f) = (1 - a - e + i) * (d + b)) := by
  obtain ⟨ca, cb, cc, cd, ce, cf, cg, ch, ci, r0, r1, r2, k0, k1, k2, r01, r02, r12, k01, k02, k12⟩ := H
  refine ⟨⟨?_, ?_, ?_, ?_, ?_, ?_⟩, ⟨?_, ?_, ?_, ?_, ?_⟩, ⟨?_, ?_, ?_, ?_⟩, ⟨?_, ?_, ?_⟩⟩
  all_goals grind

end MM
