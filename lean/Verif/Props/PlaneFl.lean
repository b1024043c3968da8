import Verif.Proofs.PlaneFl
import Verif.Proofs.Rounding

/-!
# The plane in floating point (C118, C119)
-/

namespace MM

variable {K : Type*} [Field K] [LinearOrder K] [IsStrictOrderedRing K]

/-- **C118.** The computed distance of a point to a plane is wrong by at most `g S + u (|d| + g S)`, `d` being the distance,
`S` the sum of the absolute values of the terms of the scalar product and `g` the relative error of scalar products. So a
point farther than this from the two planes at distance `tol` is classified as by exact arithmetic. -/
theorem C118_classification (u g : K) (hu : 0 ≤ u) (rnd : K → K) (hr : IsRounding u rnd) (dot : V3 K → V3 K → K)
    (hd : IsDot g dot) (p : Plane K) (tol : K) (v : V3 K) :
    let d := v.x * p.normal.x + v.y * p.normal.y + v.z * p.normal.z - p.c
    let err := g * absDot v p.normal + u * (|d| + g * absDot v p.normal)
    |p.distFl rnd dot v - d| ≤ err ∧
      (err < |d - tol| → err < |d + tol| →
        (p.distFl rnd dot v > tol ↔ d > tol) ∧ (p.distFl rnd dot v < -tol ↔ d < -tol) ∧
        (|p.distFl rnd dot v| < tol ↔ |d| < tol)) := by
  intro d err
  have h : |p.distFl rnd dot v - d| ≤ err := distFl_err hr hu hd p v
  refine ⟨h, fun h1 h2 => ?_⟩
  have h' := abs_le.1 h
  have a1 : p.distFl rnd dot v > tol ↔ d > tol := by
    rcases lt_abs.1 h1 with k | k <;> constructor <;> intro _ <;> linarith [h'.1, h'.2]
  have a2 : p.distFl rnd dot v < -tol ↔ d < -tol := by
    rcases lt_abs.1 h2 with k | k <;> constructor <;> intro _ <;> linarith [h'.1, h'.2]
  refine ⟨a1, a2, ?_⟩
  rw [abs_lt, abs_lt]
  rcases lt_abs.1 h1 with k | k <;> rcases lt_abs.1 h2 with l | l <;> constructor <;> rintro ⟨_, _⟩ <;> constructor <;>
    linarith [h'.1, h'.2]

open Clipper in
/-- **C118.** If every vertex of a mesh is clear of the two planes at distance `tol`, then in floating point the clipper
refuses the mesh in the same cases as in exact arithmetic, and otherwise gives the same three parts: the faces above, the
faces below, and the faces to cut. -/
theorem C118_partition (u g : K) (hu : 0 ≤ u) (rnd : K → K) (hr : IsRounding u rnd) (dot : V3 K → V3 K → K)
    (hd : IsDot g dot) (p : Plane K) (tol : K) (m : Mesh K)
    (hclear : ∀ v ∈ m.vertices,
      g * absDot v p.normal + u * (|p.dist v| + g * absDot v p.normal) < |p.dist v - tol| ∧
      g * absDot v p.normal + u * (|p.dist v| + g * absDot v p.normal) < |p.dist v + tol|) :
    (∀ e, vertexDistsFl rnd dot p tol m = .error e ↔ vertexDists p tol m = .error e) ∧
    (∀ ds, vertexDistsFl rnd dot p tol m = .ok ds → ∃ ds', vertexDists p tol m = .ok ds' ∧
      ((partition tol ds m).toOption.map fun q => (q.upper, q.crown, q.lower)) =
        ((partition tol ds' m).toOption.map fun q => (q.upper, q.crown, q.lower))) := by
  have hc : ∀ v ∈ m.vertices, isAbove tol (p.distFl rnd dot v) = isAbove tol (p.dist v) ∧
      isBelow tol (p.distFl rnd dot v) = isBelow tol (p.dist v) := by
    intro v hv
    obtain ⟨h1, h2, -⟩ := (C118_classification u g hu rnd hr dot hd p tol v).2 (hclear v hv).1 (hclear v hv).2
    exact ⟨decide_eq_decide.2 h1, decide_eq_decide.2 h2⟩
  have all_eq : ∀ mask : K → Bool, (∀ v ∈ m.vertices, mask (p.distFl rnd dot v) = mask (p.dist v)) →
      (m.vertices.map (p.distFl rnd dot)).all mask = (m.vertices.map p.dist).all mask := by
    intro mask h
    rw [List.all_map, List.all_map]
    rw [Bool.eq_iff_iff, List.all_eq_true, List.all_eq_true]
    constructor
    · intro k v hv; have := k v hv; simp only [Function.comp] at this ⊢; rw [← h v hv]; exact this
    · intro k v hv; have := k v hv; simp only [Function.comp] at this ⊢; rw [h v hv]; exact this
  have ha := all_eq (isAbove tol) fun v hv => (hc v hv).1
  have hb := all_eq (isBelow tol) fun v hv => (hc v hv).2
  have hget : ∀ mask : K → Bool, (∀ v ∈ m.vertices, mask (p.distFl rnd dot v) = mask (p.dist v)) → ∀ f,
      allFour mask (m.vertices.map (p.distFl rnd dot)) f = allFour mask (m.vertices.map p.dist) f := by
    intro mask h f
    unfold allFour
    congr 2
    refine List.filter_congr fun i _ => ?_
    rw [List.getD_eq_getElem?_getD, List.getD_eq_getElem?_getD, List.getElem?_map, List.getElem?_map]
    cases hi : m.vertices[i]? with
    | none => rfl
    | some v => exact h v (List.mem_of_getElem? hi)
  unfold vertexDistsFl vertexDists
  simp only [ha, hb]
  constructor
  · intro e
    split_ifs <;> simp
  · intro ds hds
    split_ifs at hds ⊢ with h1 h2
    cases hds
    refine ⟨_, rfl, ?_⟩
    have i1 : aboveIds tol (m.vertices.map (p.distFl rnd dot)) m = aboveIds tol (m.vertices.map p.dist) m := by
      unfold aboveIds
      refine List.filter_congr fun k _ => hget _ (fun v hv => (hc v hv).1) _
    have i2 : belowIds tol (m.vertices.map (p.distFl rnd dot)) m = belowIds tol (m.vertices.map p.dist) m := by
      unfold belowIds
      refine List.filter_congr fun k _ => hget _ (fun v hv => (hc v hv).2) _
    have i3 : crownIds tol (m.vertices.map (p.distFl rnd dot)) m = crownIds tol (m.vertices.map p.dist) m := by
      unfold crownIds
      refine List.filter_congr fun k _ => ?_
      rw [hget _ (fun v hv => (hc v hv).1), hget _ (fun v hv => (hc v hv).2)]
    unfold partition
    rw [i1, i2, i3]
    cases m.extractFaces (aboveIds tol (m.vertices.map p.dist) m) <;> try rfl
    cases m.extractFaces (crownIds tol (m.vertices.map p.dist) m) <;> try rfl
    cases m.extractFaces (belowIds tol (m.vertices.map p.dist) m) <;> rfl

/-- **C119.** An edge with an end classified above the plane and the other below is cut without error in floating point, as
soon as the tolerance of the clipper exceeds `2 g (1 + u) B`, `B` being a bound of the absolute values in play; the parameter
is between `0` and `1`; the point is, up to the relative error of three roundings, on the edge, and it is in the plane up
to `B` times a quantity of the order of `g + 6 u`. The products of the classification (`dot'`) and of the intersection
(`dot`) may be rounded differently. -/
theorem C119_intersection (u g : K) (hu : 0 ≤ u) (hu1 : u < 1) (rnd : K → K) (hr : IsRounding u rnd) (hone : rnd 1 = 1)
    (dot dot' : V3 K → V3 K → K) (hd : IsDot g dot) (hd' : IsDot g dot') (p : Plane K) (tol B : K) (p0 p1 : V3 K)
    (hB0 : absDot p0 p.normal + |p.c| ≤ B) (hB1 : absDot p1 p.normal + |p.c| ≤ B) (hg : 0 ≤ g)
    (htol : 2 * g * (1 + u) * B ≤ tol)
    (hside : (p.distFl rnd dot' p0 > tol ∧ p.distFl rnd dot' p1 < -tol) ∨
      (p.distFl rnd dot' p0 < -tol ∧ p.distFl rnd dot' p1 > tol)) :
    ∃ q t, p.edgeIntersectionFl rnd dot p0 p1 = .ok (some q) ∧ 0 ≤ t ∧ t ≤ 1 ∧
      |q.x - ((1 - t) * p0.x + t * p1.x)| ≤ ((1 + u) ^ 3 - 1) * ((1 - t) * |p0.x| + t * |p1.x|) ∧
      |q.y - ((1 - t) * p0.y + t * p1.y)| ≤ ((1 + u) ^ 3 - 1) * ((1 - t) * |p0.y| + t * |p1.y|) ∧
      |q.z - ((1 - t) * p0.z + t * p1.z)| ≤ ((1 + u) ^ 3 - 1) * ((1 - t) * |p0.z| + t * |p1.z|) ∧
      |q.x * p.normal.x + q.y * p.normal.y + q.z * p.normal.z - p.c| ≤
        (g + ((1 + u) ^ 2 / (1 - u) - 1) * (1 + 3 * g) + ((1 + u) ^ 3 - 1)) * B := by
  obtain ⟨q, t, hq, ht0, ht1, cx, cy, cz, hmain⟩ := intersectionFl_spec u g hu hu1 rnd hr hone dot dot' hd hd' p tol B p0 p1
    hB0 hB1 hg htol hside
  refine ⟨q, t, hq, ht0, ht1, cx, cy, cz, ?_⟩
  have S0 : absDot p0 p.normal ≤ B := le_trans (le_add_of_nonneg_right (abs_nonneg _)) hB0
  have S1 : absDot p1 p.normal ≤ B := le_trans (le_add_of_nonneg_right (abs_nonneg _)) hB1
  have hw : 0 ≤ (1 + u) ^ 3 - 1 := by nlinarith [mul_nonneg hu hu, mul_nonneg hu (mul_nonneg hu hu)]
  have s0 : 0 ≤ 1 - t := by linarith
  set w3 := (1 + u) ^ 3 - 1
  set eta := (1 + u) ^ 2 / (1 - u) - 1
  -- the roundings of the coordinates
  have key : ∀ r a0 a1 n : K, |r - ((1 - t) * a0 + t * a1)| ≤ w3 * ((1 - t) * |a0| + t * |a1|) →
      |(r - ((1 - t) * a0 + t * a1)) * n| ≤ w3 * ((1 - t) * |a0 * n| + t * |a1 * n|) := by
    intro r a0 a1 n h
    rw [abs_mul, abs_mul, abs_mul]
    refine (mul_le_mul_of_nonneg_right h (abs_nonneg n)).trans (le_of_eq ?_)
    ring
  have kx := key _ _ _ p.normal.x cx
  have ky := key _ _ _ p.normal.y cy
  have kz := key _ _ _ p.normal.z cz
  set rx := q.x - ((1 - t) * p0.x + t * p1.x) with hrx
  set ry := q.y - ((1 - t) * p0.y + t * p1.y) with hry
  set rz := q.z - ((1 - t) * p0.z + t * p1.z) with hrz
  have hround : |rx * p.normal.x + ry * p.normal.y + rz * p.normal.z| ≤ w3 * B := by
    calc _ ≤ |rx * p.normal.x| + |ry * p.normal.y| + |rz * p.normal.z| :=
          (abs_add_le _ _).trans (add_le_add_left (abs_add_le _ _) _)
      _ ≤ w3 * ((1 - t) * absDot p0 p.normal + t * absDot p1 p.normal) := by
        refine (add_le_add (add_le_add kx ky) kz).trans (le_of_eq ?_)
        unfold absDot; ring
      _ ≤ w3 * B := by
        refine mul_le_mul_of_nonneg_left ?_ hw
        have := mul_le_mul_of_nonneg_left S0 s0
        have := mul_le_mul_of_nonneg_left S1 ht0
        linarith
  have id2 : q.x * p.normal.x + q.y * p.normal.y + q.z * p.normal.z - p.c =
      ((1 - t) * p.dist p0 + t * p.dist p1) + (rx * p.normal.x + ry * p.normal.y + rz * p.normal.z) := by
    rw [hrx, hry, hrz]
    simp only [Plane.dist, V3.dot]
    ring
  rw [id2]
  refine (abs_add_le _ _).trans ((add_le_add hmain hround).trans (le_of_eq ?_))
  ring

/-- A plane whose normal is made of doubles, of norm `1` up to the rounding. -/
def flPlane : Plane ℚ := ⟨⟨0, roundBits 53 (3 / 5), roundBits 53 (4 / 5)⟩, 1 / 8⟩

/-- The hypotheses of C118 and C119 are met by doubles, with both orders of summation, for the default tolerance `1e-3` of
the clipper and coordinates around `100`; the intersection is not in the plane. -/
theorem doubles_meet_C119 :
    IsRounding (1 / 2 ^ 53) (roundBits 53) ∧ roundBits 53 1 = 1 ∧
      IsDot ((1 + 1 / 2 ^ 53) ^ 3 - 1) (dotFl (roundBits 53)) ∧ IsDot ((1 + 1 / 2 ^ 53) ^ 3 - 1) (dotFma (roundBits 53)) ∧
      absDot ⟨100, 100, 100⟩ flPlane.normal + |flPlane.c| ≤ 141 ∧
      absDot ⟨90, 70, -100⟩ flPlane.normal + |flPlane.c| ≤ 141 ∧
      (2 : ℚ) * ((1 + 1 / 2 ^ 53) ^ 3 - 1) * (1 + 1 / 2 ^ 53) * 141 ≤ 1 / 1000 ∧
      flPlane.distFl (roundBits 53) (dotFl (roundBits 53)) ⟨100, 100, 100⟩ > 1 / 1000 ∧
      flPlane.distFl (roundBits 53) (dotFl (roundBits 53)) ⟨90, 70, -100⟩ < -(1 / 1000) ∧
      (∃ q, flPlane.edgeIntersectionFl (roundBits 53) (dotFma (roundBits 53)) ⟨100, 100, 100⟩ ⟨90, 70, -100⟩ =
        .ok (some q) ∧ flPlane.dist q ≠ 0) := by
  have hr := roundBits_isRounding (p := 53) (by norm_num)
  refine ⟨hr, by decide +kernel, dotFl_isDot hr (by norm_num), dotFma_isDot hr (by norm_num), by decide +kernel,
    by decide +kernel, by decide +kernel, by decide +kernel, by decide +kernel, ?_⟩
  have h : (match flPlane.edgeIntersectionFl (roundBits 53) (dotFma (roundBits 53)) ⟨100, 100, 100⟩ ⟨90, 70, -100⟩ with
    | .ok (some q) => decide (flPlane.dist q ≠ 0) | _ => false) = true := by decide +kernel
  revert h
  split
  · rename_i q hq; intro h; exact ⟨q, hq, by simpa using h⟩
  · intro h; cases h

/-- A mesh of doubles which is clear of the planes at distance `1e-3` and has faces above, below and to cut. -/
def flMesh : Mesh ℚ :=
  ⟨[⟨0, 0, 1⟩, ⟨1, 0, 1⟩, ⟨1, 1, 1⟩, ⟨1, 0, -1⟩, ⟨1, 1, -3⟩, ⟨2, 0, -3⟩], [⟨0, 1, 2, 0⟩, ⟨1, 3, 2, 1⟩, ⟨3, 4, 5, 3⟩]⟩

/-- The hypotheses of `C118_partition` are met. -/
theorem flMesh_meets_C118 :
    (∀ v ∈ flMesh.vertices,
      ((1 + 1 / 2 ^ 53) ^ 3 - 1) * absDot v flPlane.normal +
        1 / 2 ^ 53 * (|flPlane.dist v| + ((1 + 1 / 2 ^ 53) ^ 3 - 1) * absDot v flPlane.normal) <
          |flPlane.dist v - 1 / 1000| ∧
      ((1 + 1 / 2 ^ 53) ^ 3 - 1) * absDot v flPlane.normal +
        1 / 2 ^ 53 * (|flPlane.dist v| + ((1 + 1 / 2 ^ 53) ^ 3 - 1) * absDot v flPlane.normal) <
          |flPlane.dist v + 1 / 1000|) ∧
      (match Clipper.vertexDistsFl (roundBits 53) (dotFl (roundBits 53)) flPlane (1 / 1000) flMesh with
        | .ok ds => (Clipper.partition (1 / 1000) ds flMesh).toOption.map fun q => (q.upper.nf, q.crown.nf, q.lower.nf)
        | _ => none) = some (1, 1, 1) := by
  constructor <;> decide +kernel

end MM
