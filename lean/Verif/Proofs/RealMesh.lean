import Verif.Props.ClipMotion
import Verif.Props.ClipConvex

/-!
# Meshes with rational coordinates, over the reals

The hypotheses of the theorems on real meshes, for meshes with rational coordinates.
-/

namespace MM

set_option linter.unusedSimpArgs false

/-- A point with rational coordinates, over the reals. -/
def V3.real (v : V3 ℚ) : V3 ℝ := ⟨v.x, v.y, v.z⟩

/-- A plane with rational parameters, over the reals. -/
def Plane.real (p : Plane ℚ) : Plane ℝ := ⟨p.normal.real, p.c⟩

lemma V3.real_inj {u v : V3 ℚ} : u.real = v.real ↔ u = v := by
  simp only [V3.real, V3.mk.injEq, Rat.cast_inj, V3.ext_iff]

lemma affMap_real (v : V3 ℚ) : affMap ratReal 0 v = v.real := by
  ext <;> simp [affMap, V3.real, ratReal_apply]

lemma Mesh.real_vertices (m : Mesh ℚ) : m.real.vertices = m.vertices.map V3.real := by
  show m.vertices.map (affMap ratReal 0) = _
  exact List.map_congr_left (fun v _ => affMap_real v)

lemma Mesh.real_faces (m : Mesh ℚ) : m.real.faces = m.faces := rfl

lemma Mesh.real_vert (m : Mesh ℚ) (i : ℕ) : m.real.vert i = (m.vert i).real := by
  unfold Mesh.vert
  rw [Mesh.real_vertices, List.getD_eq_getElem?_getD, List.getD_eq_getElem?_getD, List.getElem?_map]
  cases m.vertices[i]? with
  | none => ext <;> simp [V3.real]
  | some v => rfl

lemma Plane.real_dist (p : Plane ℚ) (v : V3 ℚ) : p.real.dist v.real = ((p.dist v : ℚ) : ℝ) := by
  simp [Plane.dist, Plane.real, V3.real, V3.dot]

lemma Plane.real_cutPt (p : Plane ℚ) (a b : V3 ℚ) : p.real.cutPt a.real b.real = (p.cutPt a b).real := by
  unfold Plane.cutPt
  rw [Plane.real_dist, Plane.real_dist]
  ext <;> simp [V3.real]

lemma areaVec_real (p q r : V3 ℚ) : areaVec p.real q.real r.real = (areaVec p q r).real := by
  ext <;> simp [areaVec, V3.cross, V3.real]

lemma smul_real (s : ℚ) (n : V3 ℚ) : (s • n).real = (s : ℝ) • n.real := by
  ext <;> simp [V3.real]

lemma V3.real_zero : (0 : V3 ℚ).real = 0 := by ext <;> simp [V3.real]

lemma V3.real_ne_zero {n : V3 ℚ} (h : n ≠ 0) : n.real ≠ 0 := by
  intro h'
  rw [← V3.real_zero] at h'
  exact h (V3.real_inj.1 h')

lemma Mesh.StrictlyConvexFaces.real {m : Mesh ℚ} (h : m.StrictlyConvexFaces) : m.real.StrictlyConvexFaces := by
  intro f hf
  have := h f hf
  simp only [Mesh.real_vert]
  by_cases ht : f.a = f.d
  · rw [if_pos ht] at this ⊢
    rw [areaVec_real]
    exact V3.real_ne_zero this
  · rw [if_neg ht] at this ⊢
    obtain ⟨n, α, β, γ, δ, h1, h2, h3, h4, hn, e1, e2, e3, e4⟩ := this
    refine ⟨n.real, α, β, γ, δ, by exact_mod_cast h1, by exact_mod_cast h2, by exact_mod_cast h3, by exact_mod_cast h4,
      V3.real_ne_zero hn, ?_, ?_, ?_, ?_⟩
    · rw [areaVec_real, e1, smul_real]
    · rw [areaVec_real, e2, smul_real]
    · rw [areaVec_real, e3, smul_real]
    · rw [areaVec_real, e4, smul_real]

lemma Mesh.real_directedEdges (m : Mesh ℚ) : m.real.directedEdges = m.directedEdges := rfl

lemma Mesh.ClosedOriented.real {m : Mesh ℚ} (h : m.ClosedOriented) : m.real.ClosedOriented := h

lemma Mesh.WF.real {m : Mesh ℚ} (h : m.WF) : m.real.WF := by
  intro f hf i hi
  have := h f hf i hi
  unfold Mesh.nv at *
  rw [Mesh.real_vertices, List.length_map]
  exact this

lemma Mesh.ClipPoint.of_real {p : Plane ℚ} {m : Mesh ℚ} {X : V3 ℝ} (h : m.real.ClipPoint p.real X) :
    ∃ x, m.ClipPoint p x ∧ X = x.real := by
  rcases h with hX | ⟨e, he, h1, rfl⟩
  · rw [Mesh.real_vertices, List.mem_map] at hX
    obtain ⟨x, hx, rfl⟩ := hX
    exact ⟨x, Or.inl hx, rfl⟩
  · rw [Mesh.real_vert, Mesh.real_vert, Plane.real_dist, Plane.real_dist] at h1
    refine ⟨_, Or.inr ⟨e, he, ?_, rfl⟩, ?_⟩
    · exact_mod_cast h1
    · rw [Mesh.real_vert, Mesh.real_vert, Plane.real_cutPt]

lemma Mesh.WellSeparated.real {p : Plane ℚ} {m : Mesh ℚ} (h : m.WellSeparated p) : m.real.WellSeparated p.real := by
  intro X Y hX hY hXY
  obtain ⟨x, hx, rfl⟩ := hX.of_real
  obtain ⟨y, hy, rfl⟩ := hY.of_real
  rw [h x y hx hy]
  have c : ∀ a b : ℚ, |(a : ℝ) - b| ≤ 1 / 100000 → |a - b| ≤ 1 / 100000 := by
    intro a b hab
    have : ((|a - b| : ℚ) : ℝ) ≤ ((1 / 100000 : ℚ) : ℝ) := by push_cast; exact hab
    exact_mod_cast this
  exact ⟨c _ _ hXY.1, c _ _ hXY.2.1, c _ _ hXY.2.2⟩

lemma Plane.real_z : (⟨⟨0, 0, 1⟩, 0⟩ : Plane ℚ).real = ⟨⟨0, 0, 1⟩, 0⟩ := by
  simp [Plane.real, V3.real]

end MM
