import Verif.Props.Cli
import Verif.Props.Plane

/-!
# Property C62: planes given on the command line
-/

namespace MM
namespace Cli

/-- The documented key words and the unit normal they stand for; the planes contain the origin. -/
def documentedKeys : List (String × V3 ℤ) :=
  [("Oxy", ⟨0, 0, 1⟩), ("Oxz", ⟨0, 1, 0⟩), ("Oyz", ⟨1, 0, 0⟩), ("/Oxy", ⟨0, 0, -1⟩), ("/Oxz", ⟨0, -1, 0⟩),
   ("/Oyz", ⟨-1, 0, 0⟩)]

/-- A vector of integers as a vector of reals. -/
def ofInt (v : V3 ℤ) : V3 ℝ := ⟨v.x, v.y, v.z⟩

lemma planeKeys_eq : planeKeys = documentedKeys.map (fun e => (e.1, ofInt e.2)) := by
  simp [planeKeys, documentedKeys, ofInt]

lemma planeKey_mem {k : String} {n : V3 ℤ} (h : (k, n) ∈ documentedKeys) : planeKey k.toList = some (ofInt n) := by
  have hn : (documentedKeys.map (fun e => e.1.toList)).Nodup := by decide +kernel
  unfold planeKey
  have h' : (k, ofInt n) ∈ planeKeys := by
    rw [planeKeys_eq]; exact List.mem_map.2 ⟨(k, n), h, rfl⟩
  have hn' : (planeKeys.map (fun e => e.1.toList)).Nodup := by
    rw [planeKeys_eq, List.map_map]; exact hn
  rw [find_key planeKeys hn' (k, ofInt n) h']; rfl

lemma planeKey_some {s : Str} {n : V3 ℝ} (h : planeKey s = some n) :
    ∃ k m, (k, m) ∈ documentedKeys ∧ s = k.toList ∧ n = ofInt m := by
  unfold planeKey at h
  cases hf : planeKeys.find? (fun e => e.1.toList == s) with
  | none => rw [hf] at h; simp at h
  | some e =>
    rw [hf] at h
    simp only [Option.map_some, Option.some.injEq] at h
    have hm := List.mem_of_find?_eq_some hf
    have hk := List.find?_some hf
    rw [planeKeys_eq] at hm
    obtain ⟨e', he', rfl⟩ := List.mem_map.1 hm
    exact ⟨e'.1, e'.2, he', (beq_iff_eq.1 hk).symm, h.symm⟩

lemma documentedKeys_unit {k : String} {n : V3 ℤ} (h : (k, n) ∈ documentedKeys) : (ofInt n).normSq = 1 := by
  have : ∀ e ∈ documentedKeys, e.2.x * e.2.x + e.2.y * e.2.y + e.2.z * e.2.z = 1 := by decide +kernel
  have h1 := this _ h
  simp only at h1
  have h2 : ((n.x * n.x + n.y * n.y + n.z * n.z : ℤ) : ℝ) = 1 := by exact_mod_cast h1
  simpa [V3.normSq, V3.dot, ofInt] using h2

/-- `p` is the plane of unit normal `n / |n|` and scalar `c`. -/
def IsPlane (p : PlaneObj) (n : V3 ℝ) (c : ℝ) : Prop := p.normal.normSq = 1 ∧ p.normal = (1 / n.norm) • n ∧ p.c = c

/-- C62: a plane argument is one of the six key words (taken with the documented normal and offset 0), the index of a plane
defined with `--plane`, or four scalars; anything else raises. Missing from the full property: for four scalars the plane
used is the documented one only when the normal given has length 1 (`C62_scalars`). -/
theorem C62_planes_partial (E : Env) (planes : List PlaneObj)
    (hkeys : ∀ e ∈ documentedKeys, E.parseInt e.1.toList = none) :
    -- key words
    (∀ k n, (k, n) ∈ documentedKeys →
      ∃ p, resolvePlane E planes [k.toList] = .ok p ∧ p.normal = ofInt n ∧ p.c = 0) ∧
    -- indices of the planes defined
    (∀ (s : Str) (i : ℕ) p, E.parseInt s = some (i : ℤ) → planes[i]? = some p → resolvePlane E planes [s] = .ok p) ∧
    -- four scalars
    (∀ sx sy sz sc x y z c, E.parseFloat sx = some x → E.parseFloat sy = some y → E.parseFloat sz = some z →
      E.parseFloat sc = some c → (⟨x, y, z⟩ : V3 ℝ) ≠ 0 →
      ∃ p, resolvePlane E planes [sx, sy, sz, sc] = .ok p ∧ IsPlane p ⟨x, y, z⟩ c) ∧
    -- nothing else
    (∀ l p, resolvePlane E planes l = .ok p →
      (∃ k n, (k, n) ∈ documentedKeys ∧ l = [k.toList]) ∨
      (∃ s, ∃ i : ℕ, l = [s] ∧ E.parseInt s = some (i : ℤ) ∧ planes[i]? = some p) ∨
      (∃ sx sy sz sc x y z c, l = [sx, sy, sz, sc] ∧ E.parseFloat sx = some x ∧ E.parseFloat sy = some y ∧
        E.parseFloat sz = some z ∧ E.parseFloat sc = some c)) := by
  refine ⟨?_, ?_, ?_, ?_⟩
  · intro k n h
    have hk := planeKey_mem h
    have hu := documentedKeys_unit h
    refine ⟨(PlaneObj.init ⟨0, 0, 1⟩ 0).setNormal (ofInt n), ?_, normalize_unit hu, rfl⟩
    simp only [resolvePlane, hk, hkeys _ h]
    split <;> rfl
  · intro s i p hs hp
    have hi : i < planes.length := by
      by_contra hn
      rw [List.getElem?_eq_none (by omega)] at hp; cases hp
    simp only [resolvePlane, hs]
    rw [if_pos (by omega), if_pos ⟨by omega, by exact_mod_cast hi⟩]
    simp [hp]
  · intro sx sy sz sc x y z c h1 h2 h3 h4 hne
    refine ⟨((PlaneObj.init ⟨0, 0, 1⟩ 0).setNormal ⟨x, y, z⟩).setC c, ?_, normalize_normSq hne, rfl, rfl⟩
    simp only [resolvePlane, parse4, h1, h2, h3, h4]
  · intro l p h
    unfold resolvePlane at h
    split at h
    · rename_i k
      simp only at h
      have hkey : (match planeKey k with
          | some n => (.ok ((PlaneObj.init ⟨0, 0, 1⟩ 0).setNormal n) : Except PyErr PlaneObj)
          | none => .error .keyError) = .ok p → ∃ k' n, (k', n) ∈ documentedKeys ∧ [k] = [k'.toList] := by
        intro h
        cases hk : planeKey k with
        | none => rw [hk] at h; cases h
        | some n =>
          obtain ⟨k', m, h1, h2, -⟩ := planeKey_some hk
          exact ⟨k', m, h1, by rw [h2]⟩
      split at h
      · cases hi : E.parseInt k with
        | none => rw [hi] at h; exact .inl (hkey h)
        | some i =>
          rw [hi] at h
          simp only at h
          split at h
          · rename_i hr
            cases hp : planes[i.toNat]? with
            | none => rw [hp] at h; cases h
            | some q =>
              rw [hp] at h; cases h
              exact .inr (.inl ⟨k, i.toNat, rfl, by rw [hi, Int.toNat_of_nonneg hr.1], hp⟩)
          · cases h
      · exact .inl (hkey h)
    · rename_i sx sy sz sc
      right; right
      unfold parse4 at h
      cases h1 : E.parseFloat sx with
      | none => simp [h1] at h
      | some x =>
        cases h2 : E.parseFloat sy with
        | none => simp [h1, h2] at h
        | some y =>
          cases h3 : E.parseFloat sz with
          | none => simp [h1, h2, h3] at h
          | some z =>
            cases h4 : E.parseFloat sc with
            | none => simp [h1, h2, h3, h4] at h
            | some c => exact ⟨sx, sy, sz, sc, x, y, z, c, rfl, h1, h2, h3, h4⟩
    · cases h

/-- C62: the planes defined with `--plane`: a key word or four scalars, anything else raises `AssertionError`. -/
theorem C62_define (E : Env) :
    (∀ k n, (k, n) ∈ documentedKeys → ∃ p, definePlane E [k.toList] = .ok p ∧ p.normal = ofInt n ∧ p.c = 0) ∧
    (∀ sx sy sz sc x y z c, E.parseFloat sx = some x → E.parseFloat sy = some y → E.parseFloat sz = some z →
      E.parseFloat sc = some c → (⟨x, y, z⟩ : V3 ℝ) ≠ 0 →
      ∃ p, definePlane E [sx, sy, sz, sc] = .ok p ∧ IsPlane p ⟨x, y, z⟩ c) ∧
    (∀ l, (∀ k n, (k, n) ∈ documentedKeys → l ≠ [k.toList]) →
      (∀ sx sy sz sc x y z c, l = [sx, sy, sz, sc] → ¬ (E.parseFloat sx = some x ∧ E.parseFloat sy = some y ∧
        E.parseFloat sz = some z ∧ E.parseFloat sc = some c)) → definePlane E l = .error .assertionError) := by
  refine ⟨?_, ?_, ?_⟩
  · intro k n h
    refine ⟨((PlaneObj.init ⟨0, 0, 1⟩ 0).setNormal (ofInt n)).setC 0, ?_, normalize_unit (documentedKeys_unit h), rfl⟩
    simp only [definePlane, planeKey_mem h]
  · intro sx sy sz sc x y z c h1 h2 h3 h4 hne
    refine ⟨PlaneObj.init ⟨x, y, z⟩ c, ?_, normalize_normSq hne, rfl, rfl⟩
    simp only [definePlane, parse4, h1, h2, h3, h4]
  · intro l hk hs
    unfold definePlane
    split
    · rename_i sx sy sz sc
      unfold parse4
      cases h1 : E.parseFloat sx with
      | none => rfl
      | some x =>
        cases h2 : E.parseFloat sy with
        | none => rfl
        | some y =>
          cases h3 : E.parseFloat sz with
          | none => rfl
          | some z =>
            cases h4 : E.parseFloat sc with
            | none => rfl
            | some c => exact absurd ⟨h1, h2, h3, h4⟩ (hs sx sy sz sc x y z c rfl)
    · rename_i k
      cases hp : planeKey k with
      | none => rfl
      | some n =>
        obtain ⟨k', m, h1, h2, -⟩ := planeKey_some hp
        exact absurd (by rw [h2]) (hk k' m h1)
    · rfl

/-- The points of a plane object. -/
def Points (p : PlaneObj) : V3 ℝ → Prop := fun v => p.plane.dist v = 0

/-- C62: for four scalars `x y z c` with `N = (x, y, z)` not null, the points of the plane used are those of the documented
plane `N · X = c` exactly when `N` has length 1 or `c = 0`. -/
theorem C62_scalars (p : PlaneObj) (n : V3 ℝ) (c : ℝ) (hn : n ≠ 0) (hp : IsPlane p n c) :
    (∀ v, Points p v ↔ n.dot v = c) ↔ n.norm = 1 ∨ c = 0 := by
  obtain ⟨-, h2, h3⟩ := hp
  have hpos : 0 < n.norm := by
    rcases (V3.norm_nonneg n).lt_or_eq with h | h
    · exact h
    · exact absurd (V3.norm_eq_zero.1 h.symm) hn
  have hsq : n.norm * n.norm = n.dot n := V3.norm_mul_self n
  have hd : ∀ v : V3 ℝ, Points p v ↔ n.dot v = c * n.norm := by
    intro v
    unfold Points Plane.dist PlaneObj.plane
    simp only
    rw [h2, h3]
    have : v.dot ((1 / n.norm) • n) = n.dot v / n.norm := by
      simp [V3.dot]; field_simp
    rw [this, sub_eq_zero, div_eq_iff hpos.ne']
  constructor
  · intro h
    by_contra hc
    push Not at hc
    -- the point of the plane used on the normal through the origin
    have h1 := (h ((c / n.norm) • n))
    rw [hd] at h1
    have h2 : n.dot ((c / n.norm) • n) = c * n.norm := by
      have : n.dot ((c / n.norm) • n) = c / n.norm * n.dot n := by simp [V3.dot]; ring
      rw [this, ← hsq]; field_simp
    have h3 := h1.1 h2
    rw [h2] at h3
    apply hc.1
    have h4 : c * (n.norm - 1) = 0 := by linear_combination h3
    rcases mul_eq_zero.1 h4 with h4 | h4
    · exact absurd h4 hc.2
    · linarith
  · rintro (h | h) v
    · rw [hd, h, mul_one]
    · rw [hd, h, zero_mul]

/-- C62 fails: `0 0 2 4` is not the documented plane `2 z = 4`: the point `(0, 0, 2)` is not on it, `(0, 0, 4)` is. -/
theorem C62_scalars_fails (E : Env) (planes : List PlaneObj) (h0 : E.parseFloat "0".toList = some 0)
    (h2 : E.parseFloat "2".toList = some 2) (h4 : E.parseFloat "4".toList = some 4) :
    ∃ p, resolvePlane E planes ["0".toList, "0".toList, "2".toList, "4".toList] = .ok p ∧
      ¬ Points p ⟨0, 0, 2⟩ ∧ Points p ⟨0, 0, 4⟩ := by
  refine ⟨((PlaneObj.init ⟨0, 0, 1⟩ 0).setNormal ⟨0, 0, 2⟩).setC 4, ?_, ?_⟩
  · simp only [resolvePlane, parse4, h0, h2, h4]
  · have hn : (⟨0, 0, 2⟩ : V3 ℝ).norm = 2 := by
      have : (⟨0, 0, 2⟩ : V3 ℝ) = (2 : ℝ) • ⟨0, 0, 1⟩ := by ext <;> simp
      rw [this, V3.norm_smul_of_nonneg (by norm_num)]
      simp [V3.norm, V3.normSq, V3.dot]
    simp [Points, Plane.dist, PlaneObj.plane, PlaneObj.setC, PlaneObj.setNormal, PlaneObj.normalize, hn, V3.dot]
    norm_num

/-- C62: `--mirror l` replaces the mesh by its mirror image in the plane designated by `l`. -/
theorem C62_mirror (E : Env) (infile : Str) (defs : Option (List (List Str))) (l : List Str) (out : Out)
    (h : main E infile { plane := defs, mirror := some l } = .ok out) :
    ∃ fmt m planes p, inputFormat E infile {} = .ok fmt ∧ loadMesh E.isFile E.load infile fmt = .ok m ∧
      definePlanes E { plane := defs } = .ok planes ∧
      resolvePlane E planes l = .ok p ∧ out.mesh = m.healTriangles.mirror p.plane := by
  obtain ⟨fmt, o1, o2, o3, planes, o4, o5, o6, o7, o8, o9, i, s, y, e1, e2, e3, e4, e5, e6, e7, e8, e9, e10, e11, e12, e13,
    e14, e15, e16, -, -, -⟩ := main_ok h
  obtain ⟨m, hl, rfl⟩ := loadObj_ok e2
  cases e3
  cases e4
  simp only [mirror, bind_ok] at e6
  obtain ⟨p, hp, e6⟩ := e6
  cases e6
  cases e7
  cases e8
  cases e9
  cases e10
  cases e11
  cases e12
  cases e13
  cases e14
  exact ⟨fmt, m, planes, p, e1, hl, e5, hp, e16⟩

/-- C62: `--clip-by-plane l` replaces the mesh by its part below the plane designated by `l`, the plane `Oxy` when `l` is
empty. -/
theorem C62_clip (E : Env) (infile : Str) (defs : Option (List (List Str))) (l : List Str) (out : Out)
    (h : main E infile { plane := defs, clipByPlane := some [l] } = .ok out) :
    ∃ fmt m planes p c, inputFormat E infile {} = .ok fmt ∧ loadMesh E.isFile E.load infile fmt = .ok m ∧
      definePlanes E { plane := defs } = .ok planes ∧
      resolvePlane E planes (if l = [] then ["Oxy".toList] else l) = .ok p ∧
      Clipper.clip E.srt p.plane (1 / 1000) false m.healTriangles = .ok c ∧ out.mesh = c.clipped := by
  obtain ⟨fmt, o1, o2, o3, planes, o4, o5, o6, o7, o8, o9, i, s, y, e1, e2, e3, e4, e5, e6, e7, e8, e9, e10, e11, e12, e13,
    e14, e15, e16, -, -, -⟩ := main_ok h
  obtain ⟨m, hl, rfl⟩ := loadObj_ok e2
  cases e3
  cases e4
  cases e6
  cases e7
  cases e8
  cases e9
  cases e10
  simp only [clipPlanes, clipLoop, bind_ok] at e11
  obtain ⟨p, hp, c, hc, e11⟩ := e11
  cases e11
  cases e12
  cases e13
  cases e14
  refine ⟨fmt, m, planes, p, c, e1, hl, e5, hp, ?_, e16⟩
  cases hx : Clipper.clip E.srt p.plane (1 / 1000) false m.healTriangles with
  | error e => rw [show (MeshObj.new m).doHealTriangles.mesh = m.healTriangles from rfl, hx] at hc; cases hc
  | ok c' => rw [show (MeshObj.new m).doHealTriangles.mesh = m.healTriangles from rfl, hx] at hc; cases hc; rfl

end Cli
end MM
