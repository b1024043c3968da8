import Verif.Spec.Conversion
import Verif.Props.RoundTrip
import Verif.Props.IoMar

/-!
# C134: a mesh does not drift when it is saved and loaded again and again
-/

namespace MM.Io

open MM

/-- Two numbers with six decimals closer than one unit of the last decimal are equal. -/
lemma rounded6_unique {x y y' : ℚ} (h : ∃ k : ℤ, y * 10 ^ 6 = k) (hx : |x - y| < 1 / 2 / 10 ^ 6) (h' : Rounded6 x y') :
    y' = y := by
  obtain ⟨k, hk⟩ := h
  obtain ⟨⟨k', hk'⟩, hd⟩ := h'
  have h1 : |y' - y| < 1 / 10 ^ 6 := by
    calc |y' - y| = |(y' - x) + (x - y)| := by ring_nf
      _ ≤ |y' - x| + |x - y| := abs_add_le _ _
      _ < 1 / 10 ^ 6 := by linarith
  have h2 : |((k' - k : ℤ) : ℚ)| < 1 := by
    push_cast
    rw [← hk, ← hk', ← sub_mul, abs_mul]
    rw [lt_div_iff₀ (by norm_num)] at h1
    simpa using h1
  have h3 : |k' - k| < 1 := by exact_mod_cast h2
  have h4 : k' = k := by
    have := abs_lt.1 h3
    omega
  have : y' * 10 ^ 6 = y * 10 ^ 6 := by rw [hk, hk', h4]
  exact mul_right_cancel₀ (by norm_num) this

/-- The numbers of the file of a point. -/
def fixPoint (v : V3 ℚ) : V3 ℚ := ⟨fixedVal 6 v.x, fixedVal 6 v.y, fixedVal 6 v.z⟩

/-- What is read of a point. -/
def readPoint (read : ℚ → ℚ) (v : V3 ℚ) : V3 ℚ := ⟨read v.x, read v.y, read v.z⟩

lemma map_fixRow (read : ℚ → ℚ) (l : List (V3 ℚ)) :
    (l.map fixRow).map (pointRead read) = (l.map fixPoint).map (readPoint read) := by
  rw [List.map_map, List.map_map]
  rfl

lemma fixedVal_le {b x : ℚ} (h : |x| ≤ b) : |fixedVal 6 x| ≤ b + 1 / 2 / 10 ^ 6 := by
  have h1 := (rounded6_fixedVal x).2
  have := abs_add_le x (fixedVal 6 x - x)
  rw [add_sub_cancel] at this
  linarith

/-- A number with six decimals, read then written again. -/
lemma fixedVal_read {read : ℚ → ℚ} {ε b x : ℚ} (hε : 0 ≤ ε) (hread : ∀ x, |read x - x| ≤ ε * |x|)
    (hb : ε * (b + 1) < 1 / 2 / 10 ^ 6) (hx : |x| ≤ b) : fixedVal 6 (read (fixedVal 6 x)) = fixedVal 6 x := by
  refine rounded6_unique (rounded6_fixedVal x).1 ?_ (rounded6_fixedVal _)
  have h1 := fixedVal_le hx
  have h2 : |fixedVal 6 x| ≤ b + 1 := h1.trans (by norm_num)
  exact ((hread _).trans (mul_le_mul_of_nonneg_left h2 hε)).trans_lt hb

lemma fixPoint_read {read : ℚ → ℚ} {ε b : ℚ} (hε : 0 ≤ ε) (hread : ∀ x, |read x - x| ≤ ε * |x|)
    (hb : ε * (b + 1) < 1 / 2 / 10 ^ 6) {v : V3 ℚ} (hv : Within b v) :
    fixPoint (readPoint read (fixPoint v)) = fixPoint v := by
  unfold fixPoint readPoint
  simp only [fixedVal_read hε hread hb hv.1, fixedVal_read hε hread hb hv.2.1, fixedVal_read hε hread hb hv.2.2]

lemma faceRow_injective : Function.Injective faceRow := by
  rintro ⟨a, b, c, d⟩ ⟨a', b', c', d'⟩ h
  simp [faceRow] at h
  simp [h]

lemma inMemory_iff {read : ℚ → ℚ} {m m' : Mesh ℚ} :
    InMemory read ⟨m.vertices.map fixRow, m.faces.map faceRow⟩ m' ↔
      m' = ⟨(m.vertices.map fixPoint).map (readPoint read), m.faces⟩ := by
  unfold InMemory
  simp only [map_fixRow]
  constructor
  · rintro ⟨h1, h2⟩
    have h3 : m.faces = m'.faces := (List.map_injective_iff.2 faceRow_injective) h2
    cases m'
    simp_all
  · rintro rfl
    exact ⟨rfl, rfl⟩

/-- What the library makes of a file. -/
lemma reads_iff {format : Str → Option (List (List ℚ) × List (List ℤ))} {file : Str} {m m' : Mesh ℚ} {read : ℚ → ℚ}
    (h : format file = some (m.vertices.map fixRow, m.faces.map (fun f => f.corners.map (Nat.cast : ℕ → ℤ))))
    (hnd : ∀ f ∈ m.faces, (around f).Nodup) :
    (∃ d, ReadsFile format read file d ∧ dumpVtk d = .ok m') ↔
      m' = ⟨(m.vertices.map fixPoint).map (readPoint read), m.faces⟩ := by
  have hcells : (m.faces.map (fun f => f.corners.map (Nat.cast : ℕ → ℤ))).map (List.map Int.toNat) = m.faces.map around := by
    rw [List.map_map]
    apply List.map_congr_left
    intro f _
    by_cases h : f.a = f.d <;> simp [Face.corners, Face.isTri, around, h]
  have key : ∀ d : VtkData, d.points = (m.vertices.map fixRow).map (pointRead read) → d.cells = m.faces.map around →
      dumpVtk d = .ok ⟨(m.vertices.map fixPoint).map (readPoint read), m.faces⟩ := by
    intro d hp hc
    obtain ⟨m1, e, hv, hf⟩ := C103_vtk_partial d (by
      rw [hc]
      intro c hc
      obtain ⟨f, hf, rfl⟩ := List.mem_map.1 hc
      refine ⟨?_, hnd f hf⟩
      unfold around
      split_ifs <;> simp)
    rw [e]
    have h3 : m1.faces = m.faces := (List.map_injective_iff.2 around_injective) (hf.trans hc)
    rw [hp, map_fixRow] at hv
    cases m1
    simp_all
  constructor
  · rintro ⟨d, ⟨ps, fs, h1, hp, hc⟩, hd⟩
    rw [h] at h1
    simp only [Option.some.injEq, Prod.mk.injEq] at h1
    obtain ⟨rfl, rfl⟩ := h1
    rw [key d hp (hc.trans hcells)] at hd
    cases hd
    rfl
  · rintro rfl
    exact ⟨⟨_, m.faces.map around⟩, ⟨_, _, h, rfl, hcells.symm⟩, key _ rfl rfl⟩

/-- What one stage makes of a mesh. -/
lemma reloaded_iff {s : Stage} {ε : ℚ} (hs : s.Precise ε) {m m' : Mesh ℚ} (hm : FitsMAR m) (hf : m.faces ≠ [])
    (hnd : ∀ f ∈ m.faces, (around f).Nodup) :
    Reloaded s m m' ↔ m' = ⟨(m.vertices.map fixPoint).map (readPoint s.read), m.faces⟩ := by
  obtain ⟨format, read⟩ := s
  have hs2 := hs.2
  cases format with
  | mar =>
    simp only [Reloaded, loadMAR_write m hm hf, Except.ok.injEq, exists_eq_left', inMemory_iff]
  | nem =>
    simp only [Reloaded, loadNEM_write m, Except.ok.injEq, exists_eq_left', inMemory_iff]
  | vtk date =>
    exact reads_iff (readVtk_write date m (fun c hc e => hs2.1 (e ▸ hc)) hs2.2) hnd
  | obj date =>
    exact reads_iff (readObj_write date m (fun c hc e => hs2 (e ▸ hc))) hnd

/-- A mesh which has been loaded stays between the same bounds, to one millionth. -/
lemma within_read {read : ℚ → ℚ} {ε b : ℚ} (hε : 0 ≤ ε) (hread : ∀ x, |read x - x| ≤ ε * |x|)
    (hb : ε * (b + 1) < 1 / 2 / 10 ^ 6) {v : V3 ℚ} (hv : Within b v) :
    Within (b + 1) (readPoint read (fixPoint v)) := by
  have key : ∀ x, |x| ≤ b → |read (fixedVal 6 x)| ≤ b + 1 := by
    intro x hx
    have h1 := fixedVal_le hx
    have h2 : |fixedVal 6 x| ≤ b + 1 := h1.trans (by norm_num)
    have h3 := ((hread (fixedVal 6 x)).trans (mul_le_mul_of_nonneg_left h2 hε))
    have := abs_add_le (fixedVal 6 x) (read (fixedVal 6 x) - fixedVal 6 x)
    rw [add_sub_cancel] at this
    norm_num at h1 hb ⊢
    linarith
  exact ⟨key _ hv.1, key _ hv.2.1, key _ hv.2.2⟩

lemma fits_of_within {m : Mesh ℚ} (h : ∀ v ∈ m.vertices, Within 9999999 v)
    (hi : ∀ f ∈ m.faces, ∀ i ∈ f.toList, i + 1 < 10 ^ 9) : FitsMAR m := by
  refine ⟨fun v hv => ?_, hi⟩
  have key : ∀ x : ℚ, |x| ≤ 9999999 → MarRange x := by
    intro x hx
    have := abs_le.1 hx
    exact ⟨by linarith, by linarith⟩
  obtain ⟨h1, h2, h3⟩ := h v hv
  exact ⟨key _ h1, key _ h2, key _ h3⟩

/-- **C134.** A mesh is saved and loaded any number of times, each time in MAR, NEM, VTK or OBJ, by programs of the relative
precision `ε`. There are points `ws`, the vertices rounded to six decimals, which depend on the mesh only, such that whatever
the (nonempty) sequence of formats and programs: the sequence can be carried out, and it ends with the same faces, and with
`ws` as read by the last program. Hence the error of a long sequence is that of its last stage alone: nothing accumulates.

The coordinates are at most `b`, with `ε * (b + 1)` below half a unit of the sixth decimal; the faces have distinct corners. -/
theorem C134_no_drift (m : Mesh ℚ) (b ε : ℚ) (hε : 0 ≤ ε) (hb : ε * (b + 1) < 1 / 2 / 10 ^ 6) (hb' : b ≤ 9999998)
    (hm : ∀ v ∈ m.vertices, Within b v) (hi : ∀ f ∈ m.faces, ∀ i ∈ f.toList, i + 1 < 10 ^ 9) (hf : m.faces ≠ [])
    (hnd : ∀ f ∈ m.faces, (around f).Nodup) :
    ∃ ws, List.Forall₂ PointRounded6 m.vertices ws ∧
      ∀ (stages : List Stage) (last : Stage), (∀ s ∈ stages, s.Precise ε) → last.Precise ε →
        (∃ m', History (stages ++ [last]) m m') ∧
        ∀ m', History (stages ++ [last]) m m' →
          m'.faces = m.faces ∧ m'.vertices = ws.map (fun w => ⟨last.read w.x, last.read w.y, last.read w.z⟩) := by
  refine ⟨m.vertices.map fixPoint, ?_, ?_⟩
  · rw [List.forall₂_map_right_iff, List.forall₂_same]
    exact fun v _ => ⟨rounded6_fixedVal _, rounded6_fixedVal _, rounded6_fixedVal _⟩
  -- a mesh with the same faces, within the bounds, whose file is that of `m`
  suffices key : ∀ (stages : List Stage) (last : Stage) (m1 : Mesh ℚ), (∀ s ∈ stages, s.Precise ε) → last.Precise ε →
      m1.faces = m.faces → (∀ v ∈ m1.vertices, Within 9999999 v) →
      m1.vertices.map fixPoint = m.vertices.map fixPoint → ∀ m', History (stages ++ [last]) m1 m' ↔
        m' = ⟨(m.vertices.map fixPoint).map (readPoint last.read), m.faces⟩ by
    intro stages last hs hl
    have h := key stages last m hs hl rfl (fun v hv => by
      obtain ⟨h1, h2, h3⟩ := hm v hv
      exact ⟨h1.trans (by linarith), h2.trans (by linarith), h3.trans (by linarith)⟩) rfl
    refine ⟨⟨_, (h _).2 rfl⟩, fun m' hm' => ?_⟩
    rw [(h m').1 hm']
    exact ⟨rfl, rfl⟩
  intro stages
  induction stages with
  | nil =>
    intro last m1 _ hl e1 e2 e3 m'
    have hr := fun m' => reloaded_iff (m' := m') hl (fits_of_within e2 (e1 ▸ hi)) (e1 ▸ hf) (e1 ▸ hnd)
    rw [e3, e1] at hr
    constructor
    · rintro (_ | ⟨h1, h2⟩)
      cases h2
      exact (hr _).1 h1
    · intro h
      exact .cons ((hr _).2 h) (.nil _)
  | cons s l ih =>
    intro last m1 hs hl e1 e2 e3 m'
    have hp := hs s List.mem_cons_self
    have hr := fun m' => reloaded_iff (m' := m') hp (fits_of_within e2 (e1 ▸ hi)) (e1 ▸ hf) (e1 ▸ hnd)
    rw [e3, e1] at hr
    have next := ih last ⟨(m.vertices.map fixPoint).map (readPoint s.read), m.faces⟩
      (fun t ht => hs t (List.mem_cons_of_mem _ ht)) hl rfl
      (by
        intro v hv
        simp only [List.mem_map, exists_exists_and_eq_and] at hv
        obtain ⟨u, hu, rfl⟩ := hv
        obtain ⟨h1, h2, h3⟩ := within_read hε hp.1 hb (hm u hu)
        exact ⟨h1.trans (by linarith), h2.trans (by linarith), h3.trans (by linarith)⟩)
      (by
        rw [List.map_map, List.map_map]
        apply List.map_congr_left
        intro v hv
        exact fixPoint_read hε hp.1 hb (hm v hv)) m'
    rw [← next]
    constructor
    · rintro (_ | ⟨h1, h2⟩)
      rw [(hr _).1 h1] at h2
      exact h2
    · intro h
      exact .cons ((hr _).2 rfl) h

/-- The distance to the mesh one began with. -/
theorem C134_distance (m : Mesh ℚ) (b ε : ℚ) (hε : 0 ≤ ε) (hb : ε * (b + 1) < 1 / 2 / 10 ^ 6) (hb' : b ≤ 9999998)
    (hm : ∀ v ∈ m.vertices, Within b v) (hi : ∀ f ∈ m.faces, ∀ i ∈ f.toList, i + 1 < 10 ^ 9) (hf : m.faces ≠ [])
    (hnd : ∀ f ∈ m.faces, (around f).Nodup) (stages : List Stage) (hne : stages ≠ []) (hs : ∀ s ∈ stages, s.Precise ε)
    (m' : Mesh ℚ) (h : History stages m m') :
    m'.faces = m.faces ∧ List.Forall₂ (NearTo (1 / 10 ^ 6) 0) m.vertices m'.vertices := by
  obtain ⟨ws, h1, h2⟩ := C134_no_drift m b ε hε hb hb' hm hi hf hnd
  obtain ⟨l, s, rfl⟩ : ∃ l s, stages = l ++ [s] := ⟨_, _, (List.dropLast_append_getLast hne).symm⟩
  have hl : s.Precise ε := hs s (by simp)
  obtain ⟨h3, h4⟩ := (h2 l s (fun t ht => hs t (by simp [ht])) hl).2 m' h
  refine ⟨h3, ?_⟩
  rw [h4, List.forall₂_map_right_iff]
  have key : ∀ x y, |x| ≤ b → Rounded6 x y → |s.read y - x| ≤ 1 / 10 ^ 6 + 0 * |x| := by
    intro x y hx hy
    have h5 := hy.2
    have h6 : |y| ≤ b + 1 := by
      have := abs_add_le x (y - x)
      rw [add_sub_cancel] at this
      norm_num at h5
      linarith
    have h7 := (hl.1 y).trans (mul_le_mul_of_nonneg_left h6 hε)
    calc |s.read y - x| = |(s.read y - y) + (y - x)| := by ring_nf
      _ ≤ |s.read y - y| + |y - x| := abs_add_le _ _
      _ ≤ _ := by linarith
  have aux : ∀ (vs ws : List (V3 ℚ)), (∀ v ∈ vs, Within b v) → List.Forall₂ PointRounded6 vs ws →
      List.Forall₂ (fun a c => NearTo (1 / 10 ^ 6) 0 a ⟨s.read c.x, s.read c.y, s.read c.z⟩) vs ws := by
    intro vs ws hv hvw
    induction hvw with
    | nil => exact .nil
    | cons h _ ih =>
      have hv0 := hv _ List.mem_cons_self
      exact .cons ⟨key _ _ hv0.1 h.1, key _ _ hv0.2.1 h.2.1, key _ _ hv0.2.2 h.2.2⟩
        (ih fun v hv' => hv v (List.mem_cons_of_mem _ hv'))
  exact aux _ _ hm h1

/-- The box of C132 meets the hypotheses, with a program which reads in single precision and one which reads in double
precision. -/
theorem boxSample_meets_C134 : (0 : ℚ) ≤ 1 / 2 ^ 24 ∧ (1 : ℚ) / 2 ^ 24 * (6 + 1) < 1 / 2 / 10 ^ 6 ∧
    (∀ v ∈ boxSample.vertices, Within 6 v) ∧ (∀ f ∈ boxSample.faces, ∀ i ∈ f.toList, i + 1 < 10 ^ 9) ∧
    boxSample.faces ≠ [] ∧ (∀ f ∈ boxSample.faces, (around f).Nodup) ∧
    Stage.Precise (1 / 2 ^ 24) ⟨.vtk "today".toList, fun x => x + x / 2 ^ 24⟩ ∧
    Stage.Precise (1 / 2 ^ 24) ⟨.mar, fun x => x - x / 2 ^ 53⟩ := by
  refine ⟨by norm_num, by norm_num, ?_, by decide +kernel, by decide, by decide +kernel, ⟨?_, by decide⟩, ?_, trivial⟩
  · unfold Within; decide +kernel
  · intro x
    rw [add_sub_cancel_left, abs_div, abs_of_pos (by norm_num : (0 : ℚ) < 2 ^ 24)]
    exact le_of_eq (by ring)
  · intro x
    rw [sub_sub_cancel_left, abs_neg, abs_div, abs_of_pos (by norm_num : (0 : ℚ) < 2 ^ 53)]
    have := abs_nonneg x
    norm_num
    linarith

end MM.Io
