import Verif.Spec.ConversionSci
import Verif.Proofs.ConversionSci
import Verif.Props.Conversion
import Verif.Props.IoHst
import Verif.Props.IoTec

/-!
# Saving and loading several times in NAT, HST and TEC (C139)
-/

namespace MM.Io

/-- A point as these files print it. -/
def sciPoint (v : V3 ℚ) : V3 ℚ := ⟨sciVal 6 v.x, sciVal 6 v.y, sciVal 6 v.z⟩

lemma map_sciRow (read : ℚ → ℚ) (l : List (V3 ℚ)) :
    (l.map sciRow).map (pointRead read) = (l.map sciPoint).map (readPoint read) := by
  rw [List.map_map, List.map_map]
  exact List.map_congr_left (fun v _ => rfl)

lemma inMemory_sci {read : ℚ → ℚ} {m m' : Mesh ℚ} :
    InMemory read ⟨m.vertices.map sciRow, m.faces.map faceRow⟩ m' ↔
      m' = ⟨(m.vertices.map sciPoint).map (readPoint read), m.faces⟩ := by
  unfold InMemory
  simp only [map_sciRow]
  constructor
  · rintro ⟨h1, h2⟩
    have h3 : m.faces = m'.faces := (List.map_injective_iff.2 faceRow_injective) h2
    cases m'
    simp_all
  · rintro rfl
    exact ⟨rfl, rfl⟩

/-- What one stage makes of a mesh. -/
lemma sciReloaded_iff {s : SciStage} {ε : ℚ} (hs : s.Precise ε) {m m' : Mesh ℚ} (hu : Usual m) (hv : 3 ≤ m.nv) (hf : 4 ≤ m.nf)
    (hf' : m.nf < 100000) : SciReloaded s m m' ↔ m' = ⟨(m.vertices.map sciPoint).map (readPoint s.read), m.faces⟩ := by
  obtain ⟨format, read⟩ := s
  have hs2 := hs.2
  have hfne : m.faces ≠ [] := by
    intro h
    simp [Mesh.nf, h] at hf
  have hvne : m.vertices ≠ [] := by
    intro h
    simp [Mesh.nv, h] at hv
  cases format with
  | nat => simp only [SciReloaded, loadNAT_write m hu hv hf hf', Except.ok.injEq, exists_eq_left', inMemory_sci]
  | hst => simp only [SciReloaded, loadHST_write m hu hfne, Except.ok.injEq, exists_eq_left', inMemory_sci]
  | tec name => simp only [SciReloaded, loadTEC_write name hs2 m hu hvne, Except.ok.injEq, exists_eq_left', inMemory_sci]

lemma range_read {read : ℚ → ℚ} {ε x : ℚ} (hε : 0 ≤ ε) (h : ε * 10 ^ 7 < 1 / 2) (hread : ∀ x, |read x - x| ≤ ε * |x|) (hx : DoubleRange x) :
    FloatRange (read (sciVal 6 x)) := by
  have h1 := sciVal_near 6 x
  have h2 := hread (sciVal 6 x)
  rcases hx with rfl | ⟨a, b⟩
  · left
    have h0 : sciVal 6 0 = 0 := by simp [sciVal, sciParts]
    rw [h0, abs_zero, mul_zero, sub_zero] at h2
    rw [h0]
    exact abs_nonpos_iff.1 h2
  · right
    have x0 : 0 < |x| := lt_of_lt_of_le (by positivity) a
    have e1 := abs_le.1 ((abs_abs_sub_abs_le _ _).trans h1)
    have e2 := abs_le.1 ((abs_abs_sub_abs_le _ _).trans h2)
    have e3 : ε * |sciVal 6 x| ≤ 1 / 10 * |sciVal 6 x| := mul_le_mul_of_nonneg_right (by linarith) (abs_nonneg _)
    constructor
    · have : (10 : ℚ) ^ (-(400 : ℤ)) ≤ 10 ^ (-(330 : ℤ)) / 2 := by decide +kernel
      generalize (10 : ℚ) ^ (-(400 : ℤ)) = p at *
      generalize (10 : ℚ) ^ (-(330 : ℤ)) = r at *
      norm_num at e1
      linarith
    · have : (10 : ℚ) ^ (310 : ℤ) * 2 < 10 ^ (400 : ℤ) := by decide +kernel
      generalize (10 : ℚ) ^ (310 : ℤ) = p at *
      generalize (10 : ℚ) ^ (400 : ℤ) = r at *
      norm_num at e1
      linarith

lemma DoubleRange.float {x : ℚ} (h : DoubleRange x) : FloatRange x := by
  rcases h with h | ⟨a, b⟩
  · exact .inl h
  · exact .inr ⟨le_trans (by decide +kernel) a, lt_of_le_of_lt b (by decide +kernel)⟩

/-- **C139.** A mesh is saved and loaded any number of times, each time in NAT, HST or TEC, by programs of the relative
precision `ε`. There are points `ws`, the vertices rounded to seven significant digits, which depend on the mesh only, such that
whatever the (nonempty) sequence of formats and programs: the sequence can be carried out, and it ends with the same faces, and
with `ws` as read by the last program. Hence the error of a long sequence is that of its last stage alone: nothing accumulates.

The programs read with a relative error below half a unit of the eighth digit: double precision will do. -/
theorem C139_no_drift (m : Mesh ℚ) (ε : ℚ) (hε : 0 ≤ ε) (hb : ε * 10 ^ 7 < 1 / 2)
    (hm : ∀ v ∈ m.vertices, DoubleRange v.x ∧ DoubleRange v.y ∧ DoubleRange v.z)
    (hi : ∀ f ∈ m.faces, ∀ i ∈ f.toList, i + 1 < 10 ^ 9) (hv : 3 ≤ m.nv) (hf : 4 ≤ m.nf) (hf' : m.nf < 100000) :
    ∃ ws, List.Forall₂ PointRounded7 m.vertices ws ∧
      ∀ (stages : List SciStage) (last : SciStage), (∀ s ∈ stages, s.Precise ε) → last.Precise ε →
        (∃ m', SciHistory (stages ++ [last]) m m') ∧
        ∀ m', SciHistory (stages ++ [last]) m m' →
          m'.faces = m.faces ∧ m'.vertices = ws.map (fun w => ⟨last.read w.x, last.read w.y, last.read w.z⟩) := by
  refine ⟨m.vertices.map sciPoint, ?_, ?_⟩
  · rw [List.forall₂_map_right_iff, List.forall₂_same]
    exact fun v _ => ⟨rounded7_sciVal _, rounded7_sciVal _, rounded7_sciVal _⟩
  -- a mesh with the same faces, within the bounds, whose file is that of `m`
  suffices key : ∀ (stages : List SciStage) (last : SciStage) (m1 : Mesh ℚ), (∀ s ∈ stages, s.Precise ε) → last.Precise ε →
      m1.faces = m.faces → Usual m1 → m1.vertices.map sciPoint = m.vertices.map sciPoint → ∀ m', SciHistory (stages ++ [last]) m1 m' ↔
        m' = ⟨(m.vertices.map sciPoint).map (readPoint last.read), m.faces⟩ by
    intro stages last hs hl
    have h := key stages last m hs hl rfl ⟨fun v hv => ⟨(hm v hv).1.float, (hm v hv).2.1.float, (hm v hv).2.2.float⟩, hi⟩ rfl
    refine ⟨⟨_, (h _).2 rfl⟩, fun m' hm' => ?_⟩
    rw [(h m').1 hm']
    exact ⟨rfl, rfl⟩
  have step : ∀ (s : SciStage) (m1 : Mesh ℚ), s.Precise ε → m1.faces = m.faces → Usual m1 →
      m1.vertices.map sciPoint = m.vertices.map sciPoint → ∀ m', SciReloaded s m1 m' ↔
        m' = ⟨(m.vertices.map sciPoint).map (readPoint s.read), m.faces⟩ := by
    intro s m1 hs e1 e2 e3 m'
    have n1 : m1.nv = m.nv := by simpa [Mesh.nv] using congrArg List.length e3
    have n2 : m1.nf = m.nf := by simp [Mesh.nf, e1]
    rw [sciReloaded_iff hs e2 (n1 ▸ hv) (n2 ▸ hf) (n2 ▸ hf'), e3, e1]
  intro stages
  induction stages with
  | nil =>
    intro last m1 _ hl e1 e2 e3 m'
    have hr := step last m1 hl e1 e2 e3
    constructor
    · rintro (_ | ⟨h1, h2⟩)
      cases h2
      exact (hr _).1 h1
    · intro h
      exact .cons ((hr _).2 h) (.nil _)
  | cons s l ih =>
    intro last m1 hs hl e1 e2 e3 m'
    have hp := hs s List.mem_cons_self
    have hr := step s m1 hp e1 e2 e3
    have next := ih last ⟨(m.vertices.map sciPoint).map (readPoint s.read), m.faces⟩
      (fun t ht => hs t (List.mem_cons_of_mem _ ht)) hl rfl
      ⟨by
        intro v hv
        simp only [List.mem_map, exists_exists_and_eq_and] at hv
        obtain ⟨w, hw, rfl⟩ := hv
        obtain ⟨h1, h2, h3⟩ := hm w hw
        exact ⟨range_read hε hb hp.1 h1, range_read hε hb hp.1 h2, range_read hε hb hp.1 h3⟩, hi⟩
      (by
        rw [List.map_map, List.map_map]
        apply List.map_congr_left
        intro v hv
        have k := fun x => sciVal_read (dec := 6) (x := x) hε hb (hp.1 (sciVal 6 x))
        simp only [Function.comp, sciPoint, readPoint, k]) m'
    rw [← next]
    constructor
    · rintro (_ | ⟨h1, h2⟩)
      rw [(hr _).1 h1] at h2
      exact h2
    · intro h
      exact .cons ((hr _).2 rfl) h

/-- The distance to the mesh one began with. -/
theorem C139_distance (m : Mesh ℚ) (ε : ℚ) (hε : 0 ≤ ε) (hb : ε * 10 ^ 7 < 1 / 2)
    (hm : ∀ v ∈ m.vertices, DoubleRange v.x ∧ DoubleRange v.y ∧ DoubleRange v.z)
    (hi : ∀ f ∈ m.faces, ∀ i ∈ f.toList, i + 1 < 10 ^ 9) (hv : 3 ≤ m.nv) (hf : 4 ≤ m.nf) (hf' : m.nf < 100000)
    (stages : List SciStage) (hne : stages ≠ []) (hs : ∀ s ∈ stages, s.Precise ε) (m' : Mesh ℚ) (h : SciHistory stages m m') :
    m'.faces = m.faces ∧ List.Forall₂ (NearTo 0 (1 / 10 ^ 6)) m.vertices m'.vertices := by
  obtain ⟨ws, h1, h2⟩ := C139_no_drift m ε hε hb hm hi hv hf hf'
  obtain ⟨l, s, rfl⟩ : ∃ l s, stages = l ++ [s] := ⟨_, _, (List.dropLast_append_getLast hne).symm⟩
  have hl : s.Precise ε := hs s (by simp)
  obtain ⟨h3, h4⟩ := (h2 l s (fun t ht => hs t (by simp [ht])) hl).2 m' h
  refine ⟨h3, ?_⟩
  rw [h4, List.forall₂_map_right_iff]
  have key : ∀ x y, Rounded7Digits x y → |s.read y - x| ≤ 0 + 1 / 10 ^ 6 * |x| := by
    intro x y hy
    have h5 : |y - x| ≤ 1 / 2 / 10 ^ 6 * |x| := hy
    have h6 := (abs_le.1 ((abs_abs_sub_abs_le _ _).trans h5)).2
    have h7 := hl.1 y
    have x0 := abs_nonneg x
    have h8 : ε * |y| ≤ 1 / 2 / 10 ^ 7 * (2 * |x|) := by
      apply mul_le_mul (by linarith) _ (abs_nonneg _) (by norm_num)
      norm_num at h6
      linarith
    calc |s.read y - x| = |(s.read y - y) + (y - x)| := by ring_nf
      _ ≤ |s.read y - y| + |y - x| := abs_add_le _ _
      _ ≤ _ := by linarith
  exact h1.imp fun v w h => ⟨key _ _ h.1, key _ _ h.2.1, key _ _ h.2.2⟩

/-- A box meets the hypotheses, with programs which read in double precision. -/
theorem boxSample_meets_C139 : (0 : ℚ) ≤ 1 / 2 ^ 53 ∧ (1 : ℚ) / 2 ^ 53 * 10 ^ 7 < 1 / 2 ∧
    (∀ v ∈ boxSample.vertices, DoubleRange v.x ∧ DoubleRange v.y ∧ DoubleRange v.z) ∧
    (∀ f ∈ boxSample.faces, ∀ i ∈ f.toList, i + 1 < 10 ^ 9) ∧ 3 ≤ boxSample.nv ∧ 4 ≤ boxSample.nf ∧ boxSample.nf < 100000 ∧
    SciStage.Precise (1 / 2 ^ 53) ⟨.tec "hull.tec".toList, fun x => x + x / 2 ^ 53⟩ ∧
    SciStage.Precise (1 / 2 ^ 53) ⟨.nat, fun x => x - x / 2 ^ 53⟩ := by
  refine ⟨by norm_num, by norm_num, ?_, by decide +kernel, by decide, by decide, by decide, ⟨?_, ?_⟩, ?_, trivial⟩
  · have : ∀ v ∈ boxSample.vertices, ∀ x ∈ [v.x, v.y, v.z], x = 0 ∨ 1 / 1000 ≤ |x| ∧ |x| ≤ 1000 := by decide +kernel
    intro v hv
    have k : ∀ x ∈ [v.x, v.y, v.z], DoubleRange x := by
      intro x hx
      rcases this v hv x hx with h | ⟨a, b⟩
      · exact .inl h
      · exact .inr ⟨le_trans (by decide +kernel) a, b.trans (by decide +kernel)⟩
    exact ⟨k _ (by simp), k _ (by simp), k _ (by simp)⟩
  · intro x
    rw [add_sub_cancel_left, abs_div, abs_of_pos (by norm_num : (0 : ℚ) < 2 ^ 53)]
    exact le_of_eq (by ring)
  · show ¬ "ZONE".toList <:+: "hull.tec".toList
    decide
  · intro x
    rw [sub_sub_cancel_left, abs_neg, abs_div, abs_of_pos (by norm_num : (0 : ℚ) < 2 ^ 53)]
    exact le_of_eq (by ring)

end MM.Io
