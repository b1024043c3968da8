import Verif.Proofs.ClipRegion
import Verif.Props.Clipper

/-!
# The clipped faces are the parts of the faces below the plane (C43)
-/

namespace MM
namespace Clipper

set_option linter.unusedSectionVars false
set_option linter.unusedSimpArgs false

variable {K : Type*} [Field K] [LinearOrder K] [IsStrictOrderedRing K]

/-! ## From the table to the faces -/

/-- First and last references of a polygon: same, both new, or first and last corner of a quadrangle. -/
def okEnds (n : ℕ) : List Ref → Bool
  | [a, _, _, d] => a == d || (match a, d with
      | .new _, .new _ => true
      | .old 0, .old 3 => n == 4
      | _, _ => false)
  | _ => false

theorem table_ends : ∀ c ∈ lists3 ++ lists4, c.all (fun x => x.isA || x.isB) = true →
    (plan c).check (fun q => q.faces.all (okEnds c.length)) = true := by decide +kernel

lemma inFace_map {V V' : ℕ → V3 K} {g : ℕ → ℕ} {f : Face} (h : ∀ i ∈ f.toList, V' (g i) = V i)
    (hinj : g f.a = g f.d → f.a = f.d) (X : V3 K) : InFace V' (f.map g) X ↔ InFace V f X := by
  have ha := h f.a (by simp [Face.toList])
  have hb := h f.b (by simp [Face.toList])
  have hc := h f.c (by simp [Face.toList])
  have hd := h f.d (by simp [Face.toList])
  unfold InFace
  simp only [Face.map, ha, hb, hc, hd]
  by_cases h0 : f.a = f.d
  · simp [h0]
  · have : ¬ g f.a = g f.d := fun h => h0 (hinj h)
    simp [h0, this]

lemma faceAreaVec_map {V V' : ℕ → V3 K} {g : ℕ → ℕ} {f : Face} (h : ∀ i ∈ f.toList, V' (g i) = V i)
    (hinj : g f.a = g f.d → f.a = f.d) : faceAreaVec V' (f.map g) = faceAreaVec V f := by
  have ha := h f.a (by simp [Face.toList])
  have hb := h f.b (by simp [Face.toList])
  have hc := h f.c (by simp [Face.toList])
  have hd := h f.d (by simp [Face.toList])
  unfold faceAreaVec
  simp only [Face.map, ha, hb, hc, hd]
  by_cases h0 : f.a = f.d
  · simp [h0]
  · have : ¬ g f.a = g f.d := fun h => h0 (hinj h)
    simp [h0, this]

lemma side_of {p : Plane K} {tol : K} (htol : 0 ≤ tol) {v : V3 K} (h : tol < |p.dist v|) :
    Side p (classOf tol (p.dist v)) v ∧ ((classOf tol (p.dist v)).isA || (classOf tol (p.dist v)).isB) = true := by
  rcases lt_abs.1 h with h | h
  · have hA := isA_iff.2 h
    have : classOf tol (p.dist v) = .A := by
      revert hA; cases classOf tol (p.dist v) <;> simp [Cls.isA]
    rw [this]
    exact ⟨.inl ⟨rfl, by linarith⟩, rfl⟩
  · have hB := (isB_iff htol).2 (show p.dist v < -tol by linarith)
    have : classOf tol (p.dist v) = .B := by
      revert hB; cases classOf tol (p.dist v) <;> simp [Cls.isB]
    rw [this]
    exact ⟨.inr ⟨rfl, by linarith⟩, rfl⟩

/-- The polygons emitted for a face of the crown. -/
lemma run_region {p : Plane K} {tol : K} (htol : 0 ≤ tol) {m : Mesh K} (hwf : m.WF)
    (hpos : ∀ f ∈ m.faces, ∀ i ∈ f.toList, tol < |p.dist (m.vert i)|)
    (hconv : ∀ f ∈ m.faces, f.a ≠ f.d → ConvexQuad (m.vert f.a) (m.vert f.b) (m.vert f.c) (m.vert f.d))
    {st' : LoopState K} {l : List (ℕ × Face × FaceClip K)}
    (h : Run p tol m.vertices (m.vertices.map p.dist) m.faces ⟨[], [], [], [], m.nv⟩ l st') {raw : Mesh K}
    (hraw : raw.vertices = m.vertices ++ st'.pts) {t : ℕ × Face × FaceClip K} (ht : t ∈ l) :
    (∀ X, (InFace m.vert t.2.1 X ∧ p.dist X ≤ 0) ↔ ∃ g ∈ t.2.2.faces.filterMap toFace, InFace raw.vert g X) ∧
    ∀ g ∈ t.2.2.faces.filterMap toFace, ∃ k : K, 0 ≤ k ∧ faceAreaVec raw.vert g = k • faceAreaVec m.vert t.2.1 := by
  have hf : t.2.1 ∈ m.faces := by rw [← h.faces_eq]; exact List.mem_map_of_mem ht
  have hok := h.ok t ht
  rw [clipFace_plan htol] at hok
  obtain ⟨q, hq, h1, h2, h3, h4, _⟩ := evalPlan_ok hok
  obtain ⟨g1, g2, g3⟩ := h.point htol (by simp [Mesh.nv]) t ht
  obtain ⟨index, f, r⟩ := t
  simp only at *
  have hcs : ∀ i ∈ f.corners, tol < |p.dist (m.vert i)| := fun i hi => hpos f hf i (Face.corners_sub f i hi)
  have hAB : (clsList tol (m.vertices.map p.dist) f.corners).all (fun x => x.isA || x.isB) = true := by
    rw [clsList_eq p tol m hwf hf, List.all_map, List.all_eq_true]
    intro i hi
    exact (side_of htol (hcs i hi)).2
  have hends := PlanRes.check_ok (table_ends _ (clsList_mem f) hAB) hq
  have hrange := PlanRes.check_ok (table_range _ (clsList_mem f)) hq
  rw [List.all_eq_true] at hends
  simp only [Plan.inRange, Bool.and_eq_true, List.all_eq_true, clsList_length] at hrange hends
  set P : ℕ → V3 K := fun k => m.vert (f.corners.getD k 0) with hP
  set N : ℕ → V3 K := fun j => raw.vert (index + j) with hN
  have hlt : ∀ k, k < f.corners.length → f.corners.getD k 0 < m.nv := fun k hk =>
    hwf f hf _ (Face.corners_sub f _ (corners_getD_mem hk))
  have hold : ∀ i, i < m.nv → raw.vert i = m.vert i := by
    intro i hi
    have : i < m.vertices.length := hi
    simp [Mesh.vert, hraw, List.getD_eq_getElem?_getD, List.getElem?_append_left this]
  have hpt : ∀ l0 ∈ q.faces, ∀ ref ∈ l0, raw.vert (evalRef f.corners index ref) = pt P N ref := by
    intro l0 hl0 ref href
    have hr := hrange.1.1 l0 hl0 ref href
    cases ref with
    | old k =>
      simp only [Ref.inRange, decide_eq_true_eq] at hr
      simp only [evalRef, pt, hP]
      exact hold _ (hlt k hr)
    | new j => rfl
  have hcuts : CutsOk p P N q := by
    intro j ij hj
    obtain ⟨hj', hje⟩ := List.getElem?_eq_some_iff.1 hj
    have hjr : j < r.pts.length := by omega
    rw [List.forall₂_iff_get] at h2
    have hcut := h2.2 j hj' hjr
    simp only [List.get_eq_getElem, hje] at hcut
    have hmem : ij ∈ q.cuts := by rw [← hje]; exact List.getElem_mem _
    have hr := hrange.1.2 ij hmem
    simp only [Bool.and_eq_true, decide_eq_true_eq] at hr
    obtain ⟨c1, c2, c3, c4⟩ := cut_ok hcut
    have hNj : N j = r.pts[j] := by
      have := g3 j (by omega)
      simp only [hN, Mesh.vert, hraw, List.getD_eq_getElem?_getD, this]
      rw [List.getElem?_eq_getElem hjr]; rfl
    have e1 : m.vertices.getD (f.corners.getD ij.1 0) 0 = P ij.1 := rfl
    have e2 : m.vertices.getD (f.corners.getD ij.2 0) 0 = P ij.2 := rfl
    rw [e1, e2] at c2 c3 c4
    have n1 : p.dist (P ij.1) ≠ 0 := by
      intro h0
      have := hcs _ (corners_getD_mem hr.1)
      simp only [hP] at h0
      rw [h0] at this; simp at this; linarith
    have n2 : p.dist (P ij.2) ≠ 0 := by
      intro h0
      have := hcs _ (corners_getD_mem hr.2)
      simp only [hP] at h0
      rw [h0] at this; simp at this; linarith
    refine ⟨lt_of_le_of_ne c2 (mul_ne_zero n1 n2), ?_⟩
    rw [hNj, c4]
    have hne : p.dist (P ij.1) - p.dist (P ij.2) ≠ 0 := sub_ne_zero.2 c3
    ext <;> simp <;> field_simp <;> ring
  -- the polygons
  have hline : ∀ l0 ∈ q.faces, ∃ g, toFace (l0.map (evalRef f.corners index)) = some g ∧
      (∀ X, InFace raw.vert g X ↔ InRefs P N l0 X) ∧ faceAreaVec raw.vert g = refsArea P N l0 := by
    intro l0 hl0
    have he := hends l0 hl0
    have hp := hpt l0 hl0
    have hr := hrange.1.1 l0 hl0
    match l0, he, hp, hr with
    | [a, b, c, d], he, hp, hr =>
      refine ⟨⟨evalRef f.corners index a, evalRef f.corners index b, evalRef f.corners index c,
        evalRef f.corners index d⟩, rfl, ?_⟩
      have hiff : evalRef f.corners index a = evalRef f.corners index d ↔ a = d := by
        constructor
        · intro hh
          simp only [okEnds, Bool.or_eq_true, beq_iff_eq] at he
          rcases he with he | he
          · exact he
          · split at he
            · simp only [evalRef] at hh
              congr 1; omega
            · exfalso
              simp only [beq_iff_eq] at he
              simp only [evalRef] at hh
              unfold Face.corners at he hh
              split at he
              · simp at he
              · rename_i ht
                simp only [ht, if_false, Bool.false_eq_true] at hh
                simp only [Face.isTri, beq_iff_eq] at ht
                exact ht (by simpa using hh)
            · simp at he
        · intro h; rw [h]
      have ea := hp a (by simp)
      have eb := hp b (by simp)
      have ec := hp c (by simp)
      have ed := hp d (by simp)
      constructor
      · intro X
        simp only [InFace, InRefs, ea, eb, ec, ed, hiff]
      · simp only [faceAreaVec, refsArea, ea, eb, ec, ed, hiff]
  have hmemfaces : ∀ g, g ∈ r.faces.filterMap toFace ↔
      ∃ l0 ∈ q.faces, toFace (l0.map (evalRef f.corners index)) = some g := by
    intro g
    rw [h1, List.mem_filterMap]
    simp
  have key : (∀ X, (InFace m.vert f X ∧ p.dist X ≤ 0) ↔ ∃ l0 ∈ q.faces, InRefs P N l0 X) ∧
      ∀ l0 ∈ q.faces, ∃ k : K, 0 ≤ k ∧ refsArea P N l0 = k • faceAreaVec m.vert f := by
    rw [clsList_eq p tol m hwf hf] at hq
    by_cases hfa : f.a = f.d
    · have hco : f.corners = [f.a, f.b, f.c] := by simp [Face.corners, Face.isTri, hfa]
      have p0 : P 0 = m.vert f.a := by simp [hP, hco]
      have p1 : P 1 = m.vert f.b := by simp [hP, hco]
      have p2 : P 2 = m.vert f.c := by simp [hP, hco]
      rw [hco] at hcs hq
      have := tri_table (P := P) (N := N) (p := p) (by rw [p0]; exact (side_of htol (hcs f.a (by simp))).1)
        (by rw [p1]; exact (side_of htol (hcs f.b (by simp))).1) (by rw [p2]; exact (side_of htol (hcs f.c (by simp))).1)
        hq hcuts
      rw [p0, p1, p2] at this
      simpa only [InFace, faceAreaVec, hfa, if_true] using this
    · have hco : f.corners = [f.a, f.b, f.c, f.d] := by simp [Face.corners, Face.isTri, hfa]
      have p0 : P 0 = m.vert f.a := by simp [hP, hco]
      have p1 : P 1 = m.vert f.b := by simp [hP, hco]
      have p2 : P 2 = m.vert f.c := by simp [hP, hco]
      have p3 : P 3 = m.vert f.d := by simp [hP, hco]
      rw [hco] at hcs hq
      have := quad_table (P := P) (N := N) (p := p) (by rw [p0]; exact (side_of htol (hcs f.a (by simp))).1)
        (by rw [p1]; exact (side_of htol (hcs f.b (by simp))).1) (by rw [p2]; exact (side_of htol (hcs f.c (by simp))).1)
        (by rw [p3]; exact (side_of htol (hcs f.d (by simp))).1)
        (by rw [p0, p1, p2, p3]; exact hconv f hf hfa) hq hcuts
      rw [p0, p1, p2, p3] at this
      simpa only [InFace, faceAreaVec, hfa, if_false] using this
  constructor
  · intro X
    rw [key.1 X]
    constructor
    · rintro ⟨l0, hl0, hX⟩
      obtain ⟨g, e1, e2, _⟩ := hline l0 hl0
      exact ⟨g, (hmemfaces g).2 ⟨l0, hl0, e1⟩, (e2 X).2 hX⟩
    · rintro ⟨g, hg, hX⟩
      obtain ⟨l0, hl0, e0⟩ := (hmemfaces g).1 hg
      obtain ⟨g', e1, e2, _⟩ := hline l0 hl0
      rw [e0] at e1
      cases e1
      exact ⟨l0, hl0, (e2 X).1 hX⟩
  · intro g hg
    obtain ⟨l0, hl0, e0⟩ := (hmemfaces g).1 hg
    obtain ⟨g', e1, _, e3⟩ := hline l0 hl0
    rw [e0] at e1
    cases e1
    rw [e3]
    exact key.2 l0 hl0

/-! ## C43 -/

lemma GeomClose.trans' {e1 e2 : K} {a b c : List (List (Option (V3 K)))} (h1 : GeomClose e1 a b) (h2 : GeomClose e2 b c) :
    GeomClose (e1 + e2) a c := by
  have hV : ∀ x y z : V3 K, V3.Close e1 x y → V3.Close e2 y z → V3.Close (e1 + e2) x z := by
    rintro x y z ⟨a1, a2, a3⟩ ⟨b1, b2, b3⟩
    refine ⟨?_, ?_, ?_⟩
    · exact le_trans (abs_sub_le _ _ _) (add_le_add a1 b1)
    · exact le_trans (abs_sub_le _ _ _) (add_le_add a2 b2)
    · exact le_trans (abs_sub_le _ _ _) (add_le_add a3 b3)
  have hO : ∀ x y z : Option (V3 K), OptClose e1 x y → OptClose e2 y z → OptClose (e1 + e2) x z := by
    rintro (_ | x) (_ | y) (_ | z) h1 h2
    all_goals first | exact h1.elim | exact h2.elim | exact hV x y z h1 h2
  have tr : ∀ {α : Type _} {R S T : α → α → Prop}, (∀ x y z, R x y → S y z → T x z) → ∀ {a b c : List α},
      List.Forall₂ R a b → List.Forall₂ S b c → List.Forall₂ T a c := by
    intro α R S T hRST a b c h1
    induction h1 generalizing c with
    | nil => intro h2; cases h2; exact .nil
    | cons hx _ ih => intro h2; cases h2 with
      | cons hy ht => exact .cons (hRST _ _ _ hx hy) (ih ht)
  have hL : ∀ x y z : List (Option (V3 K)), List.Forall₂ (OptClose e1) x y → List.Forall₂ (OptClose e2) y z →
      List.Forall₂ (OptClose (e1 + e2)) x z := fun x y z h1 h2 => tr hO h1 h2
  exact tr hL h1 h2

lemma GeomClose.append' {e : K} {a b c d : List (List (Option (V3 K)))} (h1 : GeomClose e a b) (h2 : GeomClose e c d) :
    GeomClose e (a ++ c) (b ++ d) := List.rel_append h1 h2

lemma GeomClose.refl' {e : K} (he : 0 ≤ e) {m : Mesh K} (hwf : m.WF) : GeomClose e m.geometry m.geometry := by
  unfold GeomClose
  rw [List.forall₂_same]
  intro l hl
  rw [List.forall₂_same]
  intro o ho
  obtain ⟨f, hf, rfl⟩ := List.mem_map.1 hl
  obtain ⟨i, hi, rfl⟩ := List.mem_map.1 ho
  have : i < m.vertices.length := hwf f hf i hi
  rw [List.getElem?_eq_getElem this]
  simp [OptClose, V3.Close, he]

/-- **C43.** When no corner is in the vicinity of the plane, the clipped mesh is, up to the displacements of the
corners by the two merges, a mesh made of the parts of the faces of the input that are below the plane: each face of
the input gives polygons that cover exactly its points below the plane, with its orientation. -/
theorem C43_parts_below (srt : (ℕ → K) → List ℕ → List ℕ) (hsrt : IsArgsort srt) (p : Plane K) (tol : K)
    (htol : 0 ≤ tol) (b : Bool) (m : Mesh K) (hwf : m.WF)
    (hpos : ∀ f ∈ m.faces, ∀ i ∈ f.toList, tol < |p.dist (m.vert i)|)
    (hconv : ∀ f ∈ m.faces, f.a ≠ f.d → ConvexQuad (m.vert f.a) (m.vert f.b) (m.vert f.c) (m.vert f.d))
    (c : Clipped K) (h : clip srt p tol b m = .ok c) :
    ∃ (exact : Mesh K) (parts : List (Face × List Face)),
      GeomClose (1 / 100000 + 1 / 100000000) exact.geometry c.clipped.geometry ∧
      (parts.map Prod.fst).Perm m.faces ∧ exact.faces = parts.flatMap Prod.snd ∧
      ∀ t ∈ parts,
        (∀ X, (∃ g ∈ t.2, InFace exact.vert g X) ↔ (InFace m.vert t.1 X ∧ p.dist X ≤ 0)) ∧
        ∀ g ∈ t.2, ∃ k : K, 0 ≤ k ∧ faceAreaVec exact.vert g = k • faceAreaVec m.vert t.1 := by
  obtain ⟨part, cm, direct, inv, hp, hcc, hadd, _, _, _, _, _, _⟩ := clip_ok h
  obtain ⟨part', gu, gc, gl, hp', su, sc, sl, hcd⟩ := partition_spec p tol m hwf
  rw [hp] at hp'
  cases hp'
  obtain ⟨st, raw, newId, e1, e2, e3, _, _⟩ := clipCrown_ok hcc
  rw [hcd] at e1
  obtain ⟨l, hrun⟩ := clipLoop_ok e1
  obtain ⟨hw, hv⟩ := raw_wf htol sc.wf hrun e2
  obtain ⟨g0, g1, g2⟩ := mkMesh_ok e2
  set qu := fun f => allFour (isAbove tol) (m.vertices.map p.dist) f with hqu
  set ql := fun f => allFour (isBelow tol) (m.vertices.map p.dist) f with hql
  set qc := fun f => !qu f && !ql f with hqc
  -- the crown meets the hypotheses
  have cpos : ∀ f ∈ part.crown.faces, ∀ i ∈ f.toList, tol < |p.dist (part.crown.vert i)| := by
    intro f' hf' i hi
    obtain ⟨f, hf, _, rfl, _, hvv⟩ := sc.face hf'
    rw [Face.toList_map] at hi
    obtain ⟨j, hj, rfl⟩ := List.mem_map.1 hi
    rw [hvv j hj]; exact hpos f hf j hj
  have cconv : ∀ f ∈ part.crown.faces, f.a ≠ f.d →
      ConvexQuad (part.crown.vert f.a) (part.crown.vert f.b) (part.crown.vert f.c) (part.crown.vert f.d) := by
    intro f' hf' h
    obtain ⟨f, hf, _, rfl, _, hvv⟩ := sc.face hf'
    simp only [Face.map] at h ⊢
    rw [hvv f.a (by simp [Face.toList]), hvv f.b (by simp [Face.toList]), hvv f.c (by simp [Face.toList]),
      hvv f.d (by simp [Face.toList])]
    exact hconv f hf (fun h' => h (by rw [h']))
  obtain ⟨cm', newId', hm, hw', _, hg, _⟩ :=
    C05_merge_duplicates_moves_corners_within_tol srt hsrt (1 / 100000) (by positivity) raw hw hv
  rw [e3] at hm
  cases hm
  have hne : part.lower.vertices ++ cm.vertices ≠ [] := by
    intro h0
    have h0 := (List.append_eq_nil_iff.1 h0).2
    have hfe : cm.faces = [] := by
      by_contra hfe
      obtain ⟨f, hf⟩ := List.exists_mem_of_ne_nil _ hfe
      have := hw' f hf f.a (by simp [Face.toList])
      simp [Mesh.nv, h0] at this
    have := hg.length_eq
    simp only [Mesh.geometry, List.length_map, hfe, List.length_nil] at this
    rw [List.length_eq_zero_iff.1 this] at g2
    exact g0 g2.symm
  obtain ⟨s, hs, hsw, _, hsg⟩ := C11_concatenation srt hsrt part.lower cm sl.wf hw' hne
  rw [hadd] at hs
  cases hs
  obtain ⟨hew, heg⟩ := concat_geometry part.lower raw sl.wf hw
  set exact := Mesh.concat part.lower raw with hexact
  have vlow : ∀ i, i < part.lower.nv → exact.vert i = part.lower.vert i := by
    intro i hi
    have : i < part.lower.vertices.length := hi
    simp [hexact, Mesh.concat, Mesh.vert, List.getD_eq_getElem?_getD, List.getElem?_append_left this]
  have vraw : ∀ i, exact.vert (i + part.lower.nv) = raw.vert i := by
    intro i
    simp only [hexact, Mesh.concat, Mesh.vert, List.getD_eq_getElem?_getD, Mesh.nv]
    rw [List.getElem?_append_right (by omega)]
    congr 2; omega
  set shift : Face → Face := Face.map (fun i => i + part.lower.nv) with hshift
  set fc := m.faces.filter qc with hfc
  set pc := (fc.zip l).map (fun x => (x.1, (x.2.2.2.faces.filterMap toFace).map shift)) with hpc
  have hlen : fc.length = l.length := by
    have h1 := congrArg List.length hrun.faces_eq
    have h2 := congrArg List.length sc.faces
    simp only [List.length_map] at h1 h2
    rw [hfc]; omega
  have hzip : ∀ x ∈ fc.zip l, x.1 ∈ fc ∧ x.2 ∈ l ∧ x.2.2.1 = x.1.map gc := by
    intro x hx
    obtain ⟨k, hk, rfl⟩ := List.mem_iff_getElem.1 hx
    rw [List.length_zip] at hk
    have k1 : k < fc.length := by omega
    have k2 : k < l.length := by omega
    rw [List.getElem_zip]
    refine ⟨List.getElem_mem _, List.getElem_mem _, ?_⟩
    have h1 : (l.map (fun t => t.2.1))[k]? = (fc.map (Face.map gc))[k]? := by rw [hrun.faces_eq, sc.faces]
    simp only [List.getElem?_map, List.getElem?_eq_getElem k1, List.getElem?_eq_getElem k2, Option.map_some,
      Option.some.injEq] at h1
    exact h1
  refine ⟨exact, (m.faces.filter ql).map (fun f => (f, [f.map gl])) ++ pc ++
    (m.faces.filter qu).map (fun f => (f, [])), ?_, ?_, ?_, ?_⟩
  · have h1 : GeomClose (1 / 100000) exact.geometry (part.lower.geometry ++ cm.geometry) := by
      rw [heg]
      exact GeomClose.append' (GeomClose.refl' (by positivity) sl.wf) hg
    exact GeomClose.trans' h1 hsg
  · have : ((m.faces.filter ql).map (fun f => (f, [f.map gl])) ++ pc ++
      (m.faces.filter qu).map (fun f => (f, ([] : List Face)))).map Prod.fst = m.faces.filter ql ++ fc ++ m.faces.filter qu := by
      simp only [List.map_append, List.map_map, Function.comp_def, List.map_id', hpc]
      rw [show List.map (fun x : Face × ℕ × Face × FaceClip K => x.1) (fc.zip l) = fc from
        List.map_fst_zip (by omega)]
    rw [this]
    have hperm := perm_three m.faces qu ql (by
      intro f hf h1
      by_contra h2
      rw [Bool.not_eq_false] at h2
      rw [hqu, allFour_iff] at h1
      rw [hql, allFour_iff] at h2
      have a1 := h1 f.a (by simp [Face.toList])
      have a2 := h2 f.a (by simp [Face.toList])
      simp only [isAbove, isBelow, decide_eq_true_eq] at a1 a2
      linarith)
    refine List.Perm.trans ?_ hperm
    rw [List.append_assoc (m.faces.filter qu)]
    refine (List.perm_append_comm).trans ?_
    exact List.Perm.append_left _ List.perm_append_comm
  · rw [List.flatMap_append, List.flatMap_append]
    have z1 : ((m.faces.filter ql).map (fun f => (f, [f.map gl]))).flatMap Prod.snd = part.lower.faces := by
      rw [sl.faces, List.flatMap_map]
      rw [List.map_eq_flatMap]
    have z3 : ((m.faces.filter qu).map (fun f => (f, ([] : List Face)))).flatMap Prod.snd = [] := by
      rw [List.flatMap_map]; simp
    have z2 : pc.flatMap Prod.snd = raw.faces.map shift := by
      have hrf : raw.faces = l.flatMap (fun t => t.2.2.faces.filterMap toFace) := by
        have : raw.faces = (raw.faces.map Face.toList).filterMap toFace := by
          rw [List.filterMap_map]
          have : (toFace ∘ Face.toList) = some := by funext f; rfl
          rw [this, List.filterMap_some]
        rw [this, g2, hrun.crownFaces, List.nil_append, List.filterMap_flatMap]
      rw [hrf, hpc, List.flatMap_map, List.map_flatMap]
      have : l = (fc.zip l).map Prod.snd := (List.map_snd_zip (by omega)).symm
      conv_rhs => rw [this, List.flatMap_map]
    rw [z1, z2, z3, List.append_nil]
    rfl
  · intro t ht
    rcases List.mem_append.1 ht with ht | ht
    · rcases List.mem_append.1 ht with ht | ht
      · -- a face below
        obtain ⟨f, hf, rfl⟩ := List.mem_map.1 ht
        have hq := (List.mem_filter.1 hf).2
        have hfm := (List.mem_filter.1 hf).1
        simp only [hql] at hq
        rw [allFour_below p tol m hwf hfm, decide_eq_true_iff] at hq
        have hvv : ∀ i ∈ f.toList, exact.vert (gl i) = m.vert i := by
          intro i hi
          rw [vlow _ (sl.vert f hf i hi).2, sl.vert_eq hf hi]
        have hinj : gl f.a = gl f.d → f.a = f.d :=
          fun he => sl.inj f hf _ (by simp [Face.toList]) f hf _ (by simp [Face.toList]) he
        constructor
        · intro X
          simp only [List.mem_singleton, exists_eq_left]
          rw [inFace_map hvv hinj]
          refine ⟨fun h => ⟨h, ?_⟩, fun h => h.1⟩
          have hb : ∀ i ∈ f.toList, p.dist (m.vert i) ≤ 0 := fun i hi => by have := hq i hi; linarith
          unfold InFace at h
          split at h
          · exact (cvx_below p 0).tri (hb _ (by simp [Face.toList])) (hb _ (by simp [Face.toList]))
              (hb _ (by simp [Face.toList])) h
          · exact (cvx_below p 0).quad (hb _ (by simp [Face.toList])) (hb _ (by simp [Face.toList]))
              (hb _ (by simp [Face.toList])) (hb _ (by simp [Face.toList])) h
        · intro g hg
          rw [List.mem_singleton] at hg
          subst hg
          exact ⟨1, by norm_num, by rw [faceAreaVec_map hvv hinj, one_smul]⟩
      · -- a face of the crown
        obtain ⟨x, hx, rfl⟩ := List.mem_map.1 ht
        obtain ⟨x1, x2, x3⟩ := hzip x hx
        obtain ⟨r1, r2⟩ := run_region htol sc.wf cpos cconv hrun g1 x2
        have hvv : ∀ i ∈ x.1.toList, part.crown.vert (gc i) = m.vert i := fun i hi => sc.vert_eq x1 hi
        have hinj : gc x.1.a = gc x.1.d → x.1.a = x.1.d :=
          fun he => sc.inj _ x1 _ (by simp [Face.toList]) _ x1 _ (by simp [Face.toList]) he
        have hsh : ∀ (g : Face) X, InFace exact.vert (shift g) X ↔ InFace raw.vert g X := fun g X =>
          inFace_map (fun i _ => vraw i) (fun he => by simpa using he) X
        have hsa : ∀ (g : Face), faceAreaVec exact.vert (shift g) = faceAreaVec raw.vert g := fun g =>
          faceAreaVec_map (fun i _ => vraw i) (fun he => by simpa using he)
        constructor
        · intro X
          have := r1 X
          rw [x3, inFace_map hvv hinj] at this
          rw [this]
          simp only [List.mem_map]
          constructor
          · rintro ⟨_, ⟨g, hg, rfl⟩, hX⟩
            exact ⟨g, hg, (hsh g X).1 hX⟩
          · rintro ⟨g, hg, hX⟩
            exact ⟨_, ⟨g, hg, rfl⟩, (hsh g X).2 hX⟩
        · intro g hg
          obtain ⟨g', hg', rfl⟩ := List.mem_map.1 hg
          rw [hsa]
          have := r2 g' hg'
          rw [x3, faceAreaVec_map hvv hinj] at this
          exact this
    · -- a face above
      obtain ⟨f, hf, rfl⟩ := List.mem_map.1 ht
      have hq := (List.mem_filter.1 hf).2
      have hfm := (List.mem_filter.1 hf).1
      simp only [hqu] at hq
      rw [allFour_above p tol m hwf hfm, decide_eq_true_iff] at hq
      refine ⟨fun X => ?_, by simp⟩
      simp only [List.not_mem_nil, false_and, exists_false, false_iff, not_and, not_le]
      have hb : ∀ i ∈ f.toList, 0 < p.dist (m.vert i) := fun i hi => by have := hq i hi; linarith
      intro h
      unfold InFace at h
      split at h
      · exact tri_above (hb _ (by simp [Face.toList])) (hb _ (by simp [Face.toList]))
          (hb _ (by simp [Face.toList])) h
      · rename_i had
        rcases (inQuad_split (hconv f hfm had).diagonalsCross).1 h with h | h
        · exact tri_above (hb _ (by simp [Face.toList])) (hb _ (by simp [Face.toList]))
            (hb _ (by simp [Face.toList])) h
        · exact tri_above (hb _ (by simp [Face.toList])) (hb _ (by simp [Face.toList]))
            (hb _ (by simp [Face.toList])) h

/-- The hypotheses of C43 are met by the cube cut at mid-height, which the clipper clips (see the example of C41). -/
example : (∀ f ∈ (cubeMesh ℚ).faces, ∀ i ∈ f.toList,
      (1/1000 : ℚ) < |(⟨⟨0, 0, 1⟩, 1/2⟩ : Plane ℚ).dist ((cubeMesh ℚ).vert i)|) ∧
    (∀ f ∈ (cubeMesh ℚ).faces, f.a ≠ f.d → ConvexQuad ((cubeMesh ℚ).vert f.a) ((cubeMesh ℚ).vert f.b)
      ((cubeMesh ℚ).vert f.c) ((cubeMesh ℚ).vert f.d)) := by
  refine ⟨by decide +kernel, ?_⟩
  have h : ∀ f ∈ (cubeMesh ℚ).faces, f.a ≠ f.d →
      let v := (cubeMesh ℚ).vert
      let n := areaVec (v f.a) (v f.b) (v f.c)
      n ≠ 0 ∧ areaVec (v f.a) (v f.c) (v f.d) = n ∧ areaVec (v f.a) (v f.b) (v f.d) = n ∧
        areaVec (v f.b) (v f.c) (v f.d) = n := by decide +kernel
  intro f hf h'
  obtain ⟨h1, h2, h3, h4⟩ := h f hf h'
  exact ⟨_, 1, 1, 1, 1, by norm_num, by norm_num, by norm_num, by norm_num, by norm_num, h1, (one_smul ..).symm,
    by rw [one_smul]; exact h2, by rw [one_smul]; exact h3, by rw [one_smul]; exact h4⟩

end Clipper
end MM
