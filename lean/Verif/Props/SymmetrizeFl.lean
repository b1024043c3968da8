import Verif.Model.SymmetrizeFl
import Verif.Props.MirrorFl
import Verif.Props.MergeFl
import Verif.Props.MeshIndex

/-!
# C149: `symmetrize` in floating point
-/

namespace MM

open QuadFl MirrorFl

namespace SymmetrizeFl

/-- The corners of a mesh doubled by a map of points. -/
lemma doubled_geometry (g : V3 ℝ → V3 ℝ) (m : Mesh ℝ) (hwf : m.WF) :
    (⟨m.vertices ++ m.vertices.map g, m.faces ++ m.faces.map (fun f => (f.map (· + m.nv)).flip)⟩ : Mesh ℝ).geometry =
      m.geometry ++ m.geometry.map (fun c => (c.map (Option.map g)).reverse) := by
  simp only [Mesh.geometry, List.map_append, List.map_map]
  congr 1
  · apply List.map_congr_left
    intro f hf
    apply List.map_congr_left
    intro i hi
    have := hwf f hf i hi
    exact List.getElem?_append_left this
  · apply List.map_congr_left
    intro f hf
    have hidx : ∀ i, (m.vertices ++ m.vertices.map g)[i + m.nv]? = (m.vertices[i]?).map g := by
      intro i
      rw [List.getElem?_append_right (by simp [Mesh.nv])]
      simp [Mesh.nv]
    simp only [Function.comp, Mesh.cornerPoints, Face.flip, Face.map, Face.toList, List.map_cons,
      List.map_nil, hidx, List.reverse_cons, List.reverse_nil, List.nil_append, List.cons_append]

lemma doubled_wf (g : V3 ℝ → V3 ℝ) (m : Mesh ℝ) (hwf : m.WF) :
    (⟨m.vertices ++ m.vertices.map g, m.faces ++ m.faces.map (fun f => (f.map (· + m.nv)).flip)⟩ : Mesh ℝ).WF := by
  intro f hf i hi
  simp only [Mesh.nv, List.length_append, List.length_map]
  rcases List.mem_append.1 hf with hf | hf
  · have := hwf f hf i hi
    simp only [Mesh.nv] at this; omega
  · obtain ⟨g, hg, rfl⟩ := List.mem_map.1 hf
    obtain ⟨h1, h2, h3, h4⟩ := hwf.corner hg
    simp only [Mesh.nv] at h1 h2 h3 h4
    simp only [Face.flip, Face.map, Face.toList, Mesh.nv, List.mem_cons, List.not_mem_nil, or_false] at hi
    rcases hi with rfl | rfl | rfl | rfl <;> omega

lemma close_trans {a b : ℝ} {u v w : V3 ℝ} (h : V3.Close a u v) (h' : V3.Close b v w) : V3.Close (a + b) u w :=
  ⟨(abs_sub_le _ _ _).trans (add_le_add h.1 h'.1), (abs_sub_le _ _ _).trans (add_le_add h.2.1 h'.2.1),
    (abs_sub_le _ _ _).trans (add_le_add h.2.2 h'.2.2)⟩

lemma close_mono {a b : ℝ} {u v : V3 ℝ} (h : V3.Close a u v) (hab : a ≤ b) : V3.Close b u v :=
  ⟨h.1.trans hab, h.2.1.trans hab, h.2.2.trans hab⟩

lemma optClose_trans {a b : ℝ} : ∀ {u v w : Option (V3 ℝ)}, OptClose a u v → OptClose b v w → OptClose (a + b) u w
  | some _, some _, some _, h, h' => close_trans h h'
  | none, _, _, h, _ => h.elim
  | some _, none, _, h, _ => h.elim
  | some _, some _, none, _, h => h.elim

lemma optClose_mono {a b : ℝ} (hab : a ≤ b) : ∀ {u v : Option (V3 ℝ)}, OptClose a u v → OptClose b u v
  | some _, some _, h => close_mono h hab
  | none, _, h => h.elim
  | some _, none, h => h.elim

lemma forall₂_trans {α : Type*} {P Q S : α → α → Prop} (hPQ : ∀ x y z, P x y → Q y z → S x z) :
    ∀ {l₁ l₂ l₃ : List α}, List.Forall₂ P l₁ l₂ → List.Forall₂ Q l₂ l₃ → List.Forall₂ S l₁ l₃
  | _, _, _, .nil, .nil => .nil
  | _, _, _, .cons h t, .cons h' t' => .cons (hPQ _ _ _ h h') (forall₂_trans hPQ t t')

lemma geomClose_trans {a b : ℝ} {g h k : List (List (Option (V3 ℝ)))} (h₁ : GeomClose a g h) (h₂ : GeomClose b h k) :
    GeomClose (a + b) g k :=
  forall₂_trans (P := List.Forall₂ (OptClose a)) (Q := List.Forall₂ (OptClose b)) (S := List.Forall₂ (OptClose (a + b)))
    (fun _ _ _ x y => forall₂_trans (P := OptClose a) (Q := OptClose b) (S := OptClose (a + b)) (fun _ _ _ => optClose_trans) x y) h₁ h₂

lemma geomClose_mono {a b : ℝ} (hab : a ≤ b) {g h : List (List (Option (V3 ℝ)))} (h₁ : GeomClose a g h) : GeomClose b g h :=
  List.Forall₂.imp (fun _ _ x => List.Forall₂.imp (fun _ _ => optClose_mono hab) x) h₁

/-- The corners of a mesh are vertices. -/
lemma geometry_some (m : Mesh ℝ) (hwf : m.WF) {c : List (Option (V3 ℝ))} (hc : c ∈ m.geometry) {o : Option (V3 ℝ)} (ho : o ∈ c) :
    ∃ v ∈ m.vertices, o = some v := by
  obtain ⟨f, hf, rfl⟩ := List.mem_map.1 hc
  obtain ⟨i, hi, rfl⟩ := List.mem_map.1 ho
  have := hwf f hf i hi
  exact ⟨_, List.getElem_mem this, List.getElem?_eq_getElem this⟩

lemma doubled_close {δ : ℝ} (hδ : 0 ≤ δ) (g g' : V3 ℝ → V3 ℝ) (m : Mesh ℝ) (hwf : m.WF) (h : ∀ v ∈ m.vertices, V3.Close δ (g v) (g' v)) :
    GeomClose δ (m.geometry ++ m.geometry.map (fun c => (c.map (Option.map g)).reverse))
      (m.geometry ++ m.geometry.map (fun c => (c.map (Option.map g')).reverse)) := by
  refine List.rel_append ?_ ?_
  · refine List.forall₂_same.2 fun c hc => List.forall₂_same.2 fun o ho => ?_
    obtain ⟨v, -, rfl⟩ := geometry_some m hwf hc ho
    exact ⟨by simpa using hδ, by simpa using hδ, by simpa using hδ⟩
  · rw [List.forall₂_map_left_iff, List.forall₂_map_right_iff]
    refine List.forall₂_same.2 fun c hc => ?_
    rw [List.forall₂_reverse_iff, List.forall₂_map_left_iff, List.forall₂_map_right_iff]
    refine List.forall₂_same.2 fun o ho => ?_
    obtain ⟨v, hv, rfl⟩ := geometry_some m hwf hc ho
    exact h v hv

/-- The merge with a rounded subtraction is the exact one with a tolerance close to `1e-8`. -/
lemma merge_as_exact {u : ℝ} (hu0 : 0 ≤ u) (hu : u ≤ 1 / 100) {rnd : ℝ → ℝ} (hr : IsRounding u rnd)
    (hidem : rnd (rnd Mesh.defaultAtol) = rnd Mesh.defaultAtol) (srt : (ℕ → ℝ) → List ℕ → List ℕ) (m : Mesh ℝ) :
    ∃ a, 0 ≤ a ∧ a ≤ (1 + 3 * u) / 10 ^ 8 ∧ m.mergeDuplicatesFl rnd srt (rnd Mesh.defaultAtol) = m.mergeDuplicates srt a := by
  have t0 : (0 : ℝ) ≤ Mesh.defaultAtol := by unfold Mesh.defaultAtol; positivity
  have near := hr.near (Mesh.defaultAtol : ℝ)
  rw [abs_of_nonneg t0, abs_le] at near
  have r0 : 0 ≤ rnd Mesh.defaultAtol := by nlinarith [near.1]
  obtain ⟨a, h1, h2, h3⟩ := C117_as_exact u rnd hr srt _ r0 hidem (m.vertices.map V3.coord)
  refine ⟨a, r0.trans h1, ?_, ?_⟩
  · have : (1 - u) * a ≤ (1 + u) / 10 ^ 8 := by
      refine h2.trans ?_
      have := near.2
      unfold Mesh.defaultAtol at this ⊢
      linarith
    have k : (1 + u) ≤ (1 - u) * (1 + 3 * u) := by nlinarith
    have : (1 - u) * a ≤ (1 - u) * ((1 + 3 * u) / 10 ^ 8) := by
      refine this.trans ?_
      rw [← mul_div_assoc]
      exact div_le_div_of_nonneg_right k (by positivity)
    exact le_of_mul_le_mul_left this (by linarith)
  · unfold Mesh.mergeDuplicatesFl Mesh.mergeDuplicates
    rw [h3]
    cases mergeDuplicateRows srt a (m.vertices.map V3.coord) <;> rfl

end SymmetrizeFl

open SymmetrizeFl

/-- **C149.** `symmetrize` in floating point, with a plane whose stored unit normal is rounded, succeeds on every mesh with valid indices which has
vertices. The result has the faces of the mesh followed by their mirror images with reversed corner order, each corner within
`57 ε R + (1 + 3 u) 1e-8` per coordinate of its ideal position; no two of its vertices are equal; and the exact reflection of any of its vertices
lies within `114 ε R + (1 + 3 u) 1e-8` of a vertex of the result. -/
theorem C149_symmetrize (u g ε R : ℝ) (hu0 : 0 ≤ u) (hu : u ≤ ε) (hg : g ≤ ε) (h1 : ε ≤ 1 / 100) (hR : 0 ≤ R) (rnd : ℝ → ℝ)
    (hr : IsRounding u rnd) (hidem : rnd (rnd Mesh.defaultAtol) = rnd Mesh.defaultAtol) (dot : V3 ℝ → V3 ℝ → ℝ)
    (hd : IsDot g dot) (srt : (ℕ → ℝ) → List ℕ → List ℕ) (hsrt : IsArgsort srt) (p q : Plane ℝ) (hp : p.normal.dot p.normal = 1)
    (hq : ∀ k, |q.normal.coord k - p.normal.coord k| ≤ ε) (hc : q.c = p.c) (hcR : |p.c| ≤ R) (m : Mesh ℝ)
    (hv : ∀ v ∈ m.vertices, ∀ k, |v.coord k| ≤ R) (hwf : m.WF) (hne : m.vertices ≠ []) :
    ∃ s, m.symmetrizeFl rnd dot srt q = .ok s ∧ s.WF ∧ s.nf = 2 * m.nf ∧
      GeomClose (57 * ε * R + (1 + 3 * u) / 10 ^ 8)
        (m.geometry ++ m.geometry.map (fun c => (c.map (Option.map p.reflect)).reverse)) s.geometry ∧
      s.vertices.Nodup ∧
      (∀ v ∈ s.vertices, ∃ w ∈ s.vertices, V3.Close (114 * ε * R + (1 + 3 * u) / 10 ^ 8) (p.reflect v) w) := by
  have h0 := hu0.trans hu
  have hεR0 : 0 ≤ ε * R := mul_nonneg h0 hR
  have P : ∀ v ∈ m.vertices, V3.Close (57 * ε * R) (p.reflect v) (q.reflectFl rnd dot v) := by
    have : List.Forall₂ _ (m.vertices.map _) (m.vertices.map _) :=
      (C148_positions u g ε R hu0 hu hg h1 hR rnd hr dot hd p q hp hq hc hcR m hv).2
    rw [List.forall₂_map_left_iff, List.forall₂_map_right_iff] at this
    exact List.forall₂_same.1 this
  have hwf' : (m.symmetrizeRawFl rnd dot q).WF := doubled_wf _ m hwf
  have hne' : (m.symmetrizeRawFl rnd dot q).vertices ≠ [] := by simp [Mesh.symmetrizeRawFl, hne]
  obtain ⟨a, ha0, ha, hex⟩ := merge_as_exact hu0 (hu.trans h1) hr hidem srt (m.symmetrizeRawFl rnd dot q)
  obtain ⟨s, ids, hs, hswf, _, hclose, hnd, hids, hmem⟩ :=
    C05_merge_duplicates_moves_corners_within_tol srt hsrt a ha0 (m.symmetrizeRawFl rnd dot q) hwf' hne'
  refine ⟨s, by simp [Mesh.symmetrizeFl, hex, hs, Except.map], hswf, ?_, ?_, hnd, ?_⟩
  · have := hclose.length_eq
    simp only [Mesh.geometry, List.length_map, Mesh.symmetrizeRawFl, List.length_append] at this
    simp only [Mesh.nf]; omega
  · have e := doubled_geometry (q.reflectFl rnd dot) m hwf
    change (m.symmetrizeRawFl rnd dot q).geometry = _ at e
    rw [e] at hclose
    exact geomClose_trans (doubled_close (by positivity) _ _ m hwf P) (geomClose_mono ha hclose)
  · intro v hv
    obtain ⟨w', hw', hc'⟩ : ∃ w' ∈ (m.symmetrizeRawFl rnd dot q).vertices, V3.Close (114 * ε * R) (p.reflect v) w' := by
      rcases List.mem_append.1 (hmem v hv) with h | h
      · exact ⟨_, List.mem_append.2 (Or.inr (List.mem_map.2 ⟨v, h, rfl⟩)), close_mono (P v h) (by nlinarith)⟩
      · obtain ⟨x, hx, rfl⟩ := List.mem_map.1 h
        refine ⟨x, List.mem_append.2 (Or.inl hx), ?_⟩
        have := reflect_close p hp (by positivity) (P x hx)
        rw [reflect_reflect p hp] at this
        obtain ⟨y1, y2, y3⟩ := this
        rw [abs_sub_comm] at y1 y2 y3
        exact close_mono ⟨y1, y2, y3⟩ (by nlinarith)
    obtain ⟨i, hi, he⟩ := List.getElem_of_mem hw'
    obtain ⟨id, _, h2⟩ := hids i hi
    rw [List.getElem?_eq_getElem hi, he] at h2
    cases hw : s.vertices[id]? with
    | none => rw [hw] at h2; exact absurd h2 (by simp [OptClose])
    | some w =>
      rw [hw] at h2
      exact ⟨w, List.mem_of_getElem? hw, close_trans hc' (close_mono h2 ha)⟩

/-- **C149 (seam).** When the plane is `Oxz`, the default of the command line, the vertices with `y = 0` are not doubled: the result has at most
one vertex for each of those of the mesh and one more for each of those out of the plane. -/
theorem C149_seam (u g : ℝ) (hu0 : 0 ≤ u) (hu : u ≤ 1 / 100) (rnd : ℝ → ℝ) (hr : IsRounding u rnd) (hidem : rnd (rnd Mesh.defaultAtol) = rnd Mesh.defaultAtol)
    (dot : V3 ℝ → V3 ℝ → ℝ) (hd : IsDot g dot) (srt : (ℕ → ℝ) → List ℕ → List ℕ) (hsrt : IsArgsort srt) (m s : Mesh ℝ)
    (hv : ∀ v ∈ m.vertices, ∀ k, rnd (v.coord k) = v.coord k) (hwf : m.WF) (hne : m.vertices ≠ [])
    (hs : m.symmetrizeFl rnd dot srt ⟨⟨0, 1, 0⟩, 0⟩ = .ok s) :
    s.nv ≤ m.nv + (m.vertices.filter (fun v => v.y ≠ 0)).length := by
  have hwf' : (m.symmetrizeRawFl rnd dot ⟨⟨0, 1, 0⟩, 0⟩).WF := doubled_wf _ m hwf
  have hne' : (m.symmetrizeRawFl rnd dot ⟨⟨0, 1, 0⟩, 0⟩).vertices ≠ [] := by simp [Mesh.symmetrizeRawFl, hne]
  obtain ⟨a, ha0, ha, hex⟩ := merge_as_exact hu0 hu hr hidem srt (m.symmetrizeRawFl rnd dot ⟨⟨0, 1, 0⟩, 0⟩)
  obtain ⟨s', ids, hs', _, _, _, hnd, _, hmem⟩ :=
    C05_merge_duplicates_moves_corners_within_tol srt hsrt a ha0 (m.symmetrizeRawFl rnd dot ⟨⟨0, 1, 0⟩, 0⟩) hwf' hne'
  have : s' = s := by simpa [Mesh.symmetrizeFl, hex, hs', Except.map] using hs
  subst this
  have r0 : rnd 0 = 0 := by simpa using hr.near 0
  have fixed : ∀ v ∈ m.vertices, v.y = 0 → (⟨⟨0, 1, 0⟩, 0⟩ : Plane ℝ).reflectFl rnd dot v = v := by
    intro v hm hy
    have D := hd v ⟨0, 1, 0⟩
    have d0 : dot v ⟨0, 1, 0⟩ = 0 := by simpa [absDot, hy] using D
    have x := hv v hm 0
    have y := hv v hm 1
    have z := hv v hm 2
    simp only [V3.coord] at x y z
    ext <;> simp [Plane.reflectFl, Plane.distFl, d0, r0, x, y, z]
  have sub : s'.vertices ⊆ m.vertices ++ (m.vertices.filter (fun v => v.y ≠ 0)).map ((⟨⟨0, 1, 0⟩, 0⟩ : Plane ℝ).reflectFl rnd dot) := by
    intro v hv'
    rcases List.mem_append.1 (hmem v hv') with h | h
    · exact List.mem_append_left _ h
    · obtain ⟨w, hw, rfl⟩ := List.mem_map.1 h
      by_cases hy : w.y = 0
      · rw [fixed w hw hy]
        exact List.mem_append_left _ hw
      · exact List.mem_append_right _ (List.mem_map.2 ⟨w, List.mem_filter.2 ⟨hw, by simpa using hy⟩, rfl⟩)
  have := (hnd.subperm sub).length_le
  rw [List.length_append, List.length_map] at this
  exact this

/-! ### A case -/

/-- The hypotheses of C149 are met by the cube and the plane `Oxz`: the result has the faces of two cubes and at most twelve vertices. -/
theorem cube_meets_C149 : ∃ s, (cubeMesh ℝ).symmetrizeFl (topRound (1 / 2 ^ 53)) (dotFl (topRound (1 / 2 ^ 53))) insArgsort ⟨⟨0, 1, 0⟩, 0⟩ = .ok s ∧
    s.nf = 2 * (cubeMesh ℝ).nf ∧ s.nv ≤ 12 ∧ s.vertices.Nodup := by
  have hu : (0 : ℝ) ≤ 1 / 2 ^ 53 := by norm_num
  have hr := topRound_isRounding hu
  have hd : IsDot (1 / 10 ^ 15) (dotFl (topRound (1 / 2 ^ 53))) := by
    intro a b
    refine (dotFl_isDot hr hu a b).trans (mul_le_mul_of_nonneg_right (by norm_num) ?_)
    unfold absDot; positivity
  have fixed : ∀ x : ℝ, |x| ≤ 1 → topRound (1 / 2 ^ 53) x = x := fun x hx => if_pos hx
  have hb : ∀ v ∈ (cubeMesh ℝ).vertices, ∀ k, |v.coord k| ≤ 1 := by
    intro v hv k
    simp only [cubeMesh, List.mem_cons, List.not_mem_nil, or_false] at hv
    rcases hv with rfl | rfl | rfl | rfl | rfl | rfl | rfl | rfl <;> fin_cases k <;> norm_num [V3.coord]
  have hidem : topRound (1 / 2 ^ 53) (topRound (1 / 2 ^ 53) Mesh.defaultAtol) = topRound (1 / 2 ^ 53) Mesh.defaultAtol := by
    have : topRound (1 / 2 ^ 53) Mesh.defaultAtol = Mesh.defaultAtol := fixed _ (by norm_num [Mesh.defaultAtol, abs_of_pos])
    rw [this, this]
  obtain ⟨s, hs, -, hf, -, hnd, -⟩ := C149_symmetrize (1 / 2 ^ 53) (1 / 10 ^ 15) (1 / 10 ^ 14) 1 hu (by norm_num) (by norm_num) (by norm_num)
    (by norm_num) _ hr hidem _ hd insArgsort insArgsort_isArgsort ⟨⟨0, 1, 0⟩, 0⟩ ⟨⟨0, 1, 0⟩, 0⟩ (by norm_num [V3.dot]) (by simp) rfl (by simp)
    (cubeMesh ℝ) hb (cubeMesh_wf ℝ) (by simp [cubeMesh])
  refine ⟨s, hs, hf, ?_, hnd⟩
  have := C149_seam (1 / 2 ^ 53) (1 / 10 ^ 15) hu (by norm_num) _ hr hidem _ hd insArgsort insArgsort_isArgsort (cubeMesh ℝ) s
    (fun v hv k => fixed _ (hb v hv k)) (cubeMesh_wf ℝ) (by simp [cubeMesh]) hs
  norm_num [cubeMesh, Mesh.nv, List.filter_cons] at this
  norm_num [Mesh.nv]
  exact this

end MM
