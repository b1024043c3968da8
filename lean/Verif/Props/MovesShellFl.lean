import Verif.Props.MovesBodyFl
import Verif.Props.ShellFl

/-!
# C144: inertia of a shell computed in floating point after rigid motions in floating point
-/

namespace MM

open Real QuadFl MovesFl

/-! ### Exact motions -/

lemma triangleIntegral_rigid {R : M3 ℝ} (hR : R.IsRotation) (t : V3 ℝ) (g : V3 ℝ → ℝ) (p q r : V3 ℝ) :
    triangleIntegral g (R.mulVec p + t) (R.mulVec q + t) (R.mulVec r + t) = triangleIntegral (fun x => g (R.mulVec x + t)) p q r := by
  unfold triangleIntegral
  have c := areaVec_rot hR p q r
  unfold areaVec at c
  have d : ∀ x y : V3 ℝ, R.mulVec x + t - (R.mulVec y + t) = R.mulVec x - R.mulVec y := fun x y => by ext <;> simp
  have n := hR.norm_mulVec ((q - p).cross (r - p))
  unfold V3.norm at n
  rw [d, d, c, n]
  congr 1
  simp only [← M3.mulVec_sub, ← M3.mulVec_smul]
  have e : ∀ x y z : V3 ℝ, R.mulVec x + t + R.mulVec y + R.mulVec z = R.mulVec (x + y + z) + t := fun x y z => by
    rw [M3.mulVec_add, M3.mulVec_add]; ext <;> simp <;> ring
  simp only [e]

lemma run_shellIntegral (a : RigidMove) (m : Mesh ℝ) (hwf : m.WF) (g : V3 ℝ → ℝ) :
    (a.run m).shellIntegral g = m.shellIntegral (fun p => g (a.place1 p)) := by
  obtain ⟨R, hR, t, hp⟩ := pt_rigid a
  rw [place1_eq, run_eq]
  unfold Mesh.shellIntegral Mesh.surfaceSum
  show (m.faces.map ((m.mapVertices (pt a)).faceSum _)).sum = _
  congr 1
  apply List.map_congr_left
  intro f hf
  obtain ⟨ha, hb, hc, hd⟩ := hwf.corner (f := f) hf
  simp only [Mesh.faceSum, vert_mapVertices m _ _ ha, vert_mapVertices m _ _ hb, vert_mapVertices m _ _ hc,
    vert_mapVertices m _ _ hd, hp, triangleIntegral_rigid hR]

/-- The integral of any function over the faces of the moved mesh is that of the function of the moved points over the faces. -/
theorem runAll_shellIntegral (l : List RigidMove) : ∀ (m : Mesh ℝ), m.WF → ∀ g : V3 ℝ → ℝ,
    (RigidMove.runAll l m).shellIntegral g = m.shellIntegral (fun p => g (RigidMove.place l p)) := by
  induction l with
  | nil => intro m _ g; rfl
  | cons a l ih =>
    intro m hwf g
    exact (ih (a.run m) (run_wf a m hwf) g).trans (run_shellIntegral a m hwf _)

lemma shell_affine (m : Mesh ℝ) (w : V3 ℝ) (k : ℝ) :
    m.shellIntegral (fun p => w.dot p + k) = w.x * m.shellIntegral (fun p => p.x) + w.y * m.shellIntegral (fun p => p.y) +
      w.z * m.shellIntegral (fun p => p.z) + k * m.shellIntegral (fun _ => 1) := by
  have tri : ∀ p q r : V3 ℝ, triangleIntegral (fun p => w.dot p + k) p q r = w.x * triangleIntegral (fun p => p.x) p q r +
      w.y * triangleIntegral (fun p => p.y) p q r + w.z * triangleIntegral (fun p => p.z) p q r +
      k * triangleIntegral (fun _ => 1) p q r := by
    intro p q r
    have h0 := triangleIntegral_affine3 (fun p => w.dot p + k) (fun _ => 1) (fun _ => 1) (by intros; simp [V3.dot]; ring) affine_one
      affine_one p q r
    have h1 := triangleIntegral_affine3 (fun p => p.x) (fun _ => 1) (fun _ => 1) affine_x affine_one affine_one p q r
    have h2 := triangleIntegral_affine3 (fun p => p.y) (fun _ => 1) (fun _ => 1) affine_y affine_one affine_one p q r
    have h3 := triangleIntegral_affine3 (fun p => p.z) (fun _ => 1) (fun _ => 1) affine_z affine_one affine_one p q r
    simp only [mul_one] at h0 h1 h2 h3
    rw [h0, h1, h2, h3, triangleIntegral_one]
    simp only [V3.dot]
    ring
  unfold Mesh.shellIntegral Mesh.surfaceSum
  simp only [← List.sum_map_mul_left, ← List.sum_map_add]
  congr 1
  apply List.map_congr_left
  intro f _
  simp only [Mesh.faceSum, tri]
  split_ifs
  · rfl
  · ring

/-- The centre of the moved faces is the moved centre. -/
theorem runAll_shellCentre (l : List RigidMove) : ∀ (m : Mesh ℝ), m.WF → m.shellIntegral (fun _ => 1) ≠ 0 →
    (RigidMove.runAll l m).centreOfShell = RigidMove.place l m.centreOfShell := by
  induction l with
  | nil => intro m _ _; rfl
  | cons a l ih =>
    intro m hwf h0
    have h1 : (a.run m).shellIntegral (fun _ => 1) = m.shellIntegral (fun _ => 1) := run_shellIntegral a m hwf _
    refine (ih (a.run m) (run_wf a m hwf) (by rw [h1]; exact h0)).trans ?_
    show RigidMove.place l _ = RigidMove.place l (a.place1 _)
    congr 1
    obtain ⟨R, hR, t, hp⟩ := pt_rigid a
    have hp' : ∀ p, a.place1 p = R.mulVec p + t := fun p => by rw [place1_eq]; exact hp p
    rw [hp' m.centreOfShell]
    have ex := run_shellIntegral a m hwf (fun p => p.x)
    have ey := run_shellIntegral a m hwf (fun p => p.y)
    have ez := run_shellIntegral a m hwf (fun p => p.z)
    simp only [hp', M3.mulVec, V3.add_x, V3.add_y, V3.add_z, shell_affine] at ex ey ez
    unfold Mesh.centreOfShell
    simp only [M3.mulVec, ex, ey, ez, h1]
    apply V3.ext <;> simp only [V3.add_x, V3.add_y, V3.add_z, V3.dot] <;> field_simp

/-! ### Floating point -/

/-- **C144.** Mass, moments and centre of a shell computed in floating point after any sequence of motions in floating point: they are
the integrals over the faces before the motions of the functions of the moved points, and the centre is the moved centre, with the errors of
C141. The mesh need not be closed, and its faces may be small. The products of inertia are left out, they are wrong (C28). -/
theorem C144_shell (u g δ ε : ℝ) (hu0 : 0 ≤ u) (hu : u ≤ δ) (hg : g ≤ δ) (h1 : δ ≤ 1 / 100) (rnd cosF sinF : ℝ → ℝ)
    (hr : IsRounding u rnd) (hc : ∀ x, |cosF x - cos x| ≤ δ) (hs : ∀ x, |sinF x - sin x| ≤ δ) (dot : V3 ℝ → V3 ℝ → ℝ)
    (hd : IsDot g dot) (nrm : V3 ℝ → ℝ) (hnrm : ∀ v, |nrm v - v.norm| ≤ δ * v.norm) (l : List RigidMove) (m : Mesh ℝ) (B : ℝ)
    (hB0 : 0 ≤ B) (hB : ∀ k, ∀ v ∈ (RigidMove.runAll (l.take k) m).vertices, v.norm ≤ B)
    (hδ : δ ≤ ε) (hε : (1 + 39 * δ) ^ l.length - 1 ≤ ε) (hε1 : ε ≤ 1 / 100) (hwf : m.WF) (d : ℝ)
    (hd' : d = m.faces.length * B ^ 2 * (152 * ε + 16 * ((1 + u) ^ m.faces.length - 1)))
    (hA : d < m.shellIntegral (fun _ => 1)) (rho thickness : ℝ) (r : Mesh.Plain ℝ)
    (h : (RigidMove.runAllFl rnd cosF sinF dot l m).ShellFl rnd nrm rho thickness r) :
    let n := m.faces.length
    let σ := rho * thickness
    let shell := m.shellIntegral
    let T := RigidMove.place l
    let δ₁ := |σ| * n * B ^ 4 * (720 * ε + 36 * ((1 + u) ^ (n + 3) - 1))
    let e := n * B ^ 3 * (360 * ε + 18 * ((1 + u) ^ n - 1))
    let bound := fun x : ℝ => (1 + u) * ((e + |x| * d) / (shell (fun _ => 1) - d)) + u * |x|
    let G := T m.centreOfShell
    |r.mass - σ * shell (fun _ => 1)| ≤ |σ| * n * B ^ 2 * (152 * ε + 16 * ((1 + u) ^ (n + 2) - 1)) ∧
    (|r.xx - σ * shell (fun p => (T p).y ^ 2 + (T p).z ^ 2)| ≤ δ₁ ∧ |r.yy - σ * shell (fun p => (T p).x ^ 2 + (T p).z ^ 2)| ≤ δ₁ ∧
      |r.zz - σ * shell (fun p => (T p).x ^ 2 + (T p).y ^ 2)| ≤ δ₁) ∧
    (|r.cog.x - G.x| ≤ bound G.x ∧ |r.cog.y - G.y| ≤ bound G.y ∧ |r.cog.z - G.z| ≤ bound G.z) := by
  intro n σ shell T δ₁ e bound G
  obtain ⟨hf, hb, hv⟩ := moved_near u g δ ε hu0 hu hg h1 rnd cosF sinF hr hc hs dot hd l m B hB0 hB hε
  obtain ⟨i1, -⟩ := runAll_area l m hwf
  have s1 := runAll_shellIntegral l m hwf
  have d0 : 0 ≤ d := by
    have P := pow_sub_nonneg hu0 m.faces.length
    have : 0 ≤ ε := (hu0.trans hu).trans hδ
    rw [hd']; positivity
  have I := C141_inertia u ε δ B hu0 (hu.trans hδ) hε1 hB0 rnd hr hδ nrm hnrm (RigidMove.runAll l m)
    (RigidMove.runAllFl rnd cosF sinF dot l m) (hf.trans i1.symm) hv hb rho thickness r h
  have C := C141_centre u ε δ B hu0 (hu.trans hδ) hε1 hB0 rnd hr hδ nrm hnrm (RigidMove.runAll l m)
    (RigidMove.runAllFl rnd cosF sinF dot l m) (hf.trans i1.symm) hv hb rho thickness r h d (by rw [i1]; exact hd') (by rw [s1]; exact hA)
  have c := runAll_shellCentre l m hwf (d0.trans_lt hA).ne'
  have cx := congrArg V3.x c
  have cy := congrArg V3.y c
  have cz := congrArg V3.z c
  simp only [Mesh.centreOfShell, s1] at cx cy cz
  simp only [s1, i1] at I C
  rw [cx, cy, cz] at C
  exact ⟨I.1, I.2, C⟩

/-! ### A case -/

lemma runAll_vertices (l : List RigidMove) : ∀ m : Mesh ℝ, (RigidMove.runAll l m).vertices = m.vertices.map (RigidMove.place l) := by
  induction l with
  | nil => intro m; exact (List.map_id _).symm
  | cons a l ih =>
    intro m
    refine (ih (a.run m)).trans ?_
    rw [run_eq]
    show ((m.vertices.map (pt a)).map _) = _
    rw [List.map_map, ← place1_eq]
    rfl

/-- The square and the triangle of C141 after three motions in floating point. -/
noncomputable def movedShell : Mesh ℝ :=
  RigidMove.runAllFl (topRound (1 / 2 ^ 53)) (fun x => cos x * (1 - 1 / 2 ^ 53)) (fun x => sin x * (1 + 1 / 2 ^ 53))
    (dotFl (topRound (1 / 2 ^ 53))) cubeMoves shellSample

/-- The hypotheses of C144 are met by a square and a triangle with a common side, after three motions. -/
theorem shell_meets_C144 : (∃ r, movedShell.ShellFl (topRound (1 / 2 ^ 53)) V3.norm 7850 (1 / 50) r) ∧
    ∀ r, movedShell.ShellFl (topRound (1 / 2 ^ 53)) V3.norm 7850 (1 / 50) r → |r.mass - 471 / 2| ≤ 1 / 10 ^ 5 := by
  have hu : (0 : ℝ) ≤ 1 / 2 ^ 53 := by norm_num
  have hr := topRound_isRounding hu
  have a0 : shellSample.shellIntegral (fun _ => 1) = 3 / 2 := by
    rw [← areaOfSurface_eq]
    simp [shellSample, Mesh.areaOfSurface, Mesh.areaOfFace, Mesh.vert, areaVec, V3.cross, V3.norm, V3.normSq, V3.dot]
    norm_num
  constructor
  · have h : ∀ fl q, ∃ s, movedShell.RowSumFl (topRound (1 / 2 ^ 53)) V3.norm fl q s := fun fl q => SumFl.exists _ _
    obtain ⟨A, hA⟩ := SumFl.exists (topRound (1 / 2 ^ 53)) (movedShell.faces.map (movedShell.faceAreaFl (topRound (1 / 2 ^ 53)) V3.norm))
    exact ⟨_, A, _, _, _, _, _, _, _, _, _, hA, (h _ _).choose_spec, (h _ _).choose_spec, (h _ _).choose_spec, (h _ _).choose_spec,
      (h _ _).choose_spec, (h _ _).choose_spec, (h _ _).choose_spec, (h _ _).choose_spec, (h _ _).choose_spec, rfl⟩
  · intro r h
    have sub : ∀ v ∈ shellSample.vertices, v ∈ (cubeMesh ℝ).vertices := by
      intro v hv
      simp only [shellSample, List.mem_cons, List.not_mem_nil, or_false] at hv
      rcases hv with rfl | rfl | rfl | rfl | rfl <;> simp [cubeMesh]
    have hB : ∀ k, ∀ v ∈ (RigidMove.runAll (cubeMoves.take k) shellSample).vertices, v.norm ≤ 10 := by
      intro k v hv
      refine cubeMoves_bounded k v ?_
      rw [runAll_vertices] at hv ⊢
      obtain ⟨w, hw, e⟩ := List.mem_map.1 hv
      exact List.mem_map.2 ⟨w, sub w hw, e⟩
    have := (C144_shell (1 / 2 ^ 53) ((1 + 1 / 2 ^ 53) ^ 3 - 1) (1 / 2 ^ 50) (1 / 10 ^ 12) hu (by norm_num) (by norm_num) (by norm_num) _
      _ _ hr (fun x => by
        rw [show cos x * (1 - 1 / 2 ^ 53) - cos x = -(cos x * (1 / 2 ^ 53)) by ring, abs_neg, abs_mul]
        have := abs_cos_le_one x
        rw [abs_of_nonneg hu]
        nlinarith)
      (fun x => by
        rw [show sin x * (1 + 1 / 2 ^ 53) - sin x = sin x * (1 / 2 ^ 53) by ring, abs_mul]
        have := abs_sin_le_one x
        rw [abs_of_nonneg hu]
        nlinarith) _ (dotFl_isDot hr hu) V3.norm (fun v => by
        rw [sub_self, abs_zero]
        have := QuadFl.norm_nonneg v
        positivity) cubeMoves shellSample 10 (by norm_num) hB (by norm_num)
      (by norm_num [cubeMoves]) (by norm_num) (by
        intro f hf i hi
        simp only [shellSample, List.mem_cons, List.not_mem_nil, or_false] at hf
        rcases hf with rfl | rfl <;> simp [Face.toList] at hi <;> simp [Mesh.nv, shellSample] <;> omega) _ rfl (by
        rw [a0]
        norm_num [shellSample]) 7850 (1 / 50) r h).1
    simp only [a0] at this
    rw [show (471 / 2 : ℝ) = 7850 * (1 / 50) * (3 / 2) by norm_num]
    refine this.trans ?_
    simp only [shellSample, List.length_cons, List.length_nil]
    norm_num [abs_of_pos]

end MM
