import Verif.Props.SymmetrizeShell
import Verif.Props.Halves
import Verif.Props.WettedArea
import Verif.Props.Equilibrium

/-!
# C154: displaced volume and buoyancy centre of a symmetrized half hull
-/

namespace MM

open Clipper

namespace SymVol

/-- Change of variable in a tetrahedron with its apex in the plane: any function. -/
lemma tet_change (pl : Plane ℝ) (hn : pl.normal.dot pl.normal = 1) {o : V3 ℝ} (ho : pl.dist o = 0) (f : V3 ℝ → ℝ) (a b c : V3 ℝ) :
    tetIntegral f o (pl.reflect a) (pl.reflect b) (pl.reflect c) = -tetIntegral (fun X => f (pl.reflect X)) o a b c := by
  have hdet : coneDet o (pl.reflect a) (pl.reflect b) (pl.reflect c) = -coneDet o a b c := by
    rw [coneDet_cone, coneDet_cone, cone_reflect pl hn ho]
    unfold cone
    simp only [V3.dot, V3.cross, V3.sub_x, V3.sub_y, V3.sub_z]
    ring
  have hpt : ∀ u v w : ℝ, o + (u • (pl.reflect a - o) + v • (pl.reflect b - o) + w • (pl.reflect c - o)) =
      pl.reflect (o + (u • (a - o) + v • (b - o) + w • (c - o))) := by
    intro u v w
    have d : ∀ x : V3 ℝ, pl.reflect x - o = reflLin pl.normal (x - o) := fun x => by
      conv_lhs => rw [← reflect_self ho]
      exact reflect_sub pl x o
    have e : pl.reflect (o + (u • (a - o) + v • (b - o) + w • (c - o))) - o =
        reflLin pl.normal (u • (a - o) + v • (b - o) + w • (c - o)) := by
      rw [d]; congr 1; ext <;> simp
    rw [d, d, d]
    have e2 : reflLin pl.normal (u • (a - o) + v • (b - o) + w • (c - o)) =
        u • reflLin pl.normal (a - o) + v • reflLin pl.normal (b - o) + w • reflLin pl.normal (c - o) := by
      ext <;> simp only [reflLin, V3.dot, V3.add_x, V3.add_y, V3.add_z, V3.smul_x, V3.smul_y, V3.smul_z, V3.sub_x, V3.sub_y, V3.sub_z] <;> ring
    rw [← e2, ← e]
    ext <;> simp
  unfold tetIntegral coneIntegral
  simp only [hpt]
  have : ((pl.reflect a - o).dot ((pl.reflect b - o).cross (pl.reflect c - o))) = -((a - o).dot ((b - o).cross (c - o))) := hdet
  rw [this, neg_mul]

/-- The water plane is perpendicular to the plane of symmetry. -/
lemma below_reflect (p q : Plane ℝ) (hpq : p.normal.dot q.normal = 0) (g : V3 ℝ → ℝ) (X : V3 ℝ) :
    q.below g (p.reflect X) = q.below (fun Y => g (p.reflect Y)) X := by
  have : (p.reflect X).dot q.normal = X.dot q.normal := by
    rw [Plane.reflect, V3.sub_dot, V3.smul_dot, hpq]; ring
  simp only [Plane.below, this]

lemma tet_below_reflect (p q : Plane ℝ) (hn : p.normal.dot p.normal = 1) (hpq : p.normal.dot q.normal = 0) {o : V3 ℝ} (ho : p.dist o = 0)
    (ho' : q.dist o = 0) {g : V3 ℝ → ℝ} (hg : Quadratic (fun X => g (p.reflect X))) (a b c : V3 ℝ) :
    tetIntegral (q.below g) o (p.reflect a) (p.reflect c) (p.reflect b) = tetIntegral (q.below (fun X => g (p.reflect X))) o a b c := by
  rw [tet_change p hn ho]
  simp only [below_reflect p q hpq]
  obtain ⟨⟨g0, g1, g2, hr⟩, -⟩ := quadratic_radial hg o
  show -tetIntegral (q.below (fun X => g (p.reflect X))) o a c b = _
  rw [tet_radial q hr (half_inv q ho'), tet_radial q hr (half_inv q ho'),
    refInt_swap23 (planeInt_below q (planeCont_radInt (g0 := g0) hr.c1 hr.c2)) a c b]
  have : coneDet o a c b = -coneDet o a b c := by
    simp only [coneDet, V3.dot, V3.cross, V3.sub_x, V3.sub_y, V3.sub_z]; ring
  rw [this]; ring

/-- Both diagonals of a convex quadrangle give the same integral of the part under the plane. -/
lemma cutsOff_diagonal {q : Plane ℝ} {J Φ : V3 ℝ → V3 ℝ → V3 ℝ → ℝ} (hJ : CutsOff q J Φ) {a b c d : V3 ℝ} (h : DiagonalsCross a b c d) :
    J d b c + J d a b = J a b c + J a c d := by
  obtain ⟨s, t, s0, s1, t0, t1, e⟩ := h
  have ex := congrArg V3.x e
  have ey := congrArg V3.y e
  have ez := congrArg V3.z e
  simp only [V3.add_x, V3.add_y, V3.add_z, V3.smul_x, V3.smul_y, V3.smul_z] at ex ey ez
  obtain ⟨E, hE⟩ : ∃ E, E = a + s • (c - a) := ⟨_, rfl⟩
  have h1 : a + s • (c - a) = E := hE.symm
  have h2 : c + (1 - s) • (a - c) = E := by
    rw [hE]; ext <;> simp <;> ring
  have h3 : b + t • (d - b) = E := by
    rw [hE]; ext
    · simp; linarith
    · simp; linarith
    · simp; linarith
  have h4 : d + (1 - t) • (b - d) = E := by
    rw [← h3]; ext <;> simp <;> ring
  have a1 := hJ.split a b c s s0 s1
  have a2 := hJ.split c d a (1 - s) (by linarith) (by linarith)
  have a3 := hJ.split b c d t t0 t1
  have a4 := hJ.split d a b (1 - t) (by linarith) (by linarith)
  rw [h1] at a1
  rw [h2] at a2
  rw [h3] at a3
  rw [h4] at a4
  have c1 := hJ.cycle a c d
  have c2 := hJ.cycle d b c
  have c3 := hJ.cycle E a b
  have c4 := hJ.cycle E b c
  have c5 := hJ.cycle E c d
  have c6 := hJ.cycle E d a
  linarith

end SymVol

open SymVol

/-- **C154 (integrals).** For the symmetrization of half a hull, and a plane `q` perpendicular to the plane of symmetry: the integral of the product of two
affine functions over the part of the solid under `q` is the sum of its integral and of the integral of the reflected function over the part under `q` of the
solid between the half hull and the plane of symmetry. -/
theorem C154_integrals (srt : (ℕ → ℝ) → List ℕ → List ℕ) (hsrt : IsArgsort srt) (p q : Plane ℝ) (hn : p.normal.dot p.normal = 1)
    (hpq : p.normal.dot q.normal = 0) (m s : Mesh ℝ) (hwf : m.WF) (hcv : m.ConvexFaces)
    (hsep : ∀ v ∈ m.vertices ++ m.vertices.map p.reflect, ∀ w ∈ m.vertices ++ m.vertices.map p.reflect,
      (∀ k, |v.coord k - w.coord k| ≤ 1 / 10 ^ 8) → v = w)
    (h : m.symmetrize srt p = .ok s) (o : V3 ℝ) (ho : p.dist o = 0) (ho' : q.dist o = 0) (α β : ℝ) (a b : V3 ℝ) (g : V3 ℝ → ℝ)
    (hg : ∀ X, g X = (α + a.dot X) * (β + b.dot X)) :
    s.solidIntegral o (q.below g) = m.solidIntegral o (q.below g) + m.solidIntegral o (q.below (fun X => g (p.reflect X))) := by
  have g1 : Quadratic g := ⟨[((α, a), (β, b))], fun X => by simp [hg X]⟩
  have g2 : Quadratic (fun X => g (p.reflect X)) := ⟨[(reflAff p (α, a), reflAff p (β, b))], fun X => by
    have e1 := aff_reflect p (α, a) X
    have e2 := aff_reflect p (β, b) X
    simp only [aff] at e1 e2
    simp [hg, ← e1, ← e2]⟩
  obtain ⟨σ, hf, hv⟩ := merged srt hsrt p m s hwf hsep h
  unfold Mesh.solidIntegral
  have J : ∀ f, Quadratic f → ∃ Φ, CutsOff q (tetIntegral (q.below f) o) Φ := by
    intro f hq
    obtain ⟨⟨k0, k1, k2, hr⟩, -⟩ := quadratic_radial hq o
    have e : (fun a b c => coneDet o a b c * refInt (q.below (radInt k0 k1 k2)) a b c) = tetIntegral (q.below f) o := by
      funext a b c; rw [tet_radial q hr (half_inv q ho')]
    exact ⟨_, e ▸ below_cutsOff q (coneDet_areaLike o) (planeCont_radInt (g0 := k0) hr.c1 hr.c2)⟩
  obtain ⟨Φ, hΦ⟩ := J _ g2
  rw [renumbered_shell σ (raw_wf p m hwf) hf hv (fun x y => by
    unfold tetIntegral coneIntegral
    have : (x - o).dot ((y - o).cross (x - o)) = 0 := by
      simp only [V3.dot, V3.cross]; ring
    rw [this, zero_mul])]
  exact raw_shell p m hwf hcv (fun _ _ _ _ hq => cutsOff_diagonal hΦ (ConvexQuad.diagonalsCross hq)) fun a b c => tet_below_reflect p q hn hpq ho ho' g2 a b c

/-- Change of variable: vertical translation. -/
lemma SymVol.tet_shift (t : V3 ℝ) (f : V3 ℝ → ℝ) (o a b c : V3 ℝ) :
    tetIntegral f (o + t) (a + t) (b + t) (c + t) = tetIntegral (fun X => f (X + t)) o a b c := by
  have e : ∀ x : V3 ℝ, x + t - (o + t) = x - o := fun x => by ext <;> simp
  have k : ∀ x : V3 ℝ, o + t + x = o + x + t := fun x => by ext <;> simp <;> ring
  unfold tetIntegral
  simp only [e, k]

lemma SymVol.working_integral (s : Mesh ℝ) (hwf : s.WF) (z : ℝ) (f : V3 ℝ → ℝ) (o : V3 ℝ) :
    (Hydro.workingMesh s M3.one z).solidIntegral (o + ⟨0, 0, z⟩) f = s.solidIntegral o (fun X => f (X + ⟨0, 0, z⟩)) := by
  unfold Mesh.solidIntegral Mesh.surfaceSum
  show (s.faces.map _).sum = _
  congr 1
  apply List.map_congr_left
  intro g hg
  obtain ⟨ha, hb, hc, hd⟩ := hwf.corner hg
  have v : ∀ i < s.nv, (Hydro.workingMesh s M3.one z).vert i = s.vert i + ⟨0, 0, z⟩ := by
    intro i hi
    unfold Mesh.vert
    rw [Hydro.workingMesh_vertices]
    simp only [Mesh.nv] at hi
    simp only [List.getD_eq_getElem?_getD, List.getElem?_map, List.getElem?_eq_getElem hi, Option.map_some, Option.getD_some]
    ext <;> simp
  simp only [Mesh.faceSum, v _ ha, v _ hb, v _ hc, v _ hd, tet_shift]

/-- **C154 (buoyancy).** The hull obtained by symmetrization about `Oxz`, upright, with the free surface at any height: the displaced volume is twice the
volume of the immersed part of the solid between the half hull and the plane, the buoyancy centre lies in the plane, and, with the gravity centre at the origin of
the frame, the products of inertia `xy` and `yz` of the displaced water are zero. -/
theorem C154_buoyancy (srt : (ℕ → ℝ) → List ℕ → List ℕ) (hsrt : IsArgsort srt)
    (m s : Mesh ℝ) (hwf : m.WF) (hcv : m.ConvexFaces) (hopen : m.OpenAlong ⟨⟨0, 1, 0⟩, 0⟩)
    (hsep : ∀ v ∈ m.vertices ++ m.vertices.map (fun v => ⟨v.x, -v.y, v.z⟩), ∀ w ∈ m.vertices ++ m.vertices.map (fun v => ⟨v.x, -v.y, v.z⟩),
      (∀ k, |v.coord k - w.coord k| ≤ 1 / 10 ^ 8) → v = w)
    (h : m.symmetrize srt ⟨⟨0, 1, 0⟩, 0⟩ = .ok s) (cog : V3 ℝ) (rho grav z : ℝ) (atCog : Bool) (lpp : Option ℝ) (ap : Bool) (d : Hydro.HsData)
    (hswf : s.WF) (hscv : (Hydro.workingMesh s M3.one z).StrictlyConvexFaces)
    (hpos : ∀ f ∈ (Hydro.workingMesh s M3.one z).faces, ∀ i ∈ f.toList, ((Hydro.workingMesh s M3.one z).vert i).z = 0 ∨
      1 / 1000 < |((Hydro.workingMesh s M3.one z).vert i).z|)
    (hwsep : (Hydro.workingMesh s M3.one z).WellSeparated ⟨⟨0, 0, 1⟩, 0⟩) (hrho : rho ≠ 0)
    (hd : Hydro.compute srt s cog rho grav M3.one z atCog lpp ap = .ok d) :
    d.dispVolume = 2 * m.solidIntegral ⟨0, 0, -z⟩ (fun X => if X.z + z < 0 then 1 else 0) ∧
    (d.dispVolume ≠ 0 → d.buoyancyCenter.y = 0) ∧
    (cog = ⟨0, 0, -z⟩ → d.inertia.mat.r0.y = 0 ∧ d.inertia.mat.r1.x = 0 ∧ d.inertia.mat.r1.z = 0 ∧ d.inertia.mat.r2.y = 0) := by
  have hn : (⟨⟨0, 1, 0⟩, 0⟩ : Plane ℝ).normal.dot (⟨⟨0, 1, 0⟩, 0⟩ : Plane ℝ).normal = 1 := by simp [V3.dot]
  have hR : (⟨⟨0, 1, 0⟩, 0⟩ : Plane ℝ).reflect = fun v => ⟨v.x, -v.y, v.z⟩ := by
    funext v
    ext <;> simp [Plane.reflect, V3.dot]; ring
  rw [← hR] at hsep
  have hcl : (Hydro.workingMesh s M3.one z).ClosedOriented := C131_half_hull srt hsrt _ m s hwf hopen h
  have hwwf : (Hydro.workingMesh s M3.one z).WF := by
    intro f hf i hi
    have := hswf f hf i hi
    simpa [Hydro.workingMesh, Mesh.rotateMatrix, Mesh.translateZ, Mesh.mapVertices, Mesh.nv] using this
  have rot1 : (M3.one : M3 ℝ).IsRotation := by
    unfold M3.one; apply M3.isRotation_of <;> norm_num
  obtain ⟨b1, b2, b3⟩ := Hydro.C85_part_of_hull_partial srt hsrt s cog rho grav M3.one z atCog lpp ap d hwwf hcl hscv hpos hwsep rot1 hrho hd 0 rfl
  have o0 : (0 : V3 ℝ) = ⟨0, 0, -z⟩ + ⟨0, 0, z⟩ := by ext <;> simp
  have below : ∀ g : V3 ℝ → ℝ, (⟨⟨0, 0, 1⟩, -z⟩ : Plane ℝ).below g = fun X => if X.z + z < 0 then g X else 0 := by
    intro g
    funext X
    have : X.z < -z ↔ X.z + z < 0 := by constructor <;> intro <;> linarith
    simp [Plane.below, V3.dot, this]
  have I := fun α β a b g => C154_integrals srt hsrt _ (⟨⟨0, 0, 1⟩, -z⟩ : Plane ℝ) hn (by simp [V3.dot]) m s hwf hcv hsep h ⟨0, 0, -z⟩
    (by simp [Plane.dist, V3.dot]) (by simp [Plane.dist, V3.dot]) α β a b g
  simp only [hR, below] at I
  have one := I 1 1 0 0 (fun _ => 1) (by intro X; simp [V3.dot])
  have yy := I 0 1 ⟨0, 1, 0⟩ 0 (fun X => X.y) (by intro X; simp [V3.dot])
  have xy := I 0 0 ⟨1, 0, 0⟩ ⟨0, 1, 0⟩ (fun X => X.x * X.y) (by intro X; simp [V3.dot])
  have yz := I 0 z ⟨0, 1, 0⟩ ⟨0, 0, 1⟩ (fun X => X.y * (X.z + z)) (by intro X; simp only [V3.dot]; ring)
  simp only [mul_neg, neg_mul] at xy yz
  have ny : ∀ g : V3 ℝ → ℝ, m.solidIntegral ⟨0, 0, -z⟩ (fun X => if X.z + z < 0 then -g X else 0) =
      -m.solidIntegral ⟨0, 0, -z⟩ (fun X => if X.z + z < 0 then g X else 0) := by
    intro g
    rw [← neg_one_mul (m.solidIntegral _ _)]
    unfold Mesh.solidIntegral
    rw [← SymVol.surfaceSum_smul]
    congr 1
    funext a b c
    have e : (fun X : V3 ℝ => if X.z + z < 0 then -g X else 0) = fun X => -(if X.z + z < 0 then g X else 0) := by
      funext X; split_ifs <;> simp
    rw [e]
    unfold tetIntegral coneIntegral
    simp only [intervalIntegral.integral_neg]
    ring
  rw [ny (fun X => X.y), add_neg_cancel] at yy
  rw [ny (fun X => X.x * X.y), add_neg_cancel] at xy
  rw [ny (fun X => X.y * (X.z + z)), add_neg_cancel] at yz
  have w1 := working_integral s hswf z (fun X => if X.z < 0 then 1 else 0) ⟨0, 0, -z⟩
  have w2 := working_integral s hswf z (fun X => if X.z < 0 then X.y else 0) ⟨0, 0, -z⟩
  have w3 := working_integral s hswf z (fun X => if X.z < 0 then X.x * X.y else 0) ⟨0, 0, -z⟩
  have w4 := working_integral s hswf z (fun X => if X.z < 0 then X.y * X.z else 0) ⟨0, 0, -z⟩
  rw [← o0] at w1 w2 w3 w4
  simp only [V3.add_x, V3.add_y, V3.add_z, add_zero] at w1 w2 w3 w4
  refine ⟨?_, fun hV => ?_, fun hc => ?_⟩
  · rw [b1]
    show (Hydro.workingMesh s M3.one z).solidIntegral 0 (fun X => if X.z < 0 then 1 else 0) = _
    rw [w1, one]; ring
  · have := congrArg V3.y (b2 hV)
    rw [V3.smul_y] at this
    simp only [w2] at this
    rw [yy] at this
    have hy := (mul_eq_zero.1 this).resolve_left hV
    simpa [Hydro.workingPoint, M3.mulVec, M3.one, V3.dot] using hy
  · have hp : Hydro.workingPoint cog M3.one z = 0 := by
      rw [hc]; ext <;> simp [Hydro.workingPoint, M3.mulVec, M3.one, V3.dot]
    rw [b3 hp]
    simp only [inertiaMatrix, w3, w4, xy, yz, mul_zero, neg_zero, and_self]

/-! ### Wetted surface -/

lemma SymVol.refInt_reflect (pl : Plane ℝ) (f : V3 ℝ → ℝ) (a b c : V3 ℝ) :
    refInt f (pl.reflect a) (pl.reflect b) (pl.reflect c) = refInt (fun X => f (pl.reflect X)) a b c := by
  have hpt : ∀ u v : ℝ, pl.reflect a + u • (pl.reflect b - pl.reflect a) + v • (pl.reflect c - pl.reflect a) =
      pl.reflect (a + u • (b - a) + v • (c - a)) := by
    intro u v
    ext <;> simp only [Plane.reflect, V3.dot, V3.add_x, V3.add_y, V3.add_z, V3.smul_x, V3.smul_y, V3.smul_z, V3.sub_x, V3.sub_y, V3.sub_z] <;> ring
  unfold refInt
  simp only [hpt]

lemma SymVol.tri_below_reflect (p q : Plane ℝ) (hn : p.normal.dot p.normal = 1) (hpq : p.normal.dot q.normal = 0) (a b c : V3 ℝ) :
    triangleIntegral (q.below fun _ => 1) (p.reflect a) (p.reflect c) (p.reflect b) = triangleIntegral (q.below fun _ => 1) a b c := by
  have e : ∀ (f : V3 ℝ → ℝ) x y z, triangleIntegral f x y z = Real.sqrt (areaVec x y z).normSq * refInt f x y z := fun _ _ _ _ => rfl
  rw [e, e, areaVec_reflect p hn, reflLin_normSq _ _ hn, refInt_reflect]
  simp only [below_reflect p q hpq]
  show _ * refInt (q.below fun _ => 1) a c b = _
  rw [refInt_swap23 (planeInt_below q (fun _ _ _ => continuous_const)) a c b]

lemma SymVol.wet_diagonal (q : Plane ℝ) {a b c d : V3 ℝ} (h : ConvexQuad a b c d) :
    triangleIntegral (q.below fun _ => 1) d b c + triangleIntegral (q.below fun _ => 1) d a b =
      triangleIntegral (q.below fun _ => 1) a b c + triangleIntegral (q.below fun _ => 1) a c d := by
  have hx := ConvexQuad.diagonalsCross h
  obtain ⟨n, α, β, γ, δ, hα, hβ, hγ, hδ, -, hn, h1, h2, h3, h4⟩ := h
  have key := cutsOff_diagonal (below_cutsOff q (areaVec_areaLike n) (g := fun _ => 1) (fun _ _ _ => continuous_const)) hx
  have len : ∀ k : ℝ, 0 ≤ k → Real.sqrt (k • n).normSq * Real.sqrt n.normSq = (k • n).dot n := by
    intro k hk
    have : (k • n).normSq = k ^ 2 * n.normSq := by
      simp only [V3.normSq, V3.smul_dot, V3.dot_smul]; ring
    have nn : 0 ≤ n.normSq := by
      simp only [V3.normSq, V3.dot]; nlinarith [sq_nonneg n.x, sq_nonneg n.y, sq_nonneg n.z]
    rw [this, Real.sqrt_mul (sq_nonneg k), Real.sqrt_sq hk, mul_assoc, Real.mul_self_sqrt nn, V3.smul_dot]
    rfl
  have c1 : areaVec d b c = areaVec b c d := by
    unfold areaVec; ext <;> simp [V3.cross] <;> ring
  have c2 : areaVec d a b = areaVec a b d := by
    unfold areaVec; ext <;> simp [V3.cross] <;> ring
  have e : ∀ (f : V3 ℝ → ℝ) x y z, triangleIntegral f x y z = Real.sqrt (areaVec x y z).normSq * refInt f x y z := fun _ _ _ _ => rfl
  have pos : Real.sqrt n.normSq ≠ 0 := by
    intro h0
    apply hn
    have nn : n.normSq ≤ 0 := Real.sqrt_eq_zero'.1 h0
    simp only [V3.normSq, V3.dot] at nn
    ext
    · show n.x = 0; nlinarith [sq_nonneg n.x, sq_nonneg n.y, sq_nonneg n.z]
    · show n.y = 0; nlinarith [sq_nonneg n.x, sq_nonneg n.y, sq_nonneg n.z]
    · show n.z = 0; nlinarith [sq_nonneg n.x, sq_nonneg n.y, sq_nonneg n.z]
  simp only [c1, c2, h1, h2, h3, h4] at key
  rw [← len _ hα, ← len _ hβ, ← len _ hγ, ← len _ hδ] at key
  apply mul_right_cancel₀ pos
  rw [e, e, e, e, c1, c2, h1, h2, h3, h4]
  linear_combination key

lemma SymVol.working_wet (s : Mesh ℝ) (hswf : s.WF) (z : ℝ) : (Hydro.workingMesh s M3.one z).shellIntegral (fun X => if X.z < 0 then 1 else 0) =
    s.shellIntegral (fun X => if X.z + z < 0 then 1 else 0) := by
  unfold Mesh.shellIntegral Mesh.surfaceSum
  show (s.faces.map _).sum = _
  congr 1
  apply List.map_congr_left
  intro g hg
  obtain ⟨ha, hb, hc, hd⟩ := hswf.corner hg
  have v : ∀ i < s.nv, (Hydro.workingMesh s M3.one z).vert i = s.vert i + ⟨0, 0, z⟩ := by
    intro i hi
    unfold Mesh.vert
    rw [Hydro.workingMesh_vertices]
    simp only [Mesh.nv] at hi
    simp only [List.getD_eq_getElem?_getD, List.getElem?_map, List.getElem?_eq_getElem hi, Option.map_some, Option.getD_some]
    ext <;> simp
  have t : ∀ a b c : V3 ℝ, triangleIntegral (fun X => if X.z < 0 then 1 else 0) (a + ⟨0, 0, z⟩) (b + ⟨0, 0, z⟩) (c + ⟨0, 0, z⟩) =
      triangleIntegral (fun X => if X.z + z < 0 then 1 else 0) a b c := by
    intro a b c
    have d1 : ∀ x y : V3 ℝ, x + ⟨0, 0, z⟩ - (y + ⟨0, 0, z⟩) = x - y := fun x y => by ext <;> simp
    have d2 : ∀ u v : ℝ, (a + ⟨0, 0, z⟩ + u • (b - a) + v • (c - a)).z = (a + u • (b - a) + v • (c - a)).z + z := fun u v => by simp; ring
    unfold triangleIntegral
    simp only [d1, d2]
  simp only [Mesh.faceSum, v _ ha, v _ hb, v _ hc, v _ hd, t]

lemma SymVol.wet_sum (srt : (ℕ → ℝ) → List ℕ → List ℕ) (hsrt : IsArgsort srt) (p q : Plane ℝ) (hn : p.normal.dot p.normal = 1)
    (hpq : p.normal.dot q.normal = 0) (m s : Mesh ℝ) (hwf : m.WF) (hcv : m.ConvexFaces)
    (hsep : ∀ v ∈ m.vertices ++ m.vertices.map p.reflect, ∀ w ∈ m.vertices ++ m.vertices.map p.reflect,
      (∀ k, |v.coord k - w.coord k| ≤ 1 / 10 ^ 8) → v = w)
    (h : m.symmetrize srt p = .ok s) : s.shellIntegral (q.below fun _ => 1) = 2 * m.shellIntegral (q.below fun _ => 1) := by
  obtain ⟨σ, hf, hv⟩ := merged srt hsrt p m s hwf hsep h
  unfold Mesh.shellIntegral
  have h0 : ∀ a c, triangleIntegral (q.below fun _ => 1) a c a = 0 := by
    intro a c
    unfold triangleIntegral
    have : (c - a).cross (a - a) = 0 := by ext <;> simp [V3.cross]
    rw [this]
    simp [V3.normSq, V3.dot]
  have e2 := renumbered_shell σ (raw_wf p m hwf) hf hv h0
  have e3 := raw_shell p m hwf hcv (T := triangleIntegral (q.below fun _ => 1)) (T' := triangleIntegral (q.below fun _ => 1))
    (fun _ _ _ _ hq => wet_diagonal q hq) (fun a b c => tri_below_reflect p q hn hpq a b c)
  rw [e2, e3]; ring

/-- **C154 (wetted surface).** The wetted surface area of the upright symmetrized hull is twice the area of the part of the given half under the free surface;
the half need not be open along the plane of symmetry. -/
theorem C154_wetted_area (srt : (ℕ → ℝ) → List ℕ → List ℕ) (hsrt : IsArgsort srt) (m s : Mesh ℝ) (hwf : m.WF) (hcv : m.ConvexFaces)
    (hsep : ∀ v ∈ m.vertices ++ m.vertices.map (fun v => ⟨v.x, -v.y, v.z⟩), ∀ w ∈ m.vertices ++ m.vertices.map (fun v => ⟨v.x, -v.y, v.z⟩),
      (∀ k, |v.coord k - w.coord k| ≤ 1 / 10 ^ 8) → v = w)
    (h : m.symmetrize srt ⟨⟨0, 1, 0⟩, 0⟩ = .ok s) (cog : V3 ℝ) (rho grav z : ℝ) (atCog : Bool) (lpp : Option ℝ) (ap : Bool) (d : Hydro.HsData)
    (hswf : s.WF) (hscv : (Hydro.workingMesh s M3.one z).StrictlyConvexFaces)
    (hpos : ∀ f ∈ (Hydro.workingMesh s M3.one z).faces, ∀ i ∈ f.toList, ((Hydro.workingMesh s M3.one z).vert i).z = 0 ∨
      1 / 1000 < |((Hydro.workingMesh s M3.one z).vert i).z|)
    (hwsep : (Hydro.workingMesh s M3.one z).WellSeparated ⟨⟨0, 0, 1⟩, 0⟩)
    (hd : Hydro.compute srt s cog rho grav M3.one z atCog lpp ap = .ok d) :
    d.wetSurfaceArea = 2 * m.shellIntegral (fun X => if X.z + z < 0 then 1 else 0) := by
  have hn : (⟨⟨0, 1, 0⟩, 0⟩ : Plane ℝ).normal.dot (⟨⟨0, 1, 0⟩, 0⟩ : Plane ℝ).normal = 1 := by simp [V3.dot]
  have hR : (⟨⟨0, 1, 0⟩, 0⟩ : Plane ℝ).reflect = fun v => ⟨v.x, -v.y, v.z⟩ := by
    funext v
    ext <;> simp [Plane.reflect, V3.dot]; ring
  rw [← hR] at hsep
  have hwwf : (Hydro.workingMesh s M3.one z).WF := by
    intro f hf i hi
    have := hswf f hf i hi
    simpa [Hydro.workingMesh, Mesh.rotateMatrix, Mesh.translateZ, Mesh.mapVertices, Mesh.nv] using this
  have below : (⟨⟨0, 0, 1⟩, -z⟩ : Plane ℝ).below (fun _ => 1) = fun X => if X.z + z < 0 then 1 else 0 := by
    funext X
    have : X.z < -z ↔ X.z + z < 0 := by constructor <;> intro <;> linarith
    simp [Plane.below, V3.dot, this]
  rw [Hydro.C93_wetted_area_partial srt hsrt s cog rho grav M3.one z atCog lpp ap d hwwf hscv hpos hwsep hd, working_wet s hswf z, ← below]
  exact wet_sum srt hsrt _ _ hn (by simp [V3.dot]) m s hwf hcv hsep h

/-! ### The upright hull -/

namespace SymVol

lemma sym_wf (srt : (ℕ → ℝ) → List ℕ → List ℕ) (hsrt : IsArgsort srt) (p : Plane ℝ) (hn : p.normal.dot p.normal = 1) (m s : Mesh ℝ) (hwf : m.WF)
    (h : m.symmetrize srt p = .ok s) : s.WF := by
  have hne : m.vertices ≠ [] := by
    intro he
    unfold Mesh.symmetrize at h
    have : (m.symmetrizeRaw p).vertices = [] := by simp [Mesh.symmetrizeRaw, he]
    unfold Mesh.mergeDuplicates at h
    rw [this] at h
    have := (C03_renumbering_total_in_range_onto srt hsrt (Mesh.defaultAtol : ℝ) (by unfold Mesh.defaultAtol; positivity)
      ([].map V3.coord)).1
    simp_all [Except.map]
  obtain ⟨s', hs', hw, -⟩ := C14_symmetrize srt hsrt p hn m hwf hne
  rw [h] at hs'
  cases hs'
  exact hw

lemma strict_reflect (p : Plane ℝ) (hn : p.normal.dot p.normal = 1) {a b c d : V3 ℝ} (h : StrictlyConvexQuad a b c d) :
    StrictlyConvexQuad (p.reflect d) (p.reflect c) (p.reflect b) (p.reflect a) := by
  obtain ⟨n, α, β, γ, δ, hα, hβ, hγ, hδ, h0, h1, h2, h3, h4⟩ := h
  have r1 : areaVec d b c = areaVec b c d := by
    unfold areaVec; ext <;> simp [V3.cross] <;> ring
  have r2 : areaVec d a b = areaVec a b d := by
    unfold areaVec; ext <;> simp [V3.cross] <;> ring
  have r3 : areaVec d a c = areaVec a c d := by
    unfold areaVec; ext <;> simp [V3.cross] <;> ring
  have r4 : areaVec c a b = areaVec a b c := by
    unfold areaVec; ext <;> simp [V3.cross] <;> ring
  refine ⟨reflLin p.normal n, δ, γ, β, α, hδ, hγ, hβ, hα, reflLin_ne_zero hn h0, ?_, ?_, ?_, ?_⟩
  · rw [areaVec_reflect p hn, r1, h4, reflLin_smul]
  · rw [areaVec_reflect p hn, r2, h3, reflLin_smul]
  · rw [areaVec_reflect p hn, r3, h2, reflLin_smul]
  · rw [areaVec_reflect p hn, r4, h1, reflLin_smul]

lemma raw_strict (p : Plane ℝ) (hn : p.normal.dot p.normal = 1) (m : Mesh ℝ) (hwf : m.WF) (hcv : m.StrictlyConvexFaces) :
    (m.symmetrizeRaw p).StrictlyConvexFaces := by
  intro f hf
  rcases List.mem_append.1 hf with hf | hf
  · obtain ⟨ha, hb, hc, hd⟩ := hwf.corner hf
    rw [vert_left p m ha, vert_left p m hb, vert_left p m hc, vert_left p m hd]
    exact hcv f hf
  · obtain ⟨g, hg, rfl⟩ := List.mem_map.1 hf
    obtain ⟨ha, hb, hc, hd⟩ := hwf.corner hg
    have := hcv g hg
    simp only [Face.flip, Face.map, vert_right p m ha, vert_right p m hb, vert_right p m hc, vert_right p m hd]
    by_cases ht : g.a = g.d
    · rw [if_pos (by rw [ht])]
      rw [if_pos ht] at this
      rw [areaVec_reflect p hn]
      apply reflLin_ne_zero hn
      rw [← ht]
      exact this
    · rw [if_neg (by omega)]
      rw [if_neg ht] at this
      exact strict_reflect p hn this

lemma renumbered_strict {r s : Mesh ℝ} (σ : ℕ → ℕ) (hwf : r.WF) (hcv : r.StrictlyConvexFaces) (hf : s.faces = r.faces.map (Face.map σ))
    (hv : ∀ i < r.nv, s.vert (σ i) = r.vert i) : s.StrictlyConvexFaces := by
  intro f' hf'
  rw [hf] at hf'
  obtain ⟨f, hm, rfl⟩ := List.mem_map.1 hf'
  obtain ⟨ha, hb, hc, hd⟩ := hwf.corner hm
  have := hcv f hm
  simp only [Face.map, hv _ ha, hv _ hb, hv _ hc, hv _ hd]
  by_cases ht : f.a = f.d
  · rw [if_pos (by rw [ht])]
    rwa [if_pos ht] at this
  · rw [if_neg ht] at this
    rw [if_neg]
    · exact this
    · intro hσ
      have e : r.vert f.a = r.vert f.d := by rw [← hv _ ha, ← hv _ hd, hσ]
      obtain ⟨n, α, β, γ, δ, hα, hβ, hγ, hδ, h0, h1, h2, h3, h4⟩ := this
      rw [← e] at h3
      have z : areaVec (r.vert f.a) (r.vert f.b) (r.vert f.a) = 0 := by unfold areaVec; ext <;> simp [V3.cross]
      rw [z] at h3
      exact (smul_ne_zero hγ.ne' h0) h3.symm

lemma working_vert (s : Mesh ℝ) (z : ℝ) {i : ℕ} (hi : i < s.nv) : (Hydro.workingMesh s M3.one z).vert i = s.vert i + ⟨0, 0, z⟩ := by
  unfold Mesh.vert
  rw [Hydro.workingMesh_vertices]
  simp only [Mesh.nv] at hi
  simp only [List.getD_eq_getElem?_getD, List.getElem?_map, List.getElem?_eq_getElem hi, Option.map_some, Option.getD_some]
  ext <;> simp

lemma working_strict (s : Mesh ℝ) (z : ℝ) (hwf : s.WF) (hcv : s.StrictlyConvexFaces) : (Hydro.workingMesh s M3.one z).StrictlyConvexFaces := by
  have t : ∀ a b c : V3 ℝ, areaVec (a + ⟨0, 0, z⟩) (b + ⟨0, 0, z⟩) (c + ⟨0, 0, z⟩) = areaVec a b c := by
    intro a b c
    unfold areaVec; ext <;> simp [V3.cross]
  intro f hf
  obtain ⟨ha, hb, hc, hd⟩ := hwf.corner (show f ∈ s.faces from hf)
  have := hcv f hf
  rw [working_vert s z ha, working_vert s z hb, working_vert s z hc, working_vert s z hd]
  unfold StrictlyConvexQuad at this ⊢
  simp only [t]
  exact this

/-- Heights of the corners. -/
lemma working_height (m s : Mesh ℝ) (z : ℝ) (σ : ℕ → ℕ) (hwf : m.WF) (hswf : s.WF)
    (hf : s.faces = (m.symmetrizeRaw ⟨⟨0, 1, 0⟩, 0⟩).faces.map (Face.map σ))
    (hv : ∀ i < (m.symmetrizeRaw ⟨⟨0, 1, 0⟩, 0⟩).nv, s.vert (σ i) = (m.symmetrizeRaw ⟨⟨0, 1, 0⟩, 0⟩).vert i) (P : ℝ → Prop)
    (hP : ∀ f ∈ m.faces, ∀ i ∈ f.toList, P ((m.vert i).z + z)) :
    ∀ f ∈ (Hydro.workingMesh s M3.one z).faces, ∀ i ∈ f.toList, P ((Hydro.workingMesh s M3.one z).vert i).z := by
  intro f' hf' i hi
  have hf'' : f' ∈ s.faces := hf'
  rw [working_vert s z (hswf f' hf'' i hi), V3.add_z]
  rw [hf] at hf''
  obtain ⟨f, hm, rfl⟩ := List.mem_map.1 hf''
  obtain ⟨j, hj, rfl⟩ : ∃ j ∈ f.toList, σ j = i := by
    simp only [Face.map, Face.toList, List.mem_cons, List.not_mem_nil, or_false] at hi
    rcases hi with rfl | rfl | rfl | rfl
    exacts [⟨f.a, by simp [Face.toList], rfl⟩, ⟨f.b, by simp [Face.toList], rfl⟩, ⟨f.c, by simp [Face.toList], rfl⟩, ⟨f.d, by simp [Face.toList], rfl⟩]
  rw [hv j (raw_wf _ m hwf f hm j hj)]
  rcases List.mem_append.1 hm with hm | hm
  · rw [vert_left _ m (hwf f hm j hj)]
    exact hP f hm j hj
  · obtain ⟨g, hg, rfl⟩ := List.mem_map.1 hm
    obtain ⟨k, hk, rfl⟩ : ∃ k ∈ g.toList, k + m.nv = j := by
      simp only [Face.flip, Face.map, Face.toList, List.mem_cons, List.not_mem_nil, or_false] at hj
      rcases hj with rfl | rfl | rfl | rfl
      exacts [⟨g.d, by simp [Face.toList], rfl⟩, ⟨g.c, by simp [Face.toList], rfl⟩, ⟨g.b, by simp [Face.toList], rfl⟩, ⟨g.a, by simp [Face.toList], rfl⟩]
    rw [vert_right _ m (hwf g hg k hk)]
    have : ((⟨⟨0, 1, 0⟩, 0⟩ : Plane ℝ).reflect (m.vert k)).z = (m.vert k).z := by simp [Plane.reflect]
    rw [this]
    exact hP g hg k hk

end SymVol

/-- **C154.** In terms of the half hull: with strictly convex faces, open along the plane `Oxz` only, each corner on the free surface or farther from it than the
tolerance. The upright symmetrized hull displaces twice the immersed volume of the half, its wetted surface is twice that of the half, its buoyancy centre lies in
the plane and, with the gravity centre at the origin of the frame, two products of inertia are zero. -/
theorem C154_hull (srt : (ℕ → ℝ) → List ℕ → List ℕ) (hsrt : IsArgsort srt)
    (m s : Mesh ℝ) (hwf : m.WF) (hcv : m.StrictlyConvexFaces) (hopen : m.OpenAlong ⟨⟨0, 1, 0⟩, 0⟩)
    (hsep : ∀ v ∈ m.vertices ++ m.vertices.map (fun v => ⟨v.x, -v.y, v.z⟩), ∀ w ∈ m.vertices ++ m.vertices.map (fun v => ⟨v.x, -v.y, v.z⟩),
      (∀ k, |v.coord k - w.coord k| ≤ 1 / 10 ^ 8) → v = w)
    (h : m.symmetrize srt ⟨⟨0, 1, 0⟩, 0⟩ = .ok s) (cog : V3 ℝ) (rho grav z : ℝ) (atCog : Bool) (lpp : Option ℝ) (ap : Bool) (d : Hydro.HsData)
    (hpos : ∀ f ∈ m.faces, ∀ i ∈ f.toList, (m.vert i).z + z = 0 ∨ 1 / 1000 < |(m.vert i).z + z|)
    (hwsep : (Hydro.workingMesh s M3.one z).WellSeparated ⟨⟨0, 0, 1⟩, 0⟩) (hrho : rho ≠ 0)
    (hd : Hydro.compute srt s cog rho grav M3.one z atCog lpp ap = .ok d) :
    d.dispVolume = 2 * m.solidIntegral ⟨0, 0, -z⟩ (fun X => if X.z + z < 0 then 1 else 0) ∧
    d.wetSurfaceArea = 2 * m.shellIntegral (fun X => if X.z + z < 0 then 1 else 0) ∧
    (d.dispVolume ≠ 0 → d.buoyancyCenter.y = 0) ∧
    (cog = ⟨0, 0, -z⟩ → d.inertia.mat.r0.y = 0 ∧ d.inertia.mat.r1.x = 0 ∧ d.inertia.mat.r1.z = 0 ∧ d.inertia.mat.r2.y = 0) := by
  have hn : (⟨⟨0, 1, 0⟩, 0⟩ : Plane ℝ).normal.dot (⟨⟨0, 1, 0⟩, 0⟩ : Plane ℝ).normal = 1 := by simp [V3.dot]
  have hR : (⟨⟨0, 1, 0⟩, 0⟩ : Plane ℝ).reflect = fun v => ⟨v.x, -v.y, v.z⟩ := by
    funext v
    ext <;> simp [Plane.reflect, V3.dot]; ring
  have hcx : m.ConvexFaces := by
    intro f hf
    have := hcv f hf
    by_cases ht : f.a = f.d
    · rw [if_pos ht] at this ⊢; exact this
    · rw [if_neg ht] at this ⊢; exact StrictlyConvexQuad.convex this
  have hswf := sym_wf srt hsrt _ hn m s hwf h
  obtain ⟨σ, hf, hv⟩ := merged srt hsrt _ m s hwf (by rw [hR]; exact hsep) h
  have hscv := working_strict s z hswf (renumbered_strict σ (raw_wf _ m hwf) (raw_strict _ hn m hwf hcv) hf hv)
  have hpos' := working_height m s z σ hwf hswf hf hv (fun t => t = 0 ∨ 1 / 1000 < |t|) hpos
  obtain ⟨a, b, c⟩ := C154_buoyancy srt hsrt m s hwf hcx hopen hsep h cog rho grav z atCog lpp ap d hswf hscv hpos' hwsep hrho hd
  exact ⟨a, C154_wetted_area srt hsrt m s hwf hcx hsep h cog rho grav z atCog lpp ap d hswf hscv hpos' hwsep hd, b, c⟩

/-! ### A case -/

/-- The half `y ≥ 0` of an octahedron, without a face in the plane `y = 0`. -/
def halfOcta : Mesh ℚ :=
  ⟨[⟨1, 0, 0⟩, ⟨-1, 0, 0⟩, ⟨0, 1, 0⟩, ⟨0, 0, 1⟩, ⟨0, 0, -1⟩], [⟨0, 2, 3, 0⟩, ⟨2, 1, 3, 2⟩, ⟨0, 4, 2, 0⟩, ⟨2, 4, 1, 2⟩]⟩

/-- The octahedron. -/
def wholeOcta : Mesh ℚ :=
  ⟨[⟨-1, 0, 0⟩, ⟨0, -1, 0⟩, ⟨0, 0, -1⟩, ⟨0, 0, 1⟩, ⟨0, 1, 0⟩, ⟨1, 0, 0⟩],
    [⟨5, 4, 3, 5⟩, ⟨4, 0, 3, 4⟩, ⟨5, 2, 4, 5⟩, ⟨4, 2, 0, 4⟩, ⟨5, 3, 1, 5⟩, ⟨1, 3, 0, 1⟩, ⟨5, 1, 2, 5⟩, ⟨1, 0, 2, 1⟩]⟩

/-- Its lower half. -/
def lowerOcta : Mesh ℚ := ⟨wholeOcta.vertices, [⟨2, 4, 5, 2⟩, ⟨2, 0, 4, 2⟩, ⟨2, 5, 1, 2⟩, ⟨2, 1, 0, 2⟩]⟩

lemma halfOcta_symmetrize : halfOcta.real.symmetrize insArgsort ⟨⟨0, 1, 0⟩, 0⟩ = .ok wholeOcta.real := by
  have h : (match (halfOcta.symmetrizeRaw ⟨⟨0, 1, 0⟩, 0⟩).mergeDuplicates insArgsort Mesh.defaultAtol with
      | .ok r => decide (r.1 = wholeOcta)
      | .error _ => false) = true := by decide +kernel
  have raw : halfOcta.real.symmetrizeRaw ⟨⟨0, 1, 0⟩, 0⟩ = (halfOcta.symmetrizeRaw ⟨⟨0, 1, 0⟩, 0⟩).aff ratReal 0 := by
    ext1
    · simp [Mesh.real, Mesh.symmetrizeRaw, Mesh.aff, halfOcta, affMap, Plane.reflect, V3.dot, ratReal_apply, V3.ext_iff]
    · rfl
  have tol : (Mesh.defaultAtol : ℝ) = ratReal Mesh.defaultAtol := by
    simp [Mesh.defaultAtol]
  unfold Mesh.symmetrize
  rw [raw, tol, merge_map insArgsort_compat insArgsort_isArgsort]
  split at h
  · rename_i r hr
    rw [hr]
    simp only [decide_eq_true_eq] at h
    simp only [Except.map, h]
    rfl
  · simp at h

lemma halfOcta_strict : halfOcta.real.StrictlyConvexFaces ∧ wholeOcta.real.StrictlyConvexFaces := by
  constructor <;> apply Mesh.StrictlyConvexFaces.real <;> intro f hf
  · have h1 : ∀ f ∈ halfOcta.faces, f.a = f.d ∧ areaVec (halfOcta.vert f.a) (halfOcta.vert f.b) (halfOcta.vert f.c) ≠ 0 := by decide +kernel
    rw [if_pos (h1 f hf).1]; exact (h1 f hf).2
  · have h1 : ∀ f ∈ wholeOcta.faces, f.a = f.d ∧ areaVec (wholeOcta.vert f.a) (wholeOcta.vert f.b) (wholeOcta.vert f.c) ≠ 0 := by decide +kernel
    rw [if_pos (h1 f hf).1]; exact (h1 f hf).2

lemma wholeOcta_compute (cog : V3 ℝ) (grav : ℝ) :
    ∃ d, Hydro.compute insArgsort wholeOcta.real cog 1000 grav M3.one 0 false none false = .ok d ∧ d.dispVolume = 2 / 3 := by
  have w : wholeOcta.WF := by decide +kernel
  have h1 : ∃ c, clip insArgsort ⟨⟨0, 0, 1⟩, 0⟩ (1 / 1000) true wholeOcta = .ok c ∧ c.closedPolygons ≠ [] ∧
      c.clipped = lowerOcta := by
    have h : (match clip insArgsort (⟨⟨0, 0, 1⟩, 0⟩ : Plane ℚ) (1 / 1000) true wholeOcta with
        | .ok c => decide (c.closedPolygons ≠ [] ∧ c.clipped = lowerOcta)
        | .error _ => false) = true := by decide +kernel
    split at h
    · rename_i c hc
      simp only [decide_eq_true_eq] at h
      exact ⟨c, hc, h⟩
    · simp at h
  obtain ⟨c, hc, hne, hvol⟩ := h1
  refine ⟨Hydro.ofClipped wholeOcta.real cog 1000 grav M3.one 0 false none false (c.aff ratReal 0), ?_, ?_⟩
  · unfold Hydro.compute
    rw [workingMesh_self, clip_real w hc]
    simp only
    rw [if_neg]
    exact hne
  · show 1000 * (c.clipped.aff ratReal 0).volume / 1000 = _
    have hv : (c.clipped.aff ratReal 0).volume = 2 / 3 := by
      rw [hvol, volume_eq]
      simp [lowerOcta, wholeOcta, Mesh.triPropsOf, Mesh.triIntegralsOf, triProps, Mesh.aff, affMap, ratReal_apply, Mesh.faceProps, Mesh.faceIntegrals, Face.isTri,
        Mesh.vert, V3.norm, V3.normSq, V3.cross, V3.dot, triIntegrals, triDelta, pf1]
      norm_num
      have h3 : (√3 : ℝ) ≠ 0 := by positivity
      field_simp
      norm_num
    rw [hv]; norm_num

/-- The hypotheses of C154 are met by half an octahedron floating with its centre in the free surface: the displaced volume is `2 / 3`, the half of the octahedron,
and `1 / 3` is the volume of the immersed part of the given half. -/
theorem halfOcta_meets_C154 (cog : V3 ℝ) (grav : ℝ) : ∃ s d, halfOcta.real.symmetrize insArgsort ⟨⟨0, 1, 0⟩, 0⟩ = .ok s ∧
    Hydro.compute insArgsort s cog 1000 grav M3.one 0 false none false = .ok d ∧ d.dispVolume = 2 / 3 ∧ d.buoyancyCenter.y = 0 ∧
    halfOcta.real.solidIntegral 0 (fun X => if X.z < 0 then 1 else 0) = 1 / 3 ∧ (cog = 0 → d.inertia.mat.r0.y = 0 ∧ d.inertia.mat.r1.z = 0) ∧
    d.wetSurfaceArea = 2 * halfOcta.real.shellIntegral (fun X => if X.z < 0 then 1 else 0) := by
  obtain ⟨d, hd, hv⟩ := wholeOcta_compute cog grav
  have hopen : halfOcta.real.OpenAlong ⟨⟨0, 1, 0⟩, 0⟩ := by
    apply MM.OpenAlong.of_edges
    have key : ∀ e ∈ halfOcta.directedEdges, halfOcta.directedEdges.count e ≠ halfOcta.directedEdges.count e.swap →
        (halfOcta.vert e.1).y = 0 ∧ (halfOcta.vert e.2).y = 0 := by decide +kernel
    intro e he hne
    obtain ⟨a, b⟩ := key e he hne
    rw [Mesh.real_vert, Mesh.real_vert]
    simp [V3.dot, V3.real, a, b]
  have hsep : ∀ v ∈ halfOcta.real.vertices ++ halfOcta.real.vertices.map (fun v => (⟨v.x, -v.y, v.z⟩ : V3 ℝ)),
      ∀ w ∈ halfOcta.real.vertices ++ halfOcta.real.vertices.map (fun v => (⟨v.x, -v.y, v.z⟩ : V3 ℝ)),
      (∀ k, |v.coord k - w.coord k| ≤ 1 / 10 ^ 8) → v = w := by
    have e : halfOcta.real.vertices ++ halfOcta.real.vertices.map (fun v => (⟨v.x, -v.y, v.z⟩ : V3 ℝ)) =
        (halfOcta.vertices ++ halfOcta.vertices.map (fun v => (⟨v.x, -v.y, v.z⟩ : V3 ℚ))).map V3.real := by
      rw [Mesh.real_vertices, List.map_append, List.map_map, List.map_map]
      congr 1
      apply List.map_congr_left
      intro v _
      simp [V3.real]
    have key : ∀ v ∈ halfOcta.vertices ++ halfOcta.vertices.map (fun v => (⟨v.x, -v.y, v.z⟩ : V3 ℚ)),
        ∀ w ∈ halfOcta.vertices ++ halfOcta.vertices.map (fun v => (⟨v.x, -v.y, v.z⟩ : V3 ℚ)),
        (∀ k, |v.coord k - w.coord k| ≤ 1 / 10 ^ 8) → v = w := by decide +kernel
    rw [e]
    intro v hv w hw hc
    obtain ⟨v', hv', rfl⟩ := List.mem_map.1 hv
    obtain ⟨w', hw', rfl⟩ := List.mem_map.1 hw
    rw [key v' hv' w' hw' fun k => ?_]
    have := hc k
    have e2 : (((|v'.coord k - w'.coord k| : ℚ)) : ℝ) ≤ ((1 / 10 ^ 8 : ℚ) : ℝ) := by
      push_cast
      fin_cases k <;> exact this
    exact_mod_cast e2
  have hpos : ∀ f ∈ halfOcta.real.faces, ∀ i ∈ f.toList, (halfOcta.real.vert i).z + 0 = 0 ∨ 1 / 1000 < |(halfOcta.real.vert i).z + 0| := by
    have : ∀ f ∈ halfOcta.faces, ∀ i ∈ f.toList, (halfOcta.vert i).z = 0 ∨ 1 / 1000 < |(halfOcta.vert i).z| := by decide +kernel
    intro f hf i hi
    rw [Mesh.real_vert, add_zero]
    rcases this f hf i hi with h | h
    · left
      show (((halfOcta.vert i).z : ℚ) : ℝ) = 0
      rw [h]; simp
    · right
      have : ((1 / 1000 : ℚ) : ℝ) < ((|(halfOcta.vert i).z| : ℚ) : ℝ) := by exact_mod_cast h
      push_cast at this
      exact this
  have hwsep : (Hydro.workingMesh wholeOcta.real M3.one 0).WellSeparated ⟨⟨0, 0, 1⟩, 0⟩ := by
    rw [workingMesh_self, ← Plane.real_z]
    exact Mesh.WellSeparated.real (wellSeparated_of_list (by decide +kernel))
  obtain ⟨a, e, b, c⟩ := C154_hull insArgsort insArgsort_isArgsort halfOcta.real wholeOcta.real (Mesh.WF.real (by decide +kernel)) halfOcta_strict.1 hopen hsep
    halfOcta_symmetrize cog 1000 grav 0 false none false d hpos hwsep (by norm_num) hd
  refine ⟨_, d, halfOcta_symmetrize, hd, hv, b (by rw [hv]; norm_num), ?_, ?_, ?_⟩
  all_goals have z0 : (⟨0, 0, -0⟩ : V3 ℝ) = 0 := by ext <;> simp
  · rw [hv, z0] at a
    simp only [add_zero] at a
    linarith
  · rw [z0] at c
    intro h0
    exact ⟨(c h0).1, (c h0).2.2.1⟩
  · simpa only [add_zero] using e

end MM
