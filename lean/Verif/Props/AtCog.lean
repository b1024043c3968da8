import Verif.Props.Stiffness

/-!
# The stiffness matrix at the gravity centre (C116)
-/

namespace MM
namespace Hydro

/-- The buoyancy centre of the data, moved back, is that of the clipped mesh. -/
lemma buoyancy_working {rot : M3 ℝ} (hrot : rot.IsRotation) (b : V3 ℝ) (z : ℝ) :
    workingPoint (rot.transpose.mulVec ⟨b.x, b.y, b.z - z⟩) rot z = b := by
  simp only [workingPoint]
  rw [hrot.mulVec_transpose]
  ext <;> simp

lemma planeTri_y_sub (a : ℝ) (o p q : ℝ × ℝ) : planeTriIntegral (fun _ y => y - a) o p q =
    ((p.1 - o.1) * (q.2 - o.2) - (q.1 - o.1) * (p.2 - o.2)) * (o.2 + p.2 + q.2 - 3 * a) / 6 := by
  unfold planeTriIntegral
  rw [triangle_cubic (o.2 - a) (p.2 - o.2) (q.2 - o.2) 0 0 0 0 0 0 0 (fun u v => by ring)]
  ring

/-- **C116 (what holds).** With `at_cog`, when the gravity centre `G` and the buoyancy centre are on the same vertical (as at
an equilibrium), the coefficients of heave, roll and pitch are those about the axes through `G`: the moments of the
waterplane are taken about `G`. (The roll-pitch coefficient is left out, see C46.) -/
theorem C116_at_cog_partial (srt : (ℕ → ℝ) → List ℕ → List ℕ) (m : Mesh ℝ) (cog : V3 ℝ) (rho grav : ℝ) (rot : M3 ℝ) (z : ℝ)
    (lpp : Option ℝ) (ap : Bool) (h : HsData) (hrot : rot.IsRotation)
    (hh : compute srt m cog rho grav rot z true lpp ap = .ok h)
    (hx : (workingPoint h.buoyancyCenter rot z).x = (workingPoint cog rot z).x)
    (hy : (workingPoint h.buoyancyCenter rot z).y = (workingPoint cog rot z).y) (hv : h.dispVolume ≠ 0) :
    ∃ c, Clipper.clip srt ⟨⟨0, 0, 1⟩, 0⟩ (1 / 1000) true (workingMesh m rot z) = .ok c ∧
      ∀ o : ℝ × ℝ,
        let G := workingPoint cog rot z
        let B := workingPoint h.buoyancyCenter rot z
        h.stiffness.r0.x = zeroTiny (rho * grav * polygonsIntegral (fun _ _ => 1) o (waterline c)) ∧
        h.stiffness.r0.y = zeroTiny (rho * grav * polygonsIntegral (fun _ y => y - G.y) o (waterline c)) ∧
        h.stiffness.r0.z = zeroTiny (-(rho * grav * polygonsIntegral (fun x _ => x - G.x) o (waterline c))) ∧
        h.stiffness.r1.y = zeroTiny (rho * grav * (polygonsIntegral (fun _ y => (y - G.y) * (y - G.y)) o (waterline c) -
          h.dispVolume * (G.z - B.z))) ∧
        h.stiffness.r2.z = zeroTiny (rho * grav * (polygonsIntegral (fun x _ => (x - G.x) * (x - G.x)) o (waterline c) -
          h.dispVolume * (G.z - B.z))) := by
  obtain ⟨-, c, hc, -, -, hI⟩ := C47_stiffness srt m cog rho grav rot z true lpp ap h hh
  have hb : workingPoint h.buoyancyCenter rot z = (c.clipped.evalPlain rho).cog := by
    obtain ⟨c', hc', _, rfl⟩ := compute_ok hh
    have : c' = c := by rw [hc] at hc'; exact (Except.ok.inj hc').symm
    subst this
    exact buoyancy_working hrot _ z
  refine ⟨c, hc, fun o => ?_⟩
  obtain ⟨h1, h2, h3, h4, h5, -⟩ := hI o
  have h5 := h5 hv
  simp only [if_true] at h3 h4 h5
  rw [hb] at hx hy
  simp only [hb, ← hx, ← hy]
  exact ⟨h2, h3, h4, h5.1, h5.2⟩

/-- The hypotheses of `C116_at_cog_partial` are met by the half immersed cube, with a gravity centre on its vertical axis. -/
theorem halfCube_meets_C116 (zg : ℝ) : ∃ h, compute insArgsort halfCube.real ⟨1 / 2, 1 / 2, zg⟩ 1000 9 M3.one 0 true = .ok h ∧
    (M3.one : M3 ℝ).IsRotation ∧
    (workingPoint h.buoyancyCenter M3.one 0).x = (workingPoint ⟨1 / 2, 1 / 2, zg⟩ M3.one 0).x ∧
    (workingPoint h.buoyancyCenter M3.one 0).y = (workingPoint ⟨1 / 2, 1 / 2, zg⟩ M3.one 0).y ∧ h.dispVolume ≠ 0 := by
  obtain ⟨h, hh, hv⟩ := (halfCube_meets_C80 ⟨1 / 2, 1 / 2, zg⟩ 9 true).2.2.2.2.2.2.2.2
  obtain ⟨h', hh', -, hx, hy⟩ := halfCube_hs ⟨1 / 2, 1 / 2, zg⟩ 1000 9 (by norm_num)
  have e : h.buoyancyCenter = h'.buoyancyCenter := by
    obtain ⟨c, hc, _, rfl⟩ := compute_ok hh
    obtain ⟨c', hc', _, rfl⟩ := compute_ok hh'
    have : c' = c := by rw [hc] at hc'; exact (Except.ok.inj hc').symm
    subst this
    rfl
  refine ⟨h, hh, (halfCube_meets_C80 0 9 true).2.2.2.2.2.2.2.1, ?_, ?_, hv⟩ <;>
    simp [e, workingPoint, M3.mulVec, M3.one, V3.dot, hx, hy]

/-- The matrix depends on the height of the gravity centre only. -/
theorem C116_horizontal_position_ignored (srt : (ℕ → ℝ) → List ℕ → List ℕ) (m : Mesh ℝ) (cog cog' : V3 ℝ) (rho grav : ℝ)
    (rot : M3 ℝ) (z : ℝ) (at' : Bool) (lpp : Option ℝ) (ap : Bool) (h h' : HsData)
    (hz : (workingPoint cog rot z).z = (workingPoint cog' rot z).z)
    (hh : compute srt m cog rho grav rot z at' lpp ap = .ok h)
    (hh' : compute srt m cog' rho grav rot z at' lpp ap = .ok h') : h.stiffness = h'.stiffness := by
  obtain ⟨c, hc, _, rfl⟩ := compute_ok hh
  obtain ⟨c', hc', _, rfl⟩ := compute_ok hh'
  have : c' = c := by rw [hc] at hc'; exact (Except.ok.inj hc').symm
  subst this
  simp only [ofClipped, hz]

/-- **C116 fails.** On the half immersed unit cube the heave-roll coefficient given with `at_cog` is not that about the
gravity centre for every gravity centre. -/
theorem C116_fails : ¬ ∀ (cog : V3 ℝ) (h : HsData) (c : Clipper.Clipped ℝ),
    compute insArgsort halfCube.real cog 1000 9 M3.one 0 true = .ok h →
    Clipper.clip insArgsort ⟨⟨0, 0, 1⟩, 0⟩ (1 / 1000) true halfCube.real = .ok c →
    h.stiffness.r0.y = zeroTiny (1000 * 9 * polygonsIntegral (fun _ y => y - cog.y) (0, 0) (waterline c)) := by
  intro H
  obtain ⟨c, hc, hw⟩ := halfCube_waterline
  obtain ⟨h, hh, -⟩ := (halfCube_meets_C80 ⟨0, 0, 0⟩ 9 true).2.2.2.2.2.2.2.2
  obtain ⟨h', hh', -⟩ := (halfCube_meets_C80 ⟨0, 1, 0⟩ 9 true).2.2.2.2.2.2.2.2
  have e := C116_horizontal_position_ignored _ _ _ _ _ _ _ _ _ _ _ _ _ (by simp [workingPoint, M3.mulVec, M3.one, V3.dot]) hh hh'
  have e1 := H _ _ _ hh hc
  have e2 := H _ _ _ hh' hc
  rw [e, e2, hw] at e1
  simp only [polygonsIntegral, polygonIntegral, chainPairs, List.zip, List.zipWith, List.tail_cons, List.map_cons,
      List.map_nil, List.sum_cons, List.sum_nil, planeTri_y_sub, zeroTiny] at e1
  norm_num at e1

end Hydro
end MM
