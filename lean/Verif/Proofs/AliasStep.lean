import Verif.Proofs.Alias

/-!
# Lemmas for C108 and C109: every method
-/

namespace MM
namespace Alias

set_option linter.unusedSimpArgs false

namespace St

section
variable {s : St} (h : Wf s)

lemma view_props (s : St) : s.view.cache.props.isSome = s.2.props.isSome := by
  simp [St.view, Alias.view]
lemma view_ints (s : St) : s.view.cache.ints = s.2.ints := rfl
lemma view_ids (s : St) : s.view.cache.ids = s.2.ids := rfl
lemma view_conn (s : St) : s.view.cache.conn = s.2.conn := rfl

include h in
lemma readIds_good : Good [] s s.readIds := setIds_good h _

lemma readIds_view (s : St) : s.readIds.view = s.view.readIds.2 := by
  rw [readIds, setIds_view]
  unfold MeshObj.readIds
  rcases hi : s.view.cache.ids with _ | p
  · simp
  · simp only [hi]
    rw [← hi]

include h in
lemma readProps_good {s' : St} (e : s.readProps = .ok s') : Good [] s s' := by
  unfold readProps at e
  split at e
  · cases e; exact .refl h
  · dsimp only at e
    split at e
    · cases e
      exact (readIds_good h).trans (storeProps_good (readIds_good h).wf _)
    · cases e

include h in
lemma readProps_view : s.view.readProps =
    (s.readProps).map (fun s1 => ((s1.view.cache.props).getD [], s1.view)) := by
  unfold readProps MeshObj.readProps
  rcases hp : s.2.props with _ | p
  · have e : s.view.cache.props = none := by simp [St.view, Alias.view, hp]
    rw [e]
    dsimp only
    split
    · simp only [Except.map]
      rw [storeProps_view (readIds_good h).wf, readIds_view]
      rfl
    · rfl
  · have e : s.view.cache.props = some (zipProps (realsAt s.1 p.1) (vecsAt s.1 p.2.1) (vecsAt s.1 p.2.2)) := by
      simp [St.view, Alias.view, hp]
    rw [e]
    simp [Except.map, e]

/-- After reading them the face properties are there. -/
lemma readProps_some {s s' : St} (e : s.readProps = .ok s') : s'.2.props.isSome = true := by
  unfold readProps at e
  split at e
  · rename_i hp; cases e; simp [hp]
  · dsimp only at e
    split at e
    · cases e; rfl
    · cases e

include h in
lemma readInts_good {s' : St} (e : s.readInts = .ok s') : Good [] s s' := by
  unfold readInts at e
  split at e
  · cases e; exact .refl h
  · dsimp only at e
    split at e
    · cases e
      exact (readIds_good h).trans (setInts_good (readIds_good h).wf _)
    · cases e

lemma readInts_view (s : St) : s.view.readInts =
    (s.readInts).map (fun s1 => ((s1.view.cache.ints).getD [], s1.view)) := by
  unfold readInts MeshObj.readInts
  rw [view_ints]
  rcases hp : s.2.ints with _ | p
  · dsimp only
    split
    · simp only [Except.map]
      rw [setInts_view, readIds_view]
      rfl
    · rfl
  · simp [Except.map, view_ints, hp]

include h in
lemma readConn_good {ord : List ℕ → List ℕ} {c : Conn} {s' : St} (e : s.readConn ord = .ok (c, s')) :
    Good [] s s' := by
  unfold readConn at e
  split at e
  · cases e; exact .refl h
  · split at e
    · cases e
    · cases e; exact setConn_good h _

lemma readConn_view (ord : List ℕ → List ℕ) (s : St) : s.view.readConn ord =
    (s.readConn ord).map (fun r => (r.1, r.2.view)) := by
  unfold readConn MeshObj.readConn
  rw [view_conn]
  rcases hp : s.2.conn with _ | p
  · dsimp only
    split
    · rename_i he; simp [he, Except.map]
    · rename_i c he; simp [he, Except.map, setConn_view]
  · simp [Except.map]

include h in
lemma readVolume_good {s' : St} (e : s.readVolume = .ok s') : Good [] s s' := by
  unfold readVolume at e
  split at e
  · cases e
  · rename_i s1 h1
    have g := readProps_good h h1
    exact g.trans (readInts_good g.wf e)

include h in
lemma readVolume_view : s.view.readVolume.map Prod.snd = (s.readVolume).map St.view := by
  unfold readVolume MeshObj.readVolume
  rw [readProps_view h]
  rcases he : s.readProps with e | s1
  · rfl
  · simp only [Except.map]
    rw [readInts_view]
    rcases s1.readInts with e | s2 <;> rfl

/-! ### Movements -/

include h in
lemma translateX_good (t : ℝ) : Good [.vertices, .centres] s (s.translateX t) :=
  let g1 := writeV_good h (s.view.mesh.translateX t).vertices
  let g2 := addCentres_good g1.wf ⟨t, 0, 0⟩
  ((g1.trans g2).trans (dropInts_good g2.wf)).mono (by simp)

include h in
lemma translateX_view (t : ℝ) :
    (s.translateX t).view = s.view.doTranslate ⟨t, 0, 0⟩ (s.view.mesh.translateX t) := by
  have g1 := writeV_good h (s.view.mesh.translateX t).vertices
  rw [translateX, dropInts_view, addCentres_view g1.wf, writeV_view h]
  rfl

/-- The movements which replace the vertices. -/
noncomputable def moved (t : V3 ℝ) (l : List (V3 ℝ)) (s : St) : St := ((s.storeV l).addCentres t).dropInts

include h in
lemma moved_good (t : V3 ℝ) (l : List (V3 ℝ)) : Good [.centres] s (s.moved t l) := by
  have g1 := storeV_good h l
  have g2 := addCentres_good g1.wf t
  have g3 := dropInts_good g2.wf
  exact ((g1.trans g2).trans g3).mono (by simp)

include h in
lemma moved_view (t : V3 ℝ) (m' : Mesh ℝ) (hm : m'.faces = s.view.mesh.faces) :
    (s.moved t m'.vertices).view = s.view.doTranslate t m' := by
  have g1 := storeV_good h m'.vertices
  rw [moved, dropInts_view, addCentres_view g1.wf, storeV_view h, MeshObj.doTranslate, ← hm]
  rfl

include h in
lemma rotateMatrix_good (r : M3 ℝ) : Good [] s (s.rotateMatrix r) := by
  have g1 := storeV_good h (s.view.mesh.rotateMatrix r).vertices
  have g2 := rotateProps_good g1.wf r
  exact (g1.trans g2).trans (dropInts_good g2.wf)

include h in
lemma rotateMatrix_view (r : M3 ℝ) : (s.rotateMatrix r).view = s.view.doRotate r := by
  have g1 := storeV_good h (s.view.mesh.rotateMatrix r).vertices
  rw [rotateMatrix, dropInts_view, rotateProps_view g1.wf, storeV_view h]
  rfl

include h in
lemma scale_good {a : ℝ} {l : List (V3 ℝ)} {s' : St} (e : s.scale a l = .ok s') : Good [] s s' := by
  unfold scale at e
  split at e
  · cases e
    exact (storeV_good h l).trans (dropPropsIfAny_good (storeV_good h l).wf)
  · cases e

include h in
lemma scale_view (a : ℝ) (m' : Mesh ℝ) (hm : m'.faces = s.view.mesh.faces) :
    (s.scale a m'.vertices).map St.view = s.view.doScale a m' := by
  unfold scale MeshObj.doScale
  split
  · simp only [Except.map]
    rw [dropPropsIfAny_view, storeV_view h, ← hm]
  · rfl

include h in
lemma flipNormals_good : Good [.normals] s s.flipNormals := by
  have g1 := storeF_good h s.view.mesh.flipNormals.faces
  have g2 := negNormals_good g1.wf
  exact ((g1.trans g2).trans (dropInts_good g2.wf)).mono (by simp)

include h in
lemma flipNormals_view : s.flipNormals.view = s.view.doFlip := by
  have g1 := storeF_good h s.view.mesh.flipNormals.faces
  rw [flipNormals, dropInts_view, negNormals_view g1.wf, storeF_view h]
  rfl

include h in
lemma mirror_good (p : Plane ℝ) : Good [.vertices, .normals] s (s.mirror p) := by
  have g1 := writeV_good h (s.view.mesh.vertices.map p.reflect)
  have g2 := flipNormals_good g1.wf
  exact ((g1.trans g2).trans (clear_good g2.wf)).mono (by simp)

include h in
lemma mirror_view (p : Plane ℝ) : (s.mirror p).view = MeshObj.new (s.view.mesh.mirror p) := by
  have g1 := writeV_good h (s.view.mesh.vertices.map p.reflect)
  rw [mirror, clear_view, flipNormals_view g1.wf, writeV_view h]
  rfl

/-! ### Merging, cleaning -/

include h in
lemma mergeDuplicates_good {srt : (ℕ → ℝ) → List ℕ → List ℕ} {atol : ℝ} {s' : St}
    (e : s.mergeDuplicates srt atol = .ok s') : Good [] s s' := by
  unfold mergeDuplicates at e
  split at e
  · cases e
  · cases e
    rename_i m' _ _
    split
    · exact (storeF_good h _).trans (dropConn_good (storeF_good h _).wf)
    · have g1 := storeV_good h m'.vertices
      have g2 := storeF_good g1.wf m'.faces
      exact (g1.trans g2).trans (dropConn_good g2.wf)

/-- `merge_duplicates` always replaces the faces and keeps the cached properties. -/
lemma mergeDuplicates_fresh {srt : (ℕ → ℝ) → List ℕ → List ℕ} {atol : ℝ} {s s' : St}
    (e : s.mergeDuplicates srt atol = .ok s') : s.1.length ≤ s'.2.f ∧ s'.2.props = s.2.props := by
  unfold mergeDuplicates at e
  split at e
  · cases e
  · cases e
    split <;> simp [storeF, storeV, dropConn]

lemma mergeDuplicates_none {srt : (ℕ → ℝ) → List ℕ → List ℕ} {atol : ℝ} {m m' : Mesh ℝ} {ids : List ℕ}
    (e : m.mergeDuplicates srt atol = .ok (m', ids))
    (hn : (mergeLoop srt atol (m.vertices.map V3.coord) (List.finRange 3)
      [List.range (m.vertices.map V3.coord).length]).isNone = true) : m'.vertices = m.vertices := by
  unfold Mesh.mergeDuplicates mergeDuplicateRows at e
  rw [Option.isNone_iff_eq_none.mp hn] at e
  dsimp only at e
  split at e
  · cases e
    simp [Function.comp_def, V3.ofCoord, V3.coord]
  · cases e

include h in
lemma mergeDuplicates_view (srt : (ℕ → ℝ) → List ℕ → List ℕ) (atol : ℝ) :
    (s.mergeDuplicates srt atol).map St.view = s.view.doMerge srt atol := by
  unfold mergeDuplicates MeshObj.doMerge
  rcases he : s.view.mesh.mergeDuplicates srt atol with e | ⟨m', ids⟩
  · rfl
  · dsimp only
    simp only [Except.map]
    split
    · rename_i hn
      rw [dropConn_view, storeF_view h, ← mergeDuplicates_none he hn]
    · rw [dropConn_view, storeF_view (storeV_good h _).wf, storeV_view h]

include h in
lemma removeUnused_good {s' : St} (e : s.removeUnused = .ok s') : Good [] s s' := by
  unfold removeUnused at e
  split at e
  · cases e
  · rename_i m' _
    split at e
    · cases e
      have g1 := storeV_good h m'.vertices
      have g2 := storeF_good g1.wf m'.faces
      exact (g1.trans g2).trans (dropConn_good g2.wf)
    · cases e
      exact dropConn_good h

lemma removeUnused_none {m m' : Mesh ℝ} (e : m.removeUnusedVertices = .ok m')
    (hn : ¬ (Mesh.idV m.nv (m.faces.flatMap Face.toList)).length < m.nv) : m' = m := by
  unfold Mesh.removeUnusedVertices at e
  dsimp only at e
  split at e
  · cases e; rfl
  · cases e

include h in
lemma removeUnused_view : (s.removeUnused).map St.view = s.view.doRemoveUnused := by
  unfold removeUnused MeshObj.doRemoveUnused
  rcases he : s.view.mesh.removeUnusedVertices with e | m'
  · rfl
  · dsimp only
    split
    · simp only [Except.map]
      rw [dropConn_view, storeF_view (storeV_good h _).wf, storeV_view h]
    · rename_i hn
      rw [removeUnused_none he hn]
      rfl

include h in
lemma healTriangles_good : Good [.faces] s s.healTriangles :=
  ((dropPropsIfAny_good h).trans (writeF_good (dropPropsIfAny_good h).wf _)).mono (by simp)

include h in
lemma healTriangles_view : s.healTriangles.view = s.view.doHealTriangles := by
  rw [healTriangles, writeF_view (dropPropsIfAny_good h).wf, dropPropsIfAny_view]
  rfl

include h in
lemma removeDegenerated_good {rtol : ℝ} {s' : St} (e : s.removeDegenerated rtol = .ok s') : Good [] s s' := by
  unfold removeDegenerated at e
  split at e
  · split at e
    · cases e
    · rename_i s1 h1
      cases e
      have g1 := readProps_good h h1
      have g2 := storeF_good g1.wf (MeshObj.keepFaces s1.view.mesh.faces
        (((s1.view.cache.props).getD []).map FP.area)
        (MeshObj.areaThreshold (((s1.view.cache.props).getD []).map FP.area) rtol))
      exact (g1.trans g2).trans (dropProps_good g2.wf)
  · cases e

include h in
lemma removeDegenerated_fresh {rtol : ℝ} {s' : St} (e : s.removeDegenerated rtol = .ok s') :
    s.1.length ≤ s'.2.f ∧ s'.2.props = none := by
  unfold removeDegenerated at e
  split at e
  · split at e
    · cases e
    · rename_i s1 h1
      cases e
      exact ⟨(readProps_good h h1).len, rfl⟩
  · cases e

include h in
lemma removeDegenerated_view (rtol : ℝ) :
    (s.removeDegenerated rtol).map St.view = s.view.doRemoveDegenerated rtol := by
  unfold removeDegenerated MeshObj.doRemoveDegenerated
  split
  · rw [readProps_view h]
    rcases he : s.readProps with e | s1
    · rfl
    · simp only [Except.map]
      rw [dropProps_view, storeF_view (readProps_good h he).wf]
  · rfl

include h in
lemma triangulate_good {s' : St} (e : s.triangulate = .ok s') : Good [.faces] s s' := by
  unfold triangulate at e
  dsimp only at e
  split at e
  · cases e
    have g1 := writeF_good h (secondTriangles s.view.readIds.1.2 s.view.mesh)
    have g2 := storeF_good g1.wf (MeshObj.triangulateWith s.view.readIds.1.2 s.view.mesh).faces
    exact ((g1.trans g2).trans (clear_good g2.wf)).mono (by simp)
  · cases e

include h in
lemma triangulate_view : (s.triangulate).map St.view = s.view.doTriangulate := by
  unfold triangulate MeshObj.doTriangulate
  dsimp only
  split
  · simp only [Except.map]
    rw [clear_view, storeF_view (writeF_good h _).wf, writeF_view h]
    rfl
  · rfl

include h in
lemma symmetrize_good {srt : (ℕ → ℝ) → List ℕ → List ℕ} {p : Plane ℝ} {s' : St}
    (e : s.symmetrize srt p = .ok s') : Good [] s s' := by
  unfold symmetrize at e
  dsimp only at e
  have g1 := storeV_good h (s.view.mesh.symmetrizeRaw p).vertices
  have g2 := storeF_good g1.wf (s.view.mesh.symmetrizeRaw p).faces
  split at e
  · cases e
  · rename_i s1 h1
    cases e
    have g3 := mergeDuplicates_good g2.wf h1
    exact ((g1.trans g2).trans g3).trans (clear_good g3.wf)

include h in
lemma symmetrize_view (srt : (ℕ → ℝ) → List ℕ → List ℕ) (p : Plane ℝ) :
    (s.symmetrize srt p).map St.view = s.view.doSymmetrize srt p := by
  unfold symmetrize MeshObj.doSymmetrize
  have g1 := storeV_good h (s.view.mesh.symmetrizeRaw p).vertices
  have g2 := storeF_good g1.wf (s.view.mesh.symmetrizeRaw p).faces
  have hm := mergeDuplicates_view g2.wf srt Mesh.defaultAtol
  rw [storeF_view g1.wf, storeV_view h] at hm
  unfold MeshObj.doMerge at hm
  unfold Mesh.symmetrize
  dsimp only at hm ⊢
  rcases he : ((s.storeV (s.view.mesh.symmetrizeRaw p).vertices).storeF
    (s.view.mesh.symmetrizeRaw p).faces).mergeDuplicates srt Mesh.defaultAtol with e | s1
  · rw [he] at hm
    rcases hq : Mesh.mergeDuplicates srt Mesh.defaultAtol (s.view.mesh.symmetrizeRaw p) with e' | ⟨m', ids⟩
    · rw [show Mesh.mergeDuplicates srt Mesh.defaultAtol ⟨(s.view.mesh.symmetrizeRaw p).vertices,
        (s.view.mesh.symmetrizeRaw p).faces⟩ = .error e' from hq] at hm
      simpa [Except.map] using hm
    · rw [show Mesh.mergeDuplicates srt Mesh.defaultAtol ⟨(s.view.mesh.symmetrizeRaw p).vertices,
        (s.view.mesh.symmetrizeRaw p).faces⟩ = .ok (m', ids) from hq] at hm
      simp [Except.map] at hm
  · rw [he] at hm
    rcases hq : Mesh.mergeDuplicates srt Mesh.defaultAtol (s.view.mesh.symmetrizeRaw p) with e' | ⟨m', ids⟩
    · rw [show Mesh.mergeDuplicates srt Mesh.defaultAtol ⟨(s.view.mesh.symmetrizeRaw p).vertices,
        (s.view.mesh.symmetrizeRaw p).faces⟩ = .error e' from hq] at hm
      simp [Except.map] at hm
    · rw [show Mesh.mergeDuplicates srt Mesh.defaultAtol ⟨(s.view.mesh.symmetrizeRaw p).vertices,
        (s.view.mesh.symmetrizeRaw p).faces⟩ = .ok (m', ids) from hq] at hm
      simp only [Except.map, Except.ok.injEq] at hm ⊢
      rw [clear_view, hm]

/-! ### Normals -/

include h in
lemma healNormals_good {ord : List ℕ → List ℕ} {s' : St} (e : s.healNormals ord = .ok s') :
    Good [.faces, .normals] s s' := by
  unfold healNormals at e
  split at e
  · cases e
  · rename_i c s1 h1
    have g1 := readConn_good h h1
    have g2 := g1.trans (readIds_good g1.wf)
    dsimp only at e
    split at e
    · cases e
    · rename_i faces ff' hf
      have g3 := writeF_good g2.wf faces
      have g4 := (g2.trans g3).trans (setConn_good g3.wf { c with ff := ff' })
      split at e
      · split at e
        · cases e
        · rename_i s4 h4
          have g5 := readProps_good g4.wf h4
          cases e
          have g6 := g4.trans g5
          split
          · have g7 := flipNormals_good g6.wf
            exact ((g6.trans g7).trans (dropPropsIfAny_good g7.wf)).mono (by simp)
          · exact (g6.trans (dropPropsIfAny_good g6.wf)).mono (by simp)
      · cases e
        exact (g4.trans (dropPropsIfAny_good g4.wf)).mono (by simp)

include h in
lemma healNormals_view (ord : List ℕ → List ℕ) :
    (s.healNormals ord).map St.view = s.view.doHealNormals ord := by
  unfold healNormals MeshObj.doHealNormals
  rw [readConn_view]
  rcases h1 : s.readConn ord with e | ⟨c, s1⟩
  · rfl
  · have g1 := readConn_good h h1
    have g2 := g1.trans (readIds_good g1.wf)
    simp only [Except.map, readIds_view]
    rcases hf : healFlood ord c.ff s1.view.readIds.2.mesh.faces with e | ⟨faces, ff'⟩
    · rfl
    · dsimp only
      have g3 := writeF_good g2.wf faces
      have g4 := (g2.trans g3).trans (setConn_good g3.wf { c with ff := ff' })
      have e3 : ((s1.readIds.writeF faces).setConn { c with ff := ff' }).view =
          ⟨⟨s1.view.readIds.2.mesh.vertices, faces⟩,
            { s1.view.readIds.2.cache with conn := some { c with ff := ff' } }⟩ := by
        rw [setConn_view, writeF_view g2.wf, readIds_view]
      rw [← e3, readProps_view g4.wf]
      by_cases hc : c.isClosed = true
      · simp only [hc, if_true]
        rcases h4 : ((s1.readIds.writeF faces).setConn { c with ff := ff' }).readProps with e | s4
        · rfl
        · have g5 := readProps_good g4.wf h4
          simp only [Except.map]
          split
          · rw [dropPropsIfAny_view, flipNormals_view g5.wf]
          · rw [dropPropsIfAny_view]
      · simp only [hc, if_false, Bool.false_eq_true]
        rw [dropPropsIfAny_view, e3]

include h in
lemma healMesh_good {srt : (ℕ → ℝ) → List ℕ → List ℕ} {ord : List ℕ → List ℕ} {s' : St}
    (e : s.healMesh srt ord = .ok s') : Good [] s s' := by
  unfold healMesh at e
  have g0 := dropPropsIfAny_good h
  split at e
  · cases e
  · rename_i s1 h1
    have g1 := g0.trans (removeUnused_good g0.wf h1)
    split at e
    · cases e
    · rename_i s2 h2
      have g2 := g1.trans (removeDegenerated_good g1.wf h2)
      obtain ⟨f2, p2⟩ := removeDegenerated_fresh g1.wf h2
      split at e
      · cases e
      · rename_i s3 h3
        have g3 := g2.trans (mergeDuplicates_good g2.wf h3)
        obtain ⟨f3, p3⟩ := mergeDuplicates_fresh h3
        have hl := g2.len
        have ht := healTriangles_good g3.wf
        have hp4 : s3.healTriangles.2.props = none := by
          simp [healTriangles, dropPropsIfAny, p3, p2, writeF]
        have hf4 : s3.healTriangles.2.f = s3.2.f := by
          simp [healTriangles, dropPropsIfAny, p3, p2, writeF]
        refine (g3.trans' (T := []) ht (by simp) ?_).trans' (healNormals_good ht.wf e) (by simp) ?_
        · intro r hr
          simp only [List.mem_singleton] at hr
          subst hr
          exact .inr (fun a ha => by simp [MeshRef.at] at ha; omega)
        · intro r hr
          simp only [List.mem_cons, List.not_mem_nil, or_false] at hr
          rcases hr with rfl | rfl
          · exact .inr (fun a ha => by simp [MeshRef.at] at ha; omega)
          · exact .inr (fun a ha => by simp [MeshRef.at, hp4] at ha)

include h in
lemma healMesh_view (srt : (ℕ → ℝ) → List ℕ → List ℕ) (ord : List ℕ → List ℕ) :
    (s.healMesh srt ord).map St.view = s.view.doHealMesh srt ord := by
  unfold healMesh MeshObj.doHealMesh
  have g0 := dropPropsIfAny_good h
  rw [← dropPropsIfAny_view, ← removeUnused_view g0.wf]
  rcases h1 : s.dropPropsIfAny.removeUnused with e | s1
  · rfl
  · have g1 := removeUnused_good g0.wf h1
    simp only [Except.map, bind, Except.bind]
    rw [← removeDegenerated_view g1.wf]
    rcases h2 : s1.removeDegenerated (1 / 100000) with e | s2
    · rfl
    · have g2 := removeDegenerated_good g1.wf h2
      simp only [Except.map]
      rw [← mergeDuplicates_view g2.wf]
      rcases h3 : s2.mergeDuplicates srt Mesh.defaultAtol with e | s3
      · rfl
      · have g3 := mergeDuplicates_good g2.wf h3
        simp only [Except.map]
        rw [← healTriangles_view g3.wf, ← healNormals_view (healTriangles_good g3.wf).wf]
        rfl

end

/-- Every method modifies in place only the arrays of `inPlace`. -/
theorem step_good {srt : (ℕ → ℝ) → List ℕ → List ℕ} {ord : List ℕ → List ℕ} {s s' : St} (h : Wf s)
    {op : MeshObj.Op} (e : s.step srt ord op = .ok s') : Good (inPlace op) s s' := by
  cases op with
  | setVertices v => cases e; exact (storeV_good h v).trans (clear_good (storeV_good h v).wf)
  | setFaces f => cases e; exact (storeF_good h f).trans (clear_good (storeF_good h f).wf)
  | readIds => cases e; exact readIds_good h
  | readProps => exact readProps_good h e
  | readInts => exact readInts_good h e
  | readConn =>
    rcases hc : s.readConn ord with e' | ⟨c, s1⟩
    · simp [step, hc, Except.map] at e
    · simp [step, hc, Except.map] at e
      exact e ▸ readConn_good h hc
  | readVolume => exact readVolume_good h e
  | translate t => cases e; exact moved_good h _ _
  | translateX t => cases e; exact translateX_good h t
  | translateY t => cases e; exact moved_good h _ _
  | translateZ t => cases e; exact moved_good h _ _
  | rotate a b c => cases e; exact rotateMatrix_good h _
  | rotateMatrix r => cases e; exact rotateMatrix_good h _
  | scale a => exact scale_good h e
  | scaleX a => exact scale_good h e
  | scaleY a => exact scale_good h e
  | scaleZ a => exact scale_good h e
  | flipNormals => cases e; exact flipNormals_good h
  | mergeDuplicates atol => exact mergeDuplicates_good h e
  | removeUnusedVertices => exact removeUnused_good h e
  | healTriangles => cases e; exact healTriangles_good h
  | removeDegeneratedFaces rtol => exact removeDegenerated_good h e
  | triangulateQuadrangles => exact triangulate_good h e
  | symmetrize p => exact symmetrize_good h e
  | mirror p => cases e; exact mirror_good h p
  | healNormals => exact healNormals_good h e
  | healMesh => exact healMesh_good h e

/-- Every method does to what is seen of the mesh what it does to the value. -/
theorem step_view (srt : (ℕ → ℝ) → List ℕ → List ℕ) (ord : List ℕ → List ℕ) {s : St} (h : Wf s)
    (op : MeshObj.Op) : (s.step srt ord op).map St.view = s.view.step srt ord op := by
  cases op with
  | setVertices v =>
    simp only [step, Except.map, MeshObj.step]; rw [clear_view, storeV_view h]
  | setFaces f =>
    simp only [step, Except.map, MeshObj.step]; rw [clear_view, storeF_view h]
  | readIds => simp only [step, Except.map, MeshObj.step, readIds_view]
  | readProps =>
    simp only [step, MeshObj.step, readProps_view h]
    rcases s.readProps with e | s1 <;> rfl
  | readInts =>
    simp only [step, MeshObj.step, readInts_view]
    rcases s.readInts with e | s1 <;> rfl
  | readConn =>
    simp only [step, MeshObj.step, readConn_view]
    rcases s.readConn ord with e | s1 <;> rfl
  | readVolume => exact (readVolume_view h).symm
  | translate t => exact congrArg _ (moved_view h t (s.view.mesh.translate t) rfl)
  | translateX t => exact congrArg _ (translateX_view h t)
  | translateY t => exact congrArg _ (moved_view h ⟨0, t, 0⟩ (s.view.mesh.translateY t) rfl)
  | translateZ t => exact congrArg _ (moved_view h ⟨0, 0, t⟩ (s.view.mesh.translateZ t) rfl)
  | rotate a b c => exact congrArg _ (rotateMatrix_view h _)
  | rotateMatrix r => exact congrArg _ (rotateMatrix_view h _)
  | scale a => exact scale_view h a (s.view.mesh.scaleBy a) rfl
  | scaleX a => exact scale_view h a (s.view.mesh.scaleXBy a) rfl
  | scaleY a => exact scale_view h a (s.view.mesh.scaleYBy a) rfl
  | scaleZ a => exact scale_view h a (s.view.mesh.scaleZBy a) rfl
  | flipNormals => exact congrArg _ (flipNormals_view h)
  | mergeDuplicates atol => exact mergeDuplicates_view h srt atol
  | removeUnusedVertices => exact removeUnused_view h
  | healTriangles => exact congrArg _ (healTriangles_view h)
  | removeDegeneratedFaces rtol => exact removeDegenerated_view h rtol
  | triangulateQuadrangles => exact triangulate_view h
  | symmetrize p => exact symmetrize_view h srt p
  | mirror p => exact congrArg _ (mirror_view h p)
  | healNormals => exact healNormals_view h ord
  | healMesh => exact healMesh_view h srt ord

end St
end Alias
end MM
