import Verif.Props.CliOutput
import Verif.Props.Cache
import Verif.Props.Geometry

/-!
# Property C83: the options which edit the mesh, and their order

Specification: what a user sees is the list of the faces, each with its corner points (`Mesh.geometry`). The file given with
`--concatenate-file` adds its faces; `--merge-duplicates` moves no corner by more than the tolerance; `--mirror` reflects
through a coordinate plane; `--symmetrize` (`Oxz` without a value) adds the reflected faces, one plane after the other; then
come the moves of C61, then `--flip-normals`, then `--triangulate-quadrangles`.
-/

namespace MM
namespace Cli
open MeshObj

/-- A list of faces, each the list of its corner points. -/
abbrev Shape := List (List (Option (V3 ℝ)))

/-- The reflection through a coordinate plane given by one of the key words. -/
def reflection (k : String) (v : V3 ℝ) : V3 ℝ :=
  if k = "Oxy" ∨ k = "/Oxy" then ⟨v.x, v.y, -v.z⟩
  else if k = "Oxz" ∨ k = "/Oxz" then ⟨v.x, -v.y, v.z⟩
  else ⟨-v.x, v.y, v.z⟩

/-- All the faces moved by `g`. -/
def Shape.map (g : V3 ℝ → V3 ℝ) (s : Shape) : Shape := List.map (fun c => c.map (Option.map g)) s

/-- All the faces turned over. -/
def Shape.turn (s : Shape) : Shape := List.map List.reverse s

/-- `s'` is obtained from `s` by adding the reflected faces, for each key word in turn; corners are merged within `1e-8`. -/
inductive Doubled : List String → Shape → Shape → Prop
  | nil (s : Shape) : Doubled [] s s
  | cons {k ks s s' s''} (h : GeomClose (1 / 100000000) (s ++ (Shape.map (reflection k) s).turn) s')
      (h' : Doubled ks s' s'') : Doubled (k :: ks) s s''

/-- `s'` has the faces of `s`, then those of the other mesh if there is one, corners merged within `1e-8`. -/
def Concatenated : Option (Mesh ℝ) → Shape → Shape → Prop
  | none, s, s' => s' = s
  | some n, s, s' => GeomClose (1 / 100000000) (s ++ n.healTriangles.geometry) s'

/-- `s'` has the faces of `s`, with no corner moved by more than the tolerance; the same if there is no tolerance. -/
def MergedWithin : Option ℝ → Shape → Shape → Prop
  | none, s, s' => s' = s
  | some t, s, s' => GeomClose t s s'

/-- `s'` has the faces of `s` reflected through the coordinate plane, if there is one, and turned over. -/
def Mirrored : Option String → Shape → Shape → Prop
  | none, s, s' => s' = s
  | some k, s, s' => s' = (Shape.map (reflection k) s).turn

/-- The key words of the coordinate planes. -/
def keyWords : List String := ["Oxy", "Oxz", "Oyz", "/Oxy", "/Oxz", "/Oyz"]

/-! ### Lemmas -/

lemma geometry_mapVertices (g : V3 ℝ → V3 ℝ) (m : Mesh ℝ) : (⟨m.vertices.map g, m.faces⟩ : Mesh ℝ).geometry = Shape.map g m.geometry := by
  simp [Mesh.geometry, Mesh.cornerPoints, Shape.map, Function.comp_def]

lemma geometry_flip (m : Mesh ℝ) : m.flipNormals.geometry = Shape.turn m.geometry := by
  simp [Mesh.geometry, Mesh.cornerPoints, Shape.turn, Mesh.flipNormals, Face.flip, Face.toList]

lemma key_plane (E : Env) (planes : List PlaneObj) {k : String} (hk : k ∈ keyWords) (hi : E.parseInt k.toList = none) :
    ∃ p, resolvePlane E planes [k.toList] = .ok p ∧ p.normal.dot p.normal = 1 ∧ p.plane.reflect = reflection k := by
  have : ∃ n : V3 ℤ, (k, n) ∈ documentedKeys ∧ ∀ v : V3 ℝ, v - (2 * (v.dot (ofInt n) - 0)) • ofInt n = reflection k v := by
    simp only [keyWords, List.mem_cons, List.not_mem_nil, or_false] at hk
    rcases hk with rfl | rfl | rfl | rfl | rfl | rfl
    · exact ⟨⟨0, 0, 1⟩, by simp [documentedKeys], fun v => by ext <;> simp [ofInt, reflection, V3.dot]; ring⟩
    · exact ⟨⟨0, 1, 0⟩, by simp [documentedKeys], fun v => by ext <;> simp [ofInt, reflection, V3.dot]; ring⟩
    · exact ⟨⟨1, 0, 0⟩, by simp [documentedKeys], fun v => by ext <;> simp [ofInt, reflection, V3.dot]; ring⟩
    · exact ⟨⟨0, 0, -1⟩, by simp [documentedKeys], fun v => by ext <;> simp [ofInt, reflection, V3.dot]; ring⟩
    · exact ⟨⟨0, -1, 0⟩, by simp [documentedKeys], fun v => by ext <;> simp [ofInt, reflection, V3.dot]; ring⟩
    · exact ⟨⟨-1, 0, 0⟩, by simp [documentedKeys], fun v => by ext <;> simp [ofInt, reflection, V3.dot]; ring⟩
  obtain ⟨n, hn, hr⟩ := this
  have hu := normalize_unit (documentedKeys_unit hn)
  refine ⟨(PlaneObj.init ⟨0, 0, 1⟩ 0).setNormal (ofInt n), ?_, ?_, ?_⟩
  · simp only [resolvePlane, planeKey_mem hn, hi]
    split_ifs <;> rfl
  · show (PlaneObj.normalize (ofInt n)).dot (PlaneObj.normalize (ofInt n)) = 1
    rw [hu]
    exact documentedKeys_unit hn
  · funext v
    show v - (2 * (v.dot (PlaneObj.normalize (ofInt n)) - 0)) • PlaneObj.normalize (ofInt n) = _
    rw [hu, hr]

lemma healStep_mem (f : Face) (i : ℕ) : i ∈ (Mesh.healStep f).toList ↔ i ∈ f.toList := by
  unfold Mesh.healStep
  split_ifs <;> simp [Face.toList] <;> tauto

lemma healTriangles_WF {m : Mesh ℝ} (h : m.WF) : m.healTriangles.WF := by
  intro f hf i hi
  simp only [Mesh.healTriangles, List.mem_map, exists_exists_and_eq_and] at hf
  obtain ⟨g, hg, rfl⟩ := hf
  simp only [healStep_mem] at hi
  exact h g hg i hi

/-- What the stages keep. -/
def Good (o : MeshObj) : Prop := o.mesh.WF ∧ o.mesh.faces ≠ [] ∧ o.cache.ids = none

lemma Good.vertices {m : Mesh ℝ} (h : m.WF) (hf : m.faces ≠ []) : m.vertices ≠ [] := by
  obtain ⟨f, hf⟩ := List.exists_mem_of_ne_nil _ hf
  have := h f hf f.a (by simp [Face.toList])
  intro h0
  simp [Mesh.nv, h0] at this

lemma faces_of_close {t : ℝ} {s : Shape} {m : Mesh ℝ} (h : GeomClose t s m.geometry) (hs : s ≠ []) : m.faces ≠ [] := by
  intro h0
  have := h.length_eq
  simp only [Mesh.geometry, h0, List.map_nil, List.length_nil, List.length_eq_zero_iff] at this
  exact hs this

lemma geometry_ne {m : Mesh ℝ} (h : m.faces ≠ []) : m.geometry ≠ [] := by
  simpa [Mesh.geometry] using h

lemma load_good {E : Env} {name fmt : Str} {m : Mesh ℝ} (h1 : E.isFile name = true)
    (h2 : loadMesh E.isFile E.load name fmt = .ok m) (hw : m.WF) (hf : m.faces ≠ []) :
    ∃ o, loadObj E name fmt = .ok o ∧ Good o ∧ o.mesh = m.healTriangles := by
  refine ⟨(MeshObj.new m).doHealTriangles, ?_, ⟨healTriangles_WF hw, ?_, ?_⟩, rfl⟩
  · unfold loadObj; rw [if_pos h1, h2]; rfl
  · show m.healTriangles.faces ≠ []
    simpa [Mesh.healTriangles] using hf
  · rfl

lemma concatenate_good {E : Env} (hsrt : IsArgsort E.srt) {fmt : Str} {a : Args} {o : MeshObj} (h : Good o)
    {n : Mesh ℝ} {name : Str} (ha : a.concatenate = some name) (h1 : E.isFile name = true)
    (h2 : loadMesh E.isFile E.load name fmt = .ok n) (hw : n.WF) (hf : n.faces ≠ []) :
    ∃ o', concatenate E fmt a o = .ok o' ∧ Good o' ∧
      GeomClose (1 / 100000000) (o.mesh.geometry ++ n.healTriangles.geometry) o'.mesh.geometry := by
  obtain ⟨c, hc, gc, ec⟩ := load_good h1 h2 hw hf
  obtain ⟨s, hs, hsw, -, hg⟩ := C11_concatenation E.srt hsrt o.mesh c.mesh h.1 gc.1 (by simp [Good.vertices h.1 h.2.1])
  refine ⟨MeshObj.new s, ?_, ⟨hsw, faces_of_close hg (by simp [geometry_ne h.2.1]), rfl⟩, ec ▸ hg⟩
  unfold concatenate
  simp only [ha, hc, bind, Except.bind, hs]
  rfl

lemma merge_good {E : Env} (hsrt : IsArgsort E.srt) {a : Args} {o : MeshObj} (h : Good o) {s : Str} {t : ℝ}
    (ha : a.mergeDuplicates = some s) (ht : E.parseFloat s = some t) (h0 : 0 ≤ t) :
    ∃ o', mergeDup E a o = .ok o' ∧ Good o' ∧ GeomClose t o.mesh.geometry o'.mesh.geometry := by
  obtain ⟨m', ids, hm, hw, -, hg, -⟩ := C05_merge_duplicates_moves_corners_within_tol E.srt hsrt t h0 o.mesh h.1
    (Good.vertices h.1 h.2.1)
  unfold mergeDup
  simp only [ha, ht, MeshObj.step, MeshObj.doMerge, hm]
  refine ⟨_, rfl, ⟨hw, faces_of_close hg (geometry_ne h.2.1), ?_⟩, hg⟩
  exact h.2.2

lemma mirror_good {E : Env} {planes : List PlaneObj} {a : Args} {o : MeshObj} (h : Good o) {k : String} (hk : k ∈ keyWords)
    (hi : E.parseInt k.toList = none) (ha : a.mirror = some [k.toList]) :
    ∃ o', mirror E planes a o = .ok o' ∧ Good o' ∧ o'.mesh.geometry = (Shape.map (reflection k) o.mesh.geometry).turn := by
  obtain ⟨p, hp, -, hr⟩ := key_plane E planes hk hi
  refine ⟨MeshObj.new (o.mesh.mirror p.plane), ?_, ⟨?_, ?_, rfl⟩, ?_⟩
  · unfold mirror
    simp only [ha, hp, bind, Except.bind]
    rfl
  · intro f hf i hi
    have h2 : (o.mesh.mapVertices p.plane.reflect).WF := by
      intro f hf i hi
      have := h.1 f hf i hi
      simpa [Mesh.mapVertices, Mesh.nv] using this
    exact flip_WF h2 f hf i hi
  · have := h.2.1
    simpa [Mesh.mirror, Mesh.flipNormals, Mesh.mapVertices, MeshObj.new] using this
  · show (Mesh.flipNormals _).geometry = _
    rw [geometry_flip, Mesh.mapVertices, geometry_mapVertices, hr]

lemma symmetrize_good {E : Env} (hsrt : IsArgsort E.srt) {planes : List PlaneObj} (hi : ∀ k ∈ keyWords, E.parseInt k.toList = none) :
    ∀ (ks : List (Option String)) (hk : ∀ k ∈ ks, k.getD "Oxz" ∈ keyWords) (o : MeshObj) (_ : Good o),
    ∃ o', symmetrizeLoop E planes (ks.map fun k => (k.map String.toList).toList) o = .ok o' ∧ Good o' ∧
      Doubled (ks.map fun k => k.getD "Oxz") o.mesh.geometry o'.mesh.geometry := by
  intro ks
  induction ks with
  | nil => intro _ o h; exact ⟨o, rfl, h, .nil _⟩
  | cons k ks ih =>
    intro hk o h
    have hk0 := hk k (by simp)
    obtain ⟨p, hp, hn, hr⟩ := key_plane E planes hk0 (hi _ hk0)
    obtain ⟨s, hs, hw, hnf, hg, -⟩ := C14_symmetrize E.srt hsrt p.plane hn o.mesh h.1 (Good.vertices h.1 h.2.1)
    have hg' : GeomClose (1 / 100000000) (o.mesh.geometry ++ (Shape.map (reflection (k.getD "Oxz")) o.mesh.geometry).turn)
        s.geometry := by
      rw [hr] at hg
      simpa [Shape.turn, Shape.map, Function.comp_def] using hg
    obtain ⟨o', h1, h2, h3⟩ := ih (fun k hk' => hk k (by simp [hk'])) (MeshObj.new s)
      ⟨hw, faces_of_close hg' (by simp [geometry_ne h.2.1]), rfl⟩
    refine ⟨o', ?_, h2, .cons hg' h3⟩
    have hd : defaulted "Oxz" (k.map String.toList).toList = [(k.getD "Oxz").toList] := by
      cases k <;> simp [defaulted]
    simp only [List.map_cons, symmetrizeLoop, hd, hp, bind, Except.bind, MeshObj.step, MeshObj.doSymmetrize, hs]
    exact h1

/-- The moves do not read the ids of triangles and quadrangles. -/
lemma moves_ids {srt : (ℕ → ℝ) → List ℕ → List ℕ} {ord : List ℕ → List ℕ} : ∀ (l : List Op) (o o' : MeshObj),
    (∀ op ∈ l, (∃ t, op = .translate t) ∨ (∃ t, op = .translateX t) ∨ (∃ t, op = .translateY t) ∨ (∃ t, op = .translateZ t) ∨
      (∃ a b c, op = .rotate a b c) ∨ (∃ t, op = .scale t) ∨ (∃ t, op = .scaleX t) ∨ (∃ t, op = .scaleY t) ∨
      (∃ t, op = .scaleZ t)) → run srt ord l o = .ok o' → o.cache.ids = none → o'.cache.ids = none := by
  have hsc : ∀ {t : ℝ} {m : Mesh ℝ} {o o' : MeshObj}, o.doScale t m = .ok o' → o.cache.ids = none → o'.cache.ids = none := by
    intro t m o o' h h0
    unfold doScale at h
    split_ifs at h
    cases h
    show (dropPropsIfAny o.cache).ids = none
    unfold dropPropsIfAny
    split_ifs
    · rfl
    · exact h0
  intro l
  induction l with
  | nil => intro o o' _ h h0; cases h; exact h0
  | cons op l ih =>
    intro o o' hl h h0
    unfold run at h
    cases hs : MeshObj.step srt ord o op with
    | error e => rw [hs] at h; cases h
    | ok o1 =>
      rw [hs] at h
      refine ih o1 o' (fun op' h' => hl op' (by simp [h'])) h ?_
      obtain ⟨t, rfl⟩ | ⟨t, rfl⟩ | ⟨t, rfl⟩ | ⟨t, rfl⟩ | ⟨a, b, c, rfl⟩ | ⟨t, rfl⟩ | ⟨t, rfl⟩ | ⟨t, rfl⟩ | ⟨t, rfl⟩ := hl op (by simp)
      · cases hs; exact h0
      · cases hs; exact h0
      · cases hs; exact h0
      · cases hs; exact h0
      · cases hs; exact h0
      · exact hsc hs h0
      · exact hsc hs h0
      · exact hsc hs h0
      · exact hsc hs h0

lemma moves_kinds (a : Args) : ∀ op ∈ moves a, (∃ t, op = .translate t) ∨ (∃ t, op = .translateX t) ∨
    (∃ t, op = .translateY t) ∨ (∃ t, op = .translateZ t) ∨ (∃ a b c, op = .rotate a b c) ∨ (∃ t, op = .scale t) ∨
    (∃ t, op = .scaleX t) ∨ (∃ t, op = .scaleY t) ∨ (∃ t, op = .scaleZ t) := by
  intro op h
  simp only [moves, List.mem_append, List.mem_map] at h
  rcases h with (((((((((((⟨t, -, rfl⟩ | ⟨t, -, rfl⟩) | ⟨t, -, rfl⟩) | ⟨t, -, rfl⟩) | ⟨t, -, rfl⟩) | ⟨t, -, rfl⟩) |
    ⟨t, -, rfl⟩) | ⟨t, -, rfl⟩) | ⟨t, -, rfl⟩) | ⟨t, -, rfl⟩) | ⟨t, -, rfl⟩) | ⟨t, -, rfl⟩) <;> simp

lemma moves_good {E : Env} {a : Args} {o : MeshObj} (h : Good o) (hs : ScalesPositive a) :
    ∃ o', run E.srt E.ord (moves a) o = .ok o' ∧ Good o' ∧ o'.mesh.geometry = Shape.map (placed a) o.mesh.geometry := by
  obtain ⟨o', h1, h2⟩ := (C61_moves E.srt E.ord a o).1 hs
  refine ⟨o', h1, ⟨?_, ?_, moves_ids _ _ _ (moves_kinds a) h1 h.2.2⟩, ?_⟩
  · rw [h2]
    intro f hf i hi
    have := h.1 f hf i hi
    simpa [Mesh.nv] using this
  · rw [h2]; exact h.2.1
  · rw [h2, geometry_mapVertices]

lemma set_foldl_get (m : Mesh ℝ) (g : Face → Face) : ∀ (q : List ℕ) (l : List Face) (k : ℕ),
    (q.foldl (fun l k => l.set k (g (m.faceAt k))) l)[k]? = if k ∈ q ∧ k < l.length then some (g (m.faceAt k)) else l[k]? := by
  intro q
  induction q with
  | nil => intro l k; simp
  | cons j q ih =>
    intro l k
    rw [List.foldl_cons, ih]
    simp only [List.length_set, List.mem_cons, List.getElem?_set]
    by_cases h1 : k ∈ q ∧ k < l.length
    · simp [h1]
    · rw [if_neg h1]
      by_cases h2 : j = k
      · subst h2
        by_cases h3 : j < l.length
        · simp [h3]
        · simp [h3]
      · rw [if_neg h2, if_neg (by rintro ⟨h | h, h'⟩; exacts [h2 h.symm, h1 ⟨h, h'⟩])]

lemma triangulateWith_eq (m : Mesh ℝ) : triangulateWith m.quadranglesIds m = m.triangulateQuadrangles := by
  obtain ⟨-, -, -, h4, h5⟩ := C10_triangulate_structure m
  have hlen : ∀ (q : List ℕ) (l : List Face), (q.foldl (fun l k => l.set k ((fun f : Face => (⟨f.a, f.c, f.d, f.a⟩ : Face))
      (m.faceAt k))) l).length = l.length := by
    intro q
    induction q with
    | nil => intro l; rfl
    | cons j q ih => intro l; rw [List.foldl_cons, ih]; simp
  have hat : ∀ {k f}, m.faces[k]? = some f → m.faceAt k = f := by
    intro k f h; simp [Mesh.faceAt, h]
  have hq : ∀ {k f}, m.faces[k]? = some f → (k ∈ m.quadranglesIds ↔ ¬ f.a = f.d) := by
    intro k f h
    have hk : k < m.nf := (List.getElem?_eq_some_iff.1 h).1
    simp [Mesh.quadranglesIds, h, hk, Face.isTri]
  show (⟨m.vertices, _⟩ : Mesh ℝ) = ⟨m.vertices, m.triangulateQuadrangles.faces⟩
  congr 1
  refine List.ext_getElem? fun k => ?_
  by_cases hk : k < m.nf
  · have hk' : k < m.faces.length := hk
    obtain ⟨f, hf⟩ : ∃ f, m.faces[k]? = some f := ⟨_, List.getElem?_eq_getElem hk'⟩
    rw [List.getElem?_append_left (by rw [hlen]; exact hk'), set_foldl_get m (fun f : Face => ⟨f.a, f.c, f.d, f.a⟩), h4 k f hf, hat hf, hf]
    by_cases he : f.a = f.d
    · rw [if_pos he, if_neg (by rw [hq hf]; tauto)]
    · rw [if_neg he, if_pos ⟨(hq hf).2 he, hk'⟩]
  · obtain ⟨j, rfl⟩ := Nat.exists_eq_add_of_le (not_lt.1 hk)
    rw [List.getElem?_append_right (by rw [hlen]; simp [Mesh.nf]), hlen]
    simp only [Mesh.nf, Nat.add_sub_cancel_left, List.getElem?_map]
    cases hj : m.quadranglesIds[j]? with
    | none =>
      rw [List.getElem?_eq_none_iff] at hj
      symm
      rw [Option.map_none, List.getElem?_eq_none_iff]
      have := (C10_triangulate_structure m).2.2.1
      unfold Mesh.nf at this
      omega
    | some k =>
      have hk' : k ∈ m.quadranglesIds := List.mem_of_getElem? hj
      have hk2 : k < m.faces.length := by
        simp only [Mesh.quadranglesIds, List.mem_filter, List.mem_range] at hk'
        exact hk'.1
      have hf := List.getElem?_eq_getElem hk2
      have := h5 j k _ hj hf
      unfold Mesh.nf at this
      rw [this, Option.map_some, hat hf]
      rfl

lemma finish_good {E : Env} {a : Args} {o : MeshObj} (h : Good o) :
    ∃ o', run E.srt E.ord (finish a) o = .ok o' ∧
      o'.mesh = (fun m => if a.triangulate then m.triangulateQuadrangles else m)
        (if a.flipNormals then o.mesh.flipNormals else o.mesh) := by
  have key : ∀ o : MeshObj, o.cache.ids = none → o.doTriangulate = .ok (MeshObj.new o.mesh.triangulateQuadrangles) := by
    intro o ho
    unfold doTriangulate MeshObj.readIds
    simp only [ho]
    rw [if_pos, triangulateWith_eq]
    simp only [List.all_eq_true, decide_eq_true_eq]
    intro k hk
    simp only [Mesh.quadranglesIds, List.mem_filter, List.mem_range] at hk
    exact hk.1
  unfold finish
  cases a.flipNormals <;> cases a.triangulate
  · exact ⟨o, rfl, rfl⟩
  · refine ⟨MeshObj.new o.mesh.triangulateQuadrangles, ?_, rfl⟩
    simp only [Bool.false_eq_true, if_false, if_true, List.nil_append, run, MeshObj.step, key o h.2.2]
  · exact ⟨_, rfl, rfl⟩
  · refine ⟨MeshObj.new o.doFlip.mesh.triangulateQuadrangles, ?_, rfl⟩
    simp only [if_true, run, MeshObj.step, List.cons_append, List.nil_append, key o.doFlip h.2.2]

/-- **C83.** A run with any combination of the options `--concatenate-file`, `--merge-duplicates`, `--mirror` and
`--symmetrize` with the key words of coordinate planes, translations, rotations and scalings, `--flip-normals` and
`--triangulate-quadrangles` succeeds on files which hold well-formed meshes, and the mesh at the end is that of the file
edited in this order. -/
theorem C83_edits (E : Env) (hsrt : IsArgsort E.srt) (hi : ∀ k ∈ keyWords, E.parseInt k.toList = none) (infile fmt : Str)
    (l : List Opt) (m : Mesh ℝ) (hfmt : inputFormat E infile (parse l) = .ok fmt) (hfile : E.isFile infile = true)
    (hload : loadMesh E.isFile E.load infile fmt = .ok m) (hw : m.WF) (hf : m.faces ≠ [])
    -- the options given
    (ho1 : (parse l).healNormals = false) (ho2 : (parse l).healMesh = false) (ho3 : (parse l).plane = none)
    (ho4 : (parse l).clipByPlane = none) (ho5 : (parse l).plainInertia = false) (ho6 : (parse l).shellInertia = false)
    (ho7 : (parse l).hydrostatics = false) (ho8 : (parse l).outfilename = none) (ho9 : (parse l).outputFormat = none)
    (hs : ScalesPositive (parse l))
    (other : Option (Str × Mesh ℝ)) (hother : (parse l).concatenate = other.map Prod.fst)
    (hn : ∀ n ∈ other, E.isFile n.1 = true ∧ loadMesh E.isFile E.load n.1 fmt = .ok n.2 ∧ n.2.WF ∧ n.2.faces ≠ [])
    (tol : Option (Str × ℝ)) (htol : (parse l).mergeDuplicates = tol.map Prod.fst)
    (ht : ∀ t ∈ tol, E.parseFloat t.1 = some t.2 ∧ 0 ≤ t.2)
    (mir : Option String) (hmir : (parse l).mirror = mir.map fun k => [k.toList]) (hk : ∀ k ∈ mir, k ∈ keyWords)
    (ks : List (Option String)) (hsym : (parse l).symmetrize.getD [] = ks.map fun k => (k.map String.toList).toList)
    (hks : ∀ k ∈ ks, k.getD "Oxz" ∈ keyWords) :
    ∃ out s1 s2 s3 s4 s5 m6, main E infile (parse l) = .ok out ∧
      Concatenated (other.map Prod.snd) m.healTriangles.geometry s1 ∧ MergedWithin (tol.map Prod.snd) s1 s2 ∧
      Mirrored mir s2 s3 ∧
      Doubled (ks.map fun k => k.getD "Oxz") s3 s4 ∧
      s5 = Shape.map (placed (parse l)) s4 ∧
      m6.geometry = (if (parse l).flipNormals then s5.turn else s5) ∧
      out.mesh = (if (parse l).triangulate then m6.triangulateQuadrangles else m6) := by
  generalize parse l = a at *
  obtain ⟨o0, r0, g0, e0⟩ := load_good hfile hload hw hf
  obtain ⟨o1, r1, g1, e1⟩ : ∃ o1, concatenate E fmt a o0 = .ok o1 ∧ Good o1 ∧ Concatenated (other.map Prod.snd)
      m.healTriangles.geometry o1.mesh.geometry := by
    cases other with
    | none => exact ⟨o0, by simp [concatenate, hother], g0, by simp [e0, Concatenated]⟩
    | some n =>
      obtain ⟨k1, k2, k3, k4⟩ := hn n rfl
      obtain ⟨o', h1, h2, h3⟩ := concatenate_good hsrt g0 hother k1 k2 k3 k4
      exact ⟨o', h1, h2, e0 ▸ h3⟩
  obtain ⟨o2, r2, g2, e2⟩ : ∃ o2, mergeDup E a o1 = .ok o2 ∧ Good o2 ∧ MergedWithin (tol.map Prod.snd)
      o1.mesh.geometry o2.mesh.geometry := by
    cases tol with
    | none => exact ⟨o1, by simp [mergeDup, htol], g1, rfl⟩
    | some t => exact merge_good hsrt g1 htol (ht t rfl).1 (ht t rfl).2
  have r3 : definePlanes E a = .ok [] := by simp [definePlanes, ho3]
  obtain ⟨o3, r4, g3, e3⟩ : ∃ o3, mirror E [] a o2 = .ok o3 ∧ Good o3 ∧ Mirrored mir o2.mesh.geometry
      o3.mesh.geometry := by
    cases mir with
    | none => exact ⟨o2, by simp [mirror, hmir], g2, rfl⟩
    | some k => exact mirror_good g2 (hk k rfl) (hi k (hk k rfl)) hmir
  obtain ⟨o4, r5, g4, e4⟩ : ∃ o4, symmetrize E [] a o3 = .ok o4 ∧ Good o4 ∧
      Doubled (ks.map fun k => k.getD "Oxz") o3.mesh.geometry o4.mesh.geometry := by
    unfold symmetrize
    cases hsy : a.symmetrize with
    | none =>
      rw [hsy] at hsym
      have : ks = [] := by simpa using hsym.symm
      subst this
      exact ⟨o3, rfl, g3, .nil _⟩
    | some v =>
      rw [hsy] at hsym
      simp only [Option.getD_some] at hsym
      subst hsym
      exact symmetrize_good hsrt hi ks hks o3 g3
  have r6 : heal E a o4 = .ok o4 := by simp [heal, ho1, ho2, bind, Except.bind]
  obtain ⟨o5, r7, g5, e5⟩ := moves_good (E := E) g4 hs
  obtain ⟨o6, r8, e6⟩ := finish_good (E := E) (a := a) g5
  refine ⟨⟨o6.mesh, none, none, none, none⟩, _, _, _, _, _, if a.flipNormals then o5.mesh.flipNormals else o5.mesh,
    ?_, e1, e2, e3, e4, e5, ?_, e6⟩
  · unfold main prepare
    simp only [hfmt, r0, r1, r2, r3, r4, r5, r6, r7, r8, bind, Except.bind, clipPlanes, ho4, plain, ho5, shell, ho6, hydro, ho7,
      output, ho8, ho9, pure, Except.pure, Bool.false_eq_true, if_false]
  · split_ifs
    · rw [geometry_flip]
    · rfl

lemma cubeFile_WF : cubeFile.WF := by
  have h : ∀ f ∈ halfCube.faces.map Mesh.healStep, ∀ i ∈ f.toList, i < halfCube.vertices.length := by decide +kernel
  intro f hf i hi
  have := h f hf i hi
  simpa [cubeFile, Mesh.real, Mesh.nv, Mesh.aff] using this

/-- The options of the example. -/
noncomputable def cubeEdit : List Opt :=
  [.translateX 1, .symmetrize [], .flipNormals, .concatenate "lid.obj".toList, .symmetrize ["/Oyz".toList], .triangulate,
    .mirror ["Oxy".toList], .mergeDuplicates (some "0.5".toList)]

/-- The hypotheses of `C83_edits` are met, with nearly all of the options. -/
theorem cube_meets_C83 : ∃ (out : Out) (s1 s2 s3 s4 s5 : Shape) (m6 : Mesh ℝ), main cubeEnv "hull.obj".toList (parse cubeEdit) = .ok out ∧
    Concatenated (some cubeFile) cubeFile.healTriangles.geometry s1 ∧ MergedWithin (some (1 / 2)) s1 s2 ∧ Mirrored (some "Oxy") s2 s3 ∧
    Doubled ["Oxz", "/Oyz"] s3 s4 ∧ s5 = Shape.map (placed (parse cubeEdit)) s4 ∧ m6.geometry = s5.turn ∧
    out.mesh = m6.triangulateQuadrangles := by
  have hfmt : inputFormat cubeEnv "hull.obj".toList (parse cubeEdit) = .ok "obj".toList := by
    rw [← cubeEnv_format]; rfl
  have hl : ∀ n, loadMesh cubeEnv.isFile cubeEnv.load n "obj".toList = .ok cubeFile := by
    intro n
    have h : (extensionOf "obj".toList).isSome = true := by decide +kernel
    obtain ⟨e, he⟩ := Option.isSome_iff_exists.1 h
    unfold loadMesh
    rw [he]
    rfl
  have hne : cubeFile.faces ≠ [] := by
    have : halfCube.faces ≠ [] := by decide +kernel
    simpa [cubeFile] using this
  have hi : ∀ k ∈ keyWords, cubeEnv.parseInt k.toList = none := by
    intro k hk
    have h : ∀ k ∈ keyWords, k.toList ≠ "0".toList ∧ k.toList ≠ "1".toList := by decide +kernel
    simp only [cubeEnv]
    rw [if_neg (h k hk).1, if_neg (h k hk).2]
  have hp : cubeEnv.parseFloat "0.5".toList = some (1 / 2) := by
    have h0 : "0.5".toList ≠ "0".toList := by decide +kernel
    simp only [cubeEnv]
    rw [if_neg h0, if_pos trivial]
  obtain ⟨out, s1, s2, s3, s4, s5, m6, h1, h2, h3, h4, h5, h6, h7, h8⟩ := C83_edits cubeEnv insArgsort_isArgsort hi
    "hull.obj".toList "obj".toList cubeEdit cubeFile hfmt rfl (hl _) cubeFile_WF hne rfl rfl rfl rfl rfl rfl rfl rfl rfl
    (by simp [ScalesPositive, parse, cubeEdit, Args.set])
    (some ("lid.obj".toList, cubeFile)) rfl (by rintro n ⟨⟩; exact ⟨rfl, hl _, cubeFile_WF, hne⟩)
    (some ("0.5".toList, 1 / 2)) rfl (by rintro n ⟨⟩; exact ⟨hp, by norm_num⟩)
    (some "Oxy") rfl (by simp [keyWords]) [none, some "/Oyz"] rfl (by simp [keyWords])
  exact ⟨out, s1, s2, s3, s4, s5, m6, h1, h2, h3, h4, h5, h6, h7, h8⟩

/-! ### The split kept by `--triangulate-quadrangles` -/

/-- How elongated a triangle is: the square of its longest side over twice its area, squared. -/
def elongation (a b c : V3 ℚ) : ℚ :=
  (max (max ((b - a).dot (b - a)) ((c - b).dot (c - b))) ((a - c).dot (a - c))) ^ 2 / ((b - a).cross (c - a)).dot ((b - a).cross (c - a))

/-- A rhombus, eight times one. -/
def rhombus : Mesh ℚ := ⟨[⟨-4, 0, 0⟩, ⟨0, -1, 0⟩, ⟨4, 0, 0⟩, ⟨0, 1, 0⟩], [⟨0, 1, 2, 3⟩]⟩

/-- **C83 (violation).** "From both solutions, the one with the best aspect ratios is kept" (help of
`--triangulate-quadrangles`) is false: the quadrangle is always split along its first diagonal. Both triangles given for the
rhombus are more elongated than both triangles of the other split. -/
theorem C83_best_split_fails : rhombus.triangulateQuadrangles.faces = [⟨0, 2, 3, 0⟩, ⟨0, 1, 2, 0⟩] ∧
    ∀ f ∈ rhombus.triangulateQuadrangles.faces, ∀ g ∈ [(⟨0, 1, 3, 0⟩ : Face), ⟨1, 2, 3, 1⟩],
      elongation (rhombus.vert g.a) (rhombus.vert g.b) (rhombus.vert g.c) <
        elongation (rhombus.vert f.a) (rhombus.vert f.b) (rhombus.vert f.c) := by
  decide +kernel

end Cli
end MM
