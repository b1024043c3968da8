import Verif.Spec.Alias

/-!
# Lemmas for C108 and C109: ownership of the arrays
-/

namespace MM
namespace Alias

set_option linter.unusedSimpArgs false

lemma Role.forall {P : Role → Prop} :
    (∀ r, P r) ↔ P .vertices ∧ P .faces ∧ P .areas ∧ P .normals ∧ P .centres :=
  ⟨fun h => ⟨h _, h _, h _, h _, h _⟩, fun ⟨a, b, c, d, e⟩ r => by cases r <;> assumption⟩

/-- The arrays of a mesh exist and are different arrays. -/
structure Wf (s : St) : Prop where
  bound : ∀ r a, s.2.at r = some a → a < s.1.length
  inj : ∀ r r' a, s.2.at r = some a → s.2.at r' = some a → r = r'

/-- From `s` to `s'` only the arrays of the kinds `T` were modified, and the arrays of the mesh are the same ones or
new ones. -/
structure Good (T : List Role) (s s' : St) : Prop where
  len : s.1.length ≤ s'.1.length
  old : ∀ r a, s'.2.at r = some a → s.2.at r = some a ∨ s.1.length ≤ a
  frame : ∀ a < s.1.length, (∀ r ∈ T, s.2.at r ≠ some a) → s'.1[a]? = s.1[a]?
  wf : Wf s'

lemma Good.refl {s : St} (h : Wf s) : Good [] s s :=
  ⟨le_rfl, fun _ _ h => .inl h, fun _ _ _ => rfl, h⟩

lemma Good.trans' {T T1 T2 : List Role} {s s1 s2 : St} (h1 : Good T1 s s1) (h2 : Good T2 s1 s2) (hT : T1 ⊆ T)
    (hT2 : ∀ r ∈ T2, r ∈ T ∨ ∀ a, s1.2.at r = some a → s.1.length ≤ a) : Good T s s2 := by
  refine ⟨h1.len.trans h2.len, ?_, ?_, h2.wf⟩
  · intro r a ha
    rcases h2.old r a ha with h | h
    · exact h1.old r a h
    · exact .inr (h1.len.trans h)
  · intro a ha hr
    rw [h2.frame a (by have := h1.len; omega), h1.frame a ha (fun r h => hr r (hT h))]
    intro r hrT e
    rcases hT2 r hrT with h | h
    · rcases h1.old r a e with e' | e'
      · exact hr r h e'
      · omega
    · have := h a e; omega

lemma Good.trans {T1 T2 : List Role} {s s1 s2 : St} (h1 : Good T1 s s1) (h2 : Good T2 s1 s2) :
    Good (T1 ++ T2) s s2 :=
  h1.trans' h2 (by simp) (fun r h => .inl (by simp [h]))

lemma Good.mono {T T' : List Role} {s s' : St} (h : Good T s s') (hT : T ⊆ T') : Good T' s s' :=
  ⟨h.len, h.old, fun a ha hr => h.frame a ha (fun r hrT => hr r (hT hrT)), h.wf⟩

/-! ## Reading the heap -/

@[simp] lemma vecsAt_append {h l : Heap} {a : ℕ} (ha : a < h.length) : vecsAt (h ++ l) a = vecsAt h a := by
  simp [vecsAt, List.getElem?_append_left ha]
@[simp] lemma facesAt_append {h l : Heap} {a : ℕ} (ha : a < h.length) : facesAt (h ++ l) a = facesAt h a := by
  simp [facesAt, List.getElem?_append_left ha]
@[simp] lemma realsAt_append {h l : Heap} {a : ℕ} (ha : a < h.length) : realsAt (h ++ l) a = realsAt h a := by
  simp [realsAt, List.getElem?_append_left ha]

lemma getElem?_tail (h l : Heap) (i : ℕ) : (h ++ l)[h.length + i]? = l[i]? := by
  rw [List.getElem?_append_right (by omega)]; simp

@[simp] lemma vecsAt_set_ne {h : Heap} {a b : ℕ} {x : Arr} (hab : b ≠ a) : vecsAt (h.set b x) a = vecsAt h a := by
  simp [vecsAt, List.getElem?_set_ne hab]
@[simp] lemma facesAt_set_ne {h : Heap} {a b : ℕ} {x : Arr} (hab : b ≠ a) :
    facesAt (h.set b x) a = facesAt h a := by
  simp [facesAt, List.getElem?_set_ne hab]
@[simp] lemma realsAt_set_ne {h : Heap} {a b : ℕ} {x : Arr} (hab : b ≠ a) :
    realsAt (h.set b x) a = realsAt h a := by
  simp [realsAt, List.getElem?_set_ne hab]
@[simp] lemma vecsAt_set {h : Heap} {a : ℕ} {l : List (V3 ℝ)} (ha : a < h.length) :
    vecsAt (h.set a (.vecs l)) a = l := by
  simp [vecsAt, ha]
@[simp] lemma facesAt_set {h : Heap} {a : ℕ} {l : List Face} (ha : a < h.length) :
    facesAt (h.set a (.faces l)) a = l := by
  simp [facesAt, ha]

lemma vecsAt_congr {h h' : Heap} {a : ℕ} (e : h'[a]? = h[a]?) : vecsAt h' a = vecsAt h a := by
  simp [vecsAt, e]
lemma facesAt_congr {h h' : Heap} {a : ℕ} (e : h'[a]? = h[a]?) : facesAt h' a = facesAt h a := by
  simp [facesAt, e]
lemma realsAt_congr {h h' : Heap} {a : ℕ} (e : h'[a]? = h[a]?) : realsAt h' a = realsAt h a := by
  simp [realsAt, e]

lemma view_congr {h h' : Heap} {m : MeshRef} (H : ∀ r a, m.at r = some a → h'[a]? = h[a]?) :
    view h' m = view h m := by
  obtain ⟨v, f, props, ints, ids, conn⟩ := m
  simp only [Role.forall, MeshRef.at] at H
  obtain ⟨h1, h2, h3, h4, h5⟩ := H
  rcases props with _ | ⟨a, n, c⟩
  · simp [view, vecsAt_congr (h1 v rfl), facesAt_congr (h2 f rfl)]
  · simp [view, vecsAt_congr (h1 v rfl), facesAt_congr (h2 f rfl), realsAt_congr (h3 a rfl),
      vecsAt_congr (h4 n rfl), vecsAt_congr (h5 c rfl)]

lemma zipProps_self : ∀ l : List FP, zipProps (l.map FP.area) (l.map FP.normal) (l.map FP.center) = l
  | [] => rfl
  | p :: l => by simp [zipProps, zipProps_self l]

lemma zipProps_neg : ∀ (a : List ℝ) (n c : List (V3 ℝ)),
    zipProps a (n.map (fun x => -x)) c = (zipProps a n c).map (fun p => ⟨p.area, -p.normal, p.center⟩)
  | [], _, _ => by simp [zipProps]
  | _ :: _, [], _ => by simp [zipProps]
  | _ :: _, _ :: _, [] => by simp [zipProps]
  | x :: a, y :: n, z :: c => by simp [zipProps, zipProps_neg a n c]

lemma zipProps_add (t : V3 ℝ) : ∀ (a : List ℝ) (n c : List (V3 ℝ)),
    zipProps a n (c.map (· + t)) = (zipProps a n c).map (fun p => ⟨p.area, p.normal, p.center + t⟩)
  | [], _, _ => by simp [zipProps]
  | _ :: _, [], _ => by simp [zipProps]
  | _ :: _, _ :: _, [] => by simp [zipProps]
  | x :: a, y :: n, z :: c => by simp [zipProps, zipProps_add t a n c]

lemma zipProps_rotate (r : M3 ℝ) : ∀ (a : List ℝ) (n c : List (V3 ℝ)),
    zipProps a (n.map r.mulVec) (c.map r.mulVec) =
      (zipProps a n c).map (fun p => ⟨p.area, r.mulVec p.normal, r.mulVec p.center⟩)
  | [], _, _ => by simp [zipProps]
  | _ :: _, [], _ => by simp [zipProps]
  | _ :: _, _ :: _, [] => by simp [zipProps]
  | x :: a, y :: n, z :: c => by simp [zipProps, zipProps_rotate r a n c]

/-! ## The primitive steps -/

/-- Explicit form of `Wf`. -/
lemma Wf.explicit {s : St} (h : Wf s) : s.2.v < s.1.length ∧ s.2.f < s.1.length ∧ s.2.v ≠ s.2.f ∧
    ∀ a n c, s.2.props = some (a, n, c) → a < s.1.length ∧ n < s.1.length ∧ c < s.1.length ∧
      a ≠ s.2.v ∧ n ≠ s.2.v ∧ c ≠ s.2.v ∧ a ≠ s.2.f ∧ n ≠ s.2.f ∧ c ≠ s.2.f ∧ a ≠ n ∧ a ≠ c ∧ n ≠ c := by
  have hb := h.bound
  refine ⟨hb .vertices _ rfl, hb .faces _ rfl, fun e => ?_, fun a n c hp => ?_⟩
  · exact absurd (h.inj .vertices .faces s.2.v rfl (by simp [MeshRef.at, e])) (by decide)
  · have ea : s.2.at .areas = some a := by simp [MeshRef.at, hp]
    have en : s.2.at .normals = some n := by simp [MeshRef.at, hp]
    have ec : s.2.at .centres = some c := by simp [MeshRef.at, hp]
    have ev : s.2.at .vertices = some s.2.v := rfl
    have ef : s.2.at .faces = some s.2.f := rfl
    have key : ∀ r r' x y, s.2.at r = some x → s.2.at r' = some y → r ≠ r' → x ≠ y :=
      fun r r' x y hx hy hr e => hr (h.inj r r' x hx (e ▸ hy))
    exact ⟨hb _ _ ea, hb _ _ en, hb _ _ ec, key _ _ _ _ ea ev (by decide), key _ _ _ _ en ev (by decide),
      key _ _ _ _ ec ev (by decide), key _ _ _ _ ea ef (by decide), key _ _ _ _ en ef (by decide),
      key _ _ _ _ ec ef (by decide), key _ _ _ _ ea en (by decide), key _ _ _ _ ea ec (by decide),
      key _ _ _ _ en ec (by decide)⟩

lemma Wf.of_explicit {s : St} (h : s.2.v < s.1.length ∧ s.2.f < s.1.length ∧ s.2.v ≠ s.2.f ∧
    ∀ a n c, s.2.props = some (a, n, c) → a < s.1.length ∧ n < s.1.length ∧ c < s.1.length ∧
      a ≠ s.2.v ∧ n ≠ s.2.v ∧ c ≠ s.2.v ∧ a ≠ s.2.f ∧ n ≠ s.2.f ∧ c ≠ s.2.f ∧ a ≠ n ∧ a ≠ c ∧ n ≠ c) : Wf s := by
  obtain ⟨H, ⟨v, f, props, ints, ids, conn⟩⟩ := s
  obtain ⟨h1, h2, h3, h4⟩ := h
  simp only at h1 h2 h3 h4
  rcases props with _ | ⟨a, n, c⟩
  · constructor
    · simp [Role.forall, MeshRef.at]; omega
    · intro r r' x hr hr'
      cases r <;> cases r' <;> simp [MeshRef.at] at hr hr' ⊢ <;> omega
  · have h5 := h4 a n c rfl
    constructor
    · simp [Role.forall, MeshRef.at]; omega
    · intro r r' x hr hr'
      cases r <;> cases r' <;> simp [MeshRef.at] at hr hr' ⊢ <;> omega

namespace St

section prims
variable {s : St} (h : Wf s)
include h

lemma storeV_good (l : List (V3 ℝ)) : Good [] s (s.storeV l) := by
  obtain ⟨h1, h2, h3, h4⟩ := h.explicit
  refine ⟨by simp [storeV], ?_, ?_, ?_⟩
  · rw [Role.forall]
    exact ⟨fun a ha => .inr (by simp [storeV, MeshRef.at] at ha; omega), fun _ h => .inl h, fun _ h => .inl h,
      fun _ h => .inl h, fun _ h => .inl h⟩
  · intro a ha _; simp [storeV, List.getElem?_append_left ha]
  · refine .of_explicit ⟨by simp [storeV], by simp [storeV]; omega, by simp [storeV]; omega, fun a n c hp => ?_⟩
    have := h4 a n c hp
    simp [storeV]; omega

lemma storeV_view (l : List (V3 ℝ)) : (s.storeV l).view = ⟨⟨l, s.view.mesh.faces⟩, s.view.cache⟩ := by
  obtain ⟨h1, h2, h3, h4⟩ := h.explicit
  have e : vecsAt (s.1 ++ [Arr.vecs l]) s.1.length = l := by simp [vecsAt]
  rcases hp : s.2.props with _ | ⟨a, n, c⟩
  · simp [St.view, Alias.view, storeV, e, hp, facesAt_append h2]
  · have := h4 a n c hp
    simp [St.view, Alias.view, storeV, e, hp, facesAt_append h2, this]

lemma storeF_good (l : List Face) : Good [] s (s.storeF l) := by
  obtain ⟨h1, h2, h3, h4⟩ := h.explicit
  refine ⟨by simp [storeF], ?_, ?_, ?_⟩
  · rw [Role.forall]
    exact ⟨fun _ h => .inl h, fun a ha => .inr (by simp [storeF, MeshRef.at] at ha; omega), fun _ h => .inl h,
      fun _ h => .inl h, fun _ h => .inl h⟩
  · intro a ha _; simp [storeF, List.getElem?_append_left ha]
  · refine .of_explicit ⟨by simp [storeF]; omega, by simp [storeF], by simp [storeF]; omega, fun a n c hp => ?_⟩
    have := h4 a n c hp
    simp [storeF]; omega

lemma storeF_view (l : List Face) : (s.storeF l).view = ⟨⟨s.view.mesh.vertices, l⟩, s.view.cache⟩ := by
  obtain ⟨h1, h2, h3, h4⟩ := h.explicit
  have e : facesAt (s.1 ++ [Arr.faces l]) s.1.length = l := by simp [facesAt]
  rcases hp : s.2.props with _ | ⟨a, n, c⟩
  · simp [St.view, Alias.view, storeF, e, hp, vecsAt_append h1]
  · have := h4 a n c hp
    simp [St.view, Alias.view, storeF, e, hp, vecsAt_append h1, this]

/-- A mesh whose heap has one of its arrays written. -/
lemma set_good (r : Role) {a : ℕ} (ha : s.2.at r = some a) (x : Arr) : Good [r] s (s.1.set a x, s.2) := by
  refine ⟨by simp, fun _ _ h => .inl h, ?_, ⟨fun r a hr => ?_, h.inj⟩⟩
  · intro b _ hb
    have : a ≠ b := fun e => hb r (by simp) (e ▸ ha)
    simp [List.getElem?_set_ne this]
  · simpa using h.bound r a hr

lemma writeV_good (l : List (V3 ℝ)) : Good [.vertices] s (s.writeV l) := set_good h .vertices rfl _

lemma writeV_view (l : List (V3 ℝ)) : (s.writeV l).view = ⟨⟨l, s.view.mesh.faces⟩, s.view.cache⟩ := by
  obtain ⟨h1, h2, h3, h4⟩ := h.explicit
  rcases hp : s.2.props with _ | ⟨a, n, c⟩
  · simp [St.view, Alias.view, writeV, hp, vecsAt_set h1, facesAt_set_ne h3]
  · obtain ⟨b1, b2, b3, k1, k2, k3, _⟩ := h4 a n c hp
    simp [St.view, Alias.view, writeV, hp, vecsAt_set h1, facesAt_set_ne h3, realsAt_set_ne k1.symm,
      vecsAt_set_ne k2.symm, vecsAt_set_ne k3.symm]

lemma writeF_good (l : List Face) : Good [.faces] s (s.writeF l) := set_good h .faces rfl _

lemma writeF_view (l : List Face) : (s.writeF l).view = ⟨⟨s.view.mesh.vertices, l⟩, s.view.cache⟩ := by
  obtain ⟨h1, h2, h3, h4⟩ := h.explicit
  rcases hp : s.2.props with _ | ⟨a, n, c⟩
  · simp [St.view, Alias.view, writeF, hp, facesAt_set h2, vecsAt_set_ne h3.symm]
  · obtain ⟨b1, b2, b3, k1, k2, k3, k4, k5, k6, _⟩ := h4 a n c hp
    simp [St.view, Alias.view, writeF, hp, facesAt_set h2, vecsAt_set_ne h3.symm, realsAt_set_ne k4.symm,
      vecsAt_set_ne k5.symm, vecsAt_set_ne k6.symm]

lemma negNormals_good : Good [.normals] s s.negNormals := by
  unfold negNormals
  split
  · exact (Good.refl h).mono (by simp)
  · rename_i p hp
    exact set_good h .normals (by simp [MeshRef.at, hp]) _

lemma negNormals_view : s.negNormals.view = ⟨s.view.mesh, { s.view.cache with
    props := s.view.cache.props.map (fun l => l.map (fun p => ⟨p.area, -p.normal, p.center⟩)) }⟩ := by
  obtain ⟨h1, h2, h3, h4⟩ := h.explicit
  rcases hp : s.2.props with _ | ⟨a, n, c⟩
  · simp [negNormals, St.view, Alias.view, hp]
  · obtain ⟨b1, b2, b3, k1, k2, k3, k4, k5, k6, k7, k8, k9⟩ := h4 a n c hp
    simp only [negNormals, St.view, Alias.view, hp, vecsAt_set_ne k2, facesAt_set_ne k5, Option.map_some,
      realsAt_set_ne k7.symm, vecsAt_set b2, vecsAt_set_ne k9, zipProps_neg]

lemma addCentres_good (t : V3 ℝ) : Good [.centres] s (s.addCentres t) := by
  unfold addCentres
  split
  · exact (Good.refl h).mono (by simp)
  · rename_i p hp
    exact set_good h .centres (by simp [MeshRef.at, hp]) _

lemma addCentres_view (t : V3 ℝ) : (s.addCentres t).view = ⟨s.view.mesh, { s.view.cache with
    props := s.view.cache.props.map (fun l => l.map (fun p => ⟨p.area, p.normal, p.center + t⟩)) }⟩ := by
  obtain ⟨h1, h2, h3, h4⟩ := h.explicit
  rcases hp : s.2.props with _ | ⟨a, n, c⟩
  · simp [addCentres, St.view, Alias.view, hp]
  · obtain ⟨b1, b2, b3, k1, k2, k3, k4, k5, k6, k7, k8, k9⟩ := h4 a n c hp
    simp only [addCentres, St.view, Alias.view, hp, vecsAt_set_ne k3, facesAt_set_ne k6, Option.map_some,
      realsAt_set_ne k8.symm, vecsAt_set b3, vecsAt_set_ne k9.symm, zipProps_add]

lemma rotateProps_good (r : M3 ℝ) : Good [] s (s.rotateProps r) := by
  obtain ⟨h1, h2, h3, h4⟩ := h.explicit
  unfold rotateProps
  split
  · exact Good.refl h
  · rename_i p hp
    obtain ⟨a, n, c⟩ := p
    have h5 := h4 a n c hp
    refine ⟨by simp, ?_, ?_, ?_⟩
    · rw [Role.forall]
      simp [MeshRef.at, hp]
    · intro a ha _; simp [List.getElem?_append_left ha]
    · refine .of_explicit ⟨by simp; omega, by simp; omega, h3, fun a' n' c' hp' => ?_⟩
      simp at hp'
      simp; omega

lemma rotateProps_view (r : M3 ℝ) : (s.rotateProps r).view = ⟨s.view.mesh, { s.view.cache with
    props := s.view.cache.props.map
      (fun l => l.map (fun p => ⟨p.area, r.mulVec p.normal, r.mulVec p.center⟩)) }⟩ := by
  obtain ⟨h1, h2, h3, h4⟩ := h.explicit
  rcases hp : s.2.props with _ | ⟨a, n, c⟩
  · simp [rotateProps, St.view, Alias.view, hp]
  · obtain ⟨b1, b2, b3, _⟩ := h4 a n c hp
    have e0 : ∀ x y : List (V3 ℝ), vecsAt (s.1 ++ [Arr.vecs x, Arr.vecs y]) s.1.length = x := by
      intro x y; simp [vecsAt]
    have e1 : ∀ x y : List (V3 ℝ), vecsAt (s.1 ++ [Arr.vecs x, Arr.vecs y]) (s.1.length + 1) = y := by
      intro x y; simp [vecsAt, getElem?_tail]
    simp only [rotateProps, St.view, Alias.view, hp, vecsAt_append h1, facesAt_append h2, Option.map_some,
      realsAt_append b1, e0, e1, zipProps_rotate]

lemma storeProps_good (l : List FP) : Good [] s (s.storeProps l) := by
  obtain ⟨h1, h2, h3, h4⟩ := h.explicit
  refine ⟨by simp [storeProps], ?_, ?_, ?_⟩
  · rw [Role.forall]; simp [storeProps, MeshRef.at]
  · intro a ha _; simp [storeProps, List.getElem?_append_left ha]
  · refine .of_explicit ⟨by simp [storeProps]; omega, by simp [storeProps]; omega, by simp [storeProps]; omega,
      fun a n c hp => ?_⟩
    simp [storeProps] at hp
    simp [storeProps]; omega

lemma storeProps_view (l : List FP) :
    (s.storeProps l).view = ⟨s.view.mesh, { s.view.cache with props := some l }⟩ := by
  obtain ⟨h1, h2, h3, h4⟩ := h.explicit
  have e0 : ∀ (x : List ℝ) (y z : List (V3 ℝ)),
      realsAt (s.1 ++ [Arr.reals x, Arr.vecs y, Arr.vecs z]) s.1.length = x := by
    intro x y z; simp [realsAt]
  have e1 : ∀ (x : List ℝ) (y z : List (V3 ℝ)),
      vecsAt (s.1 ++ [Arr.reals x, Arr.vecs y, Arr.vecs z]) (s.1.length + 1) = y := by
    intro x y z; simp [vecsAt, getElem?_tail]
  have e2 : ∀ (x : List ℝ) (y z : List (V3 ℝ)),
      vecsAt (s.1 ++ [Arr.reals x, Arr.vecs y, Arr.vecs z]) (s.1.length + 2) = z := by
    intro x y z; simp [vecsAt, getElem?_tail]
  simp only [storeProps, St.view, Alias.view, vecsAt_append h1, facesAt_append h2, Option.map_some, e0, e1, e2,
    zipProps_self]

/-- Steps which only forget or note values. -/
lemma meta_good {m : MeshRef} (hm : ∀ r a, m.at r = some a → s.2.at r = some a) : Good [] s (s.1, m) :=
  ⟨le_rfl, fun r a ha => .inl (hm r a ha), fun _ _ _ => rfl,
    ⟨fun r a ha => h.bound r a (hm r a ha), fun r r' a ha hb => h.inj r r' a (hm r a ha) (hm r' a hb)⟩⟩

lemma dropProps_good : Good [] s s.dropProps := meta_good h (by rw [Role.forall]; simp [MeshRef.at])
lemma dropPropsIfAny_good : Good [] s s.dropPropsIfAny := by
  unfold dropPropsIfAny; split
  · exact dropProps_good h
  · exact .refl h
lemma dropInts_good : Good [] s s.dropInts := meta_good h (by rw [Role.forall]; simp [MeshRef.at])
lemma dropConn_good : Good [] s s.dropConn := meta_good h (by rw [Role.forall]; simp [MeshRef.at])
lemma clear_good : Good [] s s.clear := meta_good h (by rw [Role.forall]; simp [MeshRef.at])
lemma setIds_good (p : List ℕ × List ℕ) : Good [] s (s.setIds p) :=
  meta_good h (by rw [Role.forall]; simp [MeshRef.at])
lemma setInts_good (p : List (Fin 15 → ℝ)) : Good [] s (s.setInts p) :=
  meta_good h (by rw [Role.forall]; simp [MeshRef.at])
lemma setConn_good (c : Conn) : Good [] s (s.setConn c) := meta_good h (by rw [Role.forall]; simp [MeshRef.at])

end prims

variable (s : St)

lemma dropProps_view : s.dropProps.view = ⟨s.view.mesh, MeshObj.dropProps s.view.cache⟩ := rfl
lemma dropPropsIfAny_view : s.dropPropsIfAny.view = ⟨s.view.mesh, MeshObj.dropPropsIfAny s.view.cache⟩ := by
  unfold dropPropsIfAny MeshObj.dropPropsIfAny
  rcases hp : s.2.props with _ | p
  · simp [St.view, Alias.view, hp]
  · simp [St.view, Alias.view, hp, dropProps, MeshObj.dropProps]
lemma dropInts_view : s.dropInts.view = ⟨s.view.mesh, MeshObj.dropInts s.view.cache⟩ := rfl
lemma dropConn_view : s.dropConn.view = ⟨s.view.mesh, MeshObj.dropConn s.view.cache⟩ := rfl
lemma clear_view : s.clear.view = MeshObj.new s.view.mesh := rfl
lemma setIds_view (p : List ℕ × List ℕ) :
    (s.setIds p).view = ⟨s.view.mesh, { s.view.cache with ids := some p }⟩ := rfl
lemma setInts_view (p : List (Fin 15 → ℝ)) :
    (s.setInts p).view = ⟨s.view.mesh, { s.view.cache with ints := some p }⟩ := rfl
lemma setConn_view (c : Conn) : (s.setConn c).view = ⟨s.view.mesh, { s.view.cache with conn := some c }⟩ := rfl

end St
end Alias
end MM
