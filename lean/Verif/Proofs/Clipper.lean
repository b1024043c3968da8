import Verif.Spec.Clipper
import Verif.Proofs.Connectivity
import Verif.Props.Plane
import Verif.Props.MeshIndex

/-!
# The cases of the clipper as a finite table

`plan` is the combinatorial content of `clipFace`: it only depends on the classes of the corners. `clipFace_plan`
shows that `clipFace` is the evaluation of `plan`, so that statements on all positions of the corners can be
checked on the table.
-/

namespace MM
namespace Clipper

set_option linter.unusedSectionVars false
set_option linter.unusedSimpArgs false

/-- Class of a vertex: above, on (negative or not), below, at distance exactly `tol` or `-tol`. -/
inductive Cls where
  | A | Op | Om | B | P | M
deriving DecidableEq, Repr

def allCls : List Cls := [.A, .Op, .Om, .B, .P, .M]

lemma mem_allCls (c : Cls) : c ∈ allCls := by cases c <;> decide

def Cls.isA : Cls → Bool
  | .A => true | _ => false
def Cls.isB : Cls → Bool
  | .B => true | _ => false

def Cls.isO : Cls → Bool
  | .Op => true | .Om => true | _ => false
def Cls.isNeg : Cls → Bool
  | .Om => true | .B => true | .M => true | _ => false

/-- A vertex number in a plan: a corner of the face, or one of the new points. -/
inductive Ref where
  | old (k : ℕ) | new (j : ℕ)
deriving DecidableEq, Repr

structure Plan where
  faces : List (List Ref)
  cuts : List (ℕ × ℕ)
  edge : Option (Ref × Ref)
deriving DecidableEq, Repr

inductive PlanRes where
  | ok (p : Plan) | unknown | unpack
deriving DecidableEq, Repr

def clsPos (q : Cls → Bool) (c : List Cls) : List ℕ := (List.range c.length).filter (fun k => q (c.getD k .A))

open Ref in
/-- The table. -/
def plan (c : List Cls) : PlanRes :=
  let n := c.length
  let va := clsPos Cls.isA c
  let vo := clsPos Cls.isO c
  let vb := clsPos Cls.isB c
  let all : List ℕ := List.range n
  match va.length, vo.length, vb.length with
  | 2, 0, 2 =>
    let g := fun k => (if va.getD 1 0 == va.getD 0 0 + 1 then all.rotate (va.getD 1 0) else all).getD k 0
    .ok ⟨[[new 0, old (g 1), old (g 2), new 1]], [(g 0, g 1), (g 2, g 3)], some (new 0, new 1)⟩
  | 3, 0, 1 =>
    let g := fun k => (all.rotate (vb.getD 0 0)).getD k 0
    .ok ⟨[[new 0, old (g 0), new 1, new 0]], [(g 0, g 3), (g 0, g 1)], some (new 0, new 1)⟩
  | 1, 0, 3 =>
    let g := fun k => (all.rotate (va.getD 0 0)).getD k 0
    .ok ⟨[[new 0, old (g 1), old (g 3), new 1], [old (g 1), old (g 2), old (g 3), old (g 1)]],
      [(g 0, g 1), (g 0, g 3)], some (new 0, new 1)⟩
  | 1, 0, 2 =>
    let g := fun k => (all.rotate (va.getD 0 0)).getD k 0
    if n ≠ 3 then .unpack else
    .ok ⟨[[new 0, old (g 1), old (g 2), new 1]], [(g 0, g 1), (g 0, g 2)], some (new 0, new 1)⟩
  | 2, 0, 1 =>
    let g := fun k => (all.rotate (vb.getD 0 0)).getD k 0
    if n ≠ 3 then .unpack else
    .ok ⟨[[new 0, old (g 0), new 1, new 0]], [(g 0, g 2), (g 0, g 1)], some (new 0, new 1)⟩
  | 2, 1, 1 =>
    let g := fun k => (all.rotate (vo.getD 0 0)).getD k 0
    if (c.getD (g 1) .A).isNeg then
      .ok ⟨[[old (g 0), old (g 1), new 0, old (g 0)]], [(g 1, g 2)], some (old (g 0), new 0)⟩
    else .ok ⟨[[new 0, old (g 3), old (g 0), new 0]], [(g 2, g 3)], some (new 0, old (g 0))⟩
  | 1, 1, 2 =>
    let g := fun k => (all.rotate (vo.getD 0 0)).getD k 0
    if (c.getD (g 1) .A).isNeg then
      .ok ⟨[[old (g 0), old (g 1), old (g 2), new 0]], [(g 2, g 3)], some (old (g 0), new 0)⟩
    else .ok ⟨[[new 0, old (g 2), old (g 3), old (g 0)]], [(g 1, g 2)], some (new 0, old (g 0))⟩
  | 0, 1, 3 => .ok ⟨[all.map old], [], none⟩
  | 2, 1, 0 => .ok ⟨[], [], none⟩
  | 3, 1, 0 => .ok ⟨[], [], none⟩
  | 1, 1, 1 =>
    let g := fun k => (all.rotate (vo.getD 0 0)).getD k 0
    if (c.getD (g 1) .A).isNeg then
      .ok ⟨[[old (g 0), old (g 1), new 0, old (g 0)]], [(g 1, g 2)], some (old (g 0), new 0)⟩
    else .ok ⟨[[new 0, old (g 2), old (g 0), new 0]], [(g 1, g 2)], some (new 0, old (g 0))⟩
  | 1, 2, 0 => .ok ⟨[], [], none⟩
  | 0, 2, 1 =>
    let l := all.rotate (vb.getD 0 0)
    .ok ⟨[l.map old ++ [old (l.getD 0 0)]], [], some (old (l.getD 2 0), old (l.getD 1 0))⟩
  | 0, 2, 2 =>
    let l := if vo.getD 1 0 == vo.getD 0 0 + 1 then all.rotate (vo.getD 1 0) else all
    .ok ⟨[l.map old], [], some (old (l.getD 0 0), old (l.getD 3 0))⟩
  | 0, 1, 2 => .ok ⟨[all.map old ++ [old (all.getD 0 0)]], [], none⟩
  | 2, 2, 0 => .ok ⟨[], [], none⟩
  | 1, 2, 1 =>
    let g := fun k => (all.rotate (va.getD 0 0)).getD k 0
    .ok ⟨[[old (g 1), old (g 2), old (g 3), old (g 1)]], [], some (old (g 1), old (g 3))⟩
  | 3, 0, 0 => .ok ⟨[], [], none⟩
  | 4, 0, 0 => .ok ⟨[], [], none⟩
  | 0, 0, 3 => .ok ⟨[all.map old ++ [old (all.getD 0 0)]], [], none⟩
  | 0, 0, 4 => .ok ⟨[all.map old], [], none⟩
  | 0, 3, 0 => .ok ⟨[], [], none⟩
  | 0, 4, 0 => .ok ⟨[], [], none⟩
  | _, _, _ => .unknown

variable {K : Type*} [Field K] [LinearOrder K]

def classOf (tol d : K) : Cls :=
  if d > tol then .A
  else if |d| < tol then (if d < 0 then .Om else .Op)
  else if d < -tol then .B
  else if d < 0 then .M else .P

def evalRef (face : List ℕ) (index : ℕ) : Ref → ℕ
  | .old k => face.getD k 0
  | .new j => index + j

/-- Evaluation of a plan. -/
def evalPlanWith (cutf : ℕ → ℕ → Except ClipErr (V3 K)) (index : ℕ) (face : List ℕ) :
    PlanRes → Except ClipErr (FaceClip K)
  | .unknown => .error .unknownCase
  | .unpack => .error (.py .valueError)
  | .ok q =>
    match mapE (fun ij : ℕ × ℕ => cutf (face.getD ij.1 0) (face.getD ij.2 0)) q.cuts with
    | .error e => .error e
    | .ok pts => .ok ⟨q.faces.map (fun l => l.map (evalRef face index)), pts,
        q.edge.map (fun e => (evalRef face index e.1, evalRef face index e.2)), q.cuts.length⟩

/-- Evaluation of a plan with the intersections of the plane. -/
abbrev evalPlan (p : Plane K) (verts : List (V3 K)) (index : ℕ) (face : List ℕ) : PlanRes → Except ClipErr (FaceClip K) :=
  evalPlanWith (cut p verts) index face

variable [IsStrictOrderedRing K]

lemma isAbove_cls {tol : K} (d : K) : isAbove tol d = (classOf tol d).isA := by
  unfold isAbove classOf
  split_ifs <;> simp_all [Cls.isA]

lemma isOn_cls {tol : K} (h : 0 ≤ tol) (d : K) : isOn tol d = (classOf tol d).isO := by
  unfold isOn classOf
  split_ifs with h1 h2 h3 h4 h5 <;> simp_all [Cls.isO]
  have := le_abs_self d; linarith

lemma isBelow_cls {tol : K} (h : 0 ≤ tol) (d : K) : isBelow tol d = (classOf tol d).isB := by
  unfold isBelow classOf
  split_ifs with h1 h2 h3 h4 h5 <;> simp_all [Cls.isB]
  · linarith
  · have := neg_abs_le d; linarith
  · have := neg_abs_le d; linarith

lemma neg_cls {tol : K} (h : 0 ≤ tol) (d : K) : d < 0 ↔ (classOf tol d).isNeg = true := by
  unfold classOf
  split_ifs with h1 h2 h3 h4 h5 <;> simp_all [Cls.isNeg]
  · linarith
  · linarith

/-- The classes of the corners. -/
def clsList (tol : K) (dists : List K) (face : List ℕ) : List Cls := face.map (fun i => classOf tol (dists.getD i 0))

lemma clsList_getD {tol : K} {dists : List K} {face : List ℕ} {k : ℕ} (hk : k < face.length) (x : Cls) :
    (clsList tol dists face).getD k x = classOf tol (dists.getD (face.getD k 0) 0) := by
  unfold clsList
  simp [List.getD_eq_getElem?_getD, List.getElem?_map, hk]

lemma posOf_cls {tol : K} {mask : K → Bool} {q : Cls → Bool} (h : ∀ d, mask d = q (classOf tol d)) (dists : List K)
    (face : List ℕ) : posOf mask dists face = clsPos q (clsList tol dists face) := by
  unfold posOf clsPos
  rw [show (clsList tol dists face).length = face.length by simp [clsList]]
  apply List.filter_congr
  intro k hk
  rw [h, clsList_getD (List.mem_range.1 hk)]

lemma range_map_getD (face : List ℕ) : (List.range face.length).map (fun i => face.getD i 0) = face := by
  apply List.ext_getElem
  · simp
  · intro i h1 h2; simp [List.getElem?_eq_getElem h2]

lemma range_rotate_map_getD (face : List ℕ) (r : ℕ) :
    ((List.range face.length).rotate r).map (fun i => face.getD i 0) = face.rotate r := by
  rw [List.map_rotate, range_map_getD]

lemma rotate_getD (face : List ℕ) (r k : ℕ) (hk : k < face.length) :
    (face.rotate r).getD k 0 = face.getD (((List.range face.length).rotate r).getD k 0) 0 := by
  conv_lhs => rw [← range_rotate_map_getD]
  have h2 : k < ((List.range face.length).rotate r).length := by simpa using hk
  rw [List.getD_eq_getElem?_getD, List.getElem?_map, List.getElem?_eq_getElem h2, List.getD_eq_getElem?_getD,
    List.getD_eq_getElem?_getD, List.getElem?_eq_getElem h2]
  simp [List.getD_eq_getElem?_getD]

lemma rotate_range_getD_lt (n r k : ℕ) (hk : k < n) : ((List.range n).rotate r).getD k 0 < n := by
  have h2 : k < ((List.range n).rotate r).length := by simpa using hk
  rw [List.getD_eq_getElem?_getD, List.getElem?_eq_getElem h2]
  have := List.getElem_mem h2
  simpa using this

lemma filter3_length {α : Type*} (l : List α) (p q r : α → Bool) (h : ∀ a, (p a → q a = false) ∧ (p a → r a = false) ∧
    (q a → r a = false)) : (l.filter p).length + (l.filter q).length + (l.filter r).length ≤ l.length := by
  induction l with
  | nil => simp
  | cons a l ih =>
    have := h a
    rw [List.filter_cons, List.filter_cons, List.filter_cons]
    cases hp : p a <;> cases hq : q a <;> cases hr : r a <;> simp_all <;> omega

lemma clsPos_length (c : List Cls) :
    (clsPos Cls.isA c).length + (clsPos Cls.isO c).length + (clsPos Cls.isB c).length ≤ c.length := by
  have := filter3_length (List.range c.length) (fun k => (c.getD k .A).isA) (fun k => (c.getD k .A).isO)
    (fun k => (c.getD k .A).isB) (fun k => by cases c.getD k .A <;> simp [Cls.isA, Cls.isO, Cls.isB])
  simpa [clsPos] using this

theorem clipFaceWith_plan {cutf : ℕ → ℕ → Except ClipErr (V3 K)} {tol : K} (htol : 0 ≤ tol) (dists : List K) (index : ℕ)
    (face : List ℕ) :
    clipFaceWith cutf tol dists index face = evalPlanWith cutf index face (plan (clsList tol dists face)) := by
  have hlen : (clsList tol dists face).length = face.length := by simp [clsList]
  have hsum := clsPos_length (clsList tol dists face)
  rw [hlen] at hsum
  have hneg : ∀ r k, k < face.length →
      ((((clsList tol dists face).getD (((List.range face.length).rotate r).getD k 0) Cls.A).isNeg = true) ↔
        dists.getD (face.getD (((List.range face.length).rotate r).getD k 0) 0) 0 < 0) := by
    intro r k hk
    rw [clsList_getD (rotate_range_getD_lt _ _ _ hk), ← neg_cls htol]
  unfold clipFaceWith plan
  rw [posOf_cls (fun d => isAbove_cls d), posOf_cls (fun d => isOn_cls htol d),
    posOf_cls (fun d => isBelow_cls htol d), hlen]
  generalize clsPos Cls.isA (clsList tol dists face) = va at *
  generalize clsPos Cls.isO (clsList tol dists face) = vo at *
  generalize clsPos Cls.isB (clsList tol dists face) = vb at *
  dsimp only
  have hR : ∀ r k, k < face.length →
      (face.rotate r).getD k 0 = face.getD (((List.range face.length).rotate r).getD k 0) 0 := fun r k hk => rotate_getD face r k hk
  have hG : ∀ k, k < face.length → (List.range face.length).getD k 0 = k := by
    intro k hk; simp [List.getD_eq_getElem?_getD, hk]
  split <;> rename_i h1 h2 h3 <;> simp only [h1, h2, h3] at hsum ⊢
  all_goals try (have b0 := hG 0 (by omega))
  all_goals try (have b1 := hG 1 (by omega))
  all_goals try (have b2 := hG 2 (by omega))
  all_goals try (have b3 := hG 3 (by omega))
  all_goals try (have a0 := fun r => hR r 0 (by omega))
  all_goals try (have a1 := fun r => hR r 1 (by omega))
  all_goals try (have a2 := fun r => hR r 2 (by omega))
  all_goals try (have a3 := fun r => hR r 3 (by omega))
  all_goals try (have n1 := fun r => hneg r 1 (by omega))
  all_goals try simp only [n1]
  all_goals try simp only [List.length_rotate]
  all_goals try simp only [a1]
  all_goals try split_ifs
  all_goals try simp only [a0]
  all_goals try simp only [a1]
  all_goals try simp only [a2]
  all_goals try simp only [a3]
  all_goals try simp only [b0]
  all_goals try simp only [b1]
  all_goals try simp only [b2]
  all_goals try simp only [b3]
  all_goals simp only [evalPlanWith, mapE, List.map_cons, List.map_nil, evalRef, Option.map_some, Option.map_none,
    List.length_cons, List.length_nil, Nat.add_zero, Nat.zero_add]
  all_goals try rfl
  all_goals try simp only [List.map_append, List.map_map, List.map_cons, List.map_nil, evalRef, Function.comp_def,
    range_map_getD, range_rotate_map_getD]
  all_goals try rfl
  all_goals generalize cutf _ _ = x1
  all_goals cases x1 <;> try rfl
  all_goals generalize cutf _ _ = x2
  all_goals cases x2 <;> try rfl

theorem clipFace_plan {p : Plane K} {tol : K} (htol : 0 ≤ tol) (verts : List (V3 K)) (dists : List K) (index : ℕ)
    (face : List ℕ) :
    clipFace p tol verts dists index face = evalPlan p verts index face (plan (clsList tol dists face)) :=
  clipFaceWith_plan htol dists index face

/-! ## Selection of faces -/

lemma filter_range_map {α : Type*} (l : List α) (d : α) (q : α → Bool) :
    ((List.range l.length).filter (fun k => q (l.getD k d))).map (fun k => l.getD k d) = l.filter q := by
  rw [show (fun k => q (l.getD k d)) = q ∘ (fun k => l.getD k d) from rfl, ← List.filter_map]
  congr 1
  apply List.ext_getElem
  · simp
  · intro i h1 h2; simp [List.getElem?_eq_getElem h2]

lemma extract_spec (m : Mesh K) (hwf : m.WF) (q : Face → Bool) :
    ∃ (m' : Mesh K) (idv : List ℕ) (g : ℕ → ℕ),
      m.extractFaces ((List.range m.nf).filter (fun k => q (m.faces.getD k ⟨0, 0, 0, 0⟩))) = .ok (m', idv) ∧
      m'.faces = (m.faces.filter q).map (Face.map g) ∧ m'.vertices = idv.map m.vert ∧ (∀ i ∈ idv, i < m.nv) ∧
      (∀ f ∈ m.faces.filter q, ∀ i ∈ f.toList, m'.vertices[g i]? = m.vertices[i]? ∧ g i < m'.nv) ∧
      (∀ f ∈ m.faces.filter q, ∀ i ∈ f.toList, ∀ f' ∈ m.faces.filter q, ∀ j ∈ f'.toList, g i = g j → i = j) := by
  set ids := (List.range m.nf).filter (fun k => q (m.faces.getD k ⟨0, 0, 0, 0⟩)) with hids
  have hlt : ∀ k ∈ ids, k < m.nf := by
    intro k hk
    rw [hids, List.mem_filter, List.mem_range] at hk
    exact hk.1
  have hsel : ids.map (fun k => m.faces.getD k ⟨0, 0, 0, 0⟩) = m.faces.filter q := filter_range_map _ _ _
  have hall : ids.all (fun k => decide (k < m.nf)) = true := by
    rw [List.all_eq_true]; intro k hk; simpa using hlt k hk
  have hused : ∀ i ∈ (m.faces.filter q).flatMap Face.toList, i < m.nv := by
    intro i hi
    obtain ⟨f, hf, hi⟩ := List.mem_flatMap.1 hi
    exact hwf f (List.mem_filter.1 hf).1 i hi
  have hall2 : ((m.faces.filter q).flatMap Face.toList).all (fun i => decide (i < m.nv)) = true := by
    rw [List.all_eq_true]; intro i hi; simpa using hused i hi
  unfold Mesh.extractFaces
  rw [if_pos hall]
  simp only [hsel, hall2, if_true]
  refine ⟨_, _, _, rfl, rfl, rfl, fun i hi => (mem_idV.1 hi).1, ?_, ?_⟩
  · intro f hf i hi
    have hiu : i ∈ (m.faces.filter q).flatMap Face.toList := List.mem_flatMap.2 ⟨f, hf, hi⟩
    obtain ⟨k', h1, h2, h3⟩ := renumber_spec m _ i (hused i hiu) hiu
    have h2' := (List.getElem?_eq_some_iff.1 h2).1
    beta_reduce
    rw [h1]
    exact ⟨h3, by simpa [Mesh.nv] using h2'⟩
  · intro f hf i hi f' hf' j hj he
    have hiu : i ∈ (m.faces.filter q).flatMap Face.toList := List.mem_flatMap.2 ⟨f, hf, hi⟩
    have hju : j ∈ (m.faces.filter q).flatMap Face.toList := List.mem_flatMap.2 ⟨f', hf', hj⟩
    obtain ⟨k1, a1, a2, a3⟩ := renumber_spec m _ i (hused i hiu) hiu
    obtain ⟨k2, b1, b2, b3⟩ := renumber_spec m _ j (hused j hju) hju
    beta_reduce at he
    rw [a1, b1] at he
    subst he
    rw [a2] at b2
    exact Option.some.inj b2

/-- The selection of faces made by `extract_faces` with a mask. -/
structure Selected (m : Mesh K) (q : Face → Bool) (m' : Mesh K) (g : ℕ → ℕ) : Prop where
  faces : m'.faces = (m.faces.filter q).map (Face.map g)
  vert : ∀ f ∈ m.faces.filter q, ∀ i ∈ f.toList, m'.vertices[g i]? = m.vertices[i]? ∧ g i < m'.nv
  inj : ∀ f ∈ m.faces.filter q, ∀ i ∈ f.toList, ∀ f' ∈ m.faces.filter q, ∀ j ∈ f'.toList, g i = g j → i = j

lemma Selected.wf {m m' : Mesh K} {q : Face → Bool} {g : ℕ → ℕ} (h : Selected m q m' g) : m'.WF := by
  intro f hf i hi
  rw [h.faces] at hf
  obtain ⟨f0, hf0, rfl⟩ := List.mem_map.1 hf
  rw [Face.toList_map] at hi
  obtain ⟨j, hj, rfl⟩ := List.mem_map.1 hi
  exact (h.vert f0 hf0 j hj).2

lemma Selected.geometry {m m' : Mesh K} {q : Face → Bool} {g : ℕ → ℕ} (h : Selected m q m' g) :
    m'.geometry = (m.faces.filter q).map m.cornerPoints := by
  rw [Mesh.geometry, h.faces, List.map_map]
  apply List.map_congr_left
  intro f hf
  exact cornerPoints_map _ _ _ _ (fun i hi => (h.vert f hf i hi).1)

lemma Selected.vert_eq {m m' : Mesh K} {q : Face → Bool} {g : ℕ → ℕ} (h : Selected m q m' g) {f : Face}
    (hf : f ∈ m.faces.filter q) {i : ℕ} (hi : i ∈ f.toList) : m'.vert (g i) = m.vert i := by
  rw [Mesh.vert, Mesh.vert, List.getD_eq_getElem?_getD, List.getD_eq_getElem?_getD, (h.vert f hf i hi).1]

lemma allFour_iff (mask : K → Bool) (dists : List K) (f : Face) :
    allFour mask dists f = true ↔ ∀ i ∈ f.toList, mask (dists.getD i 0) = true := by
  unfold allFour
  rw [beq_iff_eq, show 4 = f.toList.length from rfl, List.length_filter_eq_length_iff]

lemma dists_getD (p : Plane K) (m : Mesh K) {i : ℕ} (hi : i < m.nv) :
    (m.vertices.map p.dist).getD i 0 = p.dist (m.vert i) := by
  have : i < m.vertices.length := hi
  simp [Mesh.vert, List.getD_eq_getElem?_getD, this]

/-- `_partition_mesh` on a valid mesh: three selections. -/
lemma partition_spec (p : Plane K) (tol : K) (m : Mesh K) (hwf : m.WF) :
    ∃ (part : Partition K) (gu gc gl : ℕ → ℕ), partition tol (m.vertices.map p.dist) m = .ok part ∧
      Selected m (fun f => allFour (isAbove tol) (m.vertices.map p.dist) f) part.upper gu ∧
      Selected m (fun f => !allFour (isAbove tol) (m.vertices.map p.dist) f &&
        !allFour (isBelow tol) (m.vertices.map p.dist) f) part.crown gc ∧
      Selected m (fun f => allFour (isBelow tol) (m.vertices.map p.dist) f) part.lower gl ∧
      part.crownDists = part.crown.vertices.map p.dist := by
  obtain ⟨u, iu, gu, e1, e2, e3, e4, e5, e6⟩ :=
    extract_spec m hwf (fun f => allFour (isAbove tol) (m.vertices.map p.dist) f)
  obtain ⟨c, ic, gc, c1, c2, c3, c4, c5, c6⟩ :=
    extract_spec m hwf (fun f => !allFour (isAbove tol) (m.vertices.map p.dist) f &&
        !allFour (isBelow tol) (m.vertices.map p.dist) f)
  obtain ⟨l, il, gl, l1, l2, l3, l4, l5, l6⟩ :=
    extract_spec m hwf (fun f => allFour (isBelow tol) (m.vertices.map p.dist) f)
  refine ⟨⟨u, c, l, ic.map (fun i => (m.vertices.map p.dist).getD i 0)⟩, gu, gc, gl, ?_, ⟨e2, e5, e6⟩,
    ⟨c2, c5, c6⟩, ⟨l2, l5, l6⟩, ?_⟩
  · unfold partition aboveIds crownIds belowIds
    rw [e1, c1, l1]; rfl
  · simp only [c3, List.map_map]
    apply List.map_congr_left
    intro i hi
    exact dists_getD p m (c4 i hi)

lemma Face.corners_sub (f : Face) : ∀ i ∈ f.corners, i ∈ f.toList := by
  intro i hi
  unfold Face.corners at hi
  unfold Face.toList
  split at hi <;> simp at hi ⊢ <;> tauto

lemma Selected.corners {m m' : Mesh K} {q : Face → Bool} {g : ℕ → ℕ} (h : Selected m q m' g) {f : Face}
    (hf : f ∈ m.faces.filter q) : (f.map g).corners = f.corners.map g := by
  unfold Face.corners Face.isTri Face.map
  by_cases h0 : f.a = f.d
  · simp [h0]
  · have : ¬ g f.a = g f.d := fun he => h0 (h.inj f hf f.a (by simp [Face.toList]) f hf f.d (by simp [Face.toList]) he)
    simp [h0, this]

end Clipper
end MM
