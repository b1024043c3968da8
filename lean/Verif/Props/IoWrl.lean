import Verif.Model.MmioWrl
import Verif.Proofs.Regex
import Verif.Proofs.Text
import Verif.Props.IoLib

/-!
# VRML files (C115)
-/

namespace MM.Io

open MM

lemma linesOf_head {s : Str} (hs : Plain s) (r : Str) : ∃ r', (linesOf (s ++ r)).headD [] = s ++ r' ∨ s = [] := by
  by_cases h0 : s = []
  · exact ⟨[], Or.inr h0⟩
  have key : ∀ (r cur : Str), cur ≠ [] → ∃ r', (linesAux cur r).headD [] = cur.reverse ++ r' := by
    intro r
    induction r with
    | nil => intro cur hc; exact ⟨[], by simp [linesAux, hc]⟩
    | cons c r ih =>
      intro cur hc
      by_cases h : c = '\n'
      · exact ⟨['\n'], by simp [linesAux, h]⟩
      · obtain ⟨r', hr⟩ := ih (c :: cur) (by simp)
        exact ⟨c :: r', by simp only [linesAux, if_neg h]; rw [hr]; simp⟩
  obtain ⟨r', hr⟩ := key r (s.reverse ++ []) (by simpa using h0)
  refine ⟨r', Or.inl ?_⟩
  unfold linesOf
  rw [linesAux_plain hs, hr]
  simp

/-- The search in the first line of a file which begins with a header. -/
lemma search_wrl {b : Str} (hb : b ≠ []) (hb' : ∀ c ∈ b, isSpace c = true ∧ c ≠ '\n') {x y z : Char}
    (hx : isDigit x = true) (hy : y ≠ '\n') (hz : isDigit z = true) (r : Str) :
    ∃ m t, reSearch wrlHead ((linesOf ("#VRML".toList ++ b ++ "V".toList ++ [x, y, z] ++ r)).headD []) [] = some (m, t) ∧
      m.group 1 = [x, y, z] := by
  have hp : Plain ("#VRML".toList ++ b ++ "V".toList ++ [x, y, z]) := by
    have hd : ∀ c : Char, isDigit c = true → c ≠ '\n' := by rintro c hc rfl; exact absurd hc (by decide)
    refine Plain.append (Plain.append (Plain.append (by unfold Plain; decide) fun c hc => (hb' c hc).2)
      (by unfold Plain; decide)) ?_
    intro c hc
    simp only [List.mem_cons, List.not_mem_nil, or_false] at hc
    rcases hc with rfl | rfl | rfl
    · exact hd _ hx
    · exact hy
    · exact hd _ hz
  obtain ⟨r', h | h⟩ := linesOf_head hp r
  · rw [h]
    have key : wrlHead.first ⟨[], ("#VRML".toList ++ b ++ "V".toList ++ [x, y, z]) ++ r', []⟩ =
        some ⟨("#VRML".toList ++ b ++ "V".toList ++ [x, y, z]).reverse ++ [], r', [(1, [x, y, z])]⟩ := by
      have e : ("#VRML".toList ++ b ++ "V".toList ++ [x, y, z]) ++ r' =
          "#VRML".toList ++ (b ++ ("V".toList ++ ([x, y, z] ++ r'))) := by simp
      rw [e]
      refine first_seq (first_lit _ _ _ _) ?_
      refine first_seq (first_plus_chr (r := 'V' :: ([x, y, z] ++ r')) hb (fun c hc => (hb' c hc).1)
        (stops_cons (by decide) _) _ _) ?_
      refine first_seq (first_lit _ _ _ _) ?_
      show (Re.group 1 _).first ⟨_, [x, y, z] ++ r', []⟩ = _
      rw [first_group' (w := [x, y, z]) (g' := [])]
      · simp
      · exact first_seq (first_chr hx) (first_seq (first_chr (by simpa using hy)) (first_chr hz))
    exact ⟨_, _, reSearch_hit' key, rfl⟩
  · simp at h

/-- **C115 (what holds).** A VRML file of version 2.0 with a single shape, whose cells have three or four distinct points, is
loaded as this shape: its points, and its cells as faces. -/
theorem C115_wrl_partial (b r : Str) (hb : b ≠ []) (hb' : ∀ c ∈ b, isSpace c = true ∧ c ≠ '\n') (d : VtkData)
    (h : ∀ c ∈ d.cells, (c.length = 3 ∨ c.length = 4) ∧ c.Nodup) :
    ∃ m, loadWRL ("#VRML".toList ++ b ++ "V2.0".toList ++ r) [d] = .ok m ∧ m.vertices = d.points ∧
      m.faces.map around = d.cells := by
  obtain ⟨m, hm, h1, h2⟩ := C103_vtk_partial d h
  obtain ⟨g, t, hs, hg⟩ := search_wrl hb hb' (x := '2') (y := '.') (z := '0') (by decide) (by decide) (by decide) r
  refine ⟨m, ?_, h1, h2⟩
  have e : "#VRML".toList ++ b ++ "V2.0".toList ++ r = "#VRML".toList ++ b ++ "V".toList ++ ['2', '.', '0'] ++ r := by simp
  unfold loadWRL
  rw [e, hs]
  simp only [hg]
  rw [if_neg (by decide)]
  exact hm

/-- **C115.** Files of another version are refused, whatever they contain. -/
theorem C115_version (b r : Str) (hb : b ≠ []) (hb' : ∀ c ∈ b, isSpace c = true ∧ c ≠ '\n') (x z : Char)
    (hx : isDigit x = true) (hz : isDigit z = true) (hv : ¬ (x = '2' ∧ z = '0')) (shapes : List VtkData) :
    loadWRL ("#VRML".toList ++ b ++ "V".toList ++ [x, '.', z] ++ r) shapes = .error .notImplemented := by
  obtain ⟨g, t, hs, hg⟩ := search_wrl hb hb' hx (y := '.') (by decide) hz r
  unfold loadWRL
  rw [hs]
  simp only [hg]
  rw [if_pos]
  intro he
  have : [x, '.', z] = ['2', '.', '0'] := he
  simp only [List.cons.injEq, and_true] at this
  exact hv ⟨this.1, this.2.2⟩

/-- **C115.** Files whose first line has no `#` are refused by an `AttributeError`. -/
theorem C115_no_header (text : Str) (h : '#' ∉ (linesOf text).headD []) (shapes : List VtkData) :
    loadWRL text shapes = .error .attributeError := by
  unfold loadWRL
  rw [reSearch_none]
  intro w1 w2 e
  apply runs_seq_nil_left
  by_contra hc
  obtain ⟨t, ht⟩ := List.exists_mem_of_ne_nil _ hc
  obtain ⟨w, hw, -⟩ := mem_lit ht
  apply h
  rw [e, hw]
  simp

/-- **C115 fails** as soon as a file has two shapes: all but the first are lost, without an error. -/
theorem C115_shapes_lost (text : Str) (d : VtkData) (ds : List VtkData) :
    loadWRL text (d :: ds) = loadWRL text [d] := rfl

/-- The hypotheses of C115 are met, and a second shape is lost. -/
theorem wrl_meets_C115 :
    (loadWRL "#VRML V2.0 utf8\nShape {}".toList
      [⟨[⟨0, 0, 0⟩, ⟨1, 0, 0⟩, ⟨0, 1, 0⟩], [[0, 1, 2]]⟩, ⟨[⟨0, 0, 5⟩, ⟨1, 0, 5⟩, ⟨0, 1, 5⟩], [[0, 1, 2]]⟩]).toOption.map
        (fun m => (m.vertices, m.faces)) = some ([⟨0, 0, 0⟩, ⟨1, 0, 0⟩, ⟨0, 1, 0⟩], [⟨0, 1, 2, 0⟩]) := by
  decide +kernel

end MM.Io
