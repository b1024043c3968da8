import Verif.Spec.Rad

/-!
# Specification: INP files

An INP file declares frames, and gives for each set of nodes and each set of elements the mesh file where it is. A mesh file has
lines of nodes, then sections of elements.
-/

namespace MM.Io

open MM

/-- An element: its number and the numbers of its three or four nodes, in columns. -/
structure InpElement where
  first : ℕ × ℕ
  others : List (ℕ × ℕ)

def InpElement.line (e : InpElement) : Str := column e.first ++ e.others.flatMap column

def InpElement.Written (e : InpElement) : Prop :=
  0 < e.first.1 ∧ (e.others.length = 3 ∨ e.others.length = 4) ∧ ∀ c ∈ e.others, 0 < c.1

/-- The numbers of its nodes; the first one again at the end for a triangle. -/
def InpElement.corners (e : InpElement) : List ℕ :=
  let l := e.others.map Prod.snd
  if l.length = 3 then l ++ l.take 1 else l

/-- A section: lines of key words and comments, then elements. -/
structure InpSection where
  keys : List Str
  elements : List InpElement

def InpSection.text (s : InpSection) : Str := lines id s.keys ++ lines InpElement.line s.elements

/-- A mesh file. `keys` is the last line before the nodes. -/
structure InpMesh where
  before : List Str
  keys : Str
  nodes : List RadNode
  sections : List InpSection
  after : List Str

def InpMesh.text (f : InpMesh) : Str :=
  lines id (f.before ++ [f.keys]) ++ (lines RadNode.line f.nodes ++ (f.sections.flatMap InpSection.text ++ lines id f.after))

/-- Key words and comments are on their own lines, without point; the last line before the nodes ends with a letter. -/
structure InpMesh.Written (f : InpMesh) : Prop where
  before : ∀ l ∈ f.before ++ [f.keys], KeyLine l ∧ '.' ∉ l
  keys : ∃ w c, f.keys = w ++ [c] ∧ (isSpace c || isDigit c || c == '+' || c == '-') = false
  nodes : f.nodes ≠ [] ∧ ∀ n ∈ f.nodes, n.Written
  sections : ∀ s ∈ f.sections, (s.keys ≠ [] ∧ ∀ l ∈ s.keys, KeyLine l ∧ '.' ∉ l) ∧ s.elements ≠ [] ∧ ∀ e ∈ s.elements, e.Written
  after : ∀ l ∈ f.after, KeyLine l ∧ '.' ∉ l

/-- The position of the node whose number is `i`. -/
def InpMesh.position (f : InpMesh) (i : ℕ) : Option (V3 ℚ) := (f.nodes.find? fun n => n.id = i).map RadNode.p

/-- A line of an INP file (two lines for a frame): a frame with the words of its vector and the two characters between them; a
line of nodes (`true`) or elements with its options; anything else. -/
inductive InpLine where
  | other (l : Str)
  | frame (name wx wy wz : Str) (s1 s2 : Char) (v : V3 ℚ)
  | field (node : Bool) (opts : List (Str × Str))

/-- An option. -/
def optText (o : Str × Str) : Str := o.1 ++ '=' :: o.2

/-- Options separated by commas. -/
def optsText : List (Str × Str) → Str
  | [] => []
  | [o] => optText o
  | o :: os => optText o ++ ',' :: optsText os

def fieldType (node : Bool) : Str := if node then "NODE".toList else "ELEMENT".toList

def InpLine.text : InpLine → Str
  | .other l => l ++ ['\n']
  | .frame name wx wy wz s1 s2 _ =>
    ("*FRAME,NAME=".toList ++ name ++ ['\n']) ++ ((wx ++ s1 :: (wy ++ s2 :: wz)) ++ ['\n'])
  | .field node opts => ('*' :: (fieldType node ++ ',' :: optsText opts)) ++ ['\n']

/-- A word which is the number `x`. -/
def VectorWord (w : Str) (x : ℚ) : Prop :=
  parseFloat w = some x ∧ w ≠ [] ∧ ∀ c ∈ w, isSpace c = false ∧ c ≠ ',' ∧ c ≠ '*'

/-- A name: not empty, on one line, no blank at the ends. -/
def NameWord (w : Str) : Prop := '\n' ∉ w ∧ ∃ c t, w = c :: t ∧ isSpace c = false ∧ ∃ t' c', w = t' ++ [c'] ∧ isSpace c' = false

def InpLine.Written : InpLine → Prop
  | .other l => '\n' ∉ l ∧ (∃ c t, l = c :: t ∧ isSpace c = false) ∧ (¬ "*FRAME,NAME=".toList <+: l) ∧
      (¬ "*NODE,".toList <+: l) ∧ ¬ "*ELEMENT,".toList <+: l
  | .frame name wx wy wz s1 s2 v => NameWord name ∧ VectorWord wx v.x ∧ VectorWord wy v.y ∧ VectorWord wz v.z ∧
      (s1 = ',' ∨ s1 = ' ') ∧ (s2 = ',' ∨ s2 = ' ')
  | .field _ opts => opts ≠ [] ∧ (opts.map Prod.fst).Nodup ∧ "type".toList ∉ opts.map Prod.fst ∧
      ∀ o ∈ opts, (∀ c ∈ o.1, c ≠ ',' ∧ c ≠ '=' ∧ c ≠ '\n') ∧ (∀ c ∈ o.2, c ≠ ',' ∧ c ≠ '=') ∧ NameWord o.2

def InpLine.frame? : InpLine → Option (Str × V3 ℚ)
  | .frame name _ _ _ _ _ v => some (name, v)
  | _ => none

def InpLine.field? : InpLine → Option (Bool × List (Str × Str))
  | .field node opts => some (node, opts)
  | _ => none

end MM.Io
