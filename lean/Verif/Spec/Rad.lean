import Verif.Spec.Io

/-!
# Specification: RADIOSS files

Lines of key words and comments, the lines of the nodes, lines of key words and comments, the lines of the shell elements.
-/

namespace MM.Io

open MM

/-- `k` blanks. -/
def sp (k : ℕ) : Str := List.replicate k ' '

/-- A decimal number with a point: sign, digits, point, digits, exponent. -/
structure Decimal where
  sign : Str
  ip : Str
  fp : Str
  exp : Str

def Decimal.word (d : Decimal) : Str := d.sign ++ (d.ip ++ '.' :: (d.fp ++ d.exp))

/-- What can be written in a file: an optional sign, at least a digit before the point, an optional exponent. -/
def Decimal.Proper (d : Decimal) : Prop :=
  (d.sign = [] ∨ d.sign = ['-'] ∨ d.sign = ['+']) ∧ (∀ c ∈ d.ip, isDigit c = true) ∧ d.ip ≠ [] ∧
    (∀ c ∈ d.fp, isDigit c = true) ∧
    (d.exp = [] ∨ ∃ e s w, d.exp = e :: (s ++ w) ∧ (e = 'E' ∨ e = 'e') ∧ (s = [] ∨ s = ['-'] ∨ s = ['+']) ∧
      (∀ c ∈ w, isDigit c = true) ∧ w ≠ [])

/-- A node: its number, its position, the words of its coordinates, the numbers of blanks before each of the four columns and
at the end of the line. -/
structure RadNode where
  id : ℕ
  p : V3 ℚ
  x : Decimal
  y : Decimal
  z : Decimal
  b0 : ℕ
  bx : ℕ
  by' : ℕ
  bz : ℕ
  b1 : ℕ

def RadNode.line (n : RadNode) : Str :=
  sp n.b0 ++ (natStr n.id ++ (sp n.bx ++ (n.x.word ++ (sp n.by' ++ (n.y.word ++ (sp n.bz ++ (n.z.word ++ sp n.b1)))))))

/-- Columns separated by blanks, whose words are the numbers of the coordinates. -/
def RadNode.Written (n : RadNode) : Prop :=
  0 < n.bx ∧ 0 < n.by' ∧ 0 < n.bz ∧ n.x.Proper ∧ n.y.Proper ∧ n.z.Proper ∧
    parseFloat n.x.word = some n.p.x ∧ parseFloat n.y.word = some n.p.y ∧ parseFloat n.z.word = some n.p.z

/-- A column: a number of blanks and a number. -/
def column (c : ℕ × ℕ) : Str := sp c.1 ++ natStr c.2

/-- An element: seven numbers in columns, the last four are the numbers of its nodes; the number of blanks at the end of the
line. -/
structure RadElement where
  first : ℕ × ℕ
  others : List (ℕ × ℕ)
  b1 : ℕ

def RadElement.line (e : RadElement) : Str := column e.first ++ (e.others.flatMap column ++ sp e.b1)

def RadElement.Written (e : RadElement) : Prop := e.others.length = 6 ∧ ∀ c ∈ e.others, 0 < c.1

def RadElement.nodes (e : RadElement) : List ℕ := (e.others.drop 2).map Prod.snd

/-- A line of key words or comments: its first character is neither a blank nor a digit. -/
def KeyLine (l : Str) : Prop := '\n' ∉ l ∧ ∃ c t, l = c :: t ∧ isSpace c = false ∧ isDigit c = false

/-- Lines of a text. -/
def lines {α : Type} (line : α → Str) (l : List α) : Str := l.flatMap fun a => line a ++ ['\n']

/-- A file. `keys` is the last line before the nodes (`/NODE`). -/
structure RadFile where
  before : List Str
  keys : Str
  nodes : List RadNode
  between : List Str
  elements : List RadElement
  after : Str

def RadFile.text (f : RadFile) : Str :=
  lines id (f.before ++ [f.keys]) ++ (lines RadNode.line f.nodes ++ (lines id f.between ++
    (lines RadElement.line f.elements ++ f.after)))

/-- The lines are as they should: key words and comments on their own lines, without point before the nodes, the last line
before the nodes ends with a letter, something separates the nodes from the elements. -/
structure RadFile.Written (f : RadFile) : Prop where
  before : ∀ l ∈ f.before ++ [f.keys], KeyLine l ∧ '.' ∉ l
  keys : ∃ w c, f.keys = w ++ [c] ∧ (isSpace c || isDigit c || c == '+' || c == '-') = false
  nodes : ∀ n ∈ f.nodes, n.Written
  between : f.between ≠ [] ∧ ∀ l ∈ f.between, KeyLine l
  elements : ∀ e ∈ f.elements, e.Written
  after : f.after = [] ∨ ∃ c t, f.after = c :: t ∧ isSpace c = false ∧ isDigit c = false

/-- The position of the node whose number is `i`. -/
def RadFile.position (f : RadFile) (i : ℕ) : Option (V3 ℚ) := (f.nodes.find? fun n => n.id = i).map RadNode.p

end MM.Io
