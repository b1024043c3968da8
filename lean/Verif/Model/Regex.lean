import Verif.Model.Text

/-!
# Regular expressions

Model of what `meshmagick/mmio.py` uses of the module `re` of Python: a backtracking matcher. The result of matching an
expression is the list of all the ways to match it, in the order in which the backtracking matcher tries them; Python
returns the first one.
-/

namespace MM

/-- Regular expressions used by the loaders (mmio.py:8, 134-138, 190, 208, 225, 442-445, 858-859, 866, 872, 939). -/
inductive Re where
  | eps
  /-- a character of a class -/
  | chr (p : Char → Bool)
  /-- `^` with `re.MULTILINE` -/
  | bol
  /-- `$` with `re.MULTILINE` -/
  | eol
  | seq (a b : Re)
  /-- `a|b` -/
  | alt (a b : Re)
  /-- `(?:a)*` -/
  | star (a : Re)
  /-- `(?:a)*?` -/
  | lazy (a : Re)
  /-- `(a)`, the group number `n` -/
  | group (n : ℕ) (a : Re)

/-- A state of the matcher: the characters already read (the last one first), the characters left, and the groups (the last
one set first). -/
structure ReState where
  pre : Str
  post : Str
  groups : List (ℕ × Str) := []
deriving DecidableEq, Repr

/-- Greedy repetition: one more time first, not any more second. A repetition which reads nothing is not tried again (none of
the bodies used can match the empty string). The first argument bounds the number of repetitions. -/
def starRuns (f : ReState → List ReState) : ℕ → ReState → List ReState
  | 0, s => [s]
  | n + 1, s => ((f s).filter fun t => t.post.length < s.post.length).flatMap (starRuns f n) ++ [s]

/-- Lazy repetition: not any more first, one more time second. -/
def lazyRuns (f : ReState → List ReState) : ℕ → ReState → List ReState
  | 0, s => [s]
  | n + 1, s => s :: ((f s).filter fun t => t.post.length < s.post.length).flatMap (lazyRuns f n)

/-- The ways to match an expression from a state, in the order of the backtracking. -/
def Re.runs : Re → ReState → List ReState
  | .eps, s => [s]
  | .chr p, s =>
    match s.post with
    | [] => []
    | c :: t => if p c then [{ s with pre := c :: s.pre, post := t }] else []
  | .bol, s => if s.pre = [] ∨ s.pre.head? = some '\n' then [s] else []
  | .eol, s => if s.post = [] ∨ s.post.head? = some '\n' then [s] else []
  | .seq a b, s => (a.runs s).flatMap b.runs
  | .alt a b, s => a.runs s ++ b.runs s
  | .star a, s => starRuns a.runs s.post.length s
  | .lazy a, s => lazyRuns a.runs s.post.length s
  | .group n a, s =>
    (a.runs s).map fun t => { t with groups := (n, (t.pre.take (t.pre.length - s.pre.length)).reverse) :: t.groups }

namespace Re

/-- `(?:a)+` -/
def plus (a : Re) : Re := .seq a (.star a)

/-- `(?:a)?` -/
def opt (a : Re) : Re := .alt a .eps

/-- `(?:a){n}` -/
def rep (a : Re) : ℕ → Re
  | 0 => .eps
  | n + 1 => .seq a (rep a n)

/-- `(?:a){n,}` -/
def atLeast (a : Re) (n : ℕ) : Re := .seq (rep a n) (.star a)

/-- A literal string. -/
def lit : Str → Re
  | [] => .eps
  | c :: s => .seq (.chr (· == c)) (lit s)

/-- `\s*`, `\s+`, `\d*`, `\d+`, `\S+`, `.+`, `.*`. -/
def ws : Re := .star (.chr isSpace)
def ws1 : Re := plus (.chr isSpace)
def ds : Re := .star (.chr isDigit)
def ds1 : Re := plus (.chr isDigit)
def nonws1 : Re := plus (.chr fun c => !isSpace c)
def dots : Re := .star (.chr fun c => c != '\n')
def dots1 : Re := plus (.chr fun c => c != '\n')

/-- `(?:a)+?` -/
def lazyPlus (a : Re) : Re := .seq a (.lazy a)

/-- `.+`, `.*` with `re.DOTALL` -/
def anys1 : Re := plus (.chr fun _ => true)
def anys : Re := .star (.chr fun _ => true)

/-- `[\r\n]+` -/
def eols1 : Re := plus (.chr fun c => c == '\r' || c == '\n')

end Re

/-- A match: its text and its groups. -/
structure ReMatch where
  text : Str
  groups : List (ℕ × Str)
deriving DecidableEq, Repr

/-- `m.group(n)` of a group which takes part in the match. -/
def ReMatch.group (m : ReMatch) (n : ℕ) : Str := (m.groups.lookup n).getD []

/-- The first match from a state on, and the state after it: `pattern.search`. The arguments are the text left and the text
already read (the last character first). -/
def reSearch (r : Re) : Str → Str → Option (ReMatch × ReState)
  | [], pre =>
    match (r.runs ⟨pre, [], []⟩).head? with
    | some t => some (⟨(t.pre.take (t.pre.length - pre.length)).reverse, t.groups⟩, t)
    | none => none
  | c :: s, pre =>
    match (r.runs ⟨pre, c :: s, []⟩).head? with
    | some t => some (⟨(t.pre.take (t.pre.length - pre.length)).reverse, t.groups⟩, t)
    | none => reSearch r s (c :: pre)

/-- `pattern.finditer`. The first argument bounds the number of matches. Matches of the empty string, which the patterns used
do not have, are not modelled. -/
def reFindall (r : Re) : ℕ → Str → Str → List ReMatch
  | 0, _, _ => []
  | n + 1, post, pre =>
    match reSearch r post pre with
    | none => []
    | some (m, t) => m :: reFindall r n t.post t.pre

/-- `pattern.finditer(text)` -/
def findall (r : Re) (text : Str) : List ReMatch := reFindall r (text.length + 1) text []

/-- `pattern.search(text)` -/
def research (r : Re) (text : Str) : Option ReMatch := (reSearch r text []).map Prod.fst

end MM
