import Mathlib.Data.Int.Log
import Mathlib.Algebra.Order.Field.Rat
import Mathlib.Data.Rat.Floor
import Mathlib.Tactic.NormNum
import Verif.Model.Densities
import Verif.Model.Mesh

/-!
# Text: formatting and parsing of numbers, lines and words

Model of what `meshmagick/mmio.py` uses of Python to write and read text files. A text is a list of characters. Numbers
are rationals (floating point numbers are rationals; the conversion of a decimal literal to the nearest floating point
number is not modelled: `float` returns the value of the literal).
-/

namespace MM

/-! ### Decimal digits -/

/-- The character of a digit. -/
def digitChar (d : ℕ) : Char := Char.ofNat (48 + d)

/-- Is the character one of `0` … `9`? -/
def isDigit (c : Char) : Bool := 48 ≤ c.toNat && c.toNat ≤ 57

/-- Value of a digit. -/
def digitVal (c : Char) : ℕ := c.toNat - 48

/-- Decimal digits of a number, with fuel. -/
def natStrF : ℕ → ℕ → Str
  | 0, n => [digitChar n]
  | f + 1, n => if n < 10 then [digitChar n] else natStrF f (n / 10) ++ [digitChar (n % 10)]

/-- `'%u' % n`, `'{:d}'.format(n)`, `str(n)` of a natural number. -/
def natStr (n : ℕ) : Str := natStrF n n

/-- The last `k` decimal digits of `r`. -/
def digitsW : ℕ → ℕ → Str
  | 0, _ => []
  | k + 1, r => digitsW k (r / 10) ++ [digitChar (r % 10)]

/-- Right justification with spaces: `'%5u'`, `'{:5d}'`, `'{:>5}'`, … -/
def padL (w : ℕ) (s : Str) : Str := List.replicate (w - s.length) ' ' ++ s

/-! ### Rounded numbers -/

/-- Rounding to the nearest integer, ties to even: the rounding of `%f`, `%e`. -/
def roundEven (q : ℚ) : ℤ :=
  let f := ⌊q⌋
  if q - f < 1 / 2 then f
  else if 1 / 2 < q - f then f + 1
  else if f % 2 = 0 then f else f + 1

/-- The sign printed. -/
def signStr (x : ℚ) : Str := if x < 0 then ['-'] else []

/-- `|x|` in units of `10 ^ -dec`, rounded. -/
def fixedUnits (dec : ℕ) (x : ℚ) : ℕ := (roundEven (|x| * 10 ^ dec)).toNat

/-- `'%.{dec}f' % x`. -/
def fixedStr (dec : ℕ) (x : ℚ) : Str :=
  let q := fixedUnits dec x
  signStr x ++ natStr (q / 10 ^ dec) ++ '.' :: digitsW dec (q % 10 ^ dec)

/-- Mantissa (in units of `10 ^ -dec`) and exponent of `'%.{dec}E' % x`. -/
def sciParts (dec : ℕ) (x : ℚ) : ℕ × ℤ :=
  if x = 0 then (0, 0)
  else
    let e := Int.log 10 |x|
    let m := (roundEven (|x| * 10 ^ ((dec : ℤ) - e))).toNat
    if m = 10 ^ (dec + 1) then (10 ^ dec, e + 1) else (m, e)

/-- The exponent, with at least two digits. -/
def expStr (e : ℤ) : Str :=
  (if e < 0 then '-' else '+') :: (if e.natAbs < 10 then '0' :: natStr e.natAbs else natStr e.natAbs)

/-- `'%.{dec}E' % x`. -/
def sciStr (dec : ℕ) (x : ℚ) : Str :=
  let p := sciParts dec x
  signStr x ++ natStr (p.1 / 10 ^ dec) ++ '.' :: (digitsW dec (p.1 % 10 ^ dec) ++ 'E' :: expStr p.2)

/-! ### Words and lines -/

/-- `str.isspace` of an ASCII character (the separators `\x1c` … `\x1f` excepted). -/
def isSpace (c : Char) : Bool := c == ' ' || (9 ≤ c.toNat && c.toNat ≤ 13)

/-- The words of a text; `cur` is the current word, reversed. -/
def splitAux : Str → Str → List Str
  | cur, [] => if cur = [] then [] else [cur.reverse]
  | cur, c :: s =>
    if isSpace c then (if cur = [] then splitAux [] s else cur.reverse :: splitAux [] s)
    else splitAux (c :: cur) s

/-- `s.split()`. -/
def split (s : Str) : List Str := splitAux [] s

/-- The lines of a text, each with its end; `cur` is the current line, reversed. -/
def linesAux : Str → Str → List Str
  | cur, [] => if cur = [] then [] else [cur.reverse]
  | cur, c :: s => if c = '\n' then ('\n' :: cur).reverse :: linesAux [] s else linesAux (c :: cur) s

/-- The successive results of `f.readline()` before the end of the file (a final line may lack its end). At the end of the
file `readline` returns the empty string. The translation of `\r\n` is not modelled. -/
def linesOf (s : Str) : List Str := linesAux [] s

/-! ### Parsing of numbers -/

/-- The number of a string of digits. -/
def digitsVal (s : Str) : ℕ := s.foldl (fun a c => 10 * a + digitVal c) 0

/-- A sign and what follows. -/
def stripSign : Str → Bool × Str
  | '-' :: s => (true, s)
  | '+' :: s => (false, s)
  | s => (false, s)

/-- `int(s)` for a word `s`; `None`: `ValueError`. Underscores and non-ASCII digits are not accepted here. -/
def parseInt (s : Str) : Option ℤ :=
  let p := stripSign s
  if p.2 ≠ [] ∧ p.2.all isDigit = true then some (if p.1 then -(digitsVal p.2 : ℤ) else digitsVal p.2) else none

/-- `float(s)` for a word `s`; `None`: `ValueError`. Underscores, `inf`, `nan` and non-ASCII digits are not accepted
here. -/
def parseFloat (s : Str) : Option ℚ :=
  let p := stripSign s
  let ip := p.2.takeWhile isDigit
  let r := p.2.dropWhile isDigit
  let q : Str × Str :=
    match r with
    | '.' :: t => (t.takeWhile isDigit, t.dropWhile isDigit)
    | _ => ([], r)
  let sgn : ℚ := if p.1 then -1 else 1
  let v : ℤ → ℚ := fun e => sgn * (digitsVal (ip ++ q.1) : ℚ) * 10 ^ (e - (q.1.length : ℤ))
  if ip = [] ∧ q.1 = [] then none
  else
    match q.2 with
    | [] => some (v 0)
    | c :: t => if c = 'e' ∨ c = 'E' then (parseInt t).map v else none

end MM
