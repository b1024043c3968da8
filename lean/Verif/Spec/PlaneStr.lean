import Verif.Model.Text

/-!
# Specification: the numbers of a text

A reader who looks for numbers only takes the longest pieces of the text made of digits, points and signs.
-/

namespace MM

/-- Characters of a decimal number. -/
def isNumberChar (c : Char) : Bool := isDigit c || c == '.' || c == '-' || c == '+'

/-- The numbers of a text: everything else is taken for a blank. -/
def numbersIn (s : Str) : List ℚ := (split (s.map fun c => if isNumberChar c then c else ' ')).filterMap parseFloat

end MM
