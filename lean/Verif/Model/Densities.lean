import Verif.Model.Merge

/-!
# Model of `meshmagick/densities.py`

A string is the list of its characters. `str.upper` replaces each character by its upper case form, which can have
several characters; this table of the Python interpreter is the parameter `up`.
-/

namespace MM

/-- Python strings. -/
abbrev Str := List Char

/-- `str.upper` for the table `up` of upper case forms. -/
def pyUpper (up : Char → List Char) (s : Str) : Str := s.flatMap up

/-- `_DENSITIES` (densities.py:6-24), in order. -/
def densityTable : List (String × ℚ) :=
  [("CONCRETE", 2300), ("REINFORCED_CONCRETE", 2400), ("FRESH_WATER", 1000), ("SALT_WATER", 1025), ("SAND", 1600),
   ("STEEL", 7850), ("ALUMINUM", 2700), ("LEAD", 11350), ("TITANIUM", 4500), ("POLYSTYRENE", 1050),
   ("GASOLINE", 750), ("DIESEL_FUEL", 850), ("ETHANOL", 789), ("AIR_20DEGC", 1.204), ("BUTANE", 2.7),
   ("PROPANE", 2.01), ("HYDROGEN_-252DEGC", 70), ("NITROGEN_-195DEGC", 810)]

/-- `get_density` (densities.py:27-44); `medium` is a string. -/
def getDensity (up : Char → List Char) (medium : Str) : Except PyErr ℚ :=
  match densityTable.find? (fun e => e.1.toList == pyUpper up medium) with
  | some e => .ok e.2
  | none => .error .keyError

/-- `list_medium` (densities.py:47-55). -/
def listMedium : List String := densityTable.map Prod.fst

end MM
