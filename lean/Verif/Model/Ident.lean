/-!
# Names as numbers

The names of functions and variables of the package in the tables of `Model/NamespaceTable.lean` and `Model/CallsTable.lean` (all of `src/tools21cm`, for example
`const.py` lines 9-112) are kept as numbers, so that comparing them is quick: `n!"h0"` stands for the number whose digits in base 256 are the characters of the name, the
first one being the lowest.  Different names are different numbers (`Lemmas/Ident.lean`).
-/

namespace Verif

/-- The number of a list of characters (a simplification: Python compares the names, for example those of `__init__.py` lines 24-95, as strings). -/
def encodeChars : List Char → Nat
  | [] => 0
  | c :: cs => c.toNat + 256 * encodeChars cs

/-- The number of a name (see `encodeChars`; for example of the names of `__init__.py` lines 24-95). -/
def encode (s : String) : Nat := encodeChars s.toList

/-- A name (for example of `__init__.py` lines 24-95). -/
abbrev Ident := Nat

open Lean in
macro:max "n!" s:str : term => return Syntax.mkNumLit (toString (encode s.getString))

end Verif
