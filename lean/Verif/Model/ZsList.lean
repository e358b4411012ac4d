import Verif.Model.Helpers
/-!
# Model of `usefuls.get_zs_list`

The pattern of file names is a beginning and an end, with one star between them.  Names and paths are lists of characters.
Simplified: the directory has none of the characters `*`, `?`, `[` that have a meaning in patterns.
-/

namespace Verif.ZsList

open Verif.Helpers

/-- Whether `glob.glob` lists the name for the pattern `first*last` (`usefuls.py` line 33): a star at the beginning of a pattern does not stand for the
names of hidden files. -/
def listed (first last name : List Char) : Bool :=
  first.isPrefixOf name && last.isSuffixOf name && decide (first.length + last.length ≤ name.length) &&
    !(first == [] && name.head? == some '.')

/-- `get_zs_list(dir, '/first*last')` (`usefuls.py` lines 23-36) for the names `names` in the directory; the redshifts are those of
`_get_file_redshifts(None, …)` (`lightcone.py` lines 553-555). -/
def getZsList (dir first last : List Char) (names : List (List Char)) : Except String (List ℚ) :=
  match (names.filter (listed first last)).mapM fun n => redshiftFromFilename (dir ++ '/' :: n) with
  | .error e => .error e
  | .ok zs => .ok (zs.mergeSort fun a b => decide (a ≤ b))

end Verif.ZsList
