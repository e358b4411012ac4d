import Verif.Model.Helpers
/-!
# Model of the lists of redshifts from the names of files in `helper_functions.py`

A string is a list of characters.  `float` of Python is an argument, `none` where it raises.  A directory is the list of the
names of its files, in the order of `glob.glob`, which is arbitrary.
-/

namespace Verif.NameRedshifts

abbrev Str := List Char

/-- `s.split(pat)[0]`: the string before the first occurrence of `pat`. -/
def before (pat : Str) : Str → Str
  | [] => []
  | c :: s => if pat.isPrefixOf (c :: s) then [] else c :: before pat s

/-- `s.rfind(pat)` for a pattern that is not empty; `none` is -1. -/
def rfind (pat : Str) : Str → Option ℕ
  | [] => none
  | c :: s =>
    match rfind pat s with
    | some i => some (i + 1)
    | none => if pat.isPrefixOf (c :: s) then some 0 else none

/-- The string after the last `c`, or all of it: `s.split(c)[-1]`, `s[s.rfind(c)+1:]`. -/
def afterLast (c : Char) (s : Str) : Str := (s.reverse.takeWhile (· ≠ c)).reverse

/-- `os.path.join(dir, name)` for a name without a slash at its beginning. -/
def join (dir name : Str) : Str :=
  if dir = [] then name else if dir.getLast? = some '/' then dir ++ name else dir ++ '/' :: name

/-- Which of the three functions. -/
inductive Kind
  | source
  | xfrac
  | dens
  deriving DecidableEq

def sourceTail : Str := "-coarsest_wsubgrid_sources.dat".toList
def sourceMark : Str := "-coarsest_wsubgrid_sources".toList
def xfracHead : Str := ['x', 'f', 'r', 'a', 'c']
def xfracTail : Str := ['.', 'b', 'i', 'n']
def densTail : Str := ['n', '_', 'a', 'l', 'l', '.', 'd', 'a', 't']

/-- The patterns of `glob.glob` (`helper_functions.py` lines 42, 69 and 96).  A star at the beginning does not match a dot. -/
def globbed (k : Kind) (name : Str) : Bool :=
  match k with
  | .source => sourceTail.isSuffixOf name && name.head? != some '.'
  | .xfrac => xfracHead.isPrefixOf name && xfracTail.isSuffixOf name
  | .dens => densTail.isSuffixOf name && name.head? != some '.'

/-- The text handed to `float` (`helper_functions.py` lines 47, 74 and 101), for the path of a file. -/
def text (k : Kind) (f : Str) : Str :=
  match k with
  | .source =>
    let start := f.length - (afterLast '/' f).length
    match rfind sourceMark f with
    | some i => (f.take i).drop start
    | none => f.dropLast.drop start
  | .xfrac => let p := afterLast '_' f; p.take (p.length - 4)
  | .dens => before ['n', '_'] (afterLast '/' f)

variable {K : Type} [Field K] [LinearOrder K]

/-- `get_source_redshifts`, `get_xfrac_redshifts` and `get_dens_redshifts` (`helper_functions.py` lines 28-106): the files
whose text is not a number are left out. -/
def getRedshifts (k : Kind) (float : Str → Option K) (dir : Str) (names : List Str) (zLow zHigh : Option K)
    (bracket : Bool) : Except String (List K) :=
  let files := (names.filter (globbed k)).map (join dir)
  Helpers.redshiftsInRange (files.filterMap fun f => float (text k f)) zLow zHigh bracket

end Verif.NameRedshifts
