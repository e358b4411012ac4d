import Mathlib.Algebra.Order.Field.Basic
import Mathlib.Data.List.Sort
import Mathlib.Data.Rat.Defs
/-!
# Model of table lookup, pooling, file-name and redshift-selection helpers of `helper_functions.py`

Floating point numbers are elements of an ordered field `K` (exact).
-/

namespace Verif.Helpers

variable {K : Type} [Field K] [LinearOrder K]

/-! ### `find_idx` -/

/-- `values[values > ar.max()] = ar.max(); values[values < ar.min()] = ar.min()` for one value
(`helper_functions.py` lines 528-530). -/
def clamp (mn mx v : K) : K :=
  let v := if mx < v then mx else v
  if v < mn then mn else v

/-- `np.all(dv >= 0.)` with `dv = ar[1:]-ar[:-1]` (`helper_functions.py` lines 533-534). -/
def ascending (ar : List K) : Bool := (ar.zip ar.tail).all fun p => decide (0 ≤ p.2 - p.1)

/-- `np.all(dv <= 0.)`. -/
def descending (ar : List K) : Bool := (ar.zip ar.tail).all fun p => decide (p.2 - p.1 ≤ 0)

/-- `np.searchsorted(ar, v)` of an ascending array: the number of entries below `v`. -/
def searchsorted (ar : List K) (v : K) : ℕ := (ar.filter fun x => decide (x < v)).length

/-- `ar[i]` for an index that may be -1 (`helper_functions.py` lines 546-547); out of range raises. -/
def pyGet (ar : List K) (i : ℤ) : Option K :=
  if 0 ≤ i then ar[i.toNat]? else if -i ≤ ar.length then ar[((ar.length : ℤ) + i).toNat]? else none

/-- `find_idx(ar, v)` for one value (`helper_functions.py` lines 514-554).  `none` inside `ok` is nan (0/0). -/
def findIdx (ar : List K) (v : K) : Except String (Option K) :=
  match ar.min?, ar.max? with
  | some mn, some mx =>
    let v := clamp mn mx v
    if ascending ar = false ∧ descending ar = false then .error "ValueError"
    else
      let decreasing := descending ar
      let ar := if decreasing then ar.reverse else ar
      let k : ℤ := (searchsorted ar v : ℤ) - 1
      match pyGet ar k, pyGet ar (k + 1) with
      | some x1, some x2 =>
        if x2 - x1 = 0 then .ok none   -- 0/0: only reached with v = x1
        else
          let out := (k : K) + (v - x1) / (x2 - x1)
          .ok (some (if decreasing then (ar.length : K) - 1 - out else out))
      | _, _ => .error "IndexError"
  | _, _ => .error "ValueError"

/-- What a call leaves in the array `values` the caller passed: `np.atleast_1d` returns the same
array object, and lines 529-530 assign into it. The clamping precedes the monotonicity test. -/
def findIdxValuesAfter (ar values : List K) : List K :=
  match ar.min?, ar.max? with
  | some mn, some mx => values.map (clamp mn mx)
  | _, _ => values

/-! ### `combined_mean_variance` -/

/-- `combined_mean_variance` (`helper_functions.py` lines 581-639) for scalar means: triples (mean, variance,
sample size). -/
def combined (g : List (K × K × K)) : K × K :=
  let total := (g.map fun t => t.2.2).sum
  let mean := (g.map fun t => t.2.2 * t.1).sum / total
  let var := (g.map fun t => (t.2.2 - 1) * t.2.1 + t.2.2 * (t.1 - mean) ^ 2).sum / (total - 1)
  (mean, var)

/-- The call without sample sizes: `np.ones(means.shape)` (lines 628-629). -/
def combinedDefault (g : List (K × K)) : K × K := combined (g.map fun t => (t.1, t.2, 1))

/-! ### Redshift from a file name -/

/-- `os.path.basename`: everything after the last slash. -/
def basename (s : List Char) : List Char := (s.reverse.takeWhile (· ≠ '/')).reverse

/-- `os.path.splitext(s)[0]` of a base name: the part before the last dot, unless only dots
precede it. -/
def stem (s : List Char) : List Char :=
  if '.' ∈ s then
    let pre := ((s.reverse.dropWhile (· ≠ '.')).drop 1).reverse
    if pre.all (· == '.') then s else pre
  else s

/-- `s.isdigit() or s == '.'` (`helper_functions.py` line 494). Only ASCII digits: simplification, Python's
`isdigit` also accepts other Unicode digits. -/
def numChar (c : Char) : Bool := c.isDigit || c == '.'

/-- The loop that collects the runs (`helper_functions.py` lines 491-500): state is `last_was_char` and
`number_strs` (kept in reverse, each run reversed). -/
def collectStep (st : Bool × List (List Char)) (c : Char) : Bool × List (List Char) :=
  if numChar c then
    if st.1 then (false, [c] :: st.2)
    else
      match st.2 with
      | [] => (false, [[c]])
      | r :: rs => (false, (c :: r) :: rs)
  else (true, st.2)

/-- `number_strs` after the loop, in order. -/
def runs (s : List Char) : List (List Char) :=
  ((s.foldl collectStep (true, [])).2.map List.reverse).reverse

/-- The index loop (`helper_functions.py` lines 502-505): a later run replaces the current one only when it
is strictly longer. -/
def longest : List (List Char) → Option (List Char)
  | [] => none
  | r :: rs => some (rs.foldl (fun best x => if best.length < x.length then x else best) r)

/-- Value of a list of ASCII digits. -/
def digitsVal (l : List Char) : ℕ := l.foldl (fun n c => 10 * n + (c.toNat - '0'.toNat)) 0

/-- `float(s)` of a string of digits and dots: at most one dot and at least one digit, otherwise
`ValueError`. -/
def parseFloat (s : List Char) : Except String ℚ :=
  let a := s.takeWhile (· ≠ '.')
  let b := s.dropWhile (· ≠ '.')
  match b with
  | [] => if a = [] then .error "ValueError" else .ok (digitsVal a)
  | _ :: frac =>
    if '.' ∈ frac ∨ (a = [] ∧ frac = []) then .error "ValueError"
    else .ok (digitsVal a + (digitsVal frac : ℚ) / 10 ^ frac.length)

/-- `determine_redshift_from_filename` (`helper_functions.py` lines 474-511). -/
def redshiftFromFilename (filename : List Char) : Except String ℚ :=
  match longest (runs (stem (basename filename))) with
  | none => .ok (-1)
  | some r => parseFloat r

/-! ### Selecting simulation redshifts -/

/-- `_get_redshifts_in_range` (`helper_functions.py` lines 109-127).  Comparing `None` with a number raises. -/
def redshiftsInRange (zs : List K) (zLow zHigh : Option K) (bracket : Bool) : Except String (List K) :=
  let zs := zs.mergeSort (fun a b => decide (a ≤ b))
  let limits : Except String (Option K × Option K) :=
    if bracket then
      match zs.min?, zs.max? with
      | some mn, some mx =>
        match zLow with
        | none => .error "TypeError"
        | some lo =>
          if lo < mn then .error "No redshifts to bracket range."
          else
            match zHigh with
            | none => .error "TypeError"
            | some hi =>
              if mx < hi then .error "No redshifts to bracket range."
              else
                match (zs.filter fun z => decide (z ≤ lo)).getLast?,
                    (zs.filter fun z => decide (hi ≤ z)).head? with
                | some lo', some hi' => .ok (some lo', some hi')
                | _, _ => .error "IndexError"
      | _, _ => .error "ValueError"
    else .ok (zLow, zHigh)
  match limits with
  | .error e => .error e
  | .ok (lo?, hi?) =>
    let lo : Option K := match lo? with
      | some lo => some lo
      | none => zs.min?.map (· - 1)
    let hi : Option K := match hi? with
      | some hi => some hi
      | none => zs.max?.map (· + 1)
    match lo, hi with
    | some lo, some hi => .ok (zs.filter fun z => decide (lo ≤ z) && decide (z ≤ hi))
    | _, _ => .error "ValueError"

/-! ### File lists of the lightcone functions -/

/-- What a user may pass as `filenames`: a list of names, or a string (a directory, a text file, anything). -/
inductive FilesArg where
  | list (names : List String)
  | str (s : String)

/-- The file system as far as `_get_filenames` looks at it. -/
structure FS where
  dir : String → Option (List String)
  lines : String → Option (List String)

/-- A numpy array of strings: one-dimensional or zero-dimensional. -/
inductive StrArray where
  | one (names : List String)
  | zero (s : String)

/-- `os.path.splitext(f)[-1]` as a predicate: do all names have the same extension (`_all_same`,
`lightcone.py` lines 529-531, 565-566)? -/
def allSame (ext : String → String) : List String → Bool
  | [] => true
  | f :: fs => (f :: fs).all fun g => ext g == ext f

/-- `_get_filenames` (`lightcone.py` lines 517-541) when `hasattr(x, '__iter__')` is `iterStr` for strings:
`true` in Python 3, `false` in Python 2. -/
def getFilenames (iterStr : Bool) (ext : String → String) (fs : FS) : FilesArg → Except String StrArray
  | .list l => .ok (.one l)
  | .str s =>
    if iterStr then .ok (.zero s)
    else
      match fs.dir s with
      | some files =>
        if allSame ext files then .ok (.one files)
        else .error "The directory may only contain one file type."
      | none =>
        match fs.lines s with
        | some names => .ok (.one names)
        | none => .error "Invalid filenames input"

/-- The first uses of the result in `make_lightcone` (`lightcone.py` lines 101-103): `get_mesh_size(filenames[0])`
indexes the array, `_get_file_redshifts` iterates over it when no redshifts are given; both raise on a
zero-dimensional array. -/
def lightconeFiles (iterStr : Bool) (ext : String → String) (fs : FS) (a : FilesArg) :
    Except String (List String) :=
  match getFilenames iterStr ext fs a with
  | .error e => .error e
  | .ok (.zero _) => .error "IndexError"
  | .ok (.one []) => .error "IndexError"
  | .ok (.one l) => .ok l

end Verif.Helpers
