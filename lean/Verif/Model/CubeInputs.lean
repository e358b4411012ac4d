import Mathlib.Data.List.Sort
import Mathlib.Order.Defs.LinearOrder
/-!
# Model of how `make_lightcone` and `make_velocity_lightcone` assign redshifts to coeval cubes (`lightcone.py`)

Names are of any type `F`; redshifts of any ordered type `K`.  The argument `file_redshifts` may be left out, an array, another sequence of Python, or a string.
-/

namespace Verif.CubeInputs

/-- The argument `file_redshifts`. -/
inductive Redshifts (K : Type) where
  | none
  | array (l : List K)
  | list (l : List K)
  | str (s : String)

/-- The argument `filenames`: a list or an array of names, or the items of a dictionary, whose keys are distinct. -/
inductive Cubes (K F : Type) where
  | names (l : List F)
  | dict (items : List (K × F))

variable {K F G : Type} [LinearOrder K]

/-- `filenames[z]` for a dictionary. -/
def item (items : List (K × F)) (z : K) : Except String F :=
  match items.find? fun p => p.1 == z with
  | none => .error "KeyError"
  | some p => .ok p.2

/-- `np.sort(list(filenames.keys()))` (`lightcone.py` lines 96 and 209). -/
def sortedKeys (items : List (K × F)) : List K := (items.map Prod.fst).mergeSort (· ≤ ·)

/-- `_get_file_redshifts` (`lightcone.py` lines 544-561) in Python 3, where a string has `__iter__`, so that line 557 is not reached. -/
def getFileRedshifts (determine : F → K) (zs : Redshifts K) (names : List F) : Redshifts K :=
  match zs with
  | .none => .array (names.map determine)
  | .array l => .array l
  | .list l => .list l
  | .str s => .str s

/-- The length of the redshifts, as `len` gives it (`lightcone.py` lines 108 and 230). -/
def Redshifts.len : Redshifts K → Except String ℕ
  | .none => .error "TypeError"
  | .array l => .ok l.length
  | .list l => .ok l.length
  | .str s => .ok s.toList.length

/-- What `_get_output_z` and the first brackets need of the redshifts (`lightcone.py` lines 278-281, 288 and 125, 244): the methods `min` and `max` of an array if a limit is left out, comparisons
with numbers, and indexing with an array of truth values.  Simplified: for a list the error may also be that of line 295. -/
def values (limits : Bool) : Redshifts K → Except String (List K)
  | .array l => .ok l
  | .none => .error "TypeError"
  | .list _ => .error (if limits then "TypeError" else "AttributeError")
  | .str _ => .error (if limits then "TypeError" else "AttributeError")

/-- The lengths agree (`lightcone.py` lines 108, 230-231), and the redshifts can be used. -/
def paired (limits : Bool) (zs : Redshifts K) (names : List F) : Except String (List (K × F)) :=
  match zs.len with
  | .error e => .error e
  | .ok n =>
    if n ≠ names.length then .error "AssertionError"
    else
      match values limits zs with
      | .error e => .error e
      | .ok l => .ok (l.zip names)

/-- `make_lightcone` up to the choice of the output redshifts (`lightcone.py` lines 92-110): the redshift of every cube.  `reader` tells if a reading function is given and `limits` if `z_low` and `z_high` are. -/
def scalarCubes (determine : F → K) (reader limits : Bool) (cubes : Cubes K F) (zs : Redshifts K) : Except String (List (K × F)) :=
  match cubes with
  | .dict items =>
    match (sortedKeys items).mapM (item items) with
    | .error e => .error e
    | .ok [] => .error "KeyError"
    | .ok files => paired limits (.array (sortedKeys items)) files
  | .names l =>
    if l.isEmpty then .error "IndexError"
    else if reader then
      match zs with
      | .none => .error "AssertionError"
      | zs => paired limits zs l
    else paired limits (getFileRedshifts determine zs l) l

/-- `make_velocity_lightcone` up to the choice of the output redshifts (`lightcone.py` lines 208-233).  The densities are a dictionary if the velocities are one; that of other pairs raises. -/
def velocityCubes (determine : G → K) (limits : Bool) (vel : Cubes K F) (dens : Cubes K G) (zs : Redshifts K) : Except String (List (K × F × G)) :=
  match vel, dens with
  | .dict v, .dict d =>
    match (sortedKeys v).mapM (item v) with
    | .error e => .error e
    | .ok vs =>
      match (sortedKeys v).mapM (item d) with
      | .error e => .error e
      | .ok [] => .error "KeyError"
      | .ok ds => paired limits (.array (sortedKeys v)) (vs.zip ds)
  | .names v, .names d =>
    if d.isEmpty then .error "IndexError"
    else
      match (getFileRedshifts determine zs d).len with
      | .error e => .error e
      | .ok n =>
        if n ≠ v.length then .error "AssertionError"
        else if v.length ≠ d.length then .error "AssertionError"
        else paired limits (getFileRedshifts determine zs d) (v.zip d)
  | _, _ => .error "TypeError"

end Verif.CubeInputs
