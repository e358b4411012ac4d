import Verif.Model.Files
/-!
# Model of `IonRateFile` (`irate_file.py`)

A file is its list of bytes, values are 4-byte words (see `Model/Files.lean`); a name is a list of characters, and `float` of Python an argument, `none` where it raises.
-/

namespace Verif.IonRates
open Nd Verif.Files

/-- `read_from_file` (`irate_file.py` lines 32-58). -/
def read (file : List ℕ) (oldFormat binary : Bool) : Except String (Arr ℕ) :=
  let r := fromFile 4 (if binary then 3 else 6) file
  match meshOf (if binary then r.1 else (r.1.drop 1).take 3) with
  | .error e => .error e
  | .ok mesh =>
    if mesh.length ≠ 3 then .error "ValueError: unpack"
    else if oldFormat then reshape (fromFileAll 4 r.2) [(fromFileAll 4 r.2).length] .C
    else reshape (fromFile 4 mesh.prod r.2).1 mesh .F

/-- `name.split('_')[1]` (`irate_file.py` line 67); `none` is an IndexError. -/
def second (name : List Char) : Option (List Char) :=
  match name.dropWhile (· != '_') with
  | [] => none
  | _ :: t => some (t.takeWhile (· != '_'))

/-- `os.path.split(filename)[1]` (`irate_file.py` line 66): what follows the last slash. -/
def baseName (path : List Char) : List Char := (path.reverse.takeWhile (· != '/')).reverse

/-- The redshift (`irate_file.py` lines 64-70). -/
def redshift {K : Type} [Neg K] [One K] (float : List Char → Option K) (path : List Char) : K :=
  match second (baseName path) with
  | none => -1
  | some t =>
    match float (t.take (t.length - 4)) with
    | none => -1
    | some z => z

end Verif.IonRates
