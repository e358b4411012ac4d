import Mathlib.Logic.Function.Basic
import Mathlib.Data.List.Infix
/-!
# Model of `save_data`, `save_fits` and `read_fits` (`helper_functions.py` lines 265-316 and 403-419)

Names are lists of characters.  What a format does with the data is left out here (`Model/Files` has the binary ones); only which
format is written, and under which name.  `pyfits` says whether that package is installed.
-/

namespace Verif.SaveData

/-- A format of a file. -/
inductive Format where
  | npy | pickle | cbin | fits | raw
  deriving DecidableEq

/-- `s[-5:]`. -/
def last5 (s : List Char) : List Char := s.drop (s.length - 5)

/-- `sub in s`. -/
def contains (sub s : List Char) : Bool := s.tails.any fun t => sub.isPrefixOf t

/-- `filetype.lower()`. -/
def lower (s : List Char) : List Char := s.map Char.toLower

/-- The branch that `save_data` takes (`helper_functions.py` lines 404-416). -/
def format (name : List Char) (filetype : Option (List Char)) : Option Format :=
  let ft := filetype.getD []
  let has := fun (e : String) => contains e.toList (last5 name)
  if has ".npy" || lower ft ∈ ["npy".toList, "python_pickle".toList] then some .npy
  else if has ".pkl" || lower ft ∈ ["pkl".toList, "pickle".toList] then some .pickle
  else if has ".cbin" || lower ft = "cbin".toList then some .cbin
  else if has ".fits" || ft ∈ ["fits".toList] then some .fits
  else if has ".bin" || ft ∈ ["bin".toList, "binary".toList] then some .raw
  else none

/-- The name under which the format is written: `np.save` appends `.npy` unless the name ends with it. -/
def written (f : Format) (name : List Char) : List Char :=
  if f = .npy ∧ ¬ ".npy".toList.isSuffixOf name then name ++ ".npy".toList else name

/-- `save_data` (`helper_functions.py` lines 403-419): the file that is written and the value that is returned. -/
def saveData (pyfits : Bool) (name : List Char) (filetype : Option (List Char)) : Except String (Option (List Char × Format) × Bool) :=
  match format name filetype with
  | none => .ok (none, false)
  | some .fits => if pyfits then .ok (some (name, .fits), true) else .error "UnboundLocalError"
  | some f => .ok (some (written f name, f), true)

/-- A unit of a FITS file: the cards of its header, at least one, and its data. -/
structure HDU (D : Type) where
  card : String
  cards : List String
  data : D

/-- The files of the directory and, under the same names, of the test data of astropy. -/
structure FS (D : Type) where
  files : List Char → Option (List (HDU D))
  testdata : List Char → Option (List (HDU D))

/-- `save_fits` (`helper_functions.py` lines 291-316) for an array: `pyfits` writes the array as it is, or after an exception because the
file exists converted by `f64`; without `pyfits` its name is not bound in the other branch either. -/
def saveFits {D : Type} (pyfits : Bool) (f64 : D → D) (fs : FS D) (name : List Char) (data : D) : Except String (FS D) :=
  if pyfits then
    let unit : HDU D := ⟨"SIMPLE", [], if (fs.files name).isSome then f64 data else data⟩
    .ok ⟨Function.update fs.files name (some [unit]), fs.testdata⟩
  else .error "UnboundLocalError"

/-- `read_fits` (`helper_functions.py` lines 265-288).  The name `header` is assigned, so that the argument is lost; a header with a
card is true.  The other branch looks in the test data of astropy and takes the data of the second unit. -/
def readFits {D : Type} (pyfits : Bool) (f64 : D → D) (fs : FS D) (name : List Char) (_header : Bool) :
    Except String (D × Option (List String)) :=
  match pyfits, fs.files name with
  | true, some (h :: _) => .ok (f64 h.data, some (h.card :: h.cards))
  | _, _ =>
    match fs.testdata name with
    | none => .error "FileNotFoundError"
    | some (h :: h' :: _) => .ok (f64 h'.data, some (h.card :: h.cards))
    | some _ => .error "IndexError"

end Verif.SaveData
