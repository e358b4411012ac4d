import Mathlib.Data.Nat.Notation
/-!
# Model of `read_files.write_dictionary_data` and `read_dictionary_data`

The choice of the format, the name of the file that is written, and the HDF5 files in full; what the other libraries write is left to them.
Names and keys are lists of characters.  Keys are strings; a key does not begin with `/` (HDF5 would start from the root of the file).
-/

namespace Verif.DictFiles

abbrev Name := List Char

/-- The libraries that write and read. -/
inductive Backend
  | pickle | json | yaml | hdf5 | npz | netcdf | zarr | csv | parquet | xlsx
  deriving DecidableEq

/-- The comparisons of `write_dictionary_data` (`read_files.py` lines 249-316). -/
def writer (format : Name) : Option Backend :=
  if format ∈ ["pickle".toList, "pkl".toList] then some .pickle
  else if format = "json".toList then some .json
  else if format ∈ ["yaml".toList, "yml".toList] then some .yaml
  else if format ∈ ["hdf5".toList, "h5".toList] then some .hdf5
  else if format = "npz".toList then some .npz
  else if format ∈ ["nc".toList, "netcdf".toList] then some .netcdf
  else if format = "zarr".toList then some .zarr
  else if format = "csv".toList then some .csv
  else if format = "parquet".toList then some .parquet
  else if format = "xlsx".toList then some .xlsx
  else none

/-- `format.lower()` and the comparisons of `read_dictionary_data` (`read_files.py` lines 173-239); letters of the alphabet only. -/
def reader (format : Name) : Option Backend :=
  let format := format.map Char.toLower
  if format ∈ ["pickle".toList, "pkl".toList] then some .pickle
  else if format ∈ ["json".toList] then some .json
  else if format ∈ ["yaml".toList, "yml".toList] then some .yaml
  else if format ∈ ["hdf5".toList, "h5".toList] then some .hdf5
  else if format ∈ ["npz".toList] then some .npz
  else if format ∈ ["nc".toList, "netcdf".toList] then some .netcdf
  else if format = "zarr".toList then some .zarr
  else if format = "csv".toList then some .csv
  else if format = "parquet".toList then some .parquet
  else if format = "xlsx".toList then some .xlsx
  else none

/-- The format of a call of `write_dictionary_data` (`read_files.py` lines 246-247) for a file with the extension `ext` (with its dot). -/
def writeFormat (format : Option Name) (ext : Name) : Name :=
  format.getD ((ext.dropWhile (· = '.')).map Char.toLower)

/-- The format of a call of `read_dictionary_data` (`read_files.py` lines 169-171). -/
def readFormat (format : Option Name) (ext : Name) : Name :=
  format.getD ((ext.map Char.toLower).dropWhile (· = '.'))

/-- The file that is written: `np.savez` appends `.npz` to a name without it (`read_files.py` line 282), the others open the name given. -/
def target (b : Backend) (file : Name) : Name :=
  if b = .npz ∧ ¬ ".npz".toList <:+ file then file ++ ".npz".toList else file

/-- A value that is not a dictionary: a string, bytes, `None` or another object without a counterpart in HDF5, or anything else, numbered. -/
inductive Value
  | str (s : Name)
  | bytes (s : Name)
  | object
  | other (n : ℕ)
  deriving DecidableEq

/-- A dictionary, and the contents of a group in a file: entries with values and entries with dictionaries, in order. -/
inductive Dict
  | nil
  | leaf (k : Name) (v : Value) (rest : Dict)
  | sub (k : Name) (d : Dict) (rest : Dict)
  deriving DecidableEq

/-- What an entry holds. -/
abbrev Entry := Value ⊕ Dict

/-- An entry in front of others. -/
def entry (k : Name) : Entry → Dict → Dict
  | .inl v, r => .leaf k v r
  | .inr d, r => .sub k d r

/-- The entry under a name. -/
def get : Dict → Name → Option Entry
  | .nil, _ => none
  | .leaf k v r, n => if k = n then some (.inl v) else get r n
  | .sub k d r, n => if k = n then some (.inr d) else get r n

/-- A new member of a group of an HDF5 file; members are kept in the order of their names. -/
def put (n : Name) (x : Entry) : Dict → Dict
  | .nil => entry n x .nil
  | .leaf k v r => if n < k then entry n x (.leaf k v r) else .leaf k v (put n x r)
  | .sub k d r => if n < k then entry n x (.sub k d r) else .sub k d (put n x r)

/-- A changed group. -/
def change (n : Name) (s : Dict) : Dict → Dict
  | .nil => .nil
  | .leaf k v r => .leaf k v (change n s r)
  | .sub k d r => if k = n then .sub k s r else .sub k d (change n s r)

/-- `create_group` and `create_dataset` (`read_files.py` lines 270, 275 and 278): groups on the way are made, what exists is not replaced. -/
def create : List Name → Entry → Dict → Except String Dict
  | [], _, _ => .error "ValueError"
  | n :: ns, x, g =>
    match ns, get g n with
    | [], none => .ok (put n x g)
    | [], some _ => .error "ValueError: name already exists"
    | _ :: _, none => (create ns x .nil).map fun s => put n (.inr s) g
    | _ :: _, some (.inl _) => .error "ValueError: not a group"
    | _ :: _, some (.inr s) => (create ns x s).map fun s' => change n s' g

/-- The names on the way to a member: empty ones and single dots are left out. -/
def parts (key : Name) : List Name := (key.splitOn '/').filter fun p => p ≠ [] ∧ p ≠ ['.']

/-- `recursive_save` (`read_files.py` lines 267-279). -/
def save : Dict → Dict → Except String Dict
  | .nil, g => .ok g
  | .leaf k v r, g => do
    if v = .object then throw "TypeError: Object dtype has no native HDF5 equivalent"
    save r (← create (parts k) (.inl v) g)
  | .sub k d r, g => do save r (← create (parts k) (.inr (← save d .nil)) g)

/-- The value of a dataset: bytes are decoded (`read_files.py` lines 201-204). -/
def loadValue : Value → Value
  | .bytes s => .str s
  | v => v

/-- `recursively_load` (`read_files.py` lines 194-206). -/
def load : Dict → Dict
  | .nil => .nil
  | .leaf k v r => .leaf k (loadValue v) (load r)
  | .sub k d r => .sub k (load d) (load r)

/-- `write_dictionary_data(d, 'f.h5')` and then `read_dictionary_data('f.h5')` (`read_files.py` lines 164-316). -/
def roundTrip (d : Dict) : Except String Dict := (save d .nil).map load

end Verif.DictFiles
