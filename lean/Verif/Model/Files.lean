import Verif.Model.NdArray
import Mathlib.Algebra.Field.Defs
/-!
# Binary file formats

Models of the readers and writers of `helper_functions.py`, `xfrac_file.py`, `density_file.py`,
`vel_file.py` and `temper_file.py`.  A file is its list of bytes.  Cell values are kept as the bit
pattern of the 4- or 8-byte word that is stored; `cast` stands for the conversion `astype(float32)` or
`astype(float64)` into that word (the identity on arrays that already have the type).

Simplifications: header integers that are negative as `int32` (only possible in files not written by the
writers below) are reported as an error; numpy treats a single `-1` as a size to infer.
The redshift parsed from the file name is not part of these models.
-/

namespace Verif.Files
open Nd

/-- Bytes per word for `bits` 32 or 64; other values fail the assertion
(`helper_functions.py` lines 177, 260). -/
def wordBytes (bits : ℕ) : Except String ℕ :=
  if bits = 32 then .ok 4 else if bits = 64 then .ok 8 else .error "AssertionError"

/-- An array shape cast to `int32` (wraps around) and written by `tofile`
(`helper_functions.py` lines 262-263). -/
def headerBytes (mesh : List ℕ) : List ℕ := toBytes 4 (mesh.map (· % 2 ^ 32))

/-- `int32` header words used as mesh sizes. -/
def meshOf (ws : List ℕ) : Except String (List ℕ) :=
  if ∀ x ∈ ws, x < 2 ^ 31 then .ok ws else .error "negative size"

/-- `save_cbin` (`helper_functions.py` lines 242-267). -/
def saveCbin {V : Type} (cast : V → ℕ) (data : Arr V) (bits : ℕ) (o : Order) : Except String (List ℕ) := do
  let w ← wordBytes bits
  .ok (headerBytes data.shape ++ toBytes w ((data.flatten o).map cast))

/-- `read_cbin` (`helper_functions.py` lines 162-192). -/
def readCbin (file : List ℕ) (bits : ℕ) (o : Order) (dimensions : ℕ) (records : Bool) :
    Except String (Arr ℕ) := do
  let w ← wordBytes bits
  let counter := if records then dimensions + 3 else dimensions
  let r := fromFile 4 counter file
  let mesh ← meshOf (if records then (r.1.drop 1).take 3 else r.1.take 3)
  let data := (fromFile w mesh.prod r.2).1
  reshape data mesh o

/-- `round(len(data)**(1./3.))` (`helper_functions.py` line 215) with an exact cube root: the smallest `n`
with `len < (n + 1/2)^3`. -/
def roundCbrt (len : ℕ) : ℕ :=
  ((List.range (len + 1)).find? fun n => decide (8 * len < (2 * n + 1) ^ 3)).getD 0

/-- `save_raw_binary` (`helper_functions.py` lines 221-239); any `bits` other than 32 means 64. -/
def saveRaw {V : Type} (cast : V → ℕ) (data : Arr V) (bits : ℕ) (o : Order) : List ℕ :=
  toBytes (if bits = 32 then 4 else 8) ((data.flatten o).map cast)

/-- `read_raw_binary` (`helper_functions.py` lines 194-218). -/
def readRaw (file : List ℕ) (bits : ℕ) (o : Order) : Except String (Arr ℕ) := do
  let w ← wordBytes bits
  let data := fromFileAll w file
  let n := roundCbrt data.length
  reshape data [n, n, n] o

/-- `XfracFile.write_to_file` (`xfrac_file.py` lines 79-136) for a three-dimensional array; another number
of dimensions fails to unpack (line 105). `neg` is the element-wise `1.0 - x`. -/
def writeXfrac {V : Type} (cast : V → ℕ) (neg : V → V) (xi : Arr V) (oldFormat neutral binary : Bool) :
    Except String (List ℕ) :=
  match xi.shape with
  | [mx, my, mz] =>
    let header := if binary then headerBytes [mx, my, mz] else headerBytes [0, mx, my, mz, 0, 0]
    let data := if neutral then xi.map neg else xi
    .ok (header ++ toBytes (if oldFormat then 4 else 8) ((data.map cast).T.flatten .C))
  | _ => .error "ValueError: unpack"

/-- `XfracFile.read_from_file` (`xfrac_file.py` lines 34-66). -/
def readXfrac (neg : ℕ → ℕ) (file : List ℕ) (oldFormat neutral binary : Bool) : Except String (Arr ℕ) := do
  let r := fromFile 4 (if binary then 3 else 6) file
  let mesh ← meshOf (if binary then r.1 else (r.1.drop 1).take 3)
  if mesh.length = 3 then
    let xi := fromFileAll (if oldFormat then 4 else 8) r.2
    let a ← reshape xi mesh .F
    .ok (if neutral then a.map neg else a)
  else .error "ValueError: unpack"

/-- `VelocityFile.write_to_file` (`vel_file.py` lines 73-113) for an array of shape `(3, mx, my, mz)`. -/
def writeVel {V : Type} (cast : V → ℕ) (v : Arr V) : Except String (List ℕ) :=
  match v.shape with
  | [3, mx, my, mz] => .ok (headerBytes [mx, my, mz] ++ toBytes 4 ((v.map cast).flatten .F))
  | _ => .error "not modelled"

/-- `VelocityFile.read_from_file` (`vel_file.py` lines 35-56), the raw velocity. -/
def readVel (file : List ℕ) : Except String (Arr ℕ) := do
  let r := fromFile 4 3 file
  let mesh ← meshOf r.1
  if mesh.length = 3 then
    reshape (fromFileAll 4 r.2) (3 :: mesh) .F
  else .error "ValueError: unpack"

/-- The state of a `DensityFile` object that matters here; `none` is an attribute that was never set. -/
structure Density (V K : Type) where
  raw : Option (Arr V)
  cgs : Option (Arr K)
  mesh : Option (List ℕ)

/-- `conv_factor` (`density_file.py` lines 55, 92, 97): `rho_crit_0*(mesh_x/nbox_fine)**3*OmegaB`. -/
def convFactor {K : Type} [Field K] (rhoCrit omegaB nboxFine : K)
    (meshX : ℕ) : K :=
  rhoCrit * ((meshX : K) / nboxFine) ^ 3 * omegaB

/-- The bytes `DensityFile.write_to_file` and `ClumpingFile.write_to_file` put into the file
(`density_file.py` lines 104-121, 202-217). -/
def densityBytes {V : Type} (cast : V → ℕ) (raw : Arr V) (oldFormat : Bool) : List ℕ :=
  (if oldFormat then [] else headerBytes raw.shape) ++ toBytes 4 ((raw.map cast).T.flatten .C)

/-- `DensityFile.write_to_file` (`density_file.py` lines 74-126).  Values are elements of `K`; `cast` is
`astype(float32)`.  The result is the new object together with the outcome: the bytes written or the
exception.  In the `cgs_density` branch `self.conv_factor` (line 98) does not exist on any object. -/
def writeDensity {K : Type} [Field K] (cast : K → ℕ)
    (rhoCrit omegaB nboxFine : K) (d : Density K K) (raw cgs : Option (Arr K)) (oldFormat : Bool) :
    Density K K × Except String (List ℕ) :=
  match raw, cgs with
  | none, none => (d, .error "AssertionError")
  | raw, cgs =>
    let step1 : Density K K × Except String (List ℕ) :=
      match raw with
      | none => (d, .ok [])
      | some r =>
        match r.shape with
        | [mx, my, mz] =>
          (⟨some r, some (r.map (· * convFactor rhoCrit omegaB nboxFine mx)), some [mx, my, mz]⟩, .ok [])
        | _ => ({ d with raw := some r }, .error "ValueError: unpack")
    match step1.2 with
    | .error e => (step1.1, .error e)
    | .ok _ =>
      let d := step1.1
      match cgs with
      | some c =>
        match c.shape with
        | [mx, my, mz] =>
          ({ d with cgs := some c, mesh := some [mx, my, mz] },
            .error "AttributeError: 'DensityFile' object has no attribute 'conv_factor'")
        | _ => ({ d with cgs := some c }, .error "ValueError: unpack")
      | none =>
        match d.raw with
        | some r => (d, .ok (densityBytes cast r oldFormat))
        | none => (d, .error "AttributeError")

/-- `DensityFile.read_from_file` (`density_file.py` lines 35-57) and, without `old_format`,
`ClumpingFile.read_from_file` (lines 157-170): the raw field. -/
def readDensity (file : List ℕ) (oldFormat : Bool) : Except String (Arr ℕ) := do
  if oldFormat then
    reshape (fromFileAll 4 file) [203, 203, 203] .F
  else
    let r := fromFile 4 3 file
    let mesh ← meshOf r.1
    if mesh.length = 3 then
      reshape (fromFileAll 4 r.2) mesh .F
    else .error "ValueError: unpack"

/-- `TemperFile.read_from_file` (`temper_file.py` lines 32-57); with `old_format` the array is not
reshaped. -/
def readTemper (file : List ℕ) (oldFormat : Bool) : Except String (Arr ℕ) := do
  let r := fromFile 4 6 file
  let mesh ← meshOf ((r.1.drop 1).take 3)
  if mesh.length = 3 then
    if oldFormat then
      let l := fromFileAll 4 r.2
      reshape l [l.length] .C
    else
      reshape (fromFile 4 mesh.prod r.2).1 mesh .F
  else .error "ValueError: unpack"

/-- File types as `determine_filetype` returns them. -/
inductive FileType where
  | xfrac | density | temper | velocity | cbin | dbt | unknown
  deriving DecidableEq

/-- `determine_filetype` (`helper_functions.py` lines 320-348); `contains s` is `s in filename` for the
base name. -/
def determineFiletype (contains : String → Bool) : FileType :=
  if contains "xfrac3d" then .xfrac
  else if contains "n_all" then .density
  else if contains "Temper" then .temper
  else if contains "v_all" then .velocity
  else if contains ".cbin" then .cbin
  else if contains "dbt" then .dbt
  else .unknown

/-- `get_mesh_size` (`helper_functions.py` lines 422-450): the slice of header words returned. -/
def getMeshSize (t : FileType) (file : List ℕ) : Except String (List ℕ) :=
  match t with
  | .xfrac => .ok (((fromFile 4 6 file).1.drop 1).take 3)
  | .temper => .ok (((fromFile 4 3 file).1.drop 1).take 3)
  | .density => .ok (fromFile 4 3 file).1
  | .cbin => .ok (fromFile 4 3 file).1
  | .dbt => .ok [250, 250, 250]
  | .velocity => .error "Could not determine mesh"
  | .unknown => .error "Could not determine mesh"

/-- Arguments of `get_data_and_type`: objects, file names (by the type found from the name), arrays. -/
inductive Input where
  | xfracObj | temperObj | densityObj | name (t : FileType) | array | other

/-- Which data `get_data_and_type` returns. -/
inductive DataField where
  | xi | temper | rawDensity | cgsDensity | cbin | npy | theArray
  deriving DecidableEq

/-- `get_data_and_type` (`helper_functions.py` lines 351-401).  The recursive calls for file names do not
pass `raw_density` on (lines 388-392). -/
def getDataAndType (i : Input) (raw : Bool) : Except String DataField :=
  match i with
  | .xfracObj => .ok .xi
  | .temperObj => .ok .temper
  | .densityObj => if raw then .ok .rawDensity else .ok .cgsDensity
  | .name .xfrac => getDataAndType .xfracObj false
  | .name .temper => getDataAndType .temperObj false
  | .name .density => getDataAndType .densityObj false
  | .name .cbin => .ok .cbin
  | .name .dbt => .ok .npy
  | .name .velocity => .error "Unknown file type"
  | .name .unknown => .error "Unknown file type"
  | .array => .ok .theArray
  | .other => .error "Could not determine type of data"

end Verif.Files
