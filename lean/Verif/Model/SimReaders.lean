import Verif.Model.NameRedshifts
import Verif.Model.Coeval
import Verif.Model.Binning
import Mathlib.Analysis.SpecialFunctions.Pow.Real
import Mathlib.Algebra.BigOperators.Fin
/-!
# Model of readers of simulations: velocities in km/s, 21cmFAST cubes and coeval 21-cm cubes

Real numbers replace floating point numbers.  `float` of Python is an argument, `none` where it raises.
-/

namespace Verif.SimReaders

open Verif.NameRedshifts (Str before afterLast)

/-! ### Velocities -/

/-- The constants of `const.py` and `conv.py` that the conversion of velocities uses: the size of the box in Mpc, the number of
fine cells along it, the centimetres of a Mpc, the matter density and the Hubble constant in km/s/Mpc. -/
structure Consts where
  lb : ℝ
  nboxFine : ℝ
  mpc : ℝ
  omega0 : ℝ
  h0 : ℝ

/-- `lscale` (`conv.py` line 18). -/
noncomputable def lscale (c : Consts) : ℝ := c.lb / c.nboxFine * c.mpc

/-- `tscale` (`conv.py` line 19). -/
noncomputable def tscale (c : Consts) : ℝ := 2 / (3 * Real.sqrt c.omega0 * c.h0 / c.mpc * 100000)

/-- `velconvert` (`conv.py` line 20). -/
noncomputable def velconvert (c : Consts) (z : ℝ) : ℝ := lscale c / tscale c * (1 + z) / 100000

/-- The redshift of a velocity file (`vel_file.py` lines 56-63): -1 if there is no number in front of the first `v_`. -/
def velRedshift (float : Str → Option ℝ) (path : Str) : ℝ :=
  match float (before ['v', '_'] (afterLast '/' path)) with
  | some z => z
  | none => -1

/-- `kmsrho8` (`vel_file.py` line 66). -/
noncomputable def kmsrho8 {ι : Type} (c : Consts) (float : Str → Option ℝ) (path : Str) (raw : Fin 3 → ι → ℝ) :
    Fin 3 → ι → ℝ := fun a x => raw a x * velconvert c (velRedshift float path)

/-- The argument of `get_kms_from_density`: the name of a file, a `DensityFile` or an array.  All give raw densities. -/
inductive Dens (ι : Type)
  | file (raw : ι → ℝ)
  | object (raw : ι → ℝ)
  | array (values : ι → ℝ)

/-- `get_kms_from_density` (`vel_file.py` lines 112-132); `none` is a value that is not finite. -/
noncomputable def getKms {ι : Type} (c : Consts) (float : Str → Option ℝ) (path : Str) (raw : Fin 3 → ι → ℝ) (d : Dens ι) :
    Fin 3 → ι → Option ℝ :=
  let density := match d with
    | .file r => r
    | .object r => r
    | .array v => v
  fun a x => if density x = 0 then none else some (kmsrho8 c float path raw a x / (density x / 8))

/-- The exceptions of `read_c2ray_files`. -/
inductive Err
  | assertion
  | attribute
  | value
  deriving DecidableEq

/-- `read_c2ray_files` (`read_files.py` lines 37-63): in the branch of the velocities the parameter `density_file`, a string,
hides the module of that name, and has no attribute `DensityFile`.  The reading of ionised fractions and densities is an
argument. -/
def readC2ray {β : Type} (fileType : String) (densityFile : Option String) (xi dens : β) : Except Err β :=
  if fileType = "xfrac" then .ok xi
  else if fileType = "dens" then .ok dens
  else if fileType = "vel" then
    match densityFile with
    | none => .error .assertion
    | some _ => .error .attribute
  else .error .assertion

/-! ### Cubes of 21cmFAST -/

/-- `round(bla.size**0.333333)` (`read_files.py` line 34). -/
noncomputable def dim21 (size : ℕ) : ℤ := Verif.Binning.roundEven ((size : ℝ) ^ (333333 / 1000000 : ℝ))

/-- `read_21cmfast_files` (`read_files.py` lines 25-35), for the numbers of the file: the length of the axes and the cells.
`reshape` raises unless the sizes agree. -/
noncomputable def read21 (xs : List ℝ) : Except Err (ℕ × (ℕ → ℕ → ℕ → ℝ)) :=
  let d := (dim21 xs.length).toNat
  if d * d * d = xs.length then .ok (d, fun i j k => xs.getD ((i * d + j) * d + k) 0) else .error .value

/-! ### Coeval cubes -/

abbrev Cell (a b c : ℕ) := Fin a × Fin b × Fin c

variable {a b c : ℕ}

/-- The mean of a cube. -/
def mean (x : Cell a b c → ℚ) : ℚ := (∑ i, ∑ j, ∑ k, x (i, j, k)) / (a * b * c)

/-- The mean of a slice perpendicular to the last axis. -/
def sliceMean (x : Cell a b c → ℚ) (k : Fin c) : ℚ := (∑ i, ∑ j, x (i, j, k)) / (a * b)

/-- `coeval_21cm` (`usefuls.py` lines 39-50).  `calc_dt` is the argument `dt`. -/
def coeval21 (dt : (Cell a b c → ℚ) → (Cell a b c → ℚ) → Cell a b c → ℚ) (xfrac dens : List (ℚ × (Cell a b c → ℚ))) (z : ℚ)
    (meanSubtract : Bool) : Except Coeval.Err (Cell a b c → ℚ) :=
  match Coeval.coeval xfrac z with
  | .error e => .error e
  | .ok x =>
    match Coeval.coeval dens z with
    | .error e => .error e
    | .ok d => .ok (if meanSubtract then fun p => dt x d p - mean (dt x d) else dt x d)

/-- `coeval_21cm_c2ray` (`read_files.py` lines 76-99). -/
def coeval21C2ray (dt : (Cell a b c → ℚ) → (Cell a b c → ℚ) → Cell a b c → ℚ) (xfrac dens : List (ℚ × (Cell a b c → ℚ)))
    (z : ℚ) (meanSubtract : Bool) : Except Coeval.Err (Cell a b c → ℚ) :=
  match Coeval.coeval xfrac z with
  | .error e => .error e
  | .ok x =>
    match Coeval.coevalDens dens z with
    | .error e => .error e
    | .ok d => .ok (if meanSubtract then fun p => dt x d p - sliceMean (dt x d) p.2.2 else dt x d)

/-- `coeval_overdens` (`usefuls.py` lines 97-105).  A mean of zero, where numpy returns values that are not numbers, is not
singled out. -/
def coevalOverdens (dens : List (ℚ × (Cell a b c → ℚ))) (z : ℚ) : Except Coeval.Err (Cell a b c → ℚ) :=
  match Coeval.coeval dens z with
  | .error e => .error e
  | .ok d => .ok fun p => d p / mean d - 1

end Verif.SimReaders
