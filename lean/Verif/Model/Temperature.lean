import Verif.Model.Conversions
import Verif.Model.Convolve
import Verif.Model.Helpers
/-!
# Model of `temperature.py`

Floating point numbers are exact reals; a value that is not a finite number is `none` where it can
arise.  Three-dimensional arrays are those of `Model/Convolve`, with NumPy's broadcasting.  The
conversion to double precision and printing are left out.
-/

namespace Verif.Temperature

open Verif.Constants Verif.Convolve

/-- The exceptions that occur. -/
inductive Err
  | value | index | type | zeroDivision | exception
  deriving DecidableEq

/-- A cube or lightcone. -/
abbrev Cube := Arr (Fin 3) ℝ

/-! ### Mean signal -/

/-- `const.lambda0` in cm (`const.py` line 108). -/
noncomputable def lambda0 : ℝ := Conversions.c * 10 ^ 5 / (Conversions.nu0 * 10 ^ 6)

/-- `const.A10` (`const.py` line 105). -/
noncomputable def a10 : ℝ := 285 / 10 ^ 17

/-- `const.Tstar` (`const.py` line 107). -/
noncomputable def tStar : ℝ := 68 / 1000

/-- `const.m_p` (`const.py` line 22). -/
noncomputable def protonMass : ℝ := 1672661 / 10 ^ 30

/-- `const.Tcmb0` (`const.py` line 99). -/
noncomputable def tcmb0 : ℝ := 2725 / 1000

/-- `const.num_h_0` and `const.meandt` (`const.py` lines 109-111), from the constants `k` that hold
when the module is imported; `pi` is `np.pi`. -/
noncomputable def meandtOf (pi : ℚ) (k : Const) : ℝ :=
  3 * lambda0 ^ 3 / (32 * pi) * a10 * tStar * ((1 - k.abuHeMass) * k.omegaB * k.rhoCrit0 / protonMass) /
    (k.H0cgs / k.h) * 1000

/-- `mean_dt` (`temperature.py` lines 196-212); `meandt` is the global of that name, which no setter
changes. -/
noncomputable def meanDt (meandt : ℝ) (k : Const) (z : ℝ) : ℝ :=
  meandt / k.h * (1 + z) ^ 2 /
    Real.sqrt (k.omega0 * (1 + z) ^ 3 + k.lam + (1 - k.omega0 - k.lam) * (1 + z) ^ 2)

/-! ### Broadcasting -/

/-- Two lengths that fit. -/
def fits (n m : ℕ) : Prop := n = m ∨ n = 1 ∨ m = 1

instance (n m : ℕ) : Decidable (fits n m) := by unfold fits; infer_instance

/-- The index into an array whose axes of length one are repeated. -/
def clip (s : Fin 3 → ℕ) (i : Fin 3 → ℤ) (j : Fin 3) : ℤ := if s j = 1 then 0 else i j

/-- An operation cell by cell on arrays of shapes that fit. -/
def broadcast (f : ℝ → ℝ → ℝ) (a b : Cube) : Except Err Cube :=
  if ∀ j, fits (a.shape j) (b.shape j) then
    .ok ⟨fun j => if a.shape j = 1 then b.shape j else a.shape j,
      fun i => f (a.val (clip a.shape i)) (b.val (clip b.shape i))⟩
  else .error .value

/-- A vector as an array with three axes: along the last one. -/
noncomputable def lastAxis (l : List ℝ) : Cube := ⟨![1, 1, l.length], fun i => l.getD (i 2).toNat 0⟩

/-- A number as an array. -/
noncomputable def single (x : ℝ) : Cube := ⟨![1, 1, 1], fun _ => x⟩

/-! ### Brightness temperature -/

open Classical in
/-- `rho_mean` of `_dt` (`temperature.py` line 217): the mean baryon density if no value is negative,
otherwise one. -/
noncomputable def rhoMean (k : Const) (rho : Cube) : ℝ :=
  if ∀ i ∈ box rho.shape, 0 ≤ rho.val i then k.rhoCrit0 * k.omegaB else 1

open Classical in
/-- `_dt` (`temperature.py` lines 215-222); `cdt` is `mean_dt(z)`, the minimum of nothing is an
error. -/
noncomputable def dt (k : Const) (rho xi cdt : Cube) : Except Err Cube :=
  if box rho.shape = ∅ then .error .value
  else
    match broadcast (fun c x => c * (1 - x)) cdt xi with
    | .error e => .error e
    | .ok a => broadcast (fun y r => y * r / rhoMean k rho) a rho

/-- What is given for a quantity: an array, an object of one of the file classes, or the name of a
file.  The data are those the object holds or the file contains. -/
inductive Source
  | array
  | object
  | name (s : List Char)

/-- `determine_redshift_from_filename` of such an argument (`helper_functions.py`): only names have a
base name. -/
def Source.redshift : Source → Except Err ℚ
  | .array => .error .type
  | .object => .error .type
  | .name s =>
    match Helpers.redshiftFromFilename s with
    | .ok z => .ok z
    | .error _ => .error .value

/-- The redshift `calc_dt` (`temperature.py` lines 70-75) and `calc_dt_full` (lines 107-111) use: the
argument, or the first found in the names. -/
def chooseZ (srcs : List Source) (z : ℚ) : Except Err ℚ :=
  if z < 0 then go srcs else .ok z
where
  /-- Try the names in order. -/
  go : List Source → Except Err ℚ
    | [] => .error .exception
    | s :: rest =>
      match s.redshift with
      | .error e => .error e
      | .ok z => if z < 0 then go rest else .ok z

/-- `calc_dt` (`temperature.py` lines 51-80). -/
noncomputable def calcDt (meandt : ℝ) (k : Const) (xiSrc rhoSrc : Source) (xi rho : Cube) (z : ℚ) :
    Except Err Cube :=
  match chooseZ [xiSrc, rhoSrc] z with
  | .error e => .error e
  | .ok z => dt k rho xi (single (meanDt meandt k z))

/-- `shape[i]`, negative indices from the end. -/
def axisOf (i : ℤ) : Option (Fin 3) :=
  if h : 0 ≤ i ∧ i < 3 then some ⟨i.toNat, by omega⟩
  else if h : -3 ≤ i ∧ i < 0 then some ⟨(i + 3).toNat, by omega⟩ else none

/-- The redshifts of the slices (`temperature.py` lines 146-149 and 189-192); `toDist` and `toZ` are
`cosmo.z_to_cdist` and `cosmo.cdist_to_z`. -/
noncomputable def sliceZ (LB : ℝ) (toDist toZ : ℝ → ℝ) (xi : Cube) (lowest : ℝ) (los : ℤ) :
    Except Err (List ℝ) :=
  let n := xi.shape ⟨((los + 1) % 3).toNat, by omega⟩
  if n = 0 then .error .zeroDivision
  else
    match axisOf los with
    | none => .error .index
    | some ax => .ok ((List.range (xi.shape ax)).map fun (i : ℕ) => toZ ((i : ℝ) * (LB / n) + toDist lowest))

/-- `calc_dt_lightcone` of arrays (`temperature.py` lines 118-150). -/
noncomputable def calcDtLightcone (meandt : ℝ) (k : Const) (LB : ℝ) (toDist toZ : ℝ → ℝ) (xi rho : Cube)
    (lowest : ℝ) (los : ℤ) : Except Err Cube :=
  match sliceZ LB toDist toZ xi lowest los with
  | .error e => .error e
  | .ok zs => dt k rho xi (lastAxis (zs.map (meanDt meandt k)))

/-! ### Without the limit of high spin temperature -/

/-- `T_min` (`temperature.py` lines 242-244). -/
noncomputable def tMin (z : ℝ) : ℝ := tcmb0 * (1 + 200) * (1 + z) ^ 2 / (1 + 200) ^ 2

/-- `T_HII` (`temperature.py` line 247). -/
noncomputable def tHII : ℝ := 20000

open Classical in
/-- `Ts_new` of a cell (`temperature.py` lines 252-253).  In a cell with `xi = 1` the division gives
plus or minus infinity or not a number; minus infinity is replaced by `T_min`, the others
remain (`none`). -/
noncomputable def tsNew (ts xi z : ℝ) : Option ℝ :=
  if xi = 1 then (if ts < tHII then some (tMin z) else none)
  else
    let t := (ts - xi * tHII) / (1 - xi)
    some (if t < tMin z then tMin z else t)

open Classical in
/-- The signal of a cell (`temperature.py` lines 224-259) at the redshift `z`: not a number for an
infinite spin temperature, not finite for zero. -/
noncomputable def dtFullCell (meandt : ℝ) (k : Const) (rho xi ts z : ℝ) (correct : Bool) : Option ℝ :=
  match (if correct then tsNew ts xi z else some ts) with
  | none => none
  | some t =>
    if t = 0 then none
    else some ((t - tcmb0 * (1 + z)) / t * meanDt meandt k z * (1 - xi) * rho / (k.rhoCrit0 * k.omegaB))

/-- `calc_dt_full` for arrays of the same shape, one cell (`temperature.py` lines 82-116). -/
noncomputable def calcDtFull (meandt : ℝ) (k : Const) (srcs : List Source) (rho xi ts : Cube) (z : ℚ)
    (correct : Bool) : Except Err (Arr (Fin 3) (Option ℝ)) :=
  match chooseZ srcs z with
  | .error e => .error e
  | .ok z => .ok ⟨xi.shape, fun i => dtFullCell meandt k (rho.val i) (xi.val i) (ts.val i) z correct⟩

/-- `calc_dt_full_lightcone` for arrays of the same shape (`temperature.py` lines 152-194): `_dt_full`
begins with `z = np.mean(z)` (line 225). -/
noncomputable def calcDtFullLightcone (meandt : ℝ) (k : Const) (LB : ℝ) (toDist toZ : ℝ → ℝ)
    (rho xi ts : Cube) (lowest : ℝ) (los : ℤ) (correct : Bool) : Except Err (Arr (Fin 3) (Option ℝ)) :=
  match sliceZ LB toDist toZ xi lowest los with
  | .error e => .error e
  | .ok zs => .ok ⟨xi.shape, fun i =>
      dtFullCell meandt k (rho.val i) (xi.val i) (ts.val i) (zs.sum / zs.length) correct⟩

/-! ### From halo masses -/

/-- `calc_dt_halo` (`temperature.py` lines 13-50), in units of solar masses and Mpc.  `rhoB` is
`cosmo.Ob0*cosmo.critical_density0` of the astropy cosmology; the mean molecular weight and the
proton mass cancel. -/
noncomputable def calcDtHalo (meandt : ℝ) (k : Const) (rhoB : ℝ) (mhalo : Cube) (boxDim z : ℝ) : Cube :=
  ⟨mhalo.shape, fun i => meanDt meandt k z * (mhalo.val i / (boxDim / mhalo.shape 0) ^ 3 / rhoB)⟩

end Verif.Temperature
