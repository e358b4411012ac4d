import Mathlib.Analysis.SpecialFunctions.Pow.Real
import Verif.Model.Scope
import Mathlib.Analysis.SpecialFunctions.Log.Base
import Mathlib.Analysis.Real.Pi.Bounds
/-!
# Model of `astro_tools.py`

Magnitudes are in mag, distances in Mpc, flux densities in erg/s/cm²/Hz.  Floating point is replaced by the real numbers.
The cosmology of astropy is a pair of functions of the redshift.
-/

namespace Verif.Magnitudes

/-- The exceptions that occur. -/
inductive Err
  | attribute | units | unbound
  deriving DecidableEq

/-- An argument: a number of python (also `numpy.float64`, which is a subclass), an array of numpy, or a quantity, whose
unit is given in the unit of the model. -/
inductive Arg
  | number (x : ℝ)
  | array (x : List ℝ)
  | quantity (x : List ℝ) (unit : ℝ)

/-- A result: an array without a unit, or a quantity in the unit of the model. -/
inductive Res
  | array (x : List ℝ)
  | quantity (x : List ℝ)

/-- The functions of the cosmology that are called: `comoving_distance(z)` in Mpc and `distmod(z)` in mag. -/
structure Cosmology where
  comoving : ℝ → ℝ
  distmod : ℝ → ℝ

/-- `x.to(unit).value` after numbers have been given the unit (for instance `astro_tools.py` lines 32-34 and 56-57);
arrays have no method `to`. -/
noncomputable def Arg.read : Arg → Except Err (List ℝ)
  | .number x => .ok [x]
  | .array _ => .error .attribute
  | .quantity x u => .ok (x.map fun y => y * u)

/-- `FoV_cMpc2(FoV, redshift, cosmo)` (`astro_tools.py` lines 7-35): numbers are taken for square radians. -/
noncomputable def fovCMpc2 (k : Cosmology) (fov : Arg) (z : ℝ) : Except Err (List ℝ) :=
  match fov.read with
  | .error e => .error e
  | .ok x => .ok (x.map fun y => y * k.comoving z ^ 2)

/-- `mag_to_flux(mag)` (`astro_tools.py` lines 38-58). -/
noncomputable def magToFlux (mag : Arg) : Except Err (List ℝ) :=
  match mag.read with
  | .error e => .error e
  | .ok x => .ok (x.map fun m => (10 : ℝ) ^ (-(m + 48.60) / 2.5))

/-- `2.5 * np.log10(1 + z)` (`astro_tools.py` lines 88 and 121). -/
noncomputable def kCorrection (z : ℝ) : ℝ := 2.5 * Real.logb 10 (1 + z)

open Classical in
/-- `Muv_to_muv(Muv, z, cosmo)` (`astro_tools.py` lines 61-90).  The distance modulus and the correction are numbers
without a unit; adding a number to a quantity with a unit raises, unless the number is zero. -/
noncomputable def absToApp (k : Cosmology) (M : Arg) (z : ℝ) : Except Err Res :=
  let plus (x : List ℝ) : Except Err Res :=
    if k.distmod z ≠ 0 ∨ kCorrection z ≠ 0 then .error .units else .ok (.quantity x)
  match M with
  | .number x => plus [x]
  | .quantity x u => plus (x.map fun y => y * u)
  | .array x => .ok (.array (x.map fun y => y + k.distmod z - kCorrection z))

open Classical in
/-- `muv_to_Muv(muv, z, cosmo)` (`astro_tools.py` lines 93-123).  Here both are quantities, which cannot be subtracted from
an array without a unit, unless it is zero. -/
noncomputable def appToAbs (k : Cosmology) (m : Arg) (z : ℝ) : Except Err Res :=
  let minus (x : List ℝ) : Res := .quantity (x.map fun y => y - k.distmod z + kCorrection z)
  match m with
  | .number x => .ok (minus [x])
  | .quantity x u => .ok (minus (x.map fun y => y * u))
  | .array x => if ∃ y ∈ x, y ≠ 0 then .error .units else .ok (minus x)

/-- The names of a call of `Muv_to_L1500` (`astro_tools.py` lines 126-151): the parameter, and the names that are assigned to. -/
def l1500Frame (M : Arg) : Scope.Frame Arg := ⟨["M_AB", "Muv", "SI2cgs", "L1500"], [("M_AB", M)], []⟩

/-- `Muv_to_L1500(M_AB)` (`astro_tools.py` lines 126-151): a number in `Muv` is given a unit, and `M_AB.to('mag').value` is put into the formula; numbers
and arrays have no method `to`. -/
noncomputable def absToL1500 (M : Arg) : Except Err (List ℝ) :=
  match (l1500Frame M).read "Muv" with
  | .error _ => .error .unbound
  | .ok muv =>
    let f := match muv with
      | .number x => (l1500Frame M).assign "Muv" (.quantity [x] 1)
      | _ => l1500Frame M
    match f.read "M_AB" with
    | .ok (.quantity x u) => .ok (x.map fun m => 10 ^ 7 * (10 : ℝ) ^ ((34.1 - m * u) / 2.5))
    | .ok _ => .error .attribute
    | .error _ => .error .unbound

end Verif.Magnitudes
