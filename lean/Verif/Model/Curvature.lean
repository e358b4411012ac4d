import Verif.Model.Conversions
import Mathlib.Analysis.SpecialFunctions.Trigonometric.Basic
/-!
# Model of `luminosity_distance` with its curvature argument

`Model/Conversions.lean` has the function at one redshift with the default `k=0`.  Here the
argument `k`, arrays of redshifts, the type of the result and the NaN of `np.sqrt` of a
negative number are added.  Floats are exact reals and `quad` is the exact integral.
-/

namespace Verif.Curvature

open Verif.Constants Verif.Conversions

/-- A number or a one-dimensional array. -/
inductive Val (α : Type) where
  | num (x : α)
  | arr (l : List α)

/-- `if not (type(z) is np.ndarray): z = np.array([z])` (`cosmo.py` lines 108-109). -/
def Val.atleast {α : Type} : Val α → List α
  | .num x => [x]
  | .arr l => l

/-- `outputify` (`helper_functions.py` lines 453-472) of an array. -/
def outputify {α : Type} : List α → Val α
  | [x] => .num x
  | l => .arr l

/-- The closed form at one redshift (`cosmo.py` lines 113-114): `none` is the NaN that
`np.sqrt` returns for a negative number. -/
noncomputable def closedForm (c : Const) (z : ℝ) : Option ℝ :=
  if 1 + 2 * (c.q0 : ℝ) * z < 0 then none else some (mattig c z)

/-- Lines 117-122 of `cosmo.py` at one redshift. -/
noncomputable def depth (c : Const) (z : ℝ) : ℝ :=
  if z ≤ 0 then 0 else ∫ x in (0 : ℝ)..z, ldist c x

/-- Lines 124-127 of `cosmo.py`. -/
noncomputable def bend (k d : ℝ) : ℝ :=
  if k > 0 then Real.sinh (Real.sqrt k * d) / Real.sqrt k
  else if k < 0 then Real.sin (Real.sqrt (-k) * d) / Real.sqrt (-k)
  else d

/-- `luminosity_distance(z, k)` (`cosmo.py` lines 97-128).  The branch without cosmological
constant returns before `outputify`. -/
noncomputable def luminosityDistance (c : Const) (z : Val ℝ) (k : ℝ := 0) : Val (Option ℝ) :=
  if c.lam = 0 then .arr (z.atleast.map (closedForm c))
  else outputify (z.atleast.map fun x =>
    some (Conversions.c * (1 + x) * bend k (depth c x) / c.H0))

end Verif.Curvature
