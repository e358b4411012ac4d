import Verif.Model.Binning
import Mathlib.Analysis.SpecialFunctions.Pow.Real
import Mathlib.Analysis.SpecialFunctions.Trigonometric.Basic
/-!
# Model of `power_spectrum_noise.py`

Floating point is replaced by the real numbers; distances are those of `Model/Conversions`.
-/

namespace Verif.NoiseError

open Verif.Constants (Const)
open Verif.Conversions (c)
open Verif.Binning (nu_to_cdist)

/-- A number or something with an attribute `__call__` (`power_spectrum_noise.py` lines 44-48 and 54-58). -/
inductive Param
  | number (v : ℝ)
  | function (f : ℝ → ℝ)

/-- The value at the frequency. -/
def Param.at : Param → ℝ → ℝ
  | .number v, _ => v
  | .function f, nu => f nu

/-- The keyword arguments that were given. -/
structure Options where
  Rmax : Option ℝ := none
  Aeff : Option Param := none
  Nstat : Option ℝ := none
  Tsys : Option Param := none
  B : Option ℝ := none
  epsilon : Option ℝ := none
  multipole : Option ℝ := none

/-- The kinds of the argument `k`. -/
inductive Arg
  | number (k : ℝ)
  | array (ks : List ℝ)
  | list (ks : List ℝ)

/-- The value for one number (`power_spectrum_noise.py` lines 39-64). -/
noncomputable def noiseValue (cst : Const) (nu t : ℝ) (o : Options) (k : ℝ) : ℝ :=
  let wavel := c / nu * (1 / 1000)
  let t := t * 60 * 60
  let Rmax := o.Rmax.getD 1500
  let Acore := Rmax ^ 2 * Real.pi
  let Aeff := (o.Aeff.getD (.function fun nu => 526 * (nu / 150) ^ (-2 : ℝ))).at nu
  let Nstat := o.Nstat.getD 48
  let Acoll := Nstat * Aeff
  let B := o.B.getD 10
  let Dc := nu_to_cdist cst nu
  let deltaDc := |Dc - nu_to_cdist cst (nu + B)|
  let OmegaFoV := wavel ^ 2 / Aeff
  let Tsys := (o.Tsys.getD (.function fun nu => (140 + 60 * (nu / 300) ^ (-2.55 : ℝ)) * 1000)).at nu
  let epsilon := o.epsilon.getD 1
  let factor := Real.sqrt (2 * o.multipole.getD 0 + 1)
  2 / Real.pi * k ^ (3 / 2 : ℝ) * Real.sqrt (Dc ^ 2 * deltaDc * OmegaFoV) *
    (Tsys / Real.sqrt (B * 10 ^ 6 * t)) ^ 2 * (Acore * Aeff / Acoll ^ 2) / Real.sqrt epsilon * factor

/-- `noise_error_ps` (`power_spectrum_noise.py` lines 10-66).  A list has no power: `k**(3./2.)` raises. -/
noncomputable def noiseError (cst : Const) (nu : ℝ) (k : Arg) (t : ℝ) (o : Options) : Except String Arg :=
  match k with
  | .number k => .ok (.number (noiseValue cst nu t o k))
  | .array ks => .ok (.array (ks.map (noiseValue cst nu t o)))
  | .list _ => .error "TypeError"

end Verif.NoiseError
