import Verif.Model.Convolve
import Mathlib.Algebra.Field.Defs
import Mathlib.Data.Fin.Tuple.Basic
/-!
# Model of `statistics.py`

Cubes are arrays with three axes (`Verif.Convolve.Arr`), cell values are elements of a field (exact).
-/

namespace Verif.Statistics

open Verif.Convolve

variable {K : Type} [Field K]

/-- `signal[i,:,:].mean()` and its analogues along the other axes. -/
def planeMean (a : Arr (Fin 3) K) (ax : Fin 3) (i : ℤ) : K :=
  (∑ y ∈ box (ax.removeNth a.shape), a.val (ax.insertNth i y)) / ((box (ax.removeNth a.shape)).card : K)

/-- `signal.shape[los_axis]`: legal axes are -3 … 2. -/
def axisOk (los : ℤ) : Prop := -3 ≤ los ∧ los ≤ 2

instance (los : ℤ) : Decidable (axisOk los) := inferInstanceAs (Decidable (_ ∧ _))

/-- `subtract_mean_signal(signal, los_axis)` (`statistics.py` lines 62-85). The loop writes every slice once. -/
def subtractMean (a : Arr (Fin 3) K) (los : ℤ) : Except String (Arr (Fin 3) K) :=
  if ¬ axisOk los then .error "IndexError"
  else .ok ⟨a.shape, fun x =>
    if los ∈ [0, -3] then a.val x - planeMean a 0 (x 0)
    else if los ∈ [1, -2] then a.val x - planeMean a 1 (x 1)
    else if los ∈ [2, -1] then a.val x - planeMean a 2 (x 2)
    else a.val x⟩

/-- `signal_overdensity(signal, los_axis)` (`statistics.py` lines 88-111). A slice with mean 0 gives inf or nan (an
error here). -/
def overdensity [DecidableEq K] (a : Arr (Fin 3) K) (los : ℤ) : Except String (Arr (Fin 3) K) :=
  if ¬ axisOk los then .error "IndexError"
  else
    let divided (ax : Fin 3) : Except String (Arr (Fin 3) K) :=
      if ∃ i ∈ Finset.Ico 0 (a.shape ax : ℤ), planeMean a ax i = 0 then .error "nan"
      else .ok ⟨a.shape, fun x => a.val x / planeMean a ax (x ax) - 1⟩
    if los = 0 then divided 0
    else if los = 1 then divided 1
    else if los = 2 then divided 2
    else .ok ⟨a.shape, fun x => a.val x - 1⟩

/-- `mass_weighted_mean_xi(xi, rho)` (`statistics.py` lines 43-59) of flattened arrays: `np.mean(xi*rho)/np.mean(rho)`. -/
def massWeighted [DecidableEq K] (l : List (K × K)) : Except String K :=
  let m := (l.map fun p => p.2).sum / (l.length : K)
  if l = [] ∨ m = 0 then .error "nan"
  else .ok ((l.map fun p => p.1 * p.2).sum / (l.length : K) / m)

/-- `kurtosis(x)` (`statistics.py` lines 26-41). One value or no spread: 0/0. -/
def kurtosis [DecidableEq K] (l : List K) : Except String K :=
  let n := (l.length : K)
  let m := l.sum / n
  let v := (l.map fun x => (x - m) ^ 2).sum / (n - 1)
  if l.length ≤ 1 ∨ v = 0 then .error "nan"
  else .ok ((l.map fun x => (x - m) ^ 4).sum / n / v ^ 2)

/-- The numerator and the (unpowered) denominator of `skewness(x)` (`statistics.py` lines 8-24): the function returns
`num / den ** 1.5`. -/
def skewnessParts [DecidableEq K] (l : List K) : Except String (K × K) :=
  let n := (l.length : K)
  let m := l.sum / n
  let v := (l.map fun x => (x - m) ^ 2).sum / (n - 1)
  if l.length ≤ 1 ∨ v = 0 then .error "nan"
  else .ok ((l.map fun x => (x - m) ^ 3).sum / n, v)

/-- The number of values `apply_func_along_los` returns and the slice taken for value `i` (`statistics.py` lines
114-170): `shape[los_axis]` counts, while the slice of a four-dimensional array is taken along axis
`los_axis + 1`. Slices beyond the end are empty. -/
structure LosPlan where
  count : ℕ
  slicedAxis : ℕ
  deriving DecidableEq

/-- `apply_func_along_los(signal, func, los_axis)`: the plan of the loop for an array of shape `shape`. -/
def losPlan (shape : List ℕ) (los : ℤ) : Except String LosPlan :=
  if ¬ (0 ≤ los ∧ los < shape.length) then .error "AssertionError"               -- line 137
  else
    let count := shape.getD los.toNat 0
    if count = 0 then .ok ⟨0, los.toNat⟩
    else if ¬ (shape.length = 3 ∨ shape.length = 4) then .error "AssertionError" -- line 150
    else if ¬ (0 ≤ los ∧ los < 3) then .error "AssertionError"                   -- line 151
    else .ok ⟨count, if shape.length = 3 then los.toNat else los.toNat + 1⟩

end Verif.Statistics
