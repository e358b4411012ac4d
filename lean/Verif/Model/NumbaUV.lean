import Verif.Model.UVGrid
import Verif.Model.Binning
/-!
# Model of the UV coverage of `numba_functions.py`

The decorator `jit` is left out: the functions are taken to do what their text says.  Real numbers replace floating point numbers.
-/

namespace Verif.NumbaUV
open Verif.UVGrid (V3 pairs)
open Verif.Binning (roundEven)

/-- The exceptions that occur; `nan` stands for a result whose values are not numbers. -/
inductive Err
  | index | zeroDivision | nan
  deriving DecidableEq

/-- The position in metres of an antenna at a longitude and a latitude in degrees (`numba_functions.py` lines 93-99). -/
noncomputable def position (a : ℝ × ℝ) : V3 :=
  ![6371000 * Real.cos (a.2 * (Real.pi / 180)) * Real.cos (a.1 * (Real.pi / 180)),
    6371000 * Real.cos (a.2 * (Real.pi / 180)) * Real.sin (a.1 * (Real.pi / 180)),
    6371000 * Real.sin (a.2 * (Real.pi / 180))]

/-- `lam` (`numba_functions.py` lines 95 and 104); `nu0` is the frequency of the line in MHz (`cosmo.py`, `z_to_nu`). -/
noncomputable def wavelength (nu0 z : ℝ) (nu : Option ℝ) : ℝ :=
  let f := match nu with
    | none => nu0 / (1 + z)
    | some x => if x = 0 then nu0 / (1 + z) else x
  29979245800 / (f * 1000000) / 100

/-- `from_antenna_config` (`numba_functions.py` lines 73-113): baselines in wavelengths and the number of antennas, from the last two
columns of the file. -/
noncomputable def fromConfig (nu0 z : ℝ) (nu : Option ℝ) (antll : List (ℝ × ℝ)) : List V3 × ℕ :=
  ((pairs (antll.map position)).map fun p j => (p.1 j - p.2 j) / wavelength nu0 z nu, antll.length)

/-- `HA` (`numba_functions.py` line 135) of the slice `k`. -/
noncomputable def hourAngle (k : ℤ) (intTime : ℝ) : ℝ :=
  -15 * (Real.pi / 180) * (k - 1) * intTime / 3600 - Real.pi / 180 * 90 + Real.pi / 180 * 360

/-- `earth_rotation_effect` (`numba_functions.py` lines 115-141) of one baseline. -/
noncomputable def rotate (k : ℤ) (intTime declination : ℝ) (b : V3) : V3 :=
  let delta := Real.pi / 180 * declination
  let H := hourAngle k intTime
  ![Real.sin H * b 0 + Real.cos H * b 1,
    -1 * Real.sin delta * Real.cos H * b 0 + Real.sin delta * Real.sin H * b 1 + Real.cos delta * b 2,
    Real.cos delta * Real.cos H * b 0 - Real.cos delta * Real.sin H * b 1 + Real.sin delta * b 2]

/-- A rounded coordinate of a baseline (`numba_functions.py` line 162). -/
noncomputable def rounded (theta : ℝ) (b : V3) (j : Fin 3) : ℤ := roundEven (b j * theta / 2)

/-- The six masks (`numba_functions.py` lines 163-168). -/
noncomputable def kept (n : ℕ) (theta : ℝ) (b : V3) : Bool :=
  decide (2 * rounded theta b 0 < n) && decide (2 * rounded theta b 1 < n) && decide (2 * rounded theta b 2 < n) &&
  decide (2 * rounded theta b 0 ≥ -n) && decide (2 * rounded theta b 1 ≥ -n) && decide (2 * rounded theta b 2 ≥ -n)

/-- `get_uv_coverage` (`numba_functions.py` lines 143-171) for a box of the angle `theta`: entry `[i, j]`.  Negative indices count from the
end of the axis.  An array of no baselines has one axis, and `Nb[:,0]` raises. -/
noncomputable def coverage (n : ℕ) (theta : ℝ) (bs : List V3) : Except Err (ℕ → ℕ → ℕ) :=
  if bs = [] then .error .index
  else .ok fun i j => (bs.filter (kept n theta)).countP fun b =>
    decide ((if rounded theta b 0 < 0 then rounded theta b 0 + n else rounded theta b 0) = i ∧
      (if rounded theta b 1 < 0 then rounded theta b 1 + n else rounded theta b 1) = j)

/-- `tot_num_obs` (`numba_functions.py` line 58). -/
noncomputable def steps (totalTime intTime : ℝ) : Except Err ℤ :=
  if intTime = 0 then .error .zeroDivision
  else
    let x := 3600 * totalTime / intTime
    .ok (if x < 0 then ⌈x⌉ else ⌊x⌋)

/-- `get_uv_daily_observation_numba` (`numba_functions.py` lines 38-70) for the baselines of the antennas. -/
noncomputable def daily (n : ℕ) (theta totalTime intTime declination : ℝ) (bs : List V3) : Except Err (ℕ → ℕ → ℝ) := do
  let m0 ← coverage n theta bs
  let T ← steps totalTime intTime
  let ms ← (List.range (T - 1).toNat).mapM fun (i : ℕ) => coverage n theta (bs.map (rotate (i + 1) intTime declination))
  if T = 0 then .error .nan
  else .ok fun i j => ((ms.map fun m => (m i j : ℝ)).sum + m0 i j) / T

end Verif.NumbaUV
