import Verif.Model.UVGrid
import Verif.Model.Binning
/-!
# Model of `radio_telescope_layout.py`: the daily UV map from the positions of the antennas

`get_uv_daily_observation` with everything it calls.  Floating point numbers are exact reals; the rotated baselines and the
gridded cells are those of `Model/UVGrid`, rounding that of `Model/Binning`.
-/

namespace Verif.UVDaily

open Verif.UVGrid

/-- `Nbase` of `from_antenna_config` (lines 75-87) for positions in metres and the wavelength `lam`. -/
noncomputable def baselines (lam : ℝ) (xs : List V3) : List V3 :=
  (pairs xs).map fun p j => (p.1 j - p.2 j) / lam

/-- `Nb = np.round(Nbase * theta_max).astype(int)` (line 244), the two columns that are used. -/
noncomputable def cellOf (theta : ℝ) (b : V3) : ℤ × ℤ := (Binning.roundEven (b 0 * theta), Binning.roundEven (b 1 * theta))

/-- `grid_uv_tracks` (lines 207-268) for `theta = theta_max`: with mirrored baselines these are appended before rounding and
the map is halved. -/
noncomputable def snapshot (n : ℕ) (theta : ℝ) (mirror : Bool) (bs : List V3) (i j : ℤ) : ℚ :=
  if mirror then (gridUV n ((bs ++ bs.map fun b => -b).map (cellOf theta)) i j : ℚ) / 2
  else gridUV n (bs.map (cellOf theta)) i j

/-- The baselines in time slice `s` (`earth_rotation_effect`, lines 89-146), declination and hour angle in degrees. -/
noncomputable def rotated (intTime totalTime declination : ℝ) (s : ℕ) (bs : List V3) : List V3 :=
  bs.map (earthRotation (hourAngle s intTime totalTime * Real.pi / 180) (declination * Real.pi / 180))

/-- `get_uv_daily_observation` (lines 148-205): the map and the number of antennas.  `int(...)` of the number of slices
truncates; without slices the map is divided by zero, a negative number of slices divides the empty map.  One antenna has no
baseline and `earth_rotation_effect` fails; two have a single baseline, which is squeezed to a vector of three numbers
(line 146): `grid_uv_tracks` cannot index it unless `np.vstack` has put it above its mirror image. -/
noncomputable def daily (n : ℕ) (lam theta totalTime intTime declination : ℝ) (mirror : Bool) (xs : List V3) :
    Except String ((ℤ → ℤ → ℚ) × ℕ) :=
  if intTime = 0 then .error "ZeroDivisionError"
  else if Conversions.trunc (totalTime * 3600 / intTime) = 0 then .error "nan"
  else if Conversions.trunc (totalTime * 3600 / intTime) < 0 then .ok (fun _ _ => 0, xs.length)
  else if (baselines lam xs).length = 0 ∨ ((baselines lam xs).length = 1 ∧ mirror = false) then .error "IndexError"
  else .ok (fun i j => ((List.range (Conversions.trunc (totalTime * 3600 / intTime)).toNat).map fun t =>
      snapshot n theta mirror (rotated intTime totalTime declination (t + 1) (baselines lam xs)) i j).sum /
        (Conversions.trunc (totalTime * 3600 / intTime)).toNat, xs.length)

end Verif.UVDaily
