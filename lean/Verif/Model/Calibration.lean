import Verif.Model.UVGrid
import Mathlib.Algebra.Order.Field.Rat
/-!
# Model of `radio_telescope_calibration.py` (gridding with gains and antenna stamps), of the work split into chunks, and of
the baseline cut of `radio_telescope_noise.get_uv_map`
-/

namespace Verif.Calibration

open Verif.UVGrid

/-- Python indexing of an axis of length `n`: negative indices count from the end (no error for `-n ≤ x < n`). -/
def pyIndex (n : ℕ) (x : ℤ) : ℤ := if x < 0 then x + n else x

/-! ### Gains -/

/-- The array `gain_uv_map[:, :, c]`: hits and four gain products. -/
abbrev GainMap (R : Type) := ℤ → ℤ → Fin 5 → R

/-- `gain_uv_map[x, y, 0] += 1; gain_uv_map[x, y, 1] += gain1; ...` (`radio_telescope_calibration.py` lines 232-236). -/
def addAt {R : Type} [Semiring R] (n : ℕ) (x y : ℤ) (g : Fin 4 → R) (m : GainMap R) : GainMap R := fun p q c =>
  if p = pyIndex n x ∧ q = pyIndex n y then
    m p q c + (if h : c = 0 then 1 else g (c.pred h))
  else m p q c

/-- `_grid_uv_tracks_with_gains` (lines 186-244) from the rounded coordinates; the in-bounds test is the one of
`grid_uv_tracks`. -/
def gridGains {R : Type} [Semiring R] (n : ℕ) (mirror : Bool) (m : GainMap R) (bs : List ((ℤ × ℤ) × (Fin 4 → R))) :
    GainMap R :=
  (bs.filter fun b => inGrid n b.1).foldl (fun m b =>
    let m := addAt n b.1.1 b.1.2 b.2 m
    if mirror then addAt n (-b.1.1) (-b.1.2) b.2 m else m) m

/-- The gain products of the antenna pair `ii, jj` (lines 94-97). -/
def gainProducts {R : Type} [Semiring R] (r i : ℕ → R) (ii jj : ℕ) : Fin 4 → R :=
  ![r ii * r jj, i ii * i jj, r ii * i jj, i ii * r jj]

/-- The rotation applied in time step `t` by `get_uv_map_with_gains` (line 175) and by the chunk workers (lines 452 and
653): `earth_rotation_effect(Nbase, time_idx, int_time, declination)`. The fourth parameter of that function is
`total_int_time`; its declination stays at the default of -30 degrees. -/
noncomputable def calibrationRotation (t : ℕ) (intTime declination : ℝ) (b : V3) : V3 :=
  earthRotation (hourAngle t intTime declination * Real.pi / 180) (-30 * Real.pi / 180) b

/-! ### Antenna stamps -/

/-- `_grid_uv_tracks_with_antenna_stamp` (lines 457-516) for one time step: entry `[x, y]` of the map is the list of
antenna pairs. -/
def gridStamps {α : Type} (n : ℕ) (m : ℤ → ℤ → List α) (bs : List ((ℤ × ℤ) × α)) : ℤ → ℤ → List α :=
  (bs.filter fun b => inGrid n b.1).foldl (fun m b => fun p q =>
    if p = pyIndex n b.1.1 ∧ q = pyIndex n b.1.2 then m p q ++ [b.2] else m p q) m

/-- `full_uv_map_with_antenna_stamp_to_uv_map` (lines 518-522): the number of stamps over all time steps. -/
def stampsToUV {α : Type} (maps : List (ℤ → ℤ → List α)) (p q : ℤ) : ℕ := (maps.map fun m => (m p q).length).sum

/-- `_grid_uv_lagrangian_tracks_with_antenna_stamp` (lines 659-720) for one time step: the rows of the position array, `none`
for NaN. The coordinates of the baselines inside the grid are written to the rows `0, 1, ...`. -/
def gridLagrangian (n : ℕ) (bs : List (ℤ × ℤ)) : List (Option (ℤ × ℤ)) :=
  let inside := bs.filter (inGrid n)
  inside.map some ++ List.replicate (bs.length - inside.length) none

/-! ### Chunks -/

/-- The chunks of `get_full_uv_map_with_antenna_stamp` and `get_full_uv_lagrangian_with_antenna_stamp` (lines 388-390 and
588-590) for `T` time steps, after `n_jobs = -1` has been replaced by the number of CPUs:
`range(0, T, T // n_jobs)`. Without chunks `np.concatenate` raises. -/
def timeChunks (T : ℕ) (nJobs : ℤ) : Except String (List (ℕ × ℕ)) :=
  if nJobs = 0 then .error "ZeroDivisionError"
  else
    let size : ℤ := (T : ℤ) / nJobs
    if nJobs < 0 then (if T = 0 then .error "ValueError: step" else .error "ValueError: concatenate")
    else if size = 0 then .error "ValueError: step"
    else
      let s := size.toNat
      .ok ((List.range ((T + s - 1) / s)).map fun k => (s * k, min (s * k + s) T))

/-- The chunks of `CubeMap_joblib` (`ViteBetti.py` lines 190-200) for `nJobs ≥ 1` jobs. -/
def cubeChunks (D nJobs : ℕ) : List (ℕ × ℕ) :=
  let size := (D + nJobs - 1) / nJobs
  (List.range nJobs).map fun i => (i * size, min ((i + 1) * size) D)

/-- `range(start, end)`. -/
def pyRange (c : ℕ × ℕ) : List ℕ := List.range' c.1 (c.2 - c.1)

/-! ### Baseline cut -/

/-- Entry `p` of `np.linspace(-ncells/2, ncells/2, ncells)` (`radio_telescope_noise.py` line 616), in units of
`pi / boxsize`. -/
def kAxis (n : ℕ) (p : ℤ) : ℚ := if n = 1 then -1 / 2 else -(n : ℚ) / 2 + p * n / (n - 1)

/-- `get_uv_map(..., max_baseline=...)` (lines 614-622) applied to the map `m`; `cut` is `kcut` in units of
`pi / boxsize`, which is the longest baseline in grid cells. -/
def cutUV (n : ℕ) (cut : ℚ) (m : ℤ → ℤ → ℚ) : ℤ → ℤ → ℚ :=
  fftshift n fun p q => if cut ^ 2 < kAxis n q ^ 2 + kAxis n p ^ 2 then 0 else fftshift n m p q

end Verif.Calibration
