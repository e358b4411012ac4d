import Mathlib.Data.Matrix.Mul
import Mathlib.Analysis.SpecialFunctions.Trigonometric.Basic
import Mathlib.Algebra.Order.Field.Rat
/-!
# Model of `radio_telescope_layout.py`: baselines, Earth rotation, gridding
-/

namespace Verif.UVGrid

/-! ### Gridding (`grid_uv_tracks`, lines 207-268) -/

/-- `mask` (lines 247-250): the rounded baseline lies in the grid. `-ncells / 2 <= Nb < ncells / 2` in floats. -/
def inGrid (n : ℕ) (b : ℤ × ℤ) : Bool :=
  decide (2 * b.1 < n) && decide (-(n : ℤ) ≤ 2 * b.1) && decide (2 * b.2 < n) && decide (-(n : ℤ) ≤ 2 * b.2)

/-- `np.bincount(xx * ncells + yy, minlength=ncells*ncells)` with `xx = Nb[:,0] + ncells//2` (lines 254-258). -/
def flat (n : ℕ) (bs : List (ℤ × ℤ)) (k : ℤ) : ℕ :=
  (bs.filter (inGrid n)).countP fun b => decide ((b.1 + n / 2) * n + (b.2 + n / 2) = k)

/-- `np.fft.fftshift` of an `n × n` array (line 268): `out[i] = in[i - n//2]`. -/
def fftshift {α : Type} (n : ℕ) (m : ℤ → ℤ → α) (i j : ℤ) : α := m ((i - n / 2) % n) ((j - n / 2) % n)

/-- `grid_uv_tracks` without mirrored baselines, from the rounded coordinates `np.round(Nbase * theta_max)`: entry
`[i, j]` of the returned map. The `reshape(ncells, ncells)` is the index `i * n + j`. -/
def gridUV (n : ℕ) (bs : List (ℤ × ℤ)) : ℤ → ℤ → ℕ := fftshift n fun i j => flat n bs (i * n + j)

/-- `grid_uv_tracks(include_mirror_baselines=True)`: the mirrored baselines are appended before gridding (line 241) and
the map is halved (line 265). Rounding commutes with the change of sign (half to even). -/
def gridUVMirror (n : ℕ) (bs : List (ℤ × ℤ)) (i j : ℤ) : ℚ :=
  (gridUV n (bs ++ bs.map fun b => (-b.1, -b.2)) i j : ℚ) / 2

/-- `get_uv_daily_observation` (lines 148-205) with `T` time slices; `coords s` are the rounded coordinates of the `nBase`
rotated baselines in slice `s`. The gridded slices `1, ..., T` (line 190) are added and divided by `T`; `T = 0` gives 0/0.
With fewer than two baselines `earth_rotation_effect` fails or squeezes the single baseline to a vector of shape `(3,)`
(line 146), and `Nb[:, 0]` in `grid_uv_tracks` raises. -/
def dailyUV (n nBase T : ℕ) (coords : ℕ → List (ℤ × ℤ)) : Except String (ℤ → ℤ → ℚ) :=
  if T = 0 then .error "nan"
  else if nBase < 2 then .error "IndexError"
  else .ok fun i j => ((List.range T).map fun t => (gridUV n (coords (t + 1)) i j : ℚ)).sum / T

/-! ### Baselines -/

/-- `from_antenna_config` (lines 77-87): differences of the antenna positions for all index pairs `ii < jj`, in
the order of `itertools.combinations` (in units of the wavelength `lam`). -/
def pairs {α : Type} : List α → List (α × α)
  | [] => []
  | a :: l => l.map (fun b => (a, b)) ++ pairs l

/-- `antenna_positions_to_baselines` (lines 358-379): `itertools.permutations(antxyz, 2)`. -/
def perms {α : Type} (l : List α) : List (α × α) :=
  (List.range l.length).flatMap fun i => (List.range l.length).filterMap fun j =>
    if i = j then none else
      match l[i]?, l[j]? with
      | some a, some b => some (a, b)
      | _, _ => none

/-! ### Rotations -/

abbrev V3 := Fin 3 → ℝ

/-- `earth_rotation_effect` (lines 89-146) of one baseline at hour angle `H` and declination `d` (radians). -/
noncomputable def earthRotation (H d : ℝ) (b : V3) : V3 :=
  ![Real.sin H * b 0 + Real.cos H * b 1,
    -Real.sin d * Real.cos H * b 0 + Real.sin d * Real.sin H * b 1 + Real.cos d * b 2,
    Real.cos d * Real.cos H * b 0 - Real.cos d * Real.sin H * b 1 + Real.sin d * b 2]

/-- The hour angle in degrees of time slice `s` (lines 123-124). -/
noncomputable def hourAngle (s : ℕ) (intTime totalTime : ℝ) : ℝ :=
  15 * (-0.5 * totalTime * 3600 + s * intTime) / 3600

/-- The matrix of `enu_to_ecef` (lines 402-406). -/
noncomputable def enuMatrix (lat lon : ℝ) : Matrix (Fin 3) (Fin 3) ℝ :=
  !![-Real.sin lon, -Real.sin lat * Real.cos lon, Real.cos lat * Real.cos lon;
     Real.cos lon, -Real.sin lat * Real.sin lon, Real.cos lat * Real.sin lon;
     0, Real.cos lat, Real.sin lat]

/-- `enu_to_ecef(enu, lat, lon, origin)` of one antenna (lines 381-411): `enu @ R.T + origin`. -/
noncomputable def enuToEcef (lat lon : ℝ) (origin e : V3) : V3 :=
  Matrix.vecMul e (enuMatrix lat lon).transpose + origin

/-- The matrix of `ecef_to_xyz` (lines 435-439). -/
noncomputable def xyzMatrix (lon : ℝ) : Matrix (Fin 3) (Fin 3) ℝ :=
  !![Real.cos lon, Real.sin lon, 0; -Real.sin lon, Real.cos lon, 0; 0, 0, 1]

/-- `ecef_to_xyz(ecef, lon, origin)` of one antenna (lines 413-442): `(ecef - origin) @ R.T + origin`. -/
noncomputable def ecefToXyz (lon : ℝ) (origin e : V3) : V3 :=
  Matrix.vecMul (e - origin) (xyzMatrix lon).transpose + origin

end Verif.UVGrid
