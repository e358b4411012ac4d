import Verif.Model.Conversions
import Mathlib.Data.Fin.VecNotation
/-!
# Model of `pv_mpm.get_distorted_dt`: redshift-space distortions with particles

Floating point numbers are exact reals.  The velocity box has the shape of the temperature box.
The skewers do not share state: `particle_dT` is filled completely for each of them.
-/

namespace Verif.Distort

open Verif.Constants Verif.Conversions

/-- `np.linspace(0, D, n)[k]`. -/
noncomputable def node (D : ℝ) (n k : ℕ) : ℝ := if n = 1 then 0 else k * (D / ((n : ℝ) - 1))

/-- `get_interpolated_array(y, n, 'linear')[k]` for `y` of length `G`
(`helper_functions.py` lines 156-159). -/
noncomputable def interpolated (G : ℕ) (y : ℕ → ℝ) (n k : ℕ) : ℝ :=
  let t := node 1 n k * ((G : ℝ) - 1)
  let m := min ⌊t⌋₊ (G - 2)
  y m + (t - m) * (y (m + 1) - y m)

/-- Periodic boundary conditions, one box length at most (`pv_mpm.py` lines 113-116). -/
noncomputable def wrap (D p : ℝ) : ℝ :=
  let q := if p < 0 then p + D else p
  if D < q then q - D else q

/-- Whether `np.histogram` counts `p` in bin `g` of the bins `np.linspace(0, D, G+1)`; the last
bin is closed. -/
def InBin (D : ℝ) (G g : ℕ) (p : ℝ) : Prop :=
  node D (G + 1) g ≤ p ∧ (p < node D (G + 1) (g + 1) ∨ (g + 1 = G ∧ p = node D (G + 1) (g + 1)))

/-- Position of particle `k` after the shift (`pv_mpm.py` lines 101, 105-116). -/
noncomputable def position (D : ℝ) (G P : ℕ) (periodic : Bool) (dr : ℕ → ℝ) (k : ℕ) : ℝ :=
  let p := node D (G * P) k + interpolated G dr (G * P) k
  if periodic then wrap D p else p

/-- The new skewer (`pv_mpm.py` lines 97-121); `dT_skewer/num_particles` is given to particles
`n, n+P, n+2P, ...` for every `n < P`. -/
noncomputable def skewer (D : ℝ) (G P : ℕ) (periodic : Bool) (dT dr : ℕ → ℝ) (g : ℕ) : ℝ :=
  open Classical in
  ∑ k ∈ Finset.range (G * P),
    if InBin D G g (position D G P periodic dr k) then dT (k / P) / P else 0

/-- A box; `isInt` if its entries are stored as integers. -/
structure Box where
  shape : Fin 3 → ℕ
  isInt : Bool
  val : (Fin 3 → ℕ) → ℝ

/-- The cell at depth `m` of the skewer `get_skewer(data, i, j)` (`pv_mpm.py` lines 66-71). -/
def cell (los : Fin 3) (i j m : ℕ) : Fin 3 → ℕ :=
  match los with
  | 0 => ![m, i, j]
  | 1 => ![i, m, j]
  | 2 => ![i, j, m]

/-- The skewer `(i, j)` through a cell. -/
def perp (los : Fin 3) (c : Fin 3 → ℕ) : ℕ × ℕ :=
  match los with
  | 0 => (c 1, c 2)
  | 1 => (c 0, c 2)
  | 2 => (c 0, c 1)

/-- `dr` for a velocity in km/s at redshift `z` (`pv_mpm.py` lines 82-83). -/
noncomputable def shift (k : Const) (z v : ℝ) : ℝ :=
  let zObs := (1 + z) / (1 - v / c) - 1
  (1 + zObs) * v / hubble_parameter k zObs

/-- Storing a float in the output array, `np.zeros_like(dT)` (`pv_mpm.py` line 86). -/
noncomputable def store (isInt : Bool) (x : ℝ) : ℝ := if isInt then (trunc x : ℝ) else x

/-- `get_distorted_dt` (`pv_mpm.py` lines 8-131) for `kms[velocity_axis] = v`; `z` is the
redshift, given along the last axis (constant for a number).  A depth of one is treated as an
error of `interp1d`; newer SciPy versions accept it. -/
noncomputable def distorted (k : Const) (LB : ℝ) (dT : Box) (v : (Fin 3 → ℕ) → ℝ) (z : ℕ → ℝ)
    (los : Fin 3) (P : ℕ) (periodic : Bool) : Except String Box :=
  let depth := dT.shape los
  let width := dT.shape (los + 1)
  let D := depth * (LB / width)
  if ¬ (dT.shape 0 = dT.shape 1 ∨ dT.shape 1 = dT.shape 2 ∨ dT.shape 0 = dT.shape 2) then
    .error "AssertionError"
  else if width = 0 then .error "ZeroDivisionError"
  else if depth < 2 then .error "ValueError"
  else if dT.shape (los + 2) < width then .error "IndexError"
  else .ok ⟨dT.shape, dT.isInt, fun c =>
    let ij := perp los c
    if ij.1 < width ∧ ij.2 < width then
      store dT.isInt (skewer D depth P periodic (fun m => dT.val (cell los ij.1 ij.2 m))
        (fun m =>
          let x := cell los ij.1 ij.2 m
          shift k (z (x 2)) (v x)) (c los))
    else 0⟩

end Verif.Distort
