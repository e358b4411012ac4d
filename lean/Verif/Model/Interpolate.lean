import Verif.Model.Convolve
import Mathlib.Algebra.Order.Archimedean.Real.Basic
import Mathlib.Algebra.BigOperators.Fin
/-!
# Model of `interpolate2d` and `interpolate3d` (`smoothing.py` lines 272-331)

Both functions are one definition for any number of axes.  `scipy.ndimage.map_coordinates` is modelled for splines of the orders 0
and 1, which need no filter, for arrays with at least one cell along every axis.
-/

namespace Verif.Interpolate
open Verif.Convolve

/-- The argument `order`. -/
inductive Order where
  | zero | one

/-- The default of `order` (`smoothing.py` lines 272 and 306). -/
def defaultOrder : Order := .zero

/-- `map_coordinate` of `scipy.ndimage` for `mode='wrap'` and an axis of `n` cells: the period is `n - 1`. -/
noncomputable def wrap (n : ℕ) (c : ℝ) : ℝ :=
  open Classical in
  if c < 0 then (if n ≤ 1 then 0 else c + (n - 1) * (⌊-c / (n - 1)⌋ + 1))
  else if c > n - 1 then (if n ≤ 1 then 0 else c - (n - 1) * ⌊c / (n - 1)⌋)
  else c

/-- `map_coordinates` at one point whose coordinates are inside. -/
noncomputable def spline {d : ℕ} (order : Order) (a : (Fin d → ℤ) → ℝ) (c : Fin d → ℝ) : ℝ :=
  match order with
  | .zero => a fun j => ⌊c j + 1 / 2⌋
  | .one => ∑ e : Fin d → Fin 2, (∏ j, if e j = 0 then 1 - Int.fract (c j) else Int.fract (c j)) * a fun j => ⌊c j⌋ + (e j : ℕ)

/-- `interpolate2d` (`smoothing.py` lines 306-331) and `interpolate3d` (lines 272-303). -/
noncomputable def interpolate {d : ℕ} (order : Order) (a : Arr (Fin d) ℝ) (coords : Fin d → List ℝ) : Arr (Fin d) ℝ :=
  ⟨fun j => (coords j).length, fun i => spline order a.val fun j => wrap (a.shape j) ((coords j).getD (i j).toNat 0)⟩

end Verif.Interpolate
