import Mathlib.Data.Rat.Floor
import Mathlib.Data.Fintype.Pi
import Mathlib.Data.Fin.VecNotation
import Mathlib.Algebra.BigOperators.Group.Finset.Basic
/-!
# Model of `position_dependent_power_spectrum.py`

Three-dimensional cubes over exact rationals.  The power spectrum of a cube is a parameter.
-/

namespace Verif.SubBoxes

/-- A cube: its shape and its values. -/
structure Cube where
  shape : Fin 3 → ℕ
  val : (Fin 3 → ℕ) → ℚ

/-- The cells of an array of the given shape. -/
def cells (shape : Fin 3 → ℕ) : Finset (Fin 3 → ℕ) := Fintype.piFinset fun d => Finset.range (shape d)

/-- `int(q)`: towards zero. -/
def toInt (q : ℚ) : ℤ := if 0 ≤ q then ⌊q⌋ else ⌈q⌉

/-- A slice bound on an axis of `n` cells. -/
def bound (n : ℕ) (a : ℤ) : ℤ := if a < 0 then max 0 (n + a) else min n a

/-- `_W_L(array, rL, L)` (`position_dependent_power_spectrum.py` lines 90-101) for a
three-dimensional array. -/
def window (shape : Fin 3 → ℕ) (rL L : Fin 3 → ℚ) : (Fin 3 → ℕ) → ℚ := fun c =>
  if ∀ d, bound (shape d) (toInt (rL d - L d / 2)) ≤ c d ∧
      (c d : ℤ) < bound (shape d) (toInt (rL d + L d / 2)) then 1 else 0

/-- `Lx, Ly, Lz` (`position_dependent_power_spectrum.py` line 65). -/
def side (shape : Fin 3 → ℕ) (N : ℕ) : Fin 3 → ℚ := fun d => (shape d : ℚ) / N

/-- `rLs` (`position_dependent_power_spectrum.py` line 66). -/
def centres (shape : Fin 3 → ℕ) (N : ℕ) : List (Fin 3 → ℚ) :=
  let L := side shape N
  (List.range N).flatMap fun (i : ℕ) => (List.range N).flatMap fun (j : ℕ) =>
    (List.range N).map fun (k : ℕ) =>
      ![L 0 / 2 + i * L 0, L 1 / 2 + j * L 1, L 2 / 2 + k * L 2]

/-- `V_L` (`position_dependent_power_spectrum.py` line 71). -/
def volume (shape : Fin 3 → ℕ) (N : ℕ) : ℚ := side shape N 0 * side shape N 1 * side shape N 2

/-- `d_mean` of one sub-box (`position_dependent_power_spectrum.py` lines 74-78). -/
def dMean (cube : Cube) (N : ℕ) (rL : Fin 3 → ℚ) : ℚ :=
  (∑ c ∈ cells cube.shape, cube.val c * window cube.shape rL (side cube.shape N) c) /
    volume cube.shape N

/-- `c1` of one sub-box (`position_dependent_power_spectrum.py` lines 73 and 75). -/
def masked (cube : Cube) (N : ℕ) (rL : Fin 3 → ℚ) : Cube :=
  ⟨cube.shape, fun c => cube.val c * window cube.shape rL (side cube.shape N) c⟩

/-- `integrated_bispectrum_cross` (`position_dependent_power_spectrum.py` lines 45-88); `pk` is
`power_spectrum_1d` with its bins indexed by `κ`. -/
def integratedBispectrumCross {κ : Type*} (pk : Cube → κ → ℚ) (cube1 cube2 : Cube) (N : ℕ)
    (normalize : Bool) : Except String (κ → ℚ) :=
  if cube1.shape ≠ cube2.shape then .error "AssertionError"
  else if N = 0 then .error "ZeroDivisionError"
  else if ¬ ∀ d, cube1.shape d % N = 0 then .error "AssertionError"
  else
    let rLs := centres cube1.shape N
    let n : ℚ := (N : ℚ) ^ 3
    let B : κ → ℚ := fun q => (rLs.map fun r => pk (masked cube1 N r) q * dMean cube2 N r).sum / n
    let P : κ → ℚ := fun q => (rLs.map fun r => pk (masked cube1 N r) q).sum / n
    let sig2 : ℚ := (rLs.map fun r => dMean cube2 N r ^ 2).sum / n
    .ok (if normalize then fun q => B q / P q / sig2 else B)

end Verif.SubBoxes
