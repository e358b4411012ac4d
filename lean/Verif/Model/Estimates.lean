import Verif.Model.Temperature

/-!
# Estimates and pictures of `superpixels.py`

`xfrac_mass_estimate` and `xfrac_volume_estimate` (lines 214-218), `see_label` (lines 32-36) and `boundaries` (lines 50-56).  Floating point numbers are reals.
-/

namespace Verif.Estimates

/-- The errors of Python. -/
inductive Err where
  | value
  deriving DecidableEq

/-- `xfrac_mass_estimate` (`superpixels.py` lines 214-215) of a number, or of one cell of an array, for redshifts above -1. -/
noncomputable def massEstimate (dT z : ℝ) : ℝ := 1 - dT / 27 / Real.sqrt ((1 + z) / 10)

/-- `xfrac_volume_estimate` (`superpixels.py` lines 217-218) of the cells of a binary field; the mean of nothing is not a number. -/
def volumeEstimate (binary : List Bool) : Option ℚ :=
  if binary.length = 0 then none else some ((binary.map fun b => if b then (1 : ℚ) else 0).sum / binary.length)

/-- `see_label` (`superpixels.py` lines 32-36) for the cells of a map: the result, and whether the message is printed. -/
def seeLabel (map : List ℤ) (label : ℤ) : List ℚ × Bool :=
  if (map.filter (· == label)).length ≠ 0 then (map.map fun l => if l == label then 1 else 0, false) else (map.map fun _ => 0, true)

/-- The largest of some numbers; that of nothing is an error. -/
noncomputable def maxOf : List ℝ → Except Err ℝ
  | [] => .error .value
  | x :: xs => .ok (xs.foldl max x)

/-- `boundaries` (`superpixels.py` lines 50-56) for a slice of `rows` times `cols` pixels; `marked` stands for `bd[:,:,0]==1`, the pixels that `mark_boundaries` of skimage
finds for the labels (an array of the shape of the slice).  The maximum is taken when a pixel is set, and also if no pixel is marked; an array with a
maximum has a pixel `[0,0]`. -/
noncomputable def boundaries (rows cols : ℕ) (sl : ℕ → ℕ → ℝ) (marked : ℕ → ℕ → Bool) (mark : Bool) (factor : ℝ) : Except Err (ℕ → ℕ → ℝ) :=
  let pixels := (List.range rows).flatMap fun i => (List.range cols).map fun j => sl i j
  match maxOf pixels with
  | .error e => .error e
  | .ok m =>
    if mark then .ok fun i j => if marked i j then m * factor else sl i j
    else .ok fun i j => if i = 0 ∧ j = 0 then m * factor else sl i j

end Verif.Estimates
