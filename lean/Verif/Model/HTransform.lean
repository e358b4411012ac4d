import Mathlib.Data.Real.Basic
import Mathlib.Data.Fintype.Pi
import Mathlib.Data.Finset.Lattice.Fold
import Mathlib.Data.Fintype.Basic
import Mathlib.Logic.Function.Iterate
/-!
# Model of the h-transform of `watershed_bsd` (`bubble_stats.py` lines 544-554)

Floating point is replaced by the real numbers.  `skimage.morphology.reconstruction` by dilation repeats a dilation over the neighbourhood of three cells per axis, limited
by the mask, until nothing changes.
-/

namespace Verif.HTransform

variable {ι : Type} [Fintype ι] [DecidableEq ι] {s : ι → ℕ}

/-- The cells of an array of shape `s`. -/
abbrev Cell (s : ι → ℕ) : Type := (i : ι) → Fin (s i)

/-- What is raised. -/
inductive Err
  | value
  deriving DecidableEq

/-- The cells around a cell and itself: the default footprint of `reconstruction` (`bubble_stats.py` line 551). -/
def nbhd (x : Cell s) : Finset (Cell s) := Finset.univ.filter fun y => ∀ i, ((x i : ℤ) - (y i : ℤ)).natAbs ≤ 1

theorem self_mem (x : Cell s) : x ∈ nbhd x := by
  simp [nbhd]

/-- One dilation under the mask (`bubble_stats.py` line 551). -/
noncomputable def step (mask r : Cell s → ℝ) (x : Cell s) : ℝ := min (mask x) ((nbhd x).sup' ⟨x, self_mem x⟩ r)

/-- Repeated dilations (`bubble_stats.py` line 551). -/
noncomputable def iter (mask seed : Cell s → ℝ) (n : ℕ) : Cell s → ℝ := (step mask)^[n] seed

open Classical in
/-- `reconstruction(seed, mask, method='dilation')` (`bubble_stats.py` line 551); a seed above the mask is rejected. -/
noncomputable def reconstruction (seed mask : Cell s → ℝ) : Except Err (Cell s → ℝ) :=
  if ∃ x, mask x < seed x then .error .value
  else if h : ∃ n, step mask (iter mask seed n) = iter mask seed n then .ok (iter mask seed (Nat.find h))
  else .ok seed

open Classical in
/-- `h_transform` (`bubble_stats.py` lines 544-554).  The seed of lines 546-548 is replaced in line 550; `image.min()` of an array without cells raises. -/
noncomputable def hTransform (image : Cell s → ℝ) (h : ℝ) : Except Err (Cell s → ℝ) :=
  if IsEmpty (Cell s) then .error .value
  else
    match reconstruction (fun x => image x - h) image with
    | .error e => .error e
    | .ok d => .ok fun x => image x - d x

end Verif.HTransform
