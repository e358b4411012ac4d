import Verif.Model.Morphology
/-!
# Model of `morph._erode_v1`
-/

namespace Verif.Erosion

open Verif.Convolve Verif.Morphology

/-- `np.pad(np.logical_not(A), R, 'constant', constant_values=1)` (`morph.py` lines 18-19). -/
def padded (a : Arr (Fin 3) ℚ) (R : ℕ) : Arr (Fin 3) ℚ :=
  ⟨fun i => a.shape i + 2 * R, fun x => if (fun i => x i - R) ∈ box a.shape then (if a.val (fun i => x i - R) = 0 then 1 else 0) else 1⟩

/-- Length of the slice `R:-R` of an axis with `n` cells: for `R = 0` it is `0:0`. -/
def sliceLength (R n : ℕ) : ℕ := if R = 0 then 0 else n - R - R

/-- `_erode_v1` (`morph.py` lines 16-22). -/
def erode1 (a b : Arr (Fin 3) ℚ) (R : ℕ) : Arr (Fin 3) ℚ :=
  let tmp := dilation (padded a R) b
  ofMask (fun i => sliceLength R (tmp.shape i)) fun x => decide (tmp.val (fun i => x i + R) = 0)

end Verif.Erosion
