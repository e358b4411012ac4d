import Verif.Model.Smoothing
/-!
# Model of `smooth_gauss_3d` (`radio_telescope_noise.py` lines 870-920) and of `box_counting.py`

Both use `scipy.signal.fftconvolve`, which pads with zeros.  Arrays have at least one cell along every axis.
-/

namespace Verif.FullConvolve
open Verif.Convolve Verif.Smoothing

variable {ι : Type} [Fintype ι] [DecidableEq ι]

/-- `scipy.signal.fftconvolve(a, k)`: the default mode is `'full'`. -/
noncomputable def full (a k : Arr ι ℝ) : Arr ι ℝ :=
  ⟨fun i => a.shape i + k.shape i - 1, fun n => ∑ x ∈ box a.shape, a.val x * k.ext (n - x)⟩

/-- `scipy.signal.fftconvolve(a, k, mode='same')`: the middle part with the shape of `a`. -/
noncomputable def same (a k : Arr ι ℝ) : Arr ι ℝ :=
  ⟨a.shape, fun n => (full a k).val fun i => n i + ((k.shape i - 1) / 2 : ℕ)⟩

/-- `smooth_gauss_3d` (`radio_telescope_noise.py` lines 902-920); `gauss_kernel_3d` of that file (lines 870-900) is the same
function as in `smoothing.py`. -/
noncomputable def smoothGauss3d (a : Arr (Fin 3) ℝ) (fwhm : ℝ) : Except String (Arr (Fin 3) ℝ) :=
  match gaussKernel (a.shape 0) (sigmaOfFwhm fwhm) with
  | .error e => .error e
  | .ok k => .ok (full a k)

/-- The argument `window`. -/
inductive Window where
  | ball | cube | other

/-- A size: an integer, or a number of another type, which `np.ones` and `np.zeros` reject. -/
inductive Size where
  | int (n : ℕ)
  | float

/-- The cells that `get_kernel` sets to 1 (`box_counting.py` lines 13-22).  The mask of the ball has two axes. -/
def kernelCells (size : ℕ) : Window → Finset (Fin 3 → ℤ)
  | .ball => (box fun _ => size).filter fun x => (x 0 - (size / 2 : ℕ)) ^ 2 + (x 1 - (size / 2 : ℕ)) ^ 2 ≤ ((size / 2 : ℕ) : ℤ) ^ 2
  | _ => box fun _ => size

/-- `get_kernel` (`box_counting.py` lines 12-23) for sizes of at least 1. -/
def getKernel (size : Size) (w : Window) : Except String (Arr (Fin 3) ℚ) :=
  match w, size with
  | .other, _ => .error "UnboundLocalError"
  | _, .float => .error "TypeError"
  | w, .int n => normalised n (kernelCells n w)

/-- `box_count_sliding` (`box_counting.py` lines 5-9) for a natural exponent. -/
noncomputable def boxCountSliding (data : Arr (Fin 3) ℝ) (size : Size) (q : ℕ) (w : Window) : Except String ℝ :=
  match w with
  | .other => .error "AssertionError"
  | _ =>
    match getKernel size w with
    | .error e => .error e
    | .ok k => .ok (∑ x ∈ box data.shape, (same data ⟨k.shape, fun y => (k.val y : ℝ)⟩).val x ^ q)

/-- `Renyi_diemsnions` (`box_counting.py` lines 25-31): the ten sizes are floating point numbers; `spline` stands for the lines 29-31. -/
noncomputable def renyi (spline : List ℝ → ℝ) (data : Arr (Fin 3) ℝ) (q : ℕ) : Except String ℝ :=
  match (List.replicate 10 Size.float).mapM fun s => boxCountSliding data s q .ball with
  | .error e => .error e
  | .ok z => .ok (spline z)

end Verif.FullConvolve
