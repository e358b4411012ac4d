import Verif.Model.Convolve
import Verif.Model.Helpers
import Mathlib.Analysis.SpecialFunctions.Exp
import Mathlib.Analysis.SpecialFunctions.Log.Basic
import Mathlib.Analysis.SpecialFunctions.Trigonometric.Basic
import Mathlib.Data.Fin.Tuple.Basic
import Mathlib.Data.Rat.Floor
/-!
# Model of `smoothing.py`

Arrays are those of `Verif.Convolve`. A division by a zero sum (numpy gives nan and a warning) is the error "nan".
-/

namespace Verif.Smoothing

open Verif.Convolve

variable {ι : Type} [Fintype ι] [DecidableEq ι] {K : Type} [Field K]

/-- A slice bound `i` on an axis of `n` cells: negative bounds count from the end, all are clipped. -/
def bound (n : ℕ) (i : ℤ) : ℤ := if i < 0 then max 0 (i + n) else min i n

/-- `idx_low = int(center-np.floor(tophat_width/2.))` with `center = size/2`; `int` rounds towards zero
(`smoothing.py` lines 100-101 and 124-125). -/
def idxLow (size : ℕ) (w : ℚ) : ℤ := Int.tdiv (size - 2 * ⌊w / 2⌋) 2

/-- `idx_high = int(center+np.ceil(tophat_width/2.))` (lines 102, 126). -/
def idxHigh (size : ℕ) (w : ℚ) : ℤ := Int.tdiv (size + 2 * ⌈w / 2⌉) 2

/-- The cells that `kernel[idx_low:idx_high, …] = 1.` sets (lines 103, 127). -/
def cubeCells (size : ℕ) (w : ℚ) : Finset (ι → ℤ) :=
  (box fun _ => size).filter fun x =>
    ∀ i, bound size (idxLow size w) ≤ x i ∧ x i < bound size (idxHigh size w)

/-- The cells of `tophat_kernel_3d(shape="sphere")`: `radius <= 0.5*tophat_width`, with coordinates
`-size//2 …` (lines 129-136). -/
def sphereCells (size : ℕ) (w : ℚ) : Finset (ι → ℤ) :=
  (box fun _ => size).filter fun x => 0 ≤ w ∧ ((∑ i, (x i - (size / 2 : ℕ)) ^ 2 : ℤ) : ℚ) ≤ (w / 2) ^ 2

/-- `kernel /= np.sum(kernel)` for a kernel of zeros and ones (lines 104, 138). -/
def normalised (size : ℕ) (cells : Finset (ι → ℤ)) : Except String (Arr ι K) :=
  if cells.card = 0 then .error "nan"
  else .ok ⟨fun _ => size, fun x => if x ∈ cells then 1 / (cells.card : K) else 0⟩

/-- `tophat_kernel(size, width)` (lines 88-105, two axes) and `tophat_kernel_3d(size, width, "cube")` (lines 107-139,
three axes). -/
def tophatKernel (size : ℕ) (w : ℚ) : Except String (Arr ι K) := normalised size (cubeCells size w)

/-- `tophat_kernel_3d(size, width, "sphere")` (lines 107-139). -/
def sphereKernel (size : ℕ) (w : ℚ) : Except String (Arr ι K) := normalised size (sphereCells size w)

/-- `np.exp(-(x*x + y*y)/(2.*sigma*sigma))` on `np.mgrid[-size:size…]` (lines 41-48, 75-83): index `i` has
coordinate `i - size//2`. -/
noncomputable def gaussVal (size : ℕ) (sigma : ℝ) (x : ι → ℤ) : ℝ :=
  Real.exp (-(∑ i, ((x i : ℝ) - (size / 2 : ℕ)) ^ 2) / (2 * sigma * sigma))

open Classical in
/-- `gauss_kernel(size, sigma)` and `gauss_kernel_3d(size, sigma)` (lines 21-85). With `sigma = 0` the centre
cell is 0/0. -/
noncomputable def gaussKernel (size : ℕ) (sigma : ℝ) : Except String (Arr ι ℝ) :=
  if sigma = 0 ∧ size ≠ 0 then .error "nan"
  else .ok ⟨fun _ => size, fun x => gaussVal size sigma x / ∑ y ∈ box (fun _ : ι => size), gaussVal size sigma y⟩

/-- `sigma = fwhm/(2.*np.sqrt(2.*np.log(2)))` (lines 38-39, 72-73). -/
noncomputable def sigmaOfFwhm (fwhm : ℝ) : ℝ := fwhm / (2 * Real.sqrt (2 * Real.log 2))

/-- `smooth_with_kernel` (lines 229-247); the assertion on the number of axes is in the types. -/
def smoothWithKernel (a k : Arr ι K) : Except String (Arr ι K) := fftconvolve a k .same .circular .numpy

/-- `smooth_gauss(input_array, fwhm=fwhm)` of a 2-D map (lines 165-183): the kernel is square with the size of the
first axis. -/
noncomputable def smoothGauss (a : Arr (Fin 2) ℝ) (fwhm : ℝ) : Except String (Arr (Fin 2) ℝ) := do
  let k ← gaussKernel (a.shape 0) (sigmaOfFwhm fwhm)
  smoothWithKernel a k

/-- `_get_padded_slice(input_slice, padded_n)` (`angular_coordinates.py` lines 328-335) of a square map with
`n ≤ padded_n ≤ 2n`: the map continued periodically. -/
def paddedSlice (a : Arr (Fin 2) K) (m : ℕ) : Arr (Fin 2) K :=
  ⟨fun _ => m, fun x => a.val (md a.shape x)⟩

/-- `smooth_tophat` (lines 186-209). Maps that are not square: simplified to a ValueError when the first axis is even
(`_get_padded_slice` cannot broadcast). -/
def smoothTophat (a : Arr (Fin 2) K) (w : ℚ) : Except String (Arr (Fin 2) K) :=
  if a.shape 0 % 2 = 0 then
    if a.shape 1 ≠ a.shape 0 then .error "ValueError"
    else do
      let k ← tophatKernel (a.shape 0 + 1) w
      let out ← smoothWithKernel (paddedSlice a (a.shape 0 + 1)) k
      .ok ⟨fun i => out.shape i - 1, out.val⟩
  else do
    let k ← tophatKernel (a.shape 0) w
    smoothWithKernel a k

/-- The plane of a cube at position `i` of axis `ax`. -/
def plane (cube : Arr (Fin 3) K) (ax : Fin 3) (i : ℤ) : Arr (Fin 2) K :=
  ⟨ax.removeNth cube.shape, fun y => cube.val (ax.insertNth i y)⟩

/-- `smooth_coeval_tophat(cube, width, nu_axis)` (lines 404-425): a square 2-D kernel is applied to the planes
perpendicular to axis 1 if `nu_axis == 0` and to axis 0 otherwise; the assignment into the output
cube raises when the shapes differ. -/
def smoothCoevalTophat (cube : Arr (Fin 3) K) (w : ℚ) (nu : Fin 3) : Except String (Arr (Fin 3) K) := do
  let k ← tophatKernel (cube.shape nu) w
  let ax : Fin 3 := if nu = 0 then 1 else 0
  let out ← smoothWithKernel (plane cube ax 0) k
  if out.shape ≠ ax.removeNth cube.shape then .error "ValueError"
  else .ok ⟨cube.shape, fun x =>
    match smoothWithKernel (plane cube ax (x ax)) k with
    | .ok o => o.val (ax.removeNth x)
    | .error _ => 0⟩  -- unreachable: the shapes do not depend on the position

/-- `smooth_lightcone_tophat(lightcone, redshifts, dz)` (lines 443-462) along one line of sight: `line` are the
values of one pixel. `int(nan)` raises ValueError; an empty slice has mean nan. -/
def lightconeTophat {K : Type} [Field K] [LinearOrder K] [IsStrictOrderedRing K] [FloorRing K]
    (redshifts dz line : List K) : Except String (List K) :=
  (List.range line.length).mapM fun i =>
    match redshifts[i]?, dz[i]? with
    | some z, some d => do
      let lo ← Verif.Helpers.findIdx redshifts (z - d / 2)
      let hi ← Verif.Helpers.findIdx redshifts (z + d / 2)
      match lo, hi with
      | some lo, some hi =>
        let a := bound line.length ⌈lo⌉
        let b := bound line.length (⌈hi⌉ + 1)
        let part := (line.drop a.toNat).take (b - a).toNat
        if part = [] then .error "nan" else .ok (part.sum / part.length)
      | _, _ => .error "ValueError"
    | _, _ => .error "IndexError"

/-! ### `smooth_line` (lines 597-657) -/

/-- `np.convolve(y, window, mode='same')`: the longer sequence is the first one, `out[i] = full[i + (m-1)//2]` where
`m` is the length of the shorter. -/
def convolveSame (y w : List K) : Except String (List K) :=
  if y = [] ∨ w = [] then .error "ValueError"
  else
    let n := max y.length w.length
    let m := min y.length w.length
    .ok ((List.range n).map fun i =>
      ∑ j ∈ Finset.range w.length,
        w.getD j 0 * (if j ≤ i + (m - 1) / 2 then y.getD (i + (m - 1) / 2 - j) 0 else 0))

/-- `np.ones(window)/window` (line 632). -/
def boxWindow (n : ℕ) : List K := List.replicate n (1 / (n : K))

/-- The triangular window (lines 638-641). -/
def triangularWindow (n : ℕ) : List K :=
  let up : List K := (List.range n).map fun (i : ℕ) => (i : K) + 1
  let w := up ++ up.reverse.drop 1
  w.map (· / w.sum)

/-- `np.hamming(M)` (line 643): not normalised. -/
noncomputable def hammingWindow (n : ℕ) : List ℝ :=
  if n = 1 then [1]
  else (List.range n).map fun (i : ℕ) =>
    0.54 + 0.46 * Real.cos (Real.pi * (1 - n + 2 * i : ℝ) / ((n : ℝ) - 1))

/-- A window given as a list: `window /= np.sum(window)` divides in place and raises for integers (lines 648-650). -/
def customWindow [DecidableEq K] (w : List K) (integers : Bool) : Except String (List K) :=
  if integers then .error "UFuncTypeError" else if w.sum = 0 then .error "nan" else .ok (w.map (· / w.sum))

end Verif.Smoothing
