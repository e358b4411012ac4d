import Verif.Model.Convolve
import Mathlib.Algebra.Order.Field.Rat
import Mathlib.Data.List.Sort
/-!
# Model of `morph.py` and of the granulometry of `bubble_stats.py`

`scipy.signal.fftconvolve(A, B, 'same')` is modelled by its documented value, the central part of the linear
convolution (`Lemmas/DFT` proves that the Fourier route gives circular convolutions); rounding of the
transforms is not modelled, the code guards against it with the margins of 0.5.
-/

namespace Verif.Morphology

open Verif.Convolve

variable {ι : Type} [Fintype ι] [DecidableEq ι]

/-- First cell of the central part cut out of the full convolution: `(shape(B) - 1) // 2` along every axis. -/
def centre (b : Arr ι ℚ) : ι → ℤ := fun i => (((b.shape i - 1) / 2 : ℕ) : ℤ)

/-- `fftconvolve(A, B, 'same')` of scipy at cell `x` (`morph.py` lines 11, 26). -/
def same (a b : Arr ι ℚ) (x : ι → ℤ) : ℚ := ∑ y ∈ box b.shape, b.val y * a.ext (x + centre b - y)

/-- A boolean array used as numbers. -/
def ofMask (shape : ι → ℕ) (p : (ι → ℤ) → Bool) : Arr ι ℚ := ⟨shape, fun x => if p x then 1 else 0⟩

/-- `np.count_nonzero(B)` (`morph.py` line 25). -/
def countNonzero (b : Arr ι ℚ) : ℕ := ((box b.shape).filter fun y => b.val y ≠ 0).card

/-- `binary_dilation` (`morph.py` lines 10-11). -/
def dilation (a b : Arr ι ℚ) : Arr ι ℚ := ofMask a.shape fun x => decide (same a b x > 1 / 2)

/-- `binary_erosion` = `_erode_v2` (`morph.py` lines 13-14, 24-26). -/
def erosion (a b : Arr ι ℚ) : Arr ι ℚ := ofMask a.shape fun x => decide (same a b x > (countNonzero b : ℚ) - 1 / 2)

inductive Err where
  | dimensionality   -- `fftconvolve` of an array and `None`: ValueError
  | index            -- IndexError
  | nan              -- every entry is 0/0
  deriving DecidableEq

/-- `binary_opening(image, structure=None)` (`morph.py` lines 29-54).  With `structure=None` the value reaches
`fftconvolve`, which rejects it. -/
def opening (image : Arr ι ℚ) (structure? : Option (Arr ι ℚ)) : Except Err (Arr ι ℚ) :=
  match structure? with
  | none => .error .dimensionality
  | some b => .ok (dilation (erosion image b) b)

/-- `disk(n)`, `ball(n)` of `_granulometry` and `disk_structure(n)` (`bubble_stats.py` lines 416-421, 496-507). -/
def ball (ι : Type) [Fintype ι] (n : ℕ) : Arr ι ℚ :=
  ⟨fun _ => 2 * n + 1, fun x => if ∑ i, (x i - n) ^ 2 ≤ (n : ℤ) ^ 2 then 1 else 0⟩

/-- `opened_data.sum()` (`bubble_stats.py` line 520). -/
def area (a : Arr ι ℚ) : ℚ := ∑ x ∈ box a.shape, a.val x

/-- `func(n)` (`bubble_stats.py` lines 515-520). -/
def openedArea (a : Arr ι ℚ) (n : ℕ) : ℚ := area (dilation (erosion a (ball ι n)) (ball ι n))

/-- The loop filling `area = zeros` for `n` in `pixel`, left at the first vanishing area (`bubble_stats.py` lines 522-531).
The first argument counts the remaining entries. -/
def areaLoop (f : ℕ → ℚ) : ℕ → ℕ → List ℚ
  | 0, _ => []
  | k + 1, n => if f n = 0 then List.replicate (k + 1) 0 else f n :: areaLoop f k (n + 1)

/-- `np.append((area[:-1]-area[1:])/area[0], 0)` (`bubble_stats.py` line 535): `area[0]` raises for an empty array and
an empty mask divides zero by zero. -/
def spectrum (area : List ℚ) : Except Err (List ℚ) :=
  match area with
  | [] => .error .index
  | a0 :: _ => if a0 = 0 then .error .nan
      else .ok (List.zipWith (fun x y => (x - y) / a0) area.dropLast area.tail ++ [0])

/-- Largest side of the array, `s = max(data.shape)` (`bubble_stats.py` line 509). -/
def maxSide (a : Arr ι ℚ) : ℕ := Finset.univ.sup a.shape

/-- `_granulometry` (`bubble_stats.py` lines 494-538): areas and pattern spectrum for the radii `range(int(s/2))`. -/
def granulometry (a : Arr ι ℚ) : Except Err (List ℚ × List ℚ) :=
  let areas := areaLoop (openedArea a) (maxSide a / 2) 0
  match spectrum areas with
  | .error e => .error e
  | .ok p => .ok (areas, p)

/-- `granulometry_CDF` (`bubble_stats.py` lines 424-438) after the shuffle has produced the order `sizes`: the opened areas
in that order, permuted by `np.argsort(sizes)`. -/
def granulometryCDF (f : ℕ → ℚ) (sizes : List ℕ) : List ℚ :=
  let granulo := sizes.map f
  let argSort := (List.range sizes.length).insertionSort fun i j => sizes.getD i 0 ≤ sizes.getD j 0
  argSort.map fun i => granulo.getD i 0

end Verif.Morphology
