import Mathlib.Algebra.Order.Field.Basic
import Mathlib.Data.List.Sort
/-!
# Model of the threshold methods of `identify_regions.py`

A cube is a function of three indices together with its shape.  `threshold_triangle` of scikit-image is an argument: the
threshold it returns for a number of bins and the values of an array in the order of memory.
-/

namespace Verif.Thresholds

variable {K : Type} [Field K] [LinearOrder K]

/-- A three dimensional array of the shape `d0, d1, d2`. -/
structure Cube (K : Type) where
  d0 : ℕ
  d1 : ℕ
  d2 : ℕ
  at_ : ℕ → ℕ → ℕ → K

/-- `data<=threshold` or `data>=threshold`, the last lines of the three functions (`identify_regions.py` lines 93-94,
122-123 and 154-155). -/
def mark (data : Cube K) (threshold : K) (upperLim : Bool) : Cube Bool :=
  { d0 := data.d0, d1 := data.d1, d2 := data.d2
    at_ := fun i j k => if upperLim then decide (data.at_ i j k ≤ threshold) else decide (data.at_ i j k ≥ threshold) }

/-- `bubbles_from_fixed_threshold` (`identify_regions.py` lines 71-94). -/
def fixedThreshold (data : Cube K) (threshold : K) (upperLim : Bool) : Cube Bool := mark data threshold upperLim

/-- All values of a cube in the order of memory. -/
def flat (data : Cube K) : List K :=
  (List.range data.d0).flatMap fun i => (List.range data.d1).flatMap fun j =>
    (List.range data.d2).map fun k => data.at_ i j k

/-- `bubbles_from_triangle3D` (`identify_regions.py` lines 96-123). -/
def triangle3D (tri : ℕ → List K → K) (data : Cube K) (upperLim : Bool) (nbins : ℕ) : Cube Bool :=
  mark data (tri nbins (flat data)) upperLim

/-- The slices of line 150, 151 or 152 (`identify_regions.py` lines 150-152): any axis other than 0, -3, 1 and -2 takes the
last branch. -/
def slices (data : Cube K) (locAxis : ℤ) : List (List K) :=
  if locAxis = 0 ∨ locAxis = -3 then
    (List.range data.d0).map fun i => (List.range data.d1).flatMap fun j => (List.range data.d2).map fun k => data.at_ i j k
  else if locAxis = 1 ∨ locAxis = -2 then
    (List.range data.d1).map fun i => (List.range data.d0).flatMap fun j => (List.range data.d2).map fun k => data.at_ j i k
  else
    (List.range data.d2).map fun i => (List.range data.d0).flatMap fun j => (List.range data.d1).map fun k => data.at_ j k i

/-- `np.median(threshold_s)` (`identify_regions.py` line 153): the middle of the sorted values, or the mean of the two in the
middle.  Simplified: the median of no values, a nan, is 0 (the cube has no cells then). -/
def median (xs : List K) : K :=
  let s := xs.insertionSort (· ≤ ·)
  (s.getD ((s.length - 1) / 2) 0 + s.getD (s.length / 2) 0) / 2

/-- `bubbles_from_triangle2D` (`identify_regions.py` lines 125-155). -/
def triangle2D (tri : ℕ → List K → K) (data : Cube K) (upperLim : Bool) (nbins : ℕ) (locAxis : ℤ) : Cube Bool :=
  mark data (median ((slices data locAxis).map (tri nbins))) upperLim

end Verif.Thresholds
