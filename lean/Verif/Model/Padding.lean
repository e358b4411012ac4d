import Mathlib.Algebra.Order.Ring.Int
/-!
# Model of the padding in `angular_coordinates.py`

NumPy slices, block assignment and broadcasting for two-dimensional arrays.
-/

namespace Verif.Padding

/-- A two-dimensional array; only `val i j` with `i < rows`, `j < cols` is meaningful. -/
structure Mat (R : Type*) where
  rows : ℕ
  cols : ℕ
  val : ℕ → ℕ → R

/-- Number of entries of `a[:stop]` on an axis of `n` entries; a negative `stop` counts from
the end. -/
def stopOf (n : ℕ) (stop : ℤ) : ℕ := if stop < 0 then (n + stop).toNat else min n stop.toNat

/-- `a[:r, :c]`. -/
def Mat.head {R : Type*} (a : Mat R) (r c : ℤ) : Mat R :=
  ⟨stopOf a.rows r, stopOf a.cols c, a.val⟩

/-- Broadcasting one axis of length `src` to `dst`: the source index of entry `i`. -/
def spread (src dst i : ℕ) : Option ℕ :=
  if src = dst then some i else if src = 1 then some 0 else none

/-- `dst[r0:r1, c0:c1] = src`, with `r0 <= r1 <= dst.rows` and likewise for columns.  Raises if
the shapes do not broadcast (checked on the axis lengths). -/
def Mat.put {R : Type*} (dst : Mat R) (r0 r1 c0 c1 : ℕ) (src : Mat R) : Except String (Mat R) :=
  if (src.rows = r1 - r0 ∨ src.rows = 1) ∧ (src.cols = c1 - c0 ∨ src.cols = 1) then
    .ok ⟨dst.rows, dst.cols, fun i j =>
      if (r0 ≤ i ∧ i < r1) ∧ (c0 ≤ j ∧ j < c1) then
        src.val ((spread src.rows (r1 - r0) (i - r0)).getD 0)
          ((spread src.cols (c1 - c0) (j - c0)).getD 0)
      else dst.val i j⟩
  else .error "could not broadcast input array"

/-- `_get_padded_slice` (`angular_coordinates.py` lines 328-335). -/
def getPaddedSlice {R : Type*} [Zero R] (s : Mat R) (paddedN : ℕ) : Except String (Mat R) := do
  let n := s.rows
  let m := min n paddedN
  let d : ℤ := (paddedN : ℤ) - n
  let p : Mat R := ⟨paddedN, paddedN, fun _ _ => 0⟩
  let p ← p.put 0 m 0 m s
  let p ← p.put m paddedN 0 m (s.head d n)
  let p ← p.put 0 m m paddedN (s.head s.rows d)
  p.put m paddedN m paddedN (s.head d d)

/-- The number of cells `physical_slice_to_angular` pads a slice of `sliceN` cells to
(`angular_coordinates.py` lines 187-193), given `int(fov_deg*60./dtheta)`. -/
def paddedSize (sliceN fov : ℕ) : ℕ := if fov < sliceN then sliceN else fov

/-- One plane of `padding_lightcone` (`angular_coordinates.py` lines 350-353) with the default
`mode='wrap'`; `np.pad` continues periodically. -/
def padWrap {R : Type*} (s : Mat R) (p : ℕ) : Mat R :=
  ⟨s.rows + 2 * p, s.cols + 2 * p, fun i j =>
    s.val (((i : ℤ) - p) % s.rows).toNat (((j : ℤ) - p) % s.cols).toNat⟩

/-- Default of `padded_n` (`angular_coordinates.py` line 350), from the second axis. -/
def defaultPad {R : Type*} (s : Mat R) : ℕ := s.cols / 2

end Verif.Padding
