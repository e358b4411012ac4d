import Mathlib.Analysis.SpecialFunctions.Exp

/-!
# Test fields of the friends-of-friends module

`halo3d` of `Friends_of_Friends.py` makes an array with one Gaussian blob.  Floating point numbers are modelled by real numbers.
-/

namespace Verif.Blob

/-- The errors of Python. -/
inductive Err where
  | zeroDivision
  deriving DecidableEq

/-- `gaussian` (`Friends_of_Friends.py` lines 59-61): `np.exp(-dx**2.0/(2.0*sig**2.0))`; its arguments are Python numbers, so a zero deviation raises. -/
noncomputable def gaussian (dx sig : ℝ) : Except Err ℝ :=
  open Classical in
  if 2 * sig ^ 2 = 0 then .error .zeroDivision else .ok (Real.exp (-dx ^ 2 / (2 * sig ^ 2)))

/-- `reduce(lambda foo, y: foo+y**2, [0, i-x[0], j-x[1], k-x[2]])` (line 78): the first element is the start. -/
noncomputable def reduceSquares : List ℝ → ℝ
  | [] => 0
  | s :: ys => ys.foldl (fun foo y => foo + y ^ 2) s

/-- The value of one cell (lines 78-79). -/
noncomputable def cell (x : ℝ × ℝ × ℝ) (a sigma : ℝ) (i j k : ℕ) : Except Err ℝ := do
  let g ← gaussian (reduceSquares [0, i - x.1, j - x.2.1, k - x.2.2]) sigma
  return a * g

/-- `halo3d` (lines 64-80). -/
noncomputable def halo3d (x : ℝ × ℝ × ℝ) (a sigma : ℝ) (size : ℕ × ℕ × ℕ) : Except Err (List (List (List ℝ))) :=
  (List.range size.1).mapM fun i => (List.range size.2.1).mapM fun j => (List.range size.2.2).mapM fun k => cell x a sigma i j k

end Verif.Blob
