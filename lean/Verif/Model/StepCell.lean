import Mathlib.Algebra.Order.Field.Basic
import Mathlib.Data.List.Sort
/-!
# Model of the interpolation `step_cell` of `lightcone.py`

A slice is the list of its cells.  The smoothed slice (`smoothing.smooth_gauss`) and the random numbers are arguments; numbers of an
ordered field replace floating point numbers.
-/

namespace Verif.StepCell

variable {K : Type} [Field K] [LinearOrder K]

/-- `index` is the exception; `nan` stands for values that are not numbers. -/
inductive Err
  | index | nan
  deriving DecidableEq

/-- The line through two of the points, chosen by `searchsorted` (scipy's `interp1d` of the kind `linear`). -/
def segment : List (K × K) → K → K
  | p :: q :: l, x =>
    match l with
    | [] => (q.2 - p.2) / (q.1 - p.1) * (x - p.1) + p.2
    | _ :: _ => if x ≤ q.1 then (q.2 - p.2) / (q.1 - p.1) * (x - p.1) + p.2 else segment (q :: l) x
  | _, _ => 0

/-- `f` (`lightcone.py` line 486): zero outside of the values. -/
def interp (xs ys : List K) (x : K) : K :=
  if x < xs.headD 0 then 0 else if xs.getLastD 0 < x then 0 else segment (xs.zip ys) x

/-- `np.linspace(a, b, n)` for `n` of at least two. -/
def linspace (a b : K) (n : ℕ) : List K := (List.range n).map fun (i : ℕ) => a + i * ((b - a) / ((n : K) - 1))

/-- `values_sorted` (`lightcone.py` lines 483-484), for the random numbers `u`. -/
def valuesSorted (u dist : List K) (changed : List Bool) : List K :=
  let flat := (dist.zip changed).filterMap fun p => if p.2 then some p.1 else none
  (List.zipWith (fun v r => v + r / 1000000000) flat u).insertionSort (· ≤ ·)

/-- The smallest entry of a list that is not empty. -/
def least : List K → K
  | [] => 0
  | x :: l => l.foldl min x

/-- The largest entry of a list that is not empty. -/
def most : List K → K
  | [] => 0
  | x :: l => l.foldl max x

/-- `_get_step_transitions` (`lightcone.py` lines 480-490).  Of a single value the interpolation has no segment, and the last line divides zero
by zero. -/
def transitions (u dist : List K) (changed : List Bool) : Except Err (List K) :=
  let xs := valuesSorted u dist changed
  match xs with
  | [] => .error .index
  | [_] => .error .nan
  | _ :: _ :: _ =>
    let out := dist.map (interp xs (linspace (xs.headD 0) (xs.getLastD 0) xs.length))
    let shifted := out.map fun y => y - least out
    if most shifted = 0 then .error .nan else .ok (shifted.map fun y => y / most shifted)

/-- `_get_step_weighted_slice` (`lightcone.py` lines 461-477): comparisons with values that are not numbers are false. -/
def stepSlice (u smoothed low high : List K) (zHigh zLow z : K) : Except Err (List K) :=
  match transitions u smoothed (List.zipWith (fun h l => decide (|h - l| > 1 / 1000)) high low) with
  | .error .index => .error .index
  | .error .nan => .ok high
  | .ok t => .ok (List.zipWith (fun s (p : K × K) => if z < zLow + s * (zHigh - zLow) then p.2 else p.1) t (high.zip low))

end Verif.StepCell
