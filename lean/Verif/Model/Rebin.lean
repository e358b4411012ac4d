import Verif.Model.PowerSpectrum
/-!
# Model of `rebin_bsd` (`bubble_stats.py` lines 332-339)

The cubic spline through the points is an argument `f`; `interp1d` evaluates it between the smallest and the largest of the sizes and
raises ValueError elsewhere, but not for values that are not numbers, written `none`.  The sizes are different from each other and at
least four, as `interp1d` wants.  A limit of exactly zero is treated like a negative one.
-/

namespace Verif.Rebin
open Verif.PowerSpectrum

inductive Err where
  | value | type
  deriving DecidableEq

/-- The argument `bins`. -/
inductive Bins where
  | number (n : ℕ)
  | sizes (l : List ℝ)

/-- `10**np.linspace(np.log10(a), np.log10(b), n)`: with a bad upper limit no entry is a number, with a bad lower one only the last. -/
noncomputable def points (a b : ℝ) (n : ℕ) : List (Option ℝ) :=
  open Classical in
  if b ≤ 0 then List.replicate n none
  else if a ≤ 0 then (List.range n).map fun i => if i + 1 = n ∧ 1 < n then some b else none
  else if n = 1 then [some a]
  else ((logspace a b (n - 1)).take n).map some

/-- `interp1d(rr, pp, kind='cubic')` (line 333) evaluated at a list of numbers. -/
noncomputable def evaluate (f : ℝ → ℝ) (rr : List ℝ) (x : List (Option ℝ)) : Except Err (List (Option ℝ)) :=
  open Classical in
  if ∃ v, some v ∈ x ∧ (v < rr.min?.getD 0 ∨ rr.max?.getD 0 < v) then .error .value else .ok (x.map fun v => v.map f)

/-- `rebin_bsd` (`bubble_stats.py` lines 332-339).  A list of a single size counts as a number of bins, which `np.linspace` rejects. -/
noncomputable def rebin (f : ℝ → ℝ) (rr : List ℝ) (bins : Bins) (rmin rmax : Option ℝ) : Except Err (List (Option ℝ) × List (Option ℝ)) :=
  match bins with
  | .sizes [_] => .error .type
  | .sizes l => (evaluate f rr (l.map some)).map fun p => (l.map some, p)
  | .number n =>
    let rs := points (rmin.getD (rr.min?.getD 0 + 1)) (rmax.getD (rr.max?.getD 0 - 10)) n
    (evaluate f rr rs).map fun p => (rs, p)

end Verif.Rebin
