import Verif.Model.PowerSpectrum
import Mathlib.Analysis.SpecialFunctions.Trigonometric.Basic
/-!
# Model of `corr_function.py`

Floating point numbers are exact reals; `none` in a power spectrum is a value that is not finite.
Positions enter through their distances, and the random catalogue is an argument.
-/

namespace Verif.Correlation

open Verif.PowerSpectrum

/-- `np.linspace(a, b, m)`. -/
noncomputable def points (a b : ℝ) (m : ℕ) : List ℝ := if m = 0 then [] else linspace a b (m - 1)

/-- `10**np.linspace(np.log10(a), np.log10(b), m)`, also `np.logspace`. -/
noncomputable def logPoints (a b : ℝ) (m : ℕ) : List ℝ :=
  (points (Real.logb 10 a) (Real.logb 10 b) m).map fun x => (10 : ℝ) ^ x

/-! ### From the power spectrum -/

/-- The argument `rbins`: a number of bins, a NumPy array or a list. -/
inductive RBins
  | count (m : ℕ)
  | array (r : List ℝ)
  | list (r : List ℝ)

/-- `rbins` as used (`corr_function.py` lines 14-16 and the indexing in line 29): without a box size
`2*box_dims` raises, and so does indexing a list with `[:,None]`. -/
noncomputable def RBins.resolve (rbins : RBins) (box : Option ℝ) (nGrid : ℕ) (log : Bool) : Except String (List ℝ) :=
  match rbins with
  | .count m =>
    match box with
    | none => .error "unsupported operand type(s) for *: 'int' and 'NoneType'"
    | some l => .ok (if log then logPoints (2 * l / nGrid) (l / 2) m else points (2 * l / nGrid) (l / 2) m)
  | .array r => .ok r
  | .list _ => .error "list indices must be integers or slices, not tuple"

open Classical in
/-- `np.sinc(x)`. -/
noncomputable def npSinc (x : ℝ) : ℝ := if x = 0 then 1 else Real.sin (Real.pi * x) / (Real.pi * x)

/-- `np.trapz(y, x)` for the points `(x, y)`. -/
noncomputable def trapz : List (ℝ × ℝ) → ℝ
  | [] => 0
  | [_] => 0
  | p :: q :: l => (q.1 - p.1) * (q.2 + p.2) / 2 + trapz (q :: l)

/-- `ks[np.isfinite(ps)]` with `ps[np.isfinite(ps)]` (`corr_function.py` line 27). -/
noncomputable def finite (ps : List (Option ℝ)) (ks : List ℝ) : List (ℝ × ℝ) :=
  (ks.zip ps).filterMap fun kp => kp.2.map fun p => (kp.1, p)

/-- `ps_to_corr` (`corr_function.py` lines 8-32). -/
noncomputable def psToCorr (ps : List (Option ℝ)) (ks : List ℝ) (rbins : RBins) (box : Option ℝ) (nGrid : ℕ)
    (log : Bool) : Except String (List ℝ × List ℝ) :=
  match rbins.resolve box nGrid log with
  | .error e => .error e
  | .ok r =>
    if ps.length ≠ ks.length then .error "boolean index did not match indexed array"
    else
      .ok (r.map fun r => trapz ((finite ps ks).map fun kp => (kp.1, kp.1 ^ 2 * kp.2 * npSinc (kp.1 * r))) * 4 *
        Real.pi, r)

/-! ### From pair counts -/

open Classical in
/-- `np.histogram(x, bins=e)[0]`. -/
noncomputable def histogram (e x : List ℝ) : List ℕ :=
  (List.range (e.length - 1)).map fun b => (x.filter fun v => decide (inBin e b v)).length

open Classical in
/-- `cKDTree.query_pairs(rmax, output_type='ndarray')` for `n` points with distances `d`: the pairs
`i < j` at most `rmax` apart. -/
noncomputable def queryPairs (n : ℕ) (d : ℕ → ℕ → ℝ) (rmax : ℝ) : List (ℕ × ℕ) :=
  (List.range n).flatMap fun i => ((List.range n).filter fun j => decide (i < j ∧ d i j ≤ rmax)).map fun j => (i, j)

/-- `np.histogram` of that array of pairs flattens it (`corr_function.py` lines 154 and 157): it counts the
*indices* of the points. -/
noncomputable def pairHistogram (n : ℕ) (d : ℕ → ℕ → ℝ) (rmax : ℝ) (e : List ℝ) : List ℕ :=
  histogram e ((queryPairs n d rmax).flatMap fun p => [(p.1 : ℝ), (p.2 : ℝ)])

open Classical in
/-- `DR` (`corr_function.py` lines 160-164): for every data point the distances to the random points below
`rmax`. -/
noncomputable def crossHistogram (nd nr : ℕ) (d : ℕ → ℕ → ℝ) (rmax : ℝ) (e : List ℝ) : List ℕ :=
  (List.range nd).foldl (fun acc i =>
    List.zipWith (· + ·) acc (histogram e (((List.range nr).map (d i)).filter fun x => decide (x < rmax))))
    ((List.range (e.length - 1)).map fun _ => 0)

/-- What `landy_szalay_estimator` returns for one bin: the normalised counts, from which
`xi = (DD - 2*DR + RR)/RR`. -/
structure Counts where
  dd : ℝ
  dr : ℝ
  rr : ℝ

/-- `xi` (`corr_function.py` line 175); `none` if it is not a finite number. -/
noncomputable def Counts.xi (c : Counts) : Option ℝ := if c.rr = 0 then none else some ((c.dd - 2 * c.dr + c.rr) / c.rr)

/-- `landy_szalay_estimator` (`corr_function.py` lines 106-177) for `nd` data and `nr` random points with the
given distances.  Given bins leave `rmax` undefined.  `np.histogram` rejects edges that decrease. -/
noncomputable def landySzalay (nd nr : ℕ) (d2 dr r2 : ℕ → ℕ → ℝ) (rbins : RBins) (box : ℝ) (log : Bool)
    (rmin rmax : Option ℝ) : Except String (List Counts × List ℝ) :=
  match rbins with
  | .array _ => .error "cannot access local variable 'rmax'"
  | .list _ => .error "unsupported operand type(s)"
  | .count m =>
    let lo := rmin.getD (1 / 100)
    let hi := rmax.getD box
    let e := if log then logPoints lo hi m else points lo hi m
    if m = 0 ∨ ¬ e.Pairwise (· ≤ ·) then .error "bins must increase monotonically"
    else
      let dd := pairHistogram nd d2 hi e
      let rr := pairHistogram nr r2 hi e
      let dr := crossHistogram nd nr dr hi e
      .ok ((List.range (e.length - 1)).map fun b =>
        ⟨(dd.getD b 0 : ℝ) / ((nd : ℝ) * (nd - 1) / 2), (dr.getD b 0 : ℝ) / ((nd : ℝ) * nr),
          (rr.getD b 0 : ℝ) / ((nr : ℝ) * (nr - 1) / 2)⟩,
        (List.range (e.length - 1)).map fun b => (e.getD b 0 + e.getD (b + 1) 0) / 2)

end Verif.Correlation
