import Mathlib.Data.Real.Sqrt
import Mathlib.Analysis.SpecialFunctions.Log.Basic
import Mathlib.Analysis.SpecialFunctions.Exp
import Mathlib.Analysis.SpecialFunctions.Trigonometric.Basic
import Mathlib.LinearAlgebra.Matrix.NonsingularInverse

/-!
# Diagnostics of probability distributions (`src/tools21cm/plotting.py`)

Samples are a list of rows, one value for each parameter.  `np.argsort` may order equal values as it likes, so it is a
parameter of the model: a function of the list of values.  Real arithmetic; values that are not finite are `none`.
-/

namespace Verif.Diagnostics

inductive Err | value | zeroDivision | typeError | index | nan
  deriving DecidableEq

/-- `np.interp(x, xp, fp)` for increasing `xp`, as a list of pairs: the first value before the first node, the last value
after the last, and the line through the two nodes around `x` otherwise (used at `plotting.py` lines 340-341 and 161). -/
noncomputable def interp : List (ℝ × ℝ) → ℝ → ℝ
  | [], _ => 0
  | [p], _ => p.2
  | p :: q :: l, x =>
    open Classical in
    if x < q.1 then
      if x ≤ p.1 then p.2 else (q.2 - p.2) / (q.1 - p.1) * (x - p.1) + p.2
    else interp (q :: l) x

/-- `np.cumsum` (`plotting.py` lines 338, 159), from a starting value. -/
noncomputable def cumsum : ℝ → List ℝ → List ℝ
  | _, [] => []
  | c, w :: l => (c + w) :: cumsum (c + w) l

/-- The samples of one parameter in increasing order, with their weights: `data_p[idx]`, `weights_norm[idx]`
(`plotting.py` lines 334-337, 154-158). -/
def ordered (argsort : List ℝ → List ℕ) (data w : List ℝ) : List (ℝ × ℝ) :=
  (argsort data).map fun i => (data.getD i 0, w.getD i 0)

/-- `np.interp(q, cum_weights, sorted_data)` (`plotting.py` lines 338-340, 159-161). -/
noncomputable def quantile (s : List (ℝ × ℝ)) (q : ℝ) : ℝ :=
  interp ((cumsum 0 (s.map Prod.snd)).zip (s.map Prod.fst)) q

/-- `np.interp(val, sorted_data, cum_weights)` (`plotting.py` line 341). -/
noncomputable def cdfAt (s : List (ℝ × ℝ)) (v : ℝ) : ℝ :=
  interp ((s.map Prod.fst).zip (cumsum 0 (s.map Prod.snd))) v

/-- The entries of `cis` (`plotting.py` lines 343-348). -/
structure CI where
  median : ℝ
  lo1 : ℝ
  hi1 : ℝ
  lo2 : ℝ
  hi2 : ℝ
  cdf : ℝ → ℝ

/-- The loop over the parameters (`plotting.py` lines 333-348). -/
noncomputable def credible (argsort : List ℝ → List ℕ) (data w : List ℝ) : CI :=
  let s := ordered argsort data w
  { median := quantile s (500 / 1000), lo1 := quantile s (160 / 1000), hi1 := quantile s (840 / 1000),
    lo2 := quantile s (25 / 1000), hi2 := quantile s (975 / 1000), cdf := cdfAt s }

/-- The part of the metrics that needs the true values (`plotting.py` lines 352-372). -/
structure Truth (d : ℕ) where
  z : Fin d → Option ℝ
  rmse : Option ℝ
  mahalanobis : Option ℝ
  pit : List ℝ
  cover68 : List Bool
  cover95 : List Bool
  entropy : Option ℝ

/-- What `_calculate_base_metrics` returns (`plotting.py` lines 350-374). -/
structure Metrics (d : ℕ) where
  means : Fin d → ℝ
  sigmas : Option (Fin d → ℝ)
  cov : Option (Matrix (Fin d) (Fin d) ℝ)
  cis : Fin d → CI
  truth : Option (Truth d)

/-- `np.average(points, axis=0, weights=w)` (`plotting.py` line 328). -/
noncomputable def average {d : ℕ} (pts : List (Fin d → ℝ)) (w : List ℝ) (p : Fin d) : ℝ :=
  ((pts.zip w).map fun s => s.2 * s.1 p).sum / w.sum

/-- `np.cov(points.T, aweights=w)` (`plotting.py` line 329) for weights with sum one: the factor is one minus the sum of
the squares, and the result is not finite if it is not positive. -/
noncomputable def cov {d : ℕ} (pts : List (Fin d → ℝ)) (w : List ℝ) : Option (Matrix (Fin d) (Fin d) ℝ) :=
  open Classical in
  let fact := w.sum - (w.map fun x => x * x).sum / w.sum
  if fact ≤ 0 then none
  else some (Matrix.of fun p q =>
    ((pts.zip w).map fun s => (s.1 p - average pts w p) * ((s.1 q - average pts w q) * s.2)).sum * (1 / fact))

/-- `means - tv_slice` (`plotting.py` lines 354-356) with the broadcasting of numpy: as many true values as parameters, or a
single one. -/
def differences {d : ℕ} (means : Fin d → ℝ) (tv : List ℝ) : Option (Fin d → ℝ) :=
  if tv.length = d then some fun p => means p - tv.getD p 0
  else if tv.length = 1 then some fun p => means p - tv.getD 0 0
  else none

/-- `range(len(tv_slice))` (`plotting.py` lines 364-366): the interval and the true value of each parameter that has one. -/
def entries {d : ℕ} (cis : Fin d → CI) (tv : List ℝ) : List (CI × ℝ) :=
  ((List.finRange d).take tv.length).map fun p => (cis p, tv.getD p 0)

/-- The metrics with true values (`plotting.py` lines 352-372).  A singular or not finite covariance makes the distance of
Mahalanobis not a number. -/
noncomputable def truthMetrics {d : ℕ} (means : Fin d → ℝ) (c : Option (Matrix (Fin d) (Fin d) ℝ)) (cis : Fin d → CI)
    (trueValues : List ℝ) : Except Err (Truth d) :=
  open Classical in
  let tv := trueValues.take d
  match differences means tv with
  | none => .error .value
  | some delta =>
    .ok {
      z := fun p => c.bind fun c =>
        if Real.sqrt (c p p) = 0 then none else some (|delta p| / Real.sqrt (c p p))
      rmse := if d = 0 then none else some (Real.sqrt ((∑ p, delta p ^ 2) / d))
      mahalanobis := c.bind fun c =>
        if c.det = 0 then none else some (Real.sqrt (∑ p, ∑ q, delta p * c⁻¹ p q * delta q))
      pit := (entries cis tv).map fun e => e.1.cdf e.2
      cover68 := (entries cis tv).map fun e => decide (e.1.lo1 ≤ e.2 ∧ e.2 ≤ e.1.hi1)
      cover95 := (entries cis tv).map fun e => decide (e.1.lo2 ≤ e.2 ∧ e.2 ≤ e.1.hi2)
      entropy := c.bind fun c =>
        let D := ((2 * Real.pi * Real.exp 1) • c).det
        if D ≤ 0 then none else some (1 / 2 * Real.log D) }

/-- `_calculate_base_metrics` (`plotting.py` lines 323-374).  `np.average` refuses weights of another length and an empty
chain; weights that sum to zero are divided by zero, which gives not a number, or infinities of both signs that `np.cov`
refuses like any negative weight; `np.cov` of one parameter has no axes and `np.diag` refuses it. -/
noncomputable def metrics {d : ℕ} (argsort : List ℝ → List ℕ) (trueValues : Option (List ℝ)) (pts : List (Fin d → ℝ))
    (weights : List ℝ) : Except Err (Metrics d) :=
  open Classical in
  let total := weights.sum
  let w := weights.map (· / total)
  if pts.length ≠ weights.length then .error .value
  else if pts = [] then .error .zeroDivision
  else if total = 0 then (if ∀ x ∈ weights, x = 0 then .error .nan else .error .value)
  else if ∃ x ∈ w, x < 0 then .error .value
  else if d = 1 then .error .value
  else
    let means := average pts w
    let c := cov pts w
    let cis := fun p : Fin d => credible argsort (pts.map fun r => r p) w
    let base : Metrics d :=
      { means := means, sigmas := c.map fun c p => Real.sqrt (c p p), cov := c, cis := cis, truth := none }
    match trueValues with
    | none => .ok base
    | some tv =>
      match truthMetrics means c cis tv with
      | .error e => .error e
      | .ok t => .ok { base with truth := some t }

/-! ## The collection of distributions -/

/-- `_get_default_param_labels` (`plotting.py` lines 302-311). -/
def paramLabels (given : Option (List String)) (n : ℕ) : List String :=
  let default (i : ℕ) : String := "\\theta_{" ++ toString (i + 1) ++ "}"
  match given with
  | none => (List.range n).map default
  | some l =>
    if l.length < n then l ++ (List.range (n - l.length)).map (fun i => default (l.length + i)) else l

/-- `self.distributions[label] = entry`: a dictionary keeps the place of a key that is written again. -/
def write {β : Type*} (l : List (String × β)) (k : String) (v : β) : List (String × β) :=
  if l.any (fun p => p.1 = k) then l.map fun p => if p.1 = k then (k, v) else p else l ++ [(k, v)]

/-- `_get_distribution_label` (`plotting.py` lines 313-317). -/
def distributionLabel {β : Type*} (dists : List (String × β)) (label : Option String) : String :=
  match label with
  | some s => s
  | none => "Distribution " ++ toString (dists.length + 1)

/-- The fields of an entry that do not depend on the backend (`plotting.py` lines 528-532, 542-546). -/
structure Entry (d : ℕ) where
  pts : List (Fin d → ℝ)
  weights : List ℝ
  stats : Metrics d

/-- `SampledDistribution.add_distribution` (`plotting.py` lines 537-546), for distributions with the same number of
parameters: an error leaves the dictionary as it was. -/
noncomputable def addSampled {d : ℕ} (argsort : List ℝ → List ℕ) (trueValues : Option (List ℝ))
    (dists : List (String × Entry d)) (pts : List (Fin d → ℝ)) (label : Option String) (weights : Option (List ℝ)) :
    Except Err (List (String × Entry d)) :=
  let name := distributionLabel dists label
  let w := match weights with
    | some w => w
    | none => pts.map fun _ => (1 : ℝ)
  match metrics argsort trueValues pts w with
  | .error e => .error e
  | .ok m => .ok (write dists name { pts := pts, weights := w, stats := m })

/-- The points of a grid (`plotting.py` lines 522-525): all combinations of the coordinates, the last parameter running
fastest. -/
def gridPoints (coords : List ℝ) (d : ℕ) : List (Fin d → ℝ) :=
  (List.range (coords.length ^ d)).map fun k p => coords.getD (k / coords.length ^ (d - 1 - (p : ℕ)) % coords.length) 0

/-- `grid.flatten()` (`plotting.py` line 526), the last axis running fastest. -/
def flatten {d : ℕ} (shape : Fin d → ℕ) (grid : (Fin d → ℕ) → ℝ) : List ℝ :=
  (List.range (∏ p, shape p)).map fun k =>
    grid fun p => k / (∏ q with p < q, shape q) % shape p

/-- `GriddedProbabilities.add_distribution` (`plotting.py` lines 520-532). -/
noncomputable def addGrid {d : ℕ} (argsort : List ℝ → List ℕ) (trueValues : Option (List ℝ)) (coords : List ℝ)
    (dists : List (String × Entry d)) (shape : Fin d → ℕ) (grid : (Fin d → ℕ) → ℝ) (label : Option String) :
    Except Err (List (String × Entry d)) :=
  let name := distributionLabel dists label
  let pts := gridPoints coords d
  let w := flatten shape grid
  match metrics argsort trueValues pts w with
  | .error e => .error e
  | .ok m => .ok (write dists name { pts := pts, weights := w, stats := m })

/-! ## The table of a chain -/

/-- The weights given for a chain: none, an array of floats, or an array of integers. -/
inductive ChainWeights
  | absent
  | floats (w : List ℝ)
  | ints (w : List ℤ)

/-- One line of the table: the mean and what is printed after plus and minus. -/
structure Row where
  mean : ℝ
  plus : ℝ
  minus : ℝ

/-- The numbers of one parameter (`plotting.py` lines 149-163), for normalised weights. -/
noncomputable def chainRow (srt : List ℝ → List ℕ) (data w : List ℝ) : Row :=
  let mean := ((data.zip w).map fun s => s.1 * s.2).sum / w.sum
  let s := ordered srt data w
  { mean := mean, plus := quantile s (84 / 100) - mean, minus := mean - quantile s (16 / 100) }

/-- `print_chain_stats` for one chain (`plotting.py` lines 143-166): the lines of the table or the error, and the weights of
the caller afterwards.  `weights /= np.sum(weights)` changes the array of the caller and is refused for integers; weights
with the sum zero give not a number. -/
noncomputable def chainStats {d : ℕ} (srt : List ℝ → List ℕ) (samples : List (Fin d → ℝ)) (weights : ChainWeights)
    (names : Option (List String)) : Except Err (List (String × Row)) × ChainWeights :=
  open Classical in
  match weights with
  | .ints w => (.error .typeError, .ints w)
  | other =>
    let w : List ℝ := match other with
      | .floats w => w
      | _ => samples.map fun _ => (1 : ℝ)
    if w.sum = 0 then (.error .nan, other)
    else
      let n := w.map (· / w.sum)
      let after : ChainWeights := match other with
        | .floats _ => ChainWeights.floats n
        | x => x
      match names with
      | none => (.error .typeError, after)
      | some names =>
        if names ≠ [] ∧ 0 < d ∧ samples.length ≠ w.length then (.error .value, after)
        else if d < names.length then (.error .index, after)
        else (.ok ((List.finRange d).zip names |>.map fun p =>
          (if p.2 = "" then "Param " ++ toString (p.1 : ℕ) else p.2, chainRow srt (samples.map fun r => r p.1) n)), after)

/-- The part of `plot_triangle` before the plot (`plotting.py` lines 169-186): the table is printed first, with the names it
was given, which are `None` if left out. -/
noncomputable def triangleStats {d : ℕ} (srt : List ℝ → List ℕ) (samples : List (Fin d → ℝ)) (weights : ChainWeights)
    (names : Option (List String)) (showStats : Bool) : Except Err (List (String × Row)) × ChainWeights :=
  if showStats then chainStats srt samples weights names else (.ok [], weights)

end Verif.Diagnostics
