import Verif.Model.Correlation
/-!
# Model of the distributions of region sizes in `bubble_stats.py`

Floating point is replaced by the real numbers.  Printing is left out.
-/

namespace Verif.SizeDistribution

open Verif.PowerSpectrum Verif.Correlation

/-- What the functions raise. -/
inductive Err where
  | value
  deriving DecidableEq

/-- The range `np.histogram` takes for an integer number of bins: from the smallest to the largest value, half to either
side when they agree, and `(0, 1)` without values. -/
noncomputable def autoRange (x : List ℝ) : ℝ × ℝ :=
  let lo := x.min?.getD 0
  let hi := x.max?.getD 1
  if lo = hi then (lo - 1 / 2, hi + 1 / 2) else (lo, hi)

/-- `np.histogram(x, bins=n)`: the counts and the edges. -/
noncomputable def hist (x : List ℝ) (n : ℕ) : List ℕ × List ℝ :=
  let e := linspace (autoRange x).1 (autoRange x).2 n
  (histogram e x, e)

/-- `np.histogram` of logarithms raises ValueError without bins and when the range is not finite, that is when the
logarithm of a number that is not positive is among them. -/
def Rejected (sizes : List ℝ) (bins : ℕ) : Prop := bins = 0 ∨ ∃ v ∈ sizes, v ≤ 0

/-- `(vols*3./4./np.pi)**(1./3.)` (`bubble_stats.py` line 365). -/
noncomputable def effRadius (v : ℝ) : ℝ := (v * 3 / 4 / Real.pi) ^ (1 / 3 : ℝ)

/-- `1.*ht[0]/np.sum(ht[0])` (`bubble_stats.py` lines 370, 376 and 400). -/
noncomputable def fractions (c : List ℕ) : List ℝ := c.map fun (k : ℕ) => (k : ℝ) / (c.sum : ℕ)

open Classical in
/-- `d[d!=0].min()` of values of which one is not zero. -/
noncomputable def smallest (d : List ℝ) : ℝ := ((d.filter fun x => decide (x ≠ 0)).min?).getD 0

open Classical in
/-- `d[d==0] = dummy`. -/
noncomputable def fill (dummy : ℝ) (d : List ℝ) : List ℝ := d.map fun x => if x = 0 then dummy else x

/-- What `dist_from_volumes` returns. -/
structure Dist where
  v : List ℝ
  pv : List ℝ
  r : List ℝ
  pr : List ℝ

open Classical in
/-- `dist_from_volumes` (`bubble_stats.py` lines 342-382) for an integer number of bins.  `none` stands for
distributions that are not numbers, from no sizes. -/
noncomputable def distFromVolumes (sizes : List ℝ) (resolution : ℝ) (bins : ℕ) (nullFactor : Option ℝ) :
    Except Err (Option Dist) :=
  if Rejected sizes bins then .error .value
  else if sizes = [] then .ok none
  else
    let radii := sizes.map effRadius
    let hv := hist (sizes.map (Real.logb 10)) bins
    let hr := hist (radii.map (Real.logb 10)) bins
    let dv := fractions hv.1 ++ [0]
    let dr := fractions hr.1
    .ok (some {
      v := hv.2.map fun x => (10 : ℝ) ^ x * resolution ^ 3
      pv := fill (nullFactor.getD (smallest dv / 1000)) dv
      r := hr.2.map fun x => (10 : ℝ) ^ x * resolution
      pr := nullFactor.getD (smallest (0 :: dr) / 1000) :: dr })

/-- The argument of `get_distribution`: sizes (`sizes=True`) or labels, here of the pixels in any order. -/
inductive Arg where
  | sizes (s : List ℝ)
  | labels (l : List ℕ)

/-- The sizes of the labels `1` to the largest (`bubble_stats.py` lines 389-394); the minimum of no pixels is an
error. -/
noncomputable def Arg.resolve : Arg → Except Err (List ℝ)
  | .sizes s => .ok s
  | .labels [] => .error .value
  | .labels (a :: l) => .ok ((List.range ((a :: l).max?.getD 0)).map fun i => (((a :: l).count (i + 1) : ℕ) : ℝ))

open Classical in
/-- `get_distribution` (`bubble_stats.py` lines 385-400): the sizes, the distribution and the volumes.  `none` stands
for a distribution that is not a number. -/
noncomputable def getDistribution (a : Arg) (resolution : ℝ) (bins : ℕ) :
    Except Err (List ℝ × Option (List ℝ) × List ℝ) :=
  match a.resolve with
  | .error e => .error e
  | .ok s =>
    if Rejected s bins then .error .value
    else
      let h := hist (s.map Real.log) bins
      .ok (s, if s = [] then none else some (fractions h.1 ++ [0]), h.2.map fun x => Real.exp x * resolution)

/-- What `plot_fof_sizes` returns. -/
structure Fof where
  x : List ℝ
  z : List ℝ
  dummy : ℝ

open Classical in
/-- `plot_fof_sizes` (`bubble_stats.py` lines 402-414); `LB` is the size of the simulation volume set in `conv`.  `none`
stands for values that are not numbers. -/
noncomputable def plotFofSizes (LB : ℝ) (sizes : List ℝ) (bins : ℕ) (boxsize : Option ℝ) (normalize : String) :
    Except Err (Option Fof) :=
  if Rejected sizes bins then .error .value
  else
    let h := hist (sizes.map (Real.logb 10)) bins
    let x := h.2.map fun t => (10 : ℝ) ^ t
    let y := (List.zip h.1 x).map fun p => (p.1 : ℝ) * p.2
    let box := boxsize.getD LB
    if normalize = "ionized" then
      if sizes = [] then .ok none
      else
        let z := y.map fun t => t / y.sum
        let dummy := smallest z / 10
        .ok (some ⟨x, fill dummy z ++ [dummy], dummy⟩)
    else if box = 0 then .ok none
    else if sizes = [] then .error .value
    else
      let z := y.map fun t => t / box ^ 3
      let dummy := smallest z / 10
      .ok (some ⟨x, fill dummy z ++ [dummy], dummy⟩)

end Verif.SizeDistribution
