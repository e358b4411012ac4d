import Mathlib.Algebra.Order.Field.Rat
import Mathlib.Data.List.Sort
import Mathlib.Data.List.Dedup
import Mathlib.Analysis.SpecialFunctions.Pow.Real
/-!
# Model of `superpixels.py`: reductions over labelled cells

Arrays are flattened lists.  `argsort` is a parameter (NumPy's default sort is not stable).
-/

namespace Verif.Superpixels

/-- The exceptions that occur. -/
inductive Err
  | index
  | assertion
  deriving DecidableEq

/-- `np.unique(y)`. -/
def uniq (y : List ℤ) : List ℤ := y.dedup.insertionSort (· ≤ ·)

/-- The counts of `np.unique(y, return_counts=1)`. -/
def counts (y : List ℤ) : List ℕ := (uniq y).map fun i => y.count i

/-- `l[i]`, negative indices from the end. -/
def pyGet {α : Type*} (l : List α) (i : ℤ) : Except Err α :=
  match (if 0 ≤ i then l[i.toNat]? else if 0 ≤ l.length + i then l[(l.length + i).toNat]? else none) with
  | some x => .ok x
  | none => .error .index

/-- `X[o]` for a list of indices. -/
def gather {α : Type*} (X : List α) (o : List ℕ) : Except Err (List α) := o.mapM fun (j : ℕ) => pyGet X (j : ℤ)

/-- The loop over the labels (`superpixels.py` lines 127-138 and `numba_functions.py` lines 32-35). -/
def reduceLoop {α β : Type*} (op : List α → β) (X1 : List α) (num : List ℕ) :
    List ℤ → ℕ → Except Err (List β)
  | [], _ => .ok []
  | i :: is, low =>
    match pyGet num i with
    | .error e => .error e
    | .ok n =>
      match reduceLoop op X1 num is (low + n) with
      | .error e => .error e
      | .ok out => .ok (op ((X1.take (low + n)).drop low) :: out)

/-- `apply_operator_labelled_data` (`superpixels.py` lines 117-139, `numba_functions.py` lines
24-36). -/
def applyOperator {α β : Type*} (argsort : List ℤ → List ℕ) (op : List α → β) (X : List α)
    (y : List ℤ) : Except Err (List β) :=
  match gather X (argsort y) with
  | .error e => .error e
  | .ok X1 => reduceLoop op X1 (counts y) (uniq y) 0

/-- `np.mean`; the mean of nothing is not a number in NumPy and zero here. -/
def mean (l : List ℚ) : ℚ := l.sum / l.length

/-- `superpixel_map` from the means (`superpixels.py` lines 225-233): label `i` of
`range(mns.size)` gets `mns[i]`, other cells stay zero. -/
def mapOf (mns : List ℚ) (y : List ℤ) : List ℚ :=
  y.map fun (l : ℤ) => (List.range mns.length).foldl (fun v (i : ℕ) => if l = (i : ℤ) then mns.getD i 0 else v) 0

/-- `superpixel_map` without given means (`superpixels.py` lines 220-233). -/
def superpixelMap (argsort : List ℤ → List ℕ) (X : List ℚ) (y : List ℤ) : Except Err (List ℚ) :=
  match applyOperator argsort mean X y with
  | .error e => .error e
  | .ok mns => .ok (mapOf mns y)

/-- The assignments `for i in np.unique(y): y2[y==i] = y1[i]` (`superpixels.py` lines 45-46). -/
def paint (y : List ℤ) (y1 : List ℚ) : List ℤ → List ℚ → Except Err (List ℚ)
  | [], y2 => .ok y2
  | i :: is, y2 =>
    match pyGet y1 i with
    | .error e => .error e
    | .ok v => paint y y1 is (List.zipWith (fun l x => if l = i then v else x) y y2)

/-- `binary_stitch` (`superpixels.py` lines 38-48) with `stitch='mean'`; a threshold of zero
counts as not given (`if not thres`). -/
def binaryStitch (X : List ℚ) (y : List ℤ) (thres : Option ℚ) : Except Err (List Bool) :=
  let y1 := (uniq y).map fun i => mean (((y.zip X).filter fun q => q.1 = i).map Prod.snd)
  let t := match thres with
    | none => mean X
    | some t => if t = 0 then mean X else t
  match paint y y1 (uniq y) (y.map fun _ => 0) with
  | .error e => .error e
  | .ok y2 => .ok (y2.map fun v => decide (v < t))

/-- `under_segmentation_error` (`superpixels.py` lines 58-71); the arrays flattened, of the same
shape. -/
def underSegmentation (labels truths : List ℤ) (b : ℚ) : ℚ :=
  let uu := ((uniq truths).map fun i => ((uniq labels).map fun j =>
    let ss : ℚ := labels.count j
    let inter : ℚ := ((truths.zip labels).filter fun q => q.1 = i ∧ q.2 = j).length
    if b * ss < inter then ss else 0).sum).sum
  (uu - labels.length) / labels.length

/-- `get_combined_mean_std` (`superpixels.py` lines 207-212). -/
noncomputable def combined (means sigmas ns : List ℝ) : Except Err (ℝ × ℝ) :=
  if means.length = sigmas.length ∧ means.length = ns.length then
    let mn := (List.zipWith (· * ·) means ns).sum / ns.sum
    let s := (List.zipWith (fun (q : ℝ × ℝ) (n : ℝ) => (n - 1) * q.2 ^ 2 + n * (q.1 - mn) ^ 2)
      (means.zip sigmas) ns).sum / (ns.sum - 1)
    .ok (mn, Real.sqrt s)
  else .error .assertion

end Verif.Superpixels
