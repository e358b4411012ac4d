import Mathlib.Algebra.Order.Field.Rat
import Mathlib.Data.List.Sort
import Mathlib.Data.List.Dedup
/-!
# Model of `Friends_of_Friends.FoF_search`, `bubble_stats.fof`, `bubble_stats.watershed_bsd`, `spa_np.py`

Cells are tuples of integers (`List ℤ`), arrays functions of the cell together with their shape (`List ℕ`).
-/

namespace Verif.RegionSizes

/-! ## Friends of friends -/

/-- All cells of an array of the given shape in C order (the order of `np.where`). -/
def indices : List ℕ → List (List ℤ)
  | [] => [[]]
  | n :: s => (List.range n).flatMap fun (i : ℕ) => (indices s).map fun c => (i : ℤ) :: c

/-- `cycle_through_options` (`Friends_of_Friends.py` lines 24-29). -/
def neighbours (coord : List ℤ) : List (List ℤ) :=
  (List.range coord.length).flatMap fun i => [(-1 : ℤ), 1].map fun j => coord.modify i (· + j)

/-- A Python iterator: what it has still to deliver. -/
structure Iter (α : Type) where
  rest : List α

/-- `set(it)` or a `for` loop over `it` takes all remaining values and leaves the iterator exhausted. -/
def Iter.consume {α : Type} (it : Iter α) : List α × Iter α := (it.rest, ⟨[]⟩)

/-- `possibilities` (`Friends_of_Friends.py` line 32): since Python 3 `zip` returns an iterator. -/
def possibilities (shape : List ℕ) (array : List ℤ → ℚ) (threshold : ℚ) : Iter (List ℤ) :=
  ⟨(indices shape).filter fun c => array c > threshold⟩

/-- `out_map`, the queue and the group size while a group is being filled. -/
structure State where
  map : List ℤ → ℕ
  queue : List (List ℤ)
  size : ℕ

/-- Body of the loop of `recursive_search` for one neighbour (lines 37-40). -/
def visit (poss : List (List ℤ)) (group : ℕ) (st : State) (test : List ℤ) : State :=
  if test ∈ poss ∧ st.map test = 0 then
    ⟨Function.update st.map test group, st.queue ++ [test], st.size + 1⟩
  else st

/-- `recursive_search` (lines 35-41). -/
def recursiveSearch (poss : List (List ℤ)) (point : List ℤ) (group : ℕ) (st : State) : State :=
  (neighbours point).foldl (visit poss group) st

/-- `while not q.empty()` (lines 53-54).  `none` when the given number of rounds does not suffice. -/
def fill (poss : List (List ℤ)) (group : ℕ) : ℕ → State → Option State
  | 0, _ => none
  | fuel + 1, st =>
    match st.queue with
    | [] => some st
    | p :: q => fill poss group fuel (recursiveSearch poss p group { st with queue := q })

/-- `for p in possibilities` (lines 47-55); `sizes` holds the sizes of the groups found so far, the next group number is one more
than their number. -/
def groupLoop (poss : List (List ℤ)) : List (List ℤ) → (List ℤ → ℕ) → List ℕ → Option ((List ℤ → ℕ) × List ℕ)
  | [], map, sizes => some (map, sizes)
  | p :: ps, map, sizes =>
    if map p = 0 then
      match fill poss (sizes.length + 1) (poss.length + 1) ⟨Function.update map p (sizes.length + 1), [p], 1⟩ with
      | none => none
      | some st => groupLoop poss ps st.map (sizes ++ [st.size])
    else groupLoop poss ps map sizes

/-- `FoF_search` (`Friends_of_Friends.py` lines 17-56): `set(possibilities)` exhausts the iterator before the loop over it. -/
def FoF_search (shape : List ℕ) (array : List ℤ → ℚ) (threshold : ℚ) : Option ((List ℤ → ℕ) × List ℕ) :=
  let (poss_set, possibilities) := (possibilities shape array threshold).consume
  let (order, _) := possibilities.consume
  groupLoop poss_set order (fun _ => 0) []

/-! ## `np.unique` and the region sizes built on it -/

/-- `np.unique(x)`. -/
def unique (x : List ℕ) : List ℕ := x.dedup.insertionSort (· ≤ ·)

/-- `np.unique(x, return_counts=True)[1]`. -/
def uniqueCounts (x : List ℕ) : List ℕ := (unique x).map fun u => x.count u

/-- The sizes returned by `fof` for the label image of scikit-image (`bubble_stats.py` lines 42-43): the first count is dropped. -/
def fofSizes (labels : List ℕ) : List ℕ := (uniqueCounts labels).drop 1

/-- The volumes behind the radii of `watershed_bsd` (`bubble_stats.py` lines 613-614): `r_list = cbrt(3*uniq[0]/4/pi)` takes
the labels themselves. -/
def watershedVolumes (labels : List ℕ) : List ℕ := unique (labels.filter (0 < ·))

/-! ## Spherical average -/

/-- The loop over the radii of `spa_np` (`spa_np.py` lines 16-22): `rad[smooth>=xth] = ra`, for one cell; `smooth r` is the smoothed
field at that cell for radius `r`. -/
def spaRadius (xth : ℚ) (smooth : ℚ → ℚ) (radii : List ℚ) : ℚ :=
  radii.foldl (fun rad ra => if smooth ra ≥ xth then ra else rad) 0

/-- `ins[i] = rad[rad==Rs_[i]].size` (`spa_np.py` line 25), cells given by their smoothed fields. -/
def spaCounts (xth : ℚ) (cells : List (ℚ → ℚ)) (radii : List ℚ) : List ℕ :=
  radii.map fun r => (cells.map fun s => spaRadius xth s radii).count r

/-- `ni_ = ni/np.sum(ni)` of `spa` (`bubble_stats.py` line 87); `none` when it is 0/0. -/
def spaFractions (counts : List ℕ) : Option (List ℚ) :=
  if counts.sum = 0 then none else some (counts.map fun (n : ℕ) => (n : ℚ) / counts.sum)

/-- `put_sphere` (`spa_np.py` lines 29-41) at the cell `x`: the label inside the sphere or inside its copy displaced by the whole box
along all three axes at once. -/
def putSphere (shape : Fin 3 → ℕ) (centre : Fin 3 → ℚ) (radius : ℚ) (label : ℚ) (periodic : Bool) (array : (Fin 3 → ℤ) → ℚ)
    (x : Fin 3 → ℤ) : ℚ :=
  let rr := (x 0 - centre 0) ^ 2 + (x 1 - centre 1) ^ 2 + (x 2 - centre 2) ^ 2
  let rr2 := (x 0 + shape 0 - centre 0) ^ 2 + (x 1 + shape 1 - centre 1) ^ 2 + (x 2 + shape 2 - centre 2) ^ 2
  let once := if rr ≤ radius ^ 2 then label else array x
  if periodic then if rr2 ≤ radius ^ 2 then label else once else once

end Verif.RegionSizes
