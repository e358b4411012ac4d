import Mathlib.Data.Real.Basic
import Mathlib.Data.Finset.Max
import Mathlib.Data.Fintype.BigOperators
import Mathlib.Algebra.BigOperators.Group.Finset.Basic
/-!
# Model of `identify_regions.py`

The cells of the flattened array are `Fin n`.  `KMeans` is an argument: the cluster it puts each cell in.
-/

namespace Verif.Identify

variable {n : ℕ}

/-- The exceptions that occur. -/
inductive Err
  | value
  deriving DecidableEq

open Classical in
/-- `X[y==c].max()`: an error if there is no such cell. -/
noncomputable def clusterMax {k : ℕ} (x : Fin n → ℝ) (y : Fin n → Fin k) (c : Fin k) : Except Err ℝ :=
  match ((Finset.univ.filter fun i => y i = c).image x).max with
  | some m => .ok m
  | none => .error .value

open Classical in
/-- `threshold_kmeans` (`identify_regions.py` lines 158-168): the threshold and the marked cells. -/
noncomputable def thresholdKmeans (x : Fin n → ℝ) (y : Fin n → Fin 2) (upper : Bool) :
    Except Err (ℝ × (Fin n → Bool)) :=
  match clusterMax x y 0 with
  | .error e => .error e
  | .ok a =>
    match clusterMax x y 1 with
    | .error e => .error e
    | .ok b =>
      let t := a / 2 + b / 2
      .ok (t, fun i => if upper then decide (x i ≤ t) else decide (x i > t))

open Classical in
/-- `centers.argmin()` (or `argmax` of the negative): the first of the smallest. -/
noncomputable def argmin {k : ℕ} (c : Fin k → ℝ) (j : Fin k) : Prop :=
  (∀ l, c j ≤ c l) ∧ ∀ l < j, c j < c l

open Classical in
/-- `threshold_kmeans_3cluster` (`identify_regions.py` lines 170-183): `centres` are `km.cluster_centers_`. -/
noncomputable def threshold3 (x : Fin n → ℝ) (y : Fin n → Fin 3) (centres : Fin 3 → ℝ) (upper : Bool) : Fin n → Bool :=
  fun i => decide (argmin (if upper then centres else fun j => -centres j) (y i))

open Classical in
/-- `bubbles_from_kmeans` (`identify_regions.py` lines 38-71): `y2` and `y3` are the clusters `KMeans` finds when asked
for two and three. -/
noncomputable def bubblesFromKmeans (x : Fin n → ℝ) (y2 : Fin n → Fin 2) (y3 : Fin n → Fin 3) (centres : Fin 3 → ℝ)
    (upper : Bool) (nClusters : ℕ) : Except Err (Fin n → Bool) :=
  let distinct := (Finset.univ.image x).card
  if distinct < 2 then .ok fun _ => true
  else
    let nClusters := if distinct = 2 then 2 else nClusters
    if nClusters = 2 then
      match thresholdKmeans x y2 upper with
      | .error e => .error e
      | .ok r => .ok r.2
    else .ok (threshold3 x y3 centres upper)

end Verif.Identify
