import Verif.Model.RaySizes
import Verif.Model.SizeDistribution
/-!
# Model of `mfp_from_point` and `averaged_mfp` (`bubble_stats.py` lines 164-329, without rebinning)

The random draws are arguments, printing and the parallel loop are left out.  Points are cells of the box; numbers of rays are at
least 1.
-/

namespace Verif.RayPoint
open Verif.RaySizes

variable {ι : Type} [Fintype ι] [DecidableEq ι]

/-- `if upper_lim: data = -1.*data; xth = -1.*xth` (`bubble_stats.py` lines 204-206 and 292-294). -/
def flip (upper : Bool) (data : (ι → ℤ) → ℝ) (xth : ℝ) : ((ι → ℤ) → ℝ) × ℝ :=
  if upper then (fun x => -1 * data x, -1 * xth) else (data, xth)

/-- `(data>=xth).sum() == 0` (`bubble_stats.py` lines 207-208 and 295-296). -/
def noRegion (shape : ι → ℕ) (data : (ι → ℤ) → ℝ) (xth : ℝ) : Prop := ∀ c : ι → ℤ, (∀ i, 0 ≤ c i ∧ c i < shape i) → ¬ data c ≥ xth

/-- The common part of `mfp_from_point` (`bubble_stats.py` lines 255-329): `first` is `data.shape[0]`, `longest` the number of steps and
`checked` says whether the ray tracer looks at the point (`mfp_np.py` lines 83-88 and 120-124).  `draw n` are `n` random angles.  `none`
stands for `None`; returned are the radii and the fractions. -/
noncomputable def fromPoint {α : Type} (dir : α → ι → ℝ) (first longest : ℕ) (checked : Bool) (shape : ι → ℕ) (data0 : (ι → ℤ) → ℝ)
    (xth0 boxsize : ℝ) (iterations : ℕ) (draw : ℕ → List α) (upper : Bool) (point : ι → ℤ) : Option (List ℝ × List ℝ) :=
  open Classical in
  let data := (flip upper data0 xth0).1
  let xth := (flip upper data0 xth0).2
  let empty := noRegion shape data xth
  let data' : (ι → ℤ) → ℝ := if empty then fun _ => 1 else data
  let n := if empty then 3 else iterations
  if checked = true ∧ mask data' xth point = 0 then none
  else
    let num := rayLoop (inside shape (mask data' xth)) longest (rays dir (List.replicate n point) (draw n))
    some ((List.range longest).map fun (i : ℕ) => (i : ℝ) * boxsize / first, num.map fun (c : ℕ) => if empty then 0 else (c : ℝ) / n)

/-- `mfp_from_point` of 2D data (`bubble_stats.py` lines 255-329). -/
noncomputable def fromPoint2 (shape : Fin 2 → ℕ) (data : (Fin 2 → ℤ) → ℝ) (xth boxsize : ℝ) (iterations : ℕ) (draw : ℕ → List ℕ)
    (upper : Bool) (point : Fin 2 → ℤ) : Option (List ℝ × List ℝ) :=
  fromPoint dir2 (shape 0) (longest2 shape) true shape data xth boxsize iterations draw upper point

/-- The type of the coordinates of a point: integers of python, or of numpy, which are not instances of `int`. -/
inductive Coordinates where
  | python | numpy
  deriving DecidableEq

/-- `mfp_from_point` of 3D data (`bubble_stats.py` lines 255-329): the point is only looked at if its coordinates are integers of python
(`mfp_np.py` line 84). -/
noncomputable def fromPoint3 (coords : Coordinates) (shape : Fin 3 → ℕ) (data : (Fin 3 → ℤ) → ℝ) (xth boxsize : ℝ) (iterations : ℕ)
    (draw : ℕ → List (ℕ × ℕ)) (upper : Bool) (point : Fin 3 → ℤ) : Option (List ℝ × List ℝ) :=
  fromPoint dir3 (shape 0) (longest3 shape) (decide (coords = .python)) shape data xth boxsize iterations draw upper point

/-- `np.sum(num_szj * size_pxj) / np.sum(num_szj)` (`bubble_stats.py` line 222); without a ray that ends it is not a number. -/
noncomputable def meanSize (num : List ℕ) : Option ℝ :=
  if num.sum = 0 then none else some ((num.zipIdx.map fun p => (p.1 : ℝ) * (p.2 : ℝ)).sum / (num.sum : ℕ))

open Classical in
/-- `ray_list[ray_list>0]` (`bubble_stats.py` line 234). -/
noncomputable def positive (l : List (Option ℝ)) : List ℝ := (l.filterMap id).filter fun v => decide (0 < v)

/-- `np.histogram(x, density=True, bins=n)[0]`; without values not a number. -/
noncomputable def density (x : List ℝ) (n : ℕ) : Option (List ℝ) :=
  let h := SizeDistribution.hist x n
  if x = [] then none
  else some ((List.range n).map fun (i : ℕ) => (h.1.getD i 0 : ℝ) / (h.2.getD (i + 1) 0 - h.2.getD i 0) / (h.1.sum : ℕ))

/-- `averaged_mfp` (`bubble_stats.py` lines 164-253) of 3D data.  `loc data` are the cells with `data >= xth`, `draw k high` the `k` indices
drawn from them and `angles j` the directions of the rays from the point `j`.  Returned are radii and densities, `none` for densities that
are not numbers.  (Other data gives a message and 0, lines 228-230.) -/
noncomputable def averaged3 (loc : ((Fin 3 → ℤ) → ℝ) → ℝ → List (Fin 3 → ℤ)) (shape : Fin 3 → ℕ) (data0 : (Fin 3 → ℤ) → ℝ)
    (xth0 boxsize : ℝ) (iterations raysPerPoint : ℕ) (draw : ℕ → ∀ high, List (Fin high)) (angles : ℕ → List (ℕ × ℕ)) (upper : Bool) :
    Except Err (List ℝ × Option (List ℝ)) :=
  open Classical in
  let data := (flip upper data0 xth0).1
  let xth := (flip upper data0 xth0).2
  let empty := noRegion shape data xth
  let data' : (Fin 3 → ℤ) → ℝ := if empty then fun _ => 1 else data
  let n := if empty then 3 else iterations
  let l := loc data' xth
  if l.length = 0 then .error .emptyRange
  else
    let starts := (draw n l.length).map fun k => l.get k
    let means := starts.zipIdx.map fun p => meanSize (mfp3d shape data' xth (List.replicate raysPerPoint p.1) (angles p.2))
    let logs := (positive means).map Real.log
    let e := (SizeDistribution.hist logs 50).2
    let r := (List.range 50).map fun (i : ℕ) => Real.exp (e.getD (i + 1) 0 / 2 + e.getD i 0 / 2) * boxsize / shape 0
    .ok (r, if empty then some (List.replicate 50 0) else density logs 50)

end Verif.RayPoint
