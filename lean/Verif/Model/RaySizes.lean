import Mathlib.Analysis.SpecialFunctions.Trigonometric.Basic
import Mathlib.Algebra.BigOperators.Ring.Finset
import Mathlib.Algebra.Order.Floor.Ring
import Mathlib.Analysis.Real.Sqrt
import Mathlib.Data.Fintype.Powerset
import Mathlib.Data.Fin.VecNotation
/-!
# Model of the mean free path method: `mfp_np.py` and `bubble_stats.mfp`

Positions and directions are exact real numbers.  The random draws are arguments.
-/

namespace Verif.RaySizes

variable {ι : Type} [Fintype ι] [DecidableEq ι]

/-- Lower grid point of the interval holding `t` on the axis `0, 1, ..., n-1`. -/
noncomputable def lower (n : ℕ) (t : ℝ) : ℤ := max 0 (min ⌊t⌋ ((n : ℤ) - 2))

/-- `RegularGridInterpolator(..., bounds_error=False, fill_value=0)`: multilinear interpolation inside the grid, 0 outside
(`mfp_np.py` lines 16-21, 129-134). -/
noncomputable def interp (shape : ι → ℕ) (ar : (ι → ℤ) → ℝ) (x : ι → ℝ) : ℝ :=
  open Classical in
  if ∀ i, 0 ≤ x i ∧ x i ≤ (shape i : ℝ) - 1 then
    ∑ S : Finset ι, (∏ i, if i ∈ S then x i - lower (shape i) (x i) else 1 - (x i - lower (shape i) (x i))) *
      ar fun i => lower (shape i) (x i) + if i ∈ S then 1 else 0
  else 0

/-- `ar = zeros; ar[arr >= xth] = 1` (`mfp_np.py` lines 62-63, 103-104). -/
noncomputable def mask (arr : (ι → ℤ) → ℝ) (xth : ℝ) (x : ι → ℤ) : ℝ := open Classical in if arr x ≥ xth then 1 else 0

/-- A ray: position and direction. -/
structure Ray (ι : Type) where
  pos : ι → ℝ
  dir : ι → ℝ

/-- `xs += ls` and so on (`mfp_np.py` lines 30-32, 144-145). -/
noncomputable def Ray.step (r : Ray ι) : Ray ι := ⟨r.pos + r.dir, r.dir⟩

/-- The loop over `rr` (`mfp_np.py` lines 29-48, 143-161): `num_sz[rr] = len(xs) - sum(valid)`, the survivors go on, and the loop is left when
there are none.  The number is that of the entries still to fill; `inside` is `interp > 0.5`. -/
noncomputable def rayLoop (inside : (ι → ℝ) → Bool) : ℕ → List (Ray ι) → List ℕ
  | 0, _ => []
  | k + 1, rays =>
    let moved := rays.map Ray.step
    let valid := moved.filter fun r => inside r.pos
    (moved.length - valid.length) :: if valid.length = 0 then List.replicate k 0 else rayLoop inside k valid

/-- `np.radians`. -/
noncomputable def radians (d : ℕ) : ℝ := d * (Real.pi / 180)

/-- Direction of a 2D ray (`mfp_np.py` lines 106-113). -/
noncomputable def dir2 (theta : ℕ) : Fin 2 → ℝ := ![Real.sin (radians theta), Real.cos (radians theta)]

/-- Direction of a 3D ray (`mfp_np.py` lines 65-76). -/
noncomputable def dir3 (angles : ℕ × ℕ) : Fin 3 → ℝ :=
  ![Real.sin (radians angles.1) * Real.cos (radians angles.2), Real.sin (radians angles.1) * Real.sin (radians angles.2),
    Real.cos (radians angles.1)]

/-- `longest` of `mfp2d` (`mfp_np.py` line 100). -/
noncomputable def longest2 (shape : Fin 2 → ℕ) : ℕ := ⌊Real.sqrt 2 * (Finset.univ.sup shape : ℕ)⌋₊

/-- `longest` of `_ray3d` (`mfp_np.py` line 10). -/
def longest3 (shape : Fin 3 → ℕ) : ℕ := Finset.univ.sup shape

/-- `vals > 0.5` (`mfp_np.py` lines 39, 152). -/
noncomputable def inside (shape : ι → ℕ) (ar : (ι → ℤ) → ℝ) (x : ι → ℝ) : Bool :=
  open Classical in decide (interp shape ar x > 1 / 2)

/-- Rays of `mfp2d`/`mfp3d`: start cells and directions. -/
noncomputable def rays {α : Type} (dir : α → ι → ℝ) (starts : List (ι → ℤ)) (angles : List α) : List (Ray ι) :=
  List.zipWith (fun c a => ⟨fun i => (c i : ℝ), dir a⟩) starts angles

/-- `num_sz` of `mfp2d` (`mfp_np.py` lines 94-165). -/
noncomputable def mfp2d (shape : Fin 2 → ℕ) (arr : (Fin 2 → ℤ) → ℝ) (xth : ℝ) (starts : List (Fin 2 → ℤ)) (thetas : List ℕ) : List ℕ :=
  rayLoop (inside shape (mask arr xth)) (longest2 shape) (rays dir2 starts thetas)

/-- `num_sz` of `mfp3d` (`mfp_np.py` lines 7-52, 54-92). -/
noncomputable def mfp3d (shape : Fin 3 → ℕ) (arr : (Fin 3 → ℤ) → ℝ) (xth : ℝ) (starts : List (Fin 3 → ℤ)) (angles : List (ℕ × ℕ)) :
    List ℕ :=
  rayLoop (inside shape (mask arr xth)) (longest3 shape) (rays dir3 starts angles)

inductive Err where
  | emptyRange   -- `np.random.randint(0, high=0)`: ValueError
  deriving DecidableEq

/-- `bubble_stats.mfp` (`bubble_stats.py` lines 91-162, without rebinning) for 2D data; the 3D case differs only in the ray tracer, given as
`trace iterations data starts`.  `loc data` are the cells with `data >= xth` (`mfp_np.py` lines 79, 116) and `draw k high` the `k` start
indices drawn by `np.random.randint(0, high, size=k)`.  Returned are `p0 = rr*nn` (the radii are
`rr*boxsize/data.shape[0]`). -/
noncomputable def mfp (trace : ((ι → ℤ) → ℝ) → List (ι → ℤ) → List ℕ) (loc : ((ι → ℤ) → ℝ) → List (ι → ℤ)) (data : (ι → ℤ) → ℝ)
    (iterations : ℕ) (draw : ℕ → ∀ high, List (Fin high)) : Except Err (List ℝ) :=
  let empty := (loc data).length = 0
  let data' : (ι → ℤ) → ℝ := open Classical in if empty then fun _ => 1 else data
  let n := if empty then 3 else iterations
  if (loc data').length = 0 then .error .emptyRange
  else
    let starts := (draw n (loc data').length).map fun k => (loc data').get k
    let num := trace data' starts
    let nn : List ℝ := num.map fun (c : ℕ) => if empty then 0 else (c : ℝ) / n
    .ok (nn.zipIdx.map fun p => (p.2 : ℝ) * p.1)

end Verif.RaySizes
