import Mathlib.Data.Real.Basic
import Mathlib.Algebra.BigOperators.Fin
import Mathlib.Data.Int.Interval
import Mathlib.Data.Fintype.Pi
import Mathlib.Analysis.SpecialFunctions.Trigonometric.Basic
/-!
# Model of `test_case.py`

Cubes are functions of the cell, of which the values at the cells of the box matter.  Floating point is replaced by the
real numbers.  The random choices are given by a function of the number of the iteration and the cube.
-/

namespace Verif.BubbleModel

/-- The exceptions that occur. -/
inductive Err
  | value | assertion
  deriving DecidableEq

abbrev Cell := Fin 3 → ℤ
abbrev Cube := Cell → ℝ

/-- The cells of a cube with `n` cells per side. -/
noncomputable def box (n : ℕ) : Finset Cell := Fintype.piFinset fun _ => Finset.Ico (0 : ℤ) n

/-- `np.roll(cube, shift, axis=(0, 1, 2))`. -/
def roll (n : ℕ) (c : Cube) (shift : Cell) : Cube := fun x => c fun j => (x j - shift j) % n

/-- `skimage.morphology.ball(r)` as numbers: an array of `2 r + 1` cells per side. -/
noncomputable def ball (r : ℕ) : Cube := fun y => if ∑ j, (y j - r) ^ 2 ≤ (r : ℤ) ^ 2 then 1 else 0

/-- `rolled_cube[:k, :k, :k] += kernel` (`test_case.py` line 27). -/
noncomputable def addBlock (c K : Cube) (k : ℕ) : Cube := fun y => if ∀ j, y j < k then c y + K y else c y

/-- One pass of the loop of `paint_kernel` (`test_case.py` lines 22-30) for a kernel of `k` cells per side, after which
the rolled cube, which contains the cube, is *added* to the cube. -/
noncomputable def paintOne (n : ℕ) (K : Cube) (k : ℕ) (c : Cube) (pos : Cell) : Cube :=
  let R : Cell := fun _ => (k / 2 : ℕ)
  let rolled := addBlock (roll n c fun j => -pos j + R j) K k
  fun x => c x + roll n rolled (fun j => pos j - R j) x

/-- `paint_kernel` (`test_case.py` lines 10-32), the cube afterwards.  A kernel which is larger than the cube cannot be
added to a part of it. -/
noncomputable def paintKernel (n : ℕ) (K : Cube) (k : ℕ) (c : Cube) (positions : List Cell) : Except Err Cube :=
  if positions ≠ [] ∧ n < k then .error .value else .ok (positions.foldl (paintOne n K k) c)

/-- `cube.mean()`. -/
noncomputable def mean (n : ℕ) (c : Cube) : ℝ := (∑ x ∈ box n, c x) / (n : ℝ) ^ 3

/-- The two ways of choosing centres. -/
inductive Mode
  | poisson | anticlustered
  deriving DecidableEq

/-- The check of the name in lower case (`test_case.py` lines 51-53) and the choice by it (lines 86 and 90). -/
def modeOf (name : String) : Except Err Mode :=
  if name = "poisson" ∨ name = "uniform-random" then .ok .poisson
  else if name = "anticlustered" ∨ name = "anti-clustered" ∨ name = "non-overlapping" ∨ name = "nonoverlapping" then
    .ok .anticlustered
  else .error .assertion

/-- The cells from which the centres are chosen (`test_case.py` lines 86-98).  `distance_transform_edt(1-cube)` is the
distance to the nearest cell of value one; the box is not periodic for it.  Without such a cell its result is
unspecified: `void` says which cells are taken then.  `edt > r` is compared by squares. -/
def Candidate (mode : Mode) (n r : ℕ) (void : Cell → Prop) (c : Cube) (x : Cell) : Prop :=
  x ∈ box n ∧ match mode with
    | .poisson => c x = 0
    | .anticlustered =>
      ((∃ y ∈ box n, c y = 1) → ∀ y ∈ box n, c y = 1 → (r : ℤ) ^ 2 < ∑ j, (x j - y j) ^ 2) ∧
        ((¬ ∃ y ∈ box n, c y = 1) → void x)

open Classical in
/-- `cube = (cube >= 0.5).astype(float)` (`test_case.py` line 104). -/
noncomputable def threshold (c : Cube) : Cube := fun x => if 1 / 2 ≤ c x then 1 else 0

/-- Random choices: the positions of an iteration. -/
abbrev Choice := ℕ → Cube → List Cell

open Classical in
/-- The loop (`test_case.py` lines 82-114), of which `m` iterations are left and `i` are done.  Without a neutral cell
`np.random.randint(0, 0)` raises. -/
noncomputable def loop (mode : Mode) (n r : ℕ) (void : Cell → Prop) (target : ℝ) (choose : Choice) :
    ℕ → ℕ → Cube → Except Err Cube
  | 0, _, c => .ok c
  | m + 1, i, c =>
    if ∃ x, Candidate mode n r void c x then
      match paintKernel n (ball r) (2 * r + 1) c (choose i c) with
      | .error e => .error e
      | .ok c' =>
        if target ≤ mean n (threshold c') then .ok (threshold c')
        else loop mode n r void target choose m (i + 1) (threshold c')
    else match mode with
      | .poisson => .error .value
      | .anticlustered => .ok c

open Classical in
/-- `cube[cube>1.] = 1.; cube[cube<0.] = 0.` (`test_case.py` lines 119-120). -/
noncomputable def clip (c : Cube) : Cube := fun x => if 1 < c x then 1 else if c x < 0 then 0 else c x

open Classical in
/-- `spherical_bubble_model` (`test_case.py` lines 34-122), the result; `cube` is the cube given, or zeros. -/
noncomputable def bubbleModel (mode : Mode) (n r batch maxIter : ℕ) (void : Cell → Prop) (target : ℝ) (choose : Choice)
    (cube : Option Cube) : Except Err Cube :=
  let c := cube.getD fun _ => 0
  let vol : ℝ := 4 * Real.pi / 3 * (r : ℝ) ^ 3
  if (target - mean n c) * (n : ℝ) ^ 3 ≤ vol then .ok c
  else if (target - mean n c) * (n : ℝ) ^ 3 ≤ vol * batch then .ok c
  else match loop mode n r void target choose maxIter 0 c with
    | .error e => .error e
    | .ok c' => .ok (clip c')

open Classical in
/-- The array given as `cube` after the call: the first iteration paints into it (`test_case.py` lines 30 and 101), later
ones into the copies made by the threshold.  Only for calls that reach the loop, with at least one iteration, and find a
centre. -/
noncomputable def argumentAfter (n r : ℕ) (choose : Choice) (c : Cube) : Except Err Cube :=
  paintKernel n (ball r) (2 * r + 1) c (choose 0 c)

end Verif.BubbleModel
