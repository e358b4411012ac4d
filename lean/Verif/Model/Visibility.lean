import Mathlib.Data.Complex.Basic
import Mathlib.Analysis.SpecialFunctions.Sqrt

/-!
# `apply_uv_response` of `radio_telescope_sensitivity.py`

Lines 166-184.  Floating point numbers are reals; `none` stands for a value that is not a number.
-/

namespace Verif.Visibility

/-- The errors of Python. -/
inductive Err where
  | index
  deriving DecidableEq

/-- An array of two dimensions. -/
structure Arr (K : Type) where
  rows : ℕ
  cols : ℕ
  val : ℕ → ℕ → K

open Classical in
/-- The body of the loops (lines 182-183) for cell `[i,j]`: the map is read first, then the array is read and the result is set, which has the shape of the array.  The square
root of a negative number is not a number. -/
noncomputable def step (a : Arr ℂ) (uv : Arr ℝ) (s : ℕ → ℕ → Option ℂ) (i j : ℕ) : Except Err (ℕ → ℕ → Option ℂ) :=
  if ¬(i < uv.rows ∧ j < uv.cols) then .error .index
  else if ¬(i < a.rows ∧ j < a.cols) then .error .index
  else
    let value : Option ℂ :=
      if uv.val i j = 0 then some 0
      else if uv.val i j < 0 then none
      else some (((a.val i j).re / Real.sqrt (uv.val i j) : ℝ) + Complex.I * ((a.val i j).im : ℂ) / (Real.sqrt (uv.val i j) : ℝ))
    .ok fun i' j' => if i' = i ∧ j' = j then value else s i' j'

/-- The loops (lines 180-183) over the remaining cells. -/
noncomputable def loop (a : Arr ℂ) (uv : Arr ℝ) : List (ℕ × ℕ) → (ℕ → ℕ → Option ℂ) → Except Err (ℕ → ℕ → Option ℂ)
  | [], s => .ok s
  | p :: ps, s =>
    match step a uv s p.1 p.2 with
    | .error e => .error e
    | .ok s' => loop a uv ps s'

/-- `apply_uv_response` (lines 166-184): both loops run over the length of the first axis. -/
noncomputable def applyResponse (a : Arr ℂ) (uv : Arr ℝ) : Except Err (Arr (Option ℂ)) :=
  match loop a uv ((List.range a.rows).flatMap fun i => (List.range a.rows).map fun j => (i, j)) fun _ _ => some 0 with
  | .error e => .error e
  | .ok s => .ok ⟨a.rows, a.cols, s⟩

end Verif.Visibility
