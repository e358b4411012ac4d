import Verif.Model.Smoothing
import Mathlib.Analysis.SpecialFunctions.Trigonometric.Basic
/-!
# Model of the smoothing with a Lanczos kernel (`smoothing.py` lines 142-164 and 213-227)

Floating point numbers are exact; in particular the sine of a multiple of pi is zero.
-/

namespace Verif.Lanczos
open Verif.Convolve Verif.Smoothing

/-- `np.sinc`. -/
noncomputable def sinc (x : ℝ) : ℝ :=
  open Classical in if x = 0 then 1 else Real.sin (Real.pi * x) / (Real.pi * x)

/-- Entry `i` of `np.linspace(-size*0.5, size*0.5, size)` (lines 154-155). -/
noncomputable def coord (size : ℕ) (i : ℤ) : ℝ := -(size * 0.5) + i * ((size * 0.5 - -(size * 0.5)) / (size - 1))

/-- The factor of one axis (lines 158-160). -/
noncomputable def factor (a x : ℝ) : ℝ := open Classical in if |x| > a then 0 else sinc x * sinc (x / a)

/-- The kernel before it is normalised: `x` runs along the second axis. -/
noncomputable def raw (size : ℕ) (a : ℝ) (i : Fin 2 → ℤ) : ℝ := factor a (coord size (i 1)) * factor a (coord size (i 0))

/-- `lanczos_kernel` (lines 142-164).  Of a width that is not positive no cell is left or the centre is not a number, and a sum
of zero cannot be divided by. -/
noncomputable def lanczosKernel (size : ℕ) (a : ℝ) : Except String (Arr (Fin 2) ℝ) :=
  open Classical in
  let total := ∑ i ∈ box (fun _ : Fin 2 => size), raw size a i
  if a ≤ 0 ∨ total = 0 then .error "nan"
  else .ok ⟨fun _ => size, fun i => raw size a i / total⟩

/-- `smooth_lanczos` (lines 213-227). -/
noncomputable def smoothLanczos (m : Arr (Fin 2) ℝ) (a : ℝ) : Except String (Arr (Fin 2) ℝ) := do
  let k ← lanczosKernel (m.shape 0) a
  smoothWithKernel m k

end Verif.Lanczos
