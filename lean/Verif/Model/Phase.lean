import Verif.Lemmas.DFT
import Mathlib.Analysis.SpecialFunctions.Trigonometric.Arctan
/-!
# Model of `real_to_fourier_amplitude_phase` (`helper_functions.py` lines 21-26)

Zeros are positive: a negative zero would change the sign of an infinite quotient.
-/

namespace Verif.Phase
open Verif.Convolve

/-- `np.arctan(b/a)` (line 25); a quotient of zeros is not a number. -/
noncomputable def arctanQuotient (a b : ℝ) : Option ℝ :=
  open Classical in
  if a = 0 then (if b = 0 then none else if 0 < b then some (Real.pi / 2) else some (-(Real.pi / 2)))
  else some (Real.arctan (b / a))

/-- `real_to_fourier_amplitude_phase` (`helper_functions.py` lines 21-26). -/
noncomputable def amplitudePhase {d : ℕ} (data : Arr (Fin d) ℝ) : Arr (Fin d) ℝ × Arr (Fin d) (Option ℝ) :=
  let ft := fftn data.shape fun x => (data.val x : ℂ)
  (⟨data.shape, fun k => Real.sqrt ((ft k).re ^ 2 + (ft k).im ^ 2)⟩, ⟨data.shape, fun k => arctanQuotient (ft k).re (ft k).im⟩)

end Verif.Phase
