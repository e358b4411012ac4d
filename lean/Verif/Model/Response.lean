import Verif.Model.SubBoxes
/-!
# Model of `power_spectrum_response` and `integrated_bispectrum` (`position_dependent_power_spectrum.py` lines 5-43)

Exact rationals; the power spectrum of a cube is a parameter, see `Model/SubBoxes.lean`.
-/

namespace Verif.Response
open Verif.SubBoxes

/-- `power_spectrum_response` (`position_dependent_power_spectrum.py` lines 5-22). -/
def powerSpectrumResponse {κ : Type*} (pk : Cube → κ → ℚ) (cube : Cube) (cube2 : Option Cube) (N : ℕ) : Except String (κ → ℚ) :=
  integratedBispectrumCross pk cube (match cube2 with | none => cube | some c => c) N true

/-- `integrated_bispectrum` (`position_dependent_power_spectrum.py` lines 25-43). -/
def integratedBispectrum {κ : Type*} (pk : Cube → κ → ℚ) (cube : Cube) (N : ℕ) (normalize : Bool) : Except String (κ → ℚ) :=
  integratedBispectrumCross pk cube cube N normalize

end Verif.Response
