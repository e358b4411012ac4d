import Verif.Model.PowerSpectrum
/-!
# Model of the binned cross spectra of `power_spectrum.py`

The spectra of arrays and the binning are those of `Model/PowerSpectrum`.  The arrays have the same number of dimensions; of cubes
in the functions of `mu`.
-/

namespace Verif.CrossSpectrum

open Verif.Convolve Verif.PowerSpectrum

/-- `cross_power_spectrum_1d` (`power_spectrum.py` lines 257-289). -/
noncomputable def cross1d {d : ℕ} (LB : ℝ) (a b : Arr (Fin d) ℝ) (boxDims : Dims) (kbins : KBins) (binning : Binning)
    (breakpoint : ℝ) : Except Err Radial :=
  match getDims LB d boxDims with
  | .error e => .error e
  | .ok L =>
    match crossNd L a b with
    | .error e => .error e
    | .ok p => radialAverage p (.list L) kbins binning breakpoint

/-- `power_spectrum_mu` (`power_spectrum.py` lines 292-332). -/
noncomputable def powerMu (LB : ℝ) (a : Arr (Fin 3) ℝ) (los : ℤ) (mubins : MuBins) (kbins : KBins) (boxDims : Dims)
    (weights : Weights) (exclude absolute : Bool) : Except Err Anisotropic :=
  match getDims LB 3 boxDims with
  | .error e => .error e
  | .ok L => muBinning (powerNd L a) los mubins kbins (.list L) weights exclude .log absolute

/-- `cross_power_spectrum_mu` (`power_spectrum.py` lines 335-377). -/
noncomputable def crossMu (LB : ℝ) (a b : Arr (Fin 3) ℝ) (los : ℤ) (mubins : MuBins) (kbins : KBins) (boxDims : Dims)
    (weights : Weights) (exclude absolute : Bool) : Except Err Anisotropic :=
  match getDims LB 3 boxDims with
  | .error e => .error e
  | .ok L =>
    match crossNd L a b with
    | .error e => .error e
    | .ok p => muBinning p los mubins kbins (.list L) weights exclude .log absolute

end Verif.CrossSpectrum
