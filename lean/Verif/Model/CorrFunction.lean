import Verif.Model.Correlation
import Verif.Model.CrossSpectrum
/-!
# Model of `correlation_function` and `cross_correlation_function` (`corr_function.py` lines 34-104)

The spectra are those of `Model/PowerSpectrum` and `Model/CrossSpectrum`, the transform is `ps_to_corr` of `Model/Correlation`.
-/

namespace Verif.CorrFunction

open Verif.Convolve Verif.PowerSpectrum Verif.CrossSpectrum Verif.Correlation

/-- An exception of the power spectrum, of `ps_to_corr`, or of an operand of `2*box_dims/n_grid`. -/
inductive Failure
  | spectrum (e : Err)
  | transform (e : String)
  | operand

/-- `rbins*10 if kbins is None else kbins` (`corr_function.py` lines 62 and 98): of an array every entry is multiplied, a list is repeated. -/
noncomputable def binsOf (rbins : RBins) : Option KBins → KBins
  | some k => k
  | none =>
    match rbins with
    | .count m => .int (m * 10)
    | .array r => .array (r.map fun x => x * 10)
    | .list r => .list (List.replicate 10 r).flatten

/-- `ps_to_corr` with the argument `box_dims` of these functions (lines 67 and 104).  A list cannot be divided; an array of one length is treated in the same
way (it is possible only for arrays of one dimension). -/
noncomputable def correlate (p : Radial) (rbins : RBins) (box : Dims) (n : ℕ) (log : Bool) : Except Failure (List ℝ × List ℝ) :=
  match rbins, box with
  | .count _, .list _ => .error .operand
  | .count _, .array _ => .error .operand
  | _, .number l =>
    match psToCorr p.data p.bins rbins (some l) n log with
    | .error e => .error (.transform e)
    | .ok r => .ok r
  | _, _ =>
    match psToCorr p.data p.bins rbins none n log with
    | .error e => .error (.transform e)
    | .ok r => .ok r

/-- `input_array_nd.shape[0]`. -/
def firstAxis {d : ℕ} (a : Arr (Fin d) ℝ) : ℕ := (List.ofFn a.shape).headD 0

/-- `correlation_function` (lines 34-67); `breakpoint` has its default. -/
noncomputable def correlationFunction {d : ℕ} (LB : ℝ) (a : Arr (Fin d) ℝ) (rbins : RBins) (kbins : Option KBins) (box : Dims) (log : Bool) (kBinning : Binning) :
    Except Failure (List ℝ × List ℝ) :=
  match power1d LB a box (binsOf rbins kbins) kBinning 0.1 with
  | .error e => .error (.spectrum e)
  | .ok p => correlate p rbins box (firstAxis a) log

/-- `cross_correlation_function` (lines 69-104). -/
noncomputable def crossCorrelationFunction {d : ℕ} (LB : ℝ) (a b : Arr (Fin d) ℝ) (rbins : RBins) (kbins : Option KBins) (box : Dims) (log : Bool)
    (kBinning : Binning) : Except Failure (List ℝ × List ℝ) :=
  match cross1d LB a b box (binsOf rbins kbins) kBinning 0.1 with
  | .error e => .error (.spectrum e)
  | .ok p => correlate p rbins box (firstAxis a) log

end Verif.CorrFunction
