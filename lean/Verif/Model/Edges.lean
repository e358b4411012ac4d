import Verif.Model.PowerSpectrum

/-!
# `get_kbins` of `power_spectrum.py`

Lines 441-445; `_get_dims`, `_get_k` and the edges are those of `Model/PowerSpectrum`.
-/

namespace Verif.Edges
open Verif.PowerSpectrum Verif.Convolve

/-- `_get_kbins` (`power_spectrum.py` lines 505-519) with the breakpoint 0.1 that `get_kbins` leaves as it is; `k` is the set of the values of the array of that name.  Anything
but an integer is returned as it is.  The minimum and the maximum of nothing are errors. -/
noncomputable def rawKbins (L : List ℝ) (k : Finset ℝ) (kbins : KBins) (binning : Binning) : Except Err (List ℝ) :=
  match kbins with
  | .int n =>
    match L.min?, k.max with
    | none, _ => .error .value
    | some _, none => .error .value
    | some l, some m => .ok (edges (2 * Real.pi / l) m n binning (1 / 10))
  | .list e => .ok e
  | .array e => .ok e

/-- `get_kbins` (`power_spectrum.py` lines 441-445); of the array only the shape matters. -/
noncomputable def getKbins {d : ℕ} (LB : ℝ) (kbins : KBins) (boxDims : Dims) (k : Option (Finset ℝ)) (array : Option (Fin d → ℕ)) (binning : Binning) : Except Err (List ℝ) :=
  match k, array with
  | none, none => .error .assertion
  | some _, none => .error .attribute
  | k, some s =>
    match getDims LB d boxDims with
    | .error e => .error e
    | .ok L =>
      match k with
      | some k => rawKbins L k kbins binning
      | none =>
        match getK d (.list L) with
        | .error e => .error e
        | .ok L' => rawKbins L ((box s).image (kMag s L')) kbins binning

end Verif.Edges
