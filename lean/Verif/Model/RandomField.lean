import Verif.Model.PowerSpectrum
/-!
# Model of `gaussian_random_field.py`

The random numbers are arguments.  Arrays, transforms and wave numbers are those of
`Model/PowerSpectrum`.
-/

namespace Verif.RandomField
open Verif.Convolve Verif.PowerSpectrum

open Classical in
/-- The smallest wave number that is not zero (`gaussian_random_field.py` line 44); the minimum of nothing is
an error. -/
noncomputable def kMin {d : ℕ} (s : Fin d → ℕ) (L : List ℝ) : Except Err ℝ :=
  match (((box s).image fun i => |kMag s L i|).filter fun x => x ≠ 0).min with
  | some m => .ok m
  | none => .error .value

open Classical in
/-- `k` after line 44: zero is replaced by a tenth of the smallest other value. -/
noncomputable def kFixed {d : ℕ} (s : Fin d → ℕ) (L : List ℝ) (kmin : ℝ) (i : Fin d → ℤ) : ℝ :=
  if kMag s L i = 0 then kmin / 10 else kMag s L i

/-- `map_ft` after line 55: `a` and `b` are the two arrays of normal random numbers. -/
noncomputable def amplitudes {d : ℕ} (a b : (Fin d → ℤ) → ℝ) (s : Fin d → ℕ) (L : List ℝ) (P : ℝ → ℝ)
    (kmin : ℝ) (i : Fin d → ℤ) : ℂ :=
  ((a i : ℂ) + Complex.I * (b i : ℂ)) * (Real.sqrt (P (kFixed s L kmin i) / scale s L) : ℂ)

/-- `make_gaussian_random_field` (`gaussian_random_field.py` lines 12-62) for `dims = s`; `LB` is `conv.LB`.
The length of `box_dims` is compared after it has been resolved. -/
noncomputable def makeField {d : ℕ} (LB : ℝ) (a b : (Fin d → ℤ) → ℝ) (s : Fin d → ℕ) (box_dims : Dims)
    (P : ℝ → ℝ) : Except Err (Arr (Fin d) ℝ) :=
  if d = 2 ∨ d = 3 then
    match getDims LB d box_dims with
    | .error e => .error e
    | .ok L =>
      if L.length = d then
        match kMin s L with
        | .error e => .error e
        | .ok kmin => .ok ⟨s, fun x => (ifftn s (shift s (amplitudes a b s L P kmin)) x).re⟩
      else .error .assertion
  else .error .assertion

end Verif.RandomField
