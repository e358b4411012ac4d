import Verif.Model.RandomField
/-!
# Model of `gaussian_random_field.py`: fields made after a given field
-/

namespace Verif.FieldLike
open Verif.Convolve Verif.PowerSpectrum Verif.RandomField

/-- The points of the interpolation (`gaussian_random_field.py` lines 98-99): centre and power of the bins with modes. -/
noncomputable def points (r : Radial) : List (ℝ × ℝ) :=
  (r.bins.zip (r.data.zip r.modes)).filterMap fun p => if 0 < p.2.2 then p.2.1.map fun y => (p.1, y) else none

open Classical in
/-- `interp1d(..., kind='linear', bounds_error=False, fill_value=0.)` through points with increasing abscissas. -/
noncomputable def line : List (ℝ × ℝ) → ℝ → ℝ
  | [], _ => 0
  | [p], x => if x = p.1 then p.2 else 0
  | p :: q :: l, x =>
    if x < p.1 then 0
    else if x ≤ q.1 then p.2 + (q.2 - p.2) / (q.1 - p.1) * (x - p.1)
    else line (q :: l) x

/-- `_get_ps_func_for_field` (`gaussian_random_field.py` lines 92-102).  With fewer than two points `interp1d` raises in some
versions of SciPy; the model raises. -/
noncomputable def psFunc {d : ℕ} (LB : ℝ) (f : Arr (Fin d) ℝ) (boxDims : Dims) (kbins : KBins) : Except Err (ℝ → ℝ) :=
  match power1d LB f boxDims kbins .log (1 / 10) with
  | .error e => .error e
  | .ok r => if (points r).length < 2 then .error .value else .ok (line (points r))

/-- `make_gaussian_random_field_like_field` (`gaussian_random_field.py` lines 65-89); `a` and `b` are the random numbers. -/
noncomputable def fieldLike {d : ℕ} (LB : ℝ) (a b : (Fin d → ℤ) → ℝ) (f : Arr (Fin d) ℝ) (boxDims : Dims) (kbins : KBins) :
    Except Err (Arr (Fin d) ℝ) :=
  match psFunc LB f boxDims kbins with
  | .error e => .error e
  | .ok P => makeField LB a b f.shape boxDims P

/-- `fourier_phase_shuffled` (`gaussian_random_field.py` lines 104-121): `np.random.shuffle` permutes the first axis only; `perm` is the
permutation.  `np.angle` of zero is zero. -/
noncomputable def phaseShuffled {d : ℕ} (f : Arr (Fin (d + 1)) ℝ) (perm : ℤ → ℤ) : Arr (Fin (d + 1)) ℝ :=
  let ft := shift f.shape (fftn f.shape fun x => (f.val x : ℂ))
  let phi := fun i : Fin (d + 1) → ℤ => Complex.arg (ft fun j => if j = 0 then perm (i j) else i j)
  let new := fun i => ((‖ft i‖ : ℝ) : ℂ) * Complex.exp (Complex.I * (phi i : ℂ))
  ⟨f.shape, fun x => (ifftn f.shape (shift f.shape new) x).re⟩

end Verif.FieldLike
