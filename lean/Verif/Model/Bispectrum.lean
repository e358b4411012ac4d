import Verif.Model.Scope
import Verif.Model.PowerSpectrum
/-!
# Model of `bispectrum.py`

The class `Bispectrum`.  Arrays, `fftshift` and `_get_k` are those of `Model/PowerSpectrum`, the transforms the defining
sums of `Lemmas/DFT`.  Floating point is replaced by the real numbers, not-a-number by `none`.  The class
`BispectrumPylians` calls the package Pylians and is not modelled.
-/

namespace Verif.Bispectrum
open Verif.Convolve Verif.PowerSpectrum

/-- The exceptions that occur. -/
inductive Err
  | assertion | attribute | unboundLocal
  deriving DecidableEq

/-- The argument `box_dims` of `bispectrum_fast`. -/
inductive Dims
  | none
  | number (x : ℝ)
  | list (l : List ℝ)

/-- `numpy_product(box_dims)` (`bispectrum.py` line 67); `np.prod(None)` is `None`, whose `astype` (line 95) does not
exist.  A number is its own product. -/
noncomputable def volume : Dims → Except Err ℝ
  | .none => .error .attribute
  | .number x => .ok x
  | .list l => .ok l.prod

/-- `fft_nd` (`bispectrum.py` lines 17-37), the transform. -/
noncomputable def fftNd {d : ℕ} (a : Arr (Fin d) ℝ) : (Fin d → ℤ) → ℂ :=
  shift a.shape (fftn a.shape fun x => (a.val x : ℂ))

open Classical in
/-- `spherical_shell_mask` (`bispectrum.py` lines 47-53), given the magnitudes. -/
noncomputable def shell {d : ℕ} (km : (Fin d → ℤ) → ℝ) (k dk : ℝ) (i : Fin d → ℤ) : ℂ :=
  if |km i - k| < dk / 2 then 1 else 0

/-- The magnitudes `spherical_shell_mask` uses when it is given the components only: the sum of the squares, without the
root (`bispectrum.py` line 49). -/
noncomputable def compMag {d : ℕ} (comp : Fin d → (Fin d → ℤ) → ℝ) (i : Fin d → ℤ) : ℝ := ∑ j, comp j i ^ 2

/-- `spherical_shell_mask` (`bispectrum.py` lines 47-53) with its optional arguments. -/
noncomputable def sphericalShellMask {d : ℕ} (k dk : ℝ) (comp : Option (Fin d → (Fin d → ℤ) → ℝ))
    (km : Option ((Fin d → ℤ) → ℝ)) : Except Err ((Fin d → ℤ) → ℂ) :=
  match comp, km with
  | _, some km => .ok (shell km k dk)
  | some c, none => .ok (shell (compMag c) k dk)
  | none, none => .error .assertion

/-- `cosine_rule` (`bispectrum.py` lines 55-57). -/
noncomputable def cosineRule (k1 k2 alpha : ℝ) : ℝ :=
  Real.sqrt (k1 ^ 2 + k2 ^ 2 + 2 * k1 * k2 * Real.cos alpha)

/-- `np.fft.ifftn(np.fft.fftshift(A))` (`bispectrum.py` lines 72-73, 80-81, 90-91). -/
noncomputable def back {d : ℕ} (s : Fin d → ℕ) (A : (Fin d → ℤ) → ℂ) : (Fin d → ℤ) → ℂ := ifftn s (shift s A)

open Classical in
/-- The second and third shell: those before are taken again where the side is the same, whatever the width
(`bispectrum.py` lines 75-91). -/
noncomputable def shells {d : ℕ} (km : (Fin d → ℤ) → ℝ) (k1 k2 k3 dk1 dk2 dk3 : ℝ) :
    ((Fin d → ℤ) → ℂ) × ((Fin d → ℤ) → ℂ) × ((Fin d → ℤ) → ℂ) :=
  let m1 := shell km k1 dk1
  let m2 := if k2 = k1 then m1 else shell km k2 dk2
  let m3 := if k3 = k1 then m1 else if k3 = k2 then m2 else shell km k3 dk3
  (m1, m2, m3)

open Classical in
/-- `bispectrum_fast` (`bispectrum.py` lines 59-97) of a transform `A` of shape `s`.  Without magnitudes the assertion of
the first shell fails (line 48).  A sum of zero over the shells gives no number. -/
noncomputable def fast {d : ℕ} (s : Fin d → ℕ) (A : (Fin d → ℤ) → ℂ) (k1 k2 k3 dk1 dk2 dk3 : ℝ) (dims : Dims)
    (km : Option ((Fin d → ℤ) → ℝ)) : Except Err (Option ℝ) :=
  match km with
  | none => .error .assertion
  | some km =>
    match volume dims with
    | .error e => .error e
    | .ok V =>
      let m := shells km k1 k2 k3 dk1 dk2 dk3
      let d123 : ℝ := ∑ x ∈ box s, (back s (fun i => A i * m.1 i) x * back s (fun i => A i * m.2.1 i) x *
        back s (fun i => A i * m.2.2 i) x).re
      let s123 : ℝ := ∑ x ∈ box s, (back s m.1 x * back s m.2.1 x * back s m.2.2 x).re
      .ok (if s123 = 0 then none else some (d123 / s123 * V ^ 2 / (∏ j, (s j : ℝ)) ^ 3))

/-- `Bispectrum(a).bispectrum_k1k2(...)` (`bispectrum.py` lines 99-153) and `.bispectrum_k(...)` (lines 156-205) up to the window: the parameters have
their values, `input_array_nd` is assigned, and `input_array` is read in order to be multiplied by the window (lines 111-112 and 167-168).
`rest` stands for the lines after that. -/
def methods {d : ℕ} (a : Arr (Fin d) ℝ) (window : Arr (Fin d) ℝ → Arr (Fin d) ℝ) (rest : Arr (Fin d) ℝ → Arr (Fin d) ℝ → Except Err (List ℝ)) :
    Except Err (List ℝ) :=
  let call : Scope.Frame (Arr (Fin d) ℝ) := ⟨["self", "input_array_nd", "input_array", "input_array_fft"], [("self", a)], []⟩
  match call.read "self" with
  | .error _ => .error .unboundLocal
  | .ok self =>
    let call := call.assign "input_array_nd" self
    match call.read "input_array" with
    | .error _ => .error .unboundLocal
    | .ok x => rest self (window x)

end Verif.Bispectrum
