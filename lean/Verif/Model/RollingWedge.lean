import Verif.Model.PowerSpectrum
import Verif.Model.Conversions
import Mathlib.MeasureTheory.Integral.IntervalIntegral.Basic
/-!
# Model of `rolling_wedge_removal_lightcone` (`foreground_model.py` lines 152-207)

Floating point numbers are exact reals; the conversions to 32 bits are left out.
-/

namespace Verif.RollingWedge
open Verif.Convolve Verif.Constants Complex

inductive Err where
  | value | index
  deriving DecidableEq

/-- `np.fft.fftfreq(n, d)[i]`. -/
noncomputable def fftfreq (n : ℕ) (d : ℝ) (i : ℤ) : ℝ :=
  (if i < ((n + 1) / 2 : ℕ) then (i : ℝ) else i - n) / (n * d)

/-- `multiplicative_factor(z, OMm)` (`foreground_model.py` lines 168-171). -/
noncomputable def factor (Om z : ℝ) : ℝ :=
  1 / (1 / Real.sqrt (Om * (1 + z) ^ 3 + (1 - Om))) / (1 + z) *
    ∫ x in (0 : ℝ)..z, 1 / Real.sqrt (Om * (1 + x) ^ 3 + (1 - Om))

/-- `np.blackman(c)[t]`. -/
noncomputable def blackman (c : ℕ) (t : ℤ) : ℝ :=
  if c = 1 then 1
  else 42 / 100 + 1 / 2 * Real.cos (Real.pi * (1 - c + 2 * t) / (c - 1)) +
    8 / 100 * Real.cos (2 * Real.pi * (1 - c + 2 * t) / (c - 1))

/-- `np.fft.fft(np.blackman(chunk_length))[j]` (`foreground_model.py` line 190). -/
noncomputable def taper (c : ℕ) (j : ℤ) : ℂ :=
  ∑ t ∈ Finset.Ico (0 : ℤ) c, (blackman c t : ℂ) * exp (-(2 * Real.pi * I) * ((j : ℂ) * t / c))

/-- `bm[j]` (`foreground_model.py` line 190). -/
noncomputable def bm (c : ℕ) (j : ℤ) : ℝ := ‖taper c j‖ ^ 2

/-- `bm / np.amax(bm) <= buffer_threshold` (`foreground_model.py` line 191). -/
def Below (c : ℕ) (thr : ℝ) (j : ℕ) : Prop :=
  j < c ∧ ∃ m > 0, (∃ i ∈ Finset.Ico (0 : ℤ) c, bm c i = m) ∧ (∀ i ∈ Finset.Ico (0 : ℤ) c, bm c i ≤ m) ∧ bm c j / m ≤ thr

open Classical in
/-- `np.where(bm / np.amax(bm) <= buffer_threshold)[0][0]` (`foreground_model.py` line 191). -/
noncomputable def firstBelow (c : ℕ) (thr : ℝ) : Option ℕ :=
  if h : ∃ j, Below c thr j then some (Nat.find h) else none

/-- `w` (`foreground_model.py` lines 184-188, 191, 203 and 204): the mode `i` of a chunk is kept; `mf` is the factor and
`idx` the index of `buffer`.  `W` is infinite if the denominator is zero but `k_par` is not. -/
def Keep (n c : ℕ) (d mf : ℝ) (idx : ℕ) (i : Fin 3 → ℤ) : Prop :=
  let den := Real.sqrt (fftfreq n d (i 1) ^ 2 + fftfreq n d (i 0) ^ 2) * mf +
    (fftfreq c d 1 - fftfreq c d 0) * ((idx : ℝ) - 1)
  let kpar := fftfreq c d (i 2)
  if den = 0 then kpar ≠ 0 else kpar / den < -1 ∨ 1 < kpar / den

open Classical in
/-- The chunk of channel `p` after padding and tapering (`foreground_model.py` lines 193-202).  The transform along the
first two axes (line 180) is done after it here, with which it commutes. -/
noncomputable def chunk (a : Arr (Fin 3) ℝ) (c : ℕ) (p : ℤ) (x : Fin 3 → ℤ) : ℝ :=
  let t := p - (c / 2 : ℕ) + x 2
  (if 0 ≤ t ∧ t < a.shape 2 then a.val ![x 0, x 1, t] else 0) * blackman c (x 2)

open Classical in
/-- One channel of the result (`foreground_model.py` lines 200-205). -/
noncomputable def channel (a : Arr (Fin 3) ℝ) (c : ℕ) (d mf : ℝ) (idx : ℕ) (x : Fin 3 → ℤ) : ℝ :=
  (ifftn ![a.shape 0, a.shape 0, c] (fun i => if Keep (a.shape 0) c d mf idx i then
    fftn ![a.shape 0, a.shape 0, c] (fun y => (chunk a c (x 2) y : ℂ)) i else 0) ![x 0, x 1, (c / 2 : ℕ)]).re

/-- `rolling_wedge_removal_lightcone` (`foreground_model.py` lines 152-207). -/
noncomputable def rolling (k : Const) (a : Arr (Fin 3) ℝ) (zs : List ℝ) (cell : Option ℝ) (chunkLength : Option ℕ)
    (Om : Option ℝ) (thr : ℝ) : Except Err (Arr (Fin 3) ℝ) :=
  let least := min (min (a.shape 0) (a.shape 1)) (a.shape 2)
  let d : ℝ := cell.getD least
  let c := chunkLength.getD least
  let om : ℝ := Om.getD k.omega0
  if c < 2 then .error .index
  else match firstBelow c thr with
    | none => .error .index
    | some idx =>
      -- `np.concatenate` (line 198)
      if a.shape 1 ≠ a.shape 0 then .error .value
      else if a.shape 2 = 0 then .ok ⟨a.shape, fun _ => 0⟩
      -- `t_box *= BM` (line 202)
      else if c % 2 = 1 then .error .value
      -- `MF[...]` (line 203)
      else if zs.length < a.shape 2 then .error .index
      else .ok ⟨a.shape, fun x => channel a c d
        (factor om (zs.getD (min ((x 2).toNat + c / 2 - 1) (a.shape 2 - 1)) 0)) idx x⟩

end Verif.RollingWedge
