import Verif.Model.SubBoxes
/-!
# Model of `integrated_bispectrum_cross_slide` (`position_dependent_power_spectrum.py` lines 103-150)

Exact rationals; the power spectrum of a cube is a parameter.
-/

namespace Verif.SlideBoxes
open Verif.SubBoxes

/-- `np.round` of a rational number: halves go to the even neighbour. -/
def roundQ (x : ℚ) : ℤ :=
  if x - ⌊x⌋ < 1 / 2 then ⌊x⌋
  else if 1 / 2 < x - ⌊x⌋ then ⌊x⌋ + 1
  else if ⌊x⌋ % 2 = 0 then ⌊x⌋ else ⌊x⌋ + 1

/-- `sn` (`position_dependent_power_spectrum.py` line 125), for sub-boxes of `S` cells in a cube of `L` cells. -/
def number (L S : ℕ) (overlap : ℚ) : ℤ := roundQ (((L : ℚ) - S) / (S - overlap * S) + 1)

/-- `L_slide` after line 126. -/
def slide (L S : ℕ) (sn : ℤ) : ℤ := roundQ (S - ((L : ℚ) - S) / ((sn : ℚ) - 1))

/-- `rLs` (line 127). -/
def slideCentres (S : ℕ) (shift : ℤ) (sn : ℕ) : List (Fin 3 → ℚ) :=
  let at_ (i : ℕ) : ℚ := (S : ℚ) * (1 / 2) + ((S : ℚ) - shift) * i
  (List.range sn).flatMap fun (i : ℕ) => (List.range sn).flatMap fun (j : ℕ) => (List.range sn).map fun (k : ℕ) => ![at_ i, at_ j, at_ k]

/-- The product of a cube with the window of a sub-box (lines 134-137). -/
def cut (cube : Cube) (S : ℕ) (r : Fin 3 → ℚ) : Cube := ⟨cube.shape, fun c => cube.val c * window cube.shape r (fun _ => S) c⟩

/-- `d_mean` of one sub-box (line 139). -/
def slideMean (cube : Cube) (S : ℕ) (r : Fin 3 → ℚ) : ℚ := (∑ c ∈ cells cube.shape, (cut cube S r).val c) / ((S : ℚ) * S * S)

/-- `integrated_bispectrum_cross_slide` (`position_dependent_power_spectrum.py` lines 103-150); `pk` is `power_spectrum_1d` with its bins indexed by `κ`.
Without sub-boxes line 146 divides zero by zero. -/
def crossSlide {κ : Type*} (pk : Cube → κ → ℚ) (cube1 cube2 : Cube) (S : ℕ) (overlap : ℚ) (normalize : Bool) : Except String (κ → ℚ) :=
  if cube1.shape ≠ cube2.shape then .error "AssertionError"
  else
    let L := cube1.shape 0
    if (S : ℚ) - overlap * S = 0 then .error "ZeroDivisionError"
    else
      let sn := number L S overlap
      if sn = 1 ∨ sn ≤ 0 then .error "ZeroDivisionError"
      else
        let rLs := slideCentres S (slide L S sn) sn.toNat
        let n : ℚ := rLs.length
        let B : κ → ℚ := fun q => (rLs.map fun r => pk (cut cube1 S r) q * slideMean cube2 S r).sum / n
        let P : κ → ℚ := fun q => (rLs.map fun r => pk (cut cube1 S r) q).sum / n
        let sig2 : ℚ := (rLs.map fun r => slideMean cube2 S r ^ 2).sum / n
        .ok (if normalize then fun q => B q / P q / sig2 else B)

end Verif.SlideBoxes
