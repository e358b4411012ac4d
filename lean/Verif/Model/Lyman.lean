import Verif.Model.Convolve
import Verif.Model.Binning
import Mathlib.Analysis.SpecialFunctions.Log.Basic
import Mathlib.Analysis.SpecialFunctions.Gaussian.GaussianIntegral
/-!
# Model of `lyman_alpha_transmission.py`

Real numbers instead of floats. Quantities are a value and the size of the unit. The cosmology (an astropy object) is a
parameter: baryon density, critical density today in g/cm³, Hubble parameter in 1/s, and h.
-/

namespace Verif.Lyman
open Verif.Convolve

/-- What is used of the argument `cosmo` and of `astropy.constants` (lines 185, 191-195, 261): `critical_density0`, `H(z)` in 1/s,
masses of proton and electron in g. -/
structure Cosmo where
  omegaB : ℝ
  critical : ℝ
  h : ℝ
  H : ℝ → ℝ
  mp : ℝ
  me : ℝ

/-- A number or a Quantity (value and unit). -/
inductive Quant where
  | plain (x : ℝ)
  | unit (x u : ℝ)

/-- `lambda_alpha` in metres; plain numbers are Angstrom (`lyman_alpha_transmission.py` lines 187-190). -/
noncomputable def metres : Quant → ℝ
  | .plain x => x * (1 / 10 ^ 10)
  | .unit x u => x * u

/-- `dn/dn.mean()-1` if all values exceed one (lines 192-193 and 315-316). -/
noncomputable def overdensity (dn : Arr (Fin 3) ℝ) : Arr (Fin 3) ℝ :=
  open Classical in
  if ∀ x ∈ box dn.shape, 1 < dn.val x then
    ⟨dn.shape, fun x => dn.val x / ((∑ y ∈ box dn.shape, dn.val y) / (box dn.shape).card) - 1⟩
  else dn

/-- `tau_nu_lyA_FGPA` (lines 140-200). The minimum of an empty array raises. Arrays of different shapes: simplified to an
error (axes of length one would be broadcast). -/
noncomputable def fgpa (C : Cosmo) (z : ℝ) (xHI dn : Arr (Fin 3) ℝ) (f : ℝ) (lam : Quant) (kRes XH : ℝ) : Except String (Arr (Fin 3) ℝ) :=
  if box dn.shape = ∅ then .error "ValueError"
  else if xHI.shape ≠ dn.shape then .error "ValueError"
  else
    let d := overdensity dn
    let nH := fun x => (1 + d.val x) * (XH * C.omegaB * C.critical / (C.mp + C.me))
    let tau0 := 1.344 / 10 ^ 7 * kRes * (f / 0.416) * (metres lam / (1.216 / 10 ^ 7))
    .ok ⟨xHI.shape, fun x => tau0 * (1 / C.H z) * (1 + z) ^ 3 * (xHI.val x * nH x)⟩

/-- The argument `los_len`: a number of cells or a length (lines 307-311). -/
inductive Along where
  | cells (m : ℕ)
  | length (x u : ℝ)

/-- `int`: towards zero. -/
noncomputable def trunc (x : ℝ) : ℤ := if 0 ≤ x then ⌊x⌋ else ⌈x⌉

/-- `los_cells` (lines 300-302, 307-311). A length over a plain number has a unit, and `int` of it raises TypeError. The value is
rounded before `int` converts the ratio of the units. Simplified: negative lengths count as zero. -/
noncomputable def losCells (C : Cosmo) (n0 : ℕ) (los : Along) (box : Option Quant) : Except String ℕ :=
  let mpc := 3.0856775814913674 * 10 ^ 22
  match los with
  | .cells m => .ok m
  | .length x u =>
    match box.getD (.unit (200 / C.h) mpc) with
    | .plain _ => .error "TypeError"
    | .unit b ub => .ok (trunc ((Binning.roundEven (x * (n0 / b)) : ℝ) * (u / ub))).toNat

/-- `tauA_padded` along one line of sight (line 331). `tauA[:,:,-0:]` is everything. -/
def padded (t : List ℝ) (m : ℕ) : List ℝ :=
  (if m / 2 = 0 then t else t.drop (t.length - m / 2)) ++ t ++ t.take (if m % 2 = 0 then m / 2 else m / 2 + 1)

/-- Lines 332-334 along one line of sight. -/
noncomputable def losLine (t : List ℝ) (m : ℕ) : List ℝ :=
  (List.range t.length).map fun i => -Real.log ((((padded t m).drop i).take m |>.map fun x => Real.exp (-x)).sum / m)

/-- `np.swapaxes(a, ax, 2)`. -/
def swapped (ax : Fin 3) (a : Arr (Fin 3) ℝ) : Arr (Fin 3) ℝ :=
  ⟨fun i => a.shape (Equiv.swap ax 2 i), fun x => a.val fun i => x (Equiv.swap ax 2 i)⟩

/-- The values along the last axis. -/
def sight (a : Arr (Fin 3) ℝ) (x : Fin 3 → ℤ) : List ℝ :=
  (List.range (a.shape 2)).map fun (k : ℕ) => a.val fun i => if i = 2 then (k : ℤ) else x i

/-- Keyword arguments of method FGPA (lines 325-328). -/
structure Opts where
  f : ℝ := 0.416
  lam : Quant := .unit 1216 (1 / 10 ^ 10)
  kRes : ℝ := 1

/-- `tau_nu_lyA_los` (lines 268-337). Method 'smith2015' calls a function that does not exist; for other methods `tauA` is
not bound. A window of zero cells divides by zero. -/
noncomputable def tauLos (C : Cosmo) (z : ℝ) (xHI dn : Arr (Fin 3) ℝ) (los : Along) (boxLen : Option Quant) (ax : Fin 3) (method : String)
    (XH : ℝ) (o : Opts) : Except String (Arr (Fin 3) ℝ) :=
  let x := if ax ≠ 2 then swapped ax xHI else xHI
  match losCells C (x.shape 0) los boxLen with
  | .error e => .error e
  | .ok m =>
    if box dn.shape = ∅ then .error "ValueError"
    else
      let d := overdensity dn
      let name := method.toList.map Char.toLower
      if name = "smith2015".toList then .error "NameError"
      else if name = "fgpa".toList then
        match fgpa C z x d o.f o.lam o.kRes XH with
        | .error e => .error e
        | .ok tau =>
          if m = 0 then .error "nan"
          else .ok ⟨tau.shape, fun y => (losLine (sight tau y) m).getD (y 2).toNat 0⟩
      else .error "UnboundLocalError"

/-- `direct_voigt_profile` (lines 53-98), the integral taken exactly, and `approximation_voigt_faddeeva` (lines 11-51) for positive
`a`: the real part of the Faddeeva function at `x + i a` is this integral. -/
noncomputable def voigt (x a : ℝ) : ℝ := a / Real.pi * ∫ y : ℝ, Real.exp (-y ^ 2) / ((y - x) ^ 2 + a ^ 2)

/-- Constants of astropy in SI units. -/
structure Consts where
  kB : ℝ
  mp : ℝ
  c : ℝ

/-- `dnu_D` (lines 129, 257) in Hz for a temperature in K. -/
noncomputable def doppler (K : Consts) (T : ℝ) : ℝ := 2.46 * 10 ^ 15 * Real.sqrt (K.kB * T / K.mp / K.c ^ 2)

/-- `lyA_scattering_cross_section` in cm² (lines 100-138), frequency in Hz and temperature in K. Temperatures that are not
positive give nan. -/
noncomputable def crossSection (K : Consts) (nu T : ℝ) : Except String ℝ :=
  open Classical in
  if T ≤ 0 then .error "nan"
  else
    let T4 := T / 10 ^ 4
    let sigma0 := 5.9 / 10 ^ 14 / Real.sqrt T4
    let a := 4.7 / 10 ^ 4 / Real.sqrt T4
    .ok (sigma0 * voigt ((nu - 2.46 * 10 ^ 15) / doppler K T) a)

/-- `tau_nu_lyA` of one cell (lines 202-266): temperature in K, `dr` in pc (line 246-247 and the conversion of line 265), frequency in Hz.
The redshift is not used. -/
noncomputable def depth (K : Consts) (C : Cosmo) (_z : ℝ) (xHI T dr nu XH : ℝ) : Except String ℝ :=
  open Classical in
  if T ≤ 0 then .error "nan"
  else
    let T4 := T / 10 ^ 4
    let a := 4.7 / 10 ^ 4 / Real.sqrt T4
    let nHI := xHI * (XH * C.omegaB * C.critical / C.mp)
    .ok (1.820 * 10 ^ 5 * voigt ((nu - 2.46 * 10 ^ 15) / doppler K T) a / Real.sqrt T4 * nHI * dr)

end Verif.Lyman
