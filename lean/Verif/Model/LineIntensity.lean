import Verif.Model.HaloGrid
import Mathlib.Analysis.SpecialFunctions.Pow.Real
import Mathlib.Analysis.SpecialFunctions.Log.Base
import Mathlib.Analysis.SpecialFunctions.Exp
/-!
# Model of `line_intensity.py`

Masses are in solar masses, lengths in Mpc, velocities in km/s and star formation rates in solar masses per year: the units
of astropy are applied when an argument is read.  Floating point is replaced by the real numbers, and masses are positive.
The gridding is that of `Model/HaloGrid`.
-/

namespace Verif.LineIntensity

open Verif.HaloGrid (Pos Quantity valueOnGrid mpcToGrid)

/-- The exceptions that occur. -/
inductive Err
  | assertion | attribute | type | grid (e : HaloGrid.Err)
  deriving DecidableEq

/-- The attributes of the cosmology that are used: `Ob0`, `Om0` and `h` (`line_intensity.py` lines 42-44). -/
structure Cosmology where
  Ob : ℝ
  Om : ℝ
  h : ℝ

/-- `mass.to('Msun')` or `mass*units.Msun` (`line_intensity.py` lines 46-50 and 113-117). -/
def readMass : Quantity ℝ → List ℝ
  | .plain x => x
  | .quantity x u => x.map fun m => m * u

/-- The positions of `M_HI_on_grid` (`line_intensity.py` lines 51-55).  The type of the *masses* is looked at: positions
without unit have no method `to`; positions with a unit next to masses without get the unit Mpc twice, which is not
modelled. -/
noncomputable def readPosHI : Quantity ℝ → Quantity Pos → Option (Except Err (List Pos))
  | .plain _, .plain p => some (.ok p)
  | .quantity _ _, .quantity p u => some (.ok (p.map fun x j => x j * u))
  | .quantity _ _, .plain _ => some (.error .attribute)
  | .plain _, .quantity _ _ => none

/-- The positions of `L_CII_on_grid` (`line_intensity.py` lines 118-122). -/
noncomputable def readPos : Quantity Pos → List Pos
  | .plain p => p
  | .quantity p u => p.map fun x j => x j * u

/-- `halo_list_to_grid(values, srcpos, box_dim, n_grid)` as called here (`line_intensity.py` lines 71 and 163): values
without unit, positions and box length in Mpc.  The positions divided by the box length have no dimension, so that
`binned_statistic_dd` takes them for numbers. -/
noncomputable def onGrid (values : List ℝ) (pos : List Pos) (box : ℝ) (n : ℕ) : Except Err ((Fin 3 → ℤ) → ℝ) :=
  match valueOnGrid n (pos.map (mpcToGrid box n)) values with
  | .ok g => .ok g
  | .error e => .error (.grid e)

/-! ## Neutral hydrogen -/

/-- The parameters of the recipe of Padmanabhan et al. (`line_intensity.py` lines 61-64). -/
structure HIParams where
  Yp : ℝ
  alpha : ℝ
  vc0 : ℝ
  beta : ℝ

/-- The defaults (`line_intensity.py` lines 61-64). -/
noncomputable def HIParams.default : HIParams := ⟨0.249, 0.9, (10 : ℝ) ^ (1.56 : ℝ), -0.58⟩

/-- `v_c` (`line_intensity.py` lines 67-68). -/
noncomputable def vc (k : Cosmology) (z M : ℝ) : ℝ :=
  96.6 * (178 * k.Om / 54.4) ^ (1 / 6 : ℝ) * ((1 + z) / 3.3) ^ (1 / 2 : ℝ) * (M / 1e11) ^ (1 / 3 : ℝ)

/-- `fHc` (`line_intensity.py` line 66). -/
noncomputable def fHc (p : HIParams) (k : Cosmology) : ℝ := (1 - p.Yp) * k.Ob / k.Om

/-- `M_hi` (`line_intensity.py` line 70). -/
noncomputable def mHI (p : HIParams) (k : Cosmology) (z M : ℝ) : ℝ :=
  p.alpha * fHc p k * M * (M / k.h / 1e11) ^ p.beta * Real.exp (-(p.vc0 / vc k z M) ^ 3)

/-- `M_HI_on_grid` (`line_intensity.py` lines 9-74).  `recipe` is in lower case. -/
noncomputable def hiOnGrid (p : HIParams) (k : Cosmology) (recipe : String) (z : ℝ) (mass : Quantity ℝ)
    (pos : Quantity Pos) (box : ℝ) (n : ℕ) : Option (Except Err ((Fin 3 → ℤ) → ℝ)) :=
  if recipe ≠ "padmanabhan2017" then some (.error .assertion)
  else match readPosHI mass pos with
    | none => none
    | some (.error e) => some (.error e)
    | some (.ok q) => some (onGrid ((readMass mass).map (mHI p k z)) q box n)

/-! ## Ionised carbon -/

/-- The parameters of the star formation rate (`line_intensity.py` lines 130-137). -/
structure SFRParams where
  SFR0 : ℝ
  a : ℝ
  b : ℝ
  d : ℝ
  e : ℝ
  c1 : ℝ
  c2 : ℝ
  c3 : ℝ

/-- The defaults (`line_intensity.py` lines 130-137). -/
noncomputable def SFRParams.default : SFRParams := ⟨2.25e-26, 2.59, -0.62, 0.40, -2.25, 8e8, 7e9, 1e11⟩

/-- The star formation rate (`line_intensity.py` line 138). -/
noncomputable def sfr (p : SFRParams) (M z : ℝ) : ℝ :=
  p.SFR0 * (1 + (z - 7) * 7.5e-2) * M ^ p.a * (1 + M / p.c1) ^ p.b * (1 + M / p.c2) ^ p.d * (1 + M / p.c3) ^ p.e

/-- The argument `SFR`: nothing, a name in lower case, a function of mass and redshift, or a dictionary. -/
inductive Rate
  | default | name (s : String) | fn (f : ℝ → ℝ → ℝ) | dict

/-- The function to call (`line_intensity.py` lines 127-138): another name stays a string and a dictionary stays a
dictionary; neither can be called (line 162). -/
noncomputable def Rate.get (p : SFRParams) : Rate → Except Err (ℝ → ℝ → ℝ)
  | .default => .ok (sfr p)
  | .name s => if s = "silva2013" ∨ s = "silva2015" then .ok (sfr p) else .error .type
  | .fn f => .ok f
  | .dict => .error .type

/-- The coefficients of the recipes (`line_intensity.py` lines 140-151).  The keyword arguments `a_LCII` and `b_LCII`
replace them. -/
noncomputable def coefficients (recipe : String) (a b : Option ℝ) : Except Err (ℝ × ℝ) :=
  if recipe = "silva2015m1" then .ok (a.getD 0.8475, b.getD 7.2203)
  else if recipe = "silva2015m2" then .ok (a.getD 1.0000, b.getD 6.9647)
  else if recipe = "silva2015m3" then .ok (a.getD 0.8727, b.getD 6.7250)
  else if recipe = "silva2015m4" then .ok (a.getD 0.9231, b.getD 6.5234)
  else .error .assertion

open Classical in
/-- `10**(a_LCII*np.log10(s)+b_LCII)` (`line_intensity.py` line 162) for `a_LCII > 0`; the logarithm of zero is `-inf`,
the power of which is zero.  Rates are not negative. -/
noncomputable def luminosity (a b s : ℝ) : ℝ :=
  if s = 0 then 0 else (10 : ℝ) ^ (a * Real.logb 10 s + b)

/-- `L_CII_on_grid` (`line_intensity.py` lines 76-164).  `recipe` is in lower case. -/
noncomputable def ciiOnGrid (p : SFRParams) (recipe : String) (a b : Option ℝ) (rate : Rate) (z : ℝ) (mass : Quantity ℝ)
    (pos : Quantity Pos) (box : ℝ) (n : ℕ) : Except Err ((Fin 3 → ℤ) → ℝ) :=
  match coefficients recipe a b with
  | .error e => .error e
  | .ok c =>
    match rate.get p with
    | .error e => .error e
    | .ok f => onGrid ((readMass mass).map fun M => luminosity c.1 c.2 (f M z)) (readPos pos) box n

end Verif.LineIntensity
