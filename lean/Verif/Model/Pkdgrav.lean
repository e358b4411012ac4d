import Verif.Model.SizeDistribution
import Verif.Model.Binning
/-!
# Model of the readers of pkdgrav outputs (`nbody_pkdgrav.py`)

Reading the bytes of a file is left out: the numbers in the file are arguments.  Floating point is replaced by the real numbers, printing is left out.
-/

namespace Verif.Pkdgrav
open Verif.SizeDistribution

/-- What is raised. -/
inductive Err
  | value | zeroDivision | unbound | assertion
  deriving DecidableEq

/-! ## The density field -/

/-- `round(dens.shape[0]**(1/3))` (`nbody_pkdgrav.py` line 282). -/
noncomputable def cubeRoot (N : ℕ) : ℕ := (Binning.roundEven ((N : ℝ) ^ (1 / 3 : ℝ))).toNat

/-- `pkd` (`nbody_pkdgrav.py` lines 283-284): the transposed array. -/
def transposed (dens : List ℝ) (n : ℕ) (i j k : ℕ) : ℝ := dens.getD ((k * n + j) * n + i) 0

/-- `rho_m` (`nbody_pkdgrav.py` lines 285-288). -/
noncomputable def rhoM (dens : List ℝ) (L rhoc : ℝ) (n i j k : ℕ) : ℝ := transposed dens n i j k * rhoc * L ^ 3 / (L / n) ^ 3

/-- The mean of an `n x n x n` array. -/
noncomputable def mean3 (n : ℕ) (f : ℕ → ℕ → ℕ → ℝ) : ℝ :=
  (∑ i ∈ Finset.range n, ∑ j ∈ Finset.range n, ∑ k ∈ Finset.range n, f i j k) / (n : ℝ) ^ 3

open Classical in
/-- `load_density_field` (`nbody_pkdgrav.py` lines 263-290): the number of cells per side and the values, `none` for values that are not numbers. -/
noncomputable def loadDensity (dens : List ℝ) (L rhoc : ℝ) (nGrid : Option ℕ) : Except Err (ℕ × (ℕ → ℕ → ℕ → Option ℝ)) :=
  let n := nGrid.getD (cubeRoot dens.length)
  if n ^ 3 ≠ dens.length then .error .value
  else if n = 0 then .error .zeroDivision
  else .ok (n, fun i j k =>
    if (L / n) ^ 3 = 0 ∨ mean3 n (rhoM dens L rhoc n) = 0 then none else some (rhoM dens L rhoc n i j k / mean3 n (rhoM dens L rhoc n) - 1))

/-! ## Haloes -/

/-- What is used of a halo. -/
structure Halo where
  rPot : Fin 3 → ℝ
  rcom : Fin 3 → ℝ
  fMass : ℝ

/-- What the reader keeps (`nbody_pkdgrav.py` lines 21-22, 106-107 and 136-137). -/
structure State where
  fof : Option (List Halo)
  massFac : ℝ
  velFac : ℝ

/-- `dLightSpeedSim` (`nbody_pkdgrav.py` line 52). -/
noncomputable def lightSpeed (L : ℝ) : ℝ := 86772079486362706 / 10 ^ 13 / L

/-- The factors which `_read_fof_data` sets (`nbody_pkdgrav.py` lines 128-137). -/
noncomputable def factors (L rhoc : ℝ) (z : Option ℝ) : ℝ × ℝ :=
  (rhoc * L ^ 3, 299792458 / 1000 / lightSpeed L * (match z with
    | none => 1
    | some z => 1 + z))

/-- `read_fof_data` (`nbody_pkdgrav.py` lines 86-110) of a list of files.  Without files `data` is not bound. -/
noncomputable def readFof (L rhoc : ℝ) (z : Option ℝ) (files : List (List Halo)) : Except Err State :=
  match files with
  | [] => .error .unbound
  | f :: fs => .ok ⟨some (fs.foldl (· ++ ·) f), (factors L rhoc z).1, (factors L rhoc z).2⟩

/-- One line of `array_fof_data` (`nbody_pkdgrav.py` lines 183-192): mass and position. -/
def line (L : ℝ) (s : State) (g : Halo) : ℝ × (Fin 3 → ℝ) := (s.massFac * g.fMass, fun j => (g.rPot j + g.rcom j) * L)

/-- `array_fof_data` (`nbody_pkdgrav.py` lines 164-200) for numbers; `none` if nothing has been read. -/
def arrayFof (L : ℝ) (s : State) : Option (List (ℝ × (Fin 3 → ℝ))) := s.fof.map fun l => l.map (line L s)

open Classical in
/-- `get_hmf_data` (`nbody_pkdgrav.py` lines 218-222): the centres of the bins and the values. -/
noncomputable def hmf (L : ℝ) (masses : List ℝ) (bins : ℕ) : Except Err (List ℝ × List ℝ) :=
  if Rejected masses bins then .error .value
  else
    let ht := hist (masses.map Real.log) bins
    .ok ((List.range bins).map fun (i : ℕ) => Real.exp (ht.2.getD (i + 1) 0 / 2 + ht.2.getD i 0 / 2), ht.1.map fun (c : ℕ) => (c : ℝ) / L ^ 3)

/-! ## Power spectra -/

/-- Entry `i` of `y.rolling(window=w, min_periods=1).mean()` of pandas: the mean of the last `w` values, or of all if there are fewer. -/
noncomputable def rolling (w : ℕ) (y : List ℝ) (i : ℕ) : ℝ :=
  (∑ j ∈ Finset.Ico (i + 1 - w) (i + 1), y.getD j 0) / ((Finset.Ico (i + 1 - w) (i + 1)).card : ℝ)

/-- The smoothing of `read_pk_data` (`nbody_pkdgrav.py` lines 250-254) of positive powers.  Pandas rejects windows smaller than `min_periods`. -/
noncomputable def smoothPk (w : ℤ) (p : List ℝ) : Except Err (List ℝ) :=
  if w < 1 then .error .value
  else .ok ((List.range p.length).map fun (i : ℕ) => (10 : ℝ) ^ rolling w.toNat (p.map (Real.logb 10)) i)

end Verif.Pkdgrav
