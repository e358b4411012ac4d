import Verif.Model.Calibration
import Verif.Model.UVResponse
import Verif.Model.Binning
import Mathlib.Analysis.SpecialFunctions.Pow.Complex
/-!
# Model of the gains of antennas (`radio_telescope_calibration.py` lines 21-184, 249-333 and 337-405)

Random numbers are arguments.  Positions are in metres; floating point is replaced by exact numbers.
-/

namespace Verif.Gains
open Verif.UVGrid Verif.Calibration Verif.Convolve Verif.PowerSpectrum

/-- The exceptions that occur. -/
inductive Raise
  | unbound | type | index | zeroDivision | assertion
  deriving DecidableEq

/-- One line of `Nbase`: the baseline in wavelengths and the four products of gains. -/
abbrev Row := V3 × (Fin 4 → ℝ)

/-- The argument `gain_model`. -/
inductive GainModel
  /-- a name that is known: the first and the second draw -/
  | random (r i : ℕ → ℝ)
  /-- another name -/
  | unknownName
  /-- what the functions under `real` and `imag` return -/
  | realImag (r i : List ℝ)
  /-- what the functions under `amplitude` and `phase` return -/
  | amplitudePhase (a p : List ℝ)
  /-- a dictionary without these keys -/
  | otherKeys
  /-- an array with two columns -/
  | table (rows : List (ℝ × ℝ))
  /-- an array of complex gains -/
  | complexArray (g : List ℂ)

/-- `all_gains_r, all_gains_i` for `N` antennas (`radio_telescope_calibration.py` lines 62-83); `none` if the function returns `None`. -/
def gains (g : GainModel) (N : ℕ) : Except Raise (Option (List ℝ × List ℝ)) :=
  match g with
  | .random r i => .ok (some ((List.range N).map r, (List.range N).map i))
  | .unknownName => .error .unbound
  | .realImag r i => .ok (some (r, i))
  | .amplitudePhase a p => .ok (some (a, p))
  | .otherKeys => .ok none
  | .table rows => .ok (some (rows.map Prod.fst, rows.map Prod.snd))
  | .complexArray _ => .error .index

/-- The baseline of two antennas in wavelengths (`radio_telescope_calibration.py` lines 91-93 and 325-327). -/
noncomputable def baseline (lam : ℝ) (x y : V3) : V3 := fun j => (x j - y j) / lam

/-- The products of the gains of two antennas (`radio_telescope_calibration.py` lines 94-97). -/
def products (r i : List ℝ) (ii jj : ℕ) : Except Raise (Fin 4 → ℝ) :=
  match r[ii]?, r[jj]?, i[ii]?, i[jj]? with
  | some a, some b, some c, some d => .ok ![a * b, c * d, a * d, c * b]
  | _, _, _, _ => .error .index

/-- `from_antenna_config_with_gains` (`radio_telescope_calibration.py` lines 21-103) for the wavelength `lam`. -/
noncomputable def withGains (g : GainModel) (lam : ℝ) (x : List V3) : Except Raise (Option (List Row)) := do
  match ← gains g x.length with
  | none => .ok none
  | some (r, i) =>
    let rows ← (pairs (List.range x.length)).mapM fun p => do
      let m ← products r i p.1 p.2
      .ok (baseline lam (x.getD p.1 0) (x.getD p.2 0), m)
    .ok (some rows)

/-! ## The observation -/

/-- Whether the gains are drawn anew (`radio_telescope_calibration.py` line 171): the time is a multiple of one of the time scales. -/
def renew (dt : ℚ) (scales : List ℚ) (t : ℕ) : Except Raise Bool :=
  if scales.any fun s => s == 0 then .error .zeroDivision
  else .ok (scales.any fun s => decide (((t : ℚ) * dt / s).den = 1))

/-- The rounded coordinates of a baseline (`radio_telescope_calibration.py` lines 175 and 219-220), `theta` being the size of the box as an angle. -/
noncomputable def coordinates (theta dt decl : ℝ) (t : ℕ) (b : V3) : ℤ × ℤ :=
  (Binning.roundEven (calibrationRotation t dt decl b 0 * theta), Binning.roundEven (calibrationRotation t dt decl b 1 * theta))

/-- What is carried from step to step: the last `Nbase`, the number of draws and the map. -/
structure State where
  rows : Option (List Row)
  draws : ℕ
  map : GainMap ℝ

/-- The loop over the time steps (`radio_telescope_calibration.py` lines 170-179).  `draw k` is the result of the call number `k` of
`from_antenna_config_with_gains`.  Fewer than two baselines are an error, as in `Model/UVGrid`. -/
noncomputable def loop (n : ℕ) (mirror : Bool) (coord : ℕ → V3 → ℤ × ℤ) (fresh : ℕ → Except Raise Bool)
    (draw : ℕ → Except Raise (Option (List Row))) : ℕ → Except Raise State
  | 0 => .ok ⟨none, 0, fun _ _ _ => 0⟩
  | t + 1 => do
    let s ← loop n mirror coord fresh draw t
    let s ← if ← fresh t then (do
        match ← draw s.draws with
        | none => .error .type
        | some rows => .ok (State.mk (some rows) (s.draws + 1) s.map))
      else .ok s
    match s.rows with
    | none => .error .unbound
    | some rows =>
      if rows.length < 2 then .error .index
      else .ok ⟨some rows, s.draws, gridGains n mirror s.map (rows.map fun r => (coord t r.1, r.2))⟩

/-- `get_uv_map_with_gains` (`radio_telescope_calibration.py` lines 106-184) with the total of `T` time steps. -/
noncomputable def uvMapWithGains (n : ℕ) (mirror : Bool) (theta decl : ℝ) (dt : ℚ) (scales : List ℚ) (T : ℕ)
    (draw : ℕ → Except Raise (Option (List Row))) : Except Raise (GainMap ℝ) :=
  (loop n mirror (coordinates theta dt decl) (renew dt scales) draw T).map State.map

/-! ## Images -/

open Classical in
/-- The factor of a cell (`radio_telescope_calibration.py` line 278), for maps that are zero where there are no hits: 0/0 becomes zero. -/
noncomputable def factor (m : GainMap ℝ) (i : Fin 2 → ℤ) : ℂ :=
  if m (i 0) (i 1) 0 = 0 then 0
  else (((m (i 0) (i 1) 1 : ℂ) + Complex.I * m (i 0) (i 1) 2) / m (i 0) (i 1) 0) ^ (1 / 2 : ℂ)

/-- `apply_uv_with_gains_response_on_image` (`radio_telescope_calibration.py` lines 249-284), for real images; `n` is the size of the map. -/
noncomputable def applyGains (a : Arr (Fin 2) ℝ) (n : ℕ) (m : GainMap ℝ) : Except Raise (Arr (Fin 2) ℝ) :=
  if a.shape = fun _ => n then
    .ok ⟨a.shape, fun x => (ifftn a.shape (fun i => fftn a.shape (fun y => (a.val y : ℂ)) i * factor m i) x).re⟩
  else .error .assertion

/-! ## Stamps -/

/-- `from_antenna_config_with_antenna_stamp` (`radio_telescope_calibration.py` lines 286-333): baselines and the numbers of their antennas. -/
noncomputable def withStamps (lam : ℝ) (x : List V3) : List (V3 × ℕ × ℕ) :=
  (pairs (List.range x.length)).map fun p => (baseline lam (x.getD p.1 0) (x.getD p.2 0), p.1 + 1, p.2 + 1)

/-- `get_full_uv_map_with_antenna_stamp` (`radio_telescope_calibration.py` lines 337-456) for `T` time steps: the map of each time step.
`cpus` is the number of processors. -/
noncomputable def fullStamps (n : ℕ) (coord : ℕ → V3 → ℤ × ℤ) (T : ℕ) (nJobs : ℤ) (cpus : ℕ) (rows : List (V3 × ℕ × ℕ)) :
    Except String (List (ℤ → ℤ → List (ℕ × ℕ))) :=
  match timeChunks T (if nJobs = -1 then cpus else nJobs) with
  | .error e => .error e
  | .ok chunks =>
    if rows.length < 2 then .error "IndexError"
    else .ok (chunks.flatMap fun c => (pyRange c).map fun t => gridStamps n (fun _ _ => []) (rows.map fun r => (coord t r.1, r.2)))

end Verif.Gains
