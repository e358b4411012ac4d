import Verif.Model.PowerSpectrum
import Verif.Model.Conversions
/-!
# Model of the foregrounds of `foreground_model.py`

Galactic synchrotron emission and extragalactic point sources.  Floating point numbers are exact reals; not-a-number is
an error here.  The random numbers are arguments.
-/

namespace Verif.Foreground
open Verif.Convolve Verif.Conversions Verif.Constants Complex

inductive Err where
  | value | index | nan
  deriving DecidableEq

/-- The argument `z`: a float, an array (or, before numpy 2, a list) of numbers, an integer. -/
inductive ZArg where
  | float (z : ℝ)
  | array (l : List ℝ)
  | int (z : ℤ)

/-- `z` (`foreground_model.py` lines 30-33 and 72-75).  An integer becomes an array without axes, and `z[0]` raises. -/
def ZArg.values : ZArg → Except Err (List ℝ)
  | .float z => .ok [z]
  | .array l => .ok l
  | .int _ => .error .index

/-! ### Galactic synchrotron emission -/

/-- `l_cb` (`foreground_model.py` lines 43-44). -/
noncomputable def ell (k : Const) (n : ℕ) (L z : ℝ) (i : Fin 2 → ℤ) : ℝ :=
  2 * Real.pi * Real.sqrt (((-((n : ℝ) / 2) + i 0 + 1 / 2) * cdist k z / L) ^ 2 +
    ((-((n : ℝ) / 2) + i 1 + 1 / 2) * cdist k z / L) ^ 2)

/-- `C_syn` (`foreground_model.py` lines 39 and 45). -/
noncomputable def cSyn (l nu : ℝ) : ℝ :=
  513 * (1000 / l) ^ (234 / 100 : ℝ) * (nu / 150) ^ (-2 * (28 / 10) - 2 * (1 / 10) * Real.log (nu / 150))

/-- `AA` (`foreground_model.py` lines 46-47). -/
noncomputable def amplitude (k : Const) (n : ℕ) (L z : ℝ) (i : Fin 2 → ℤ) : ℝ :=
  Real.sqrt (L ^ 2 / cdist k z ^ 2 * cSyn (ell k n L z i) (z_to_nu z) / 2)

/-- One pass of the loop (`foreground_model.py` lines 42-50), `X` and `Y` being the normal numbers.  If the number of
cells is odd `l_cb` is zero in one of them, its amplitude infinite and all pixels not-a-number. -/
noncomputable def synchMap (k : Const) (v : Conv) (X Y : (Fin 2 → ℤ) → ℝ) (n : ℕ) (L z : ℝ) :
    Except Err (Arr (Fin 2) ℝ) :=
  if n = 0 then .error .value
  else if n % 2 = 1 then .error .nan
  else .ok ⟨fun _ => n, jansky_2_kelvin k v n
    (fun x => ‖ifftn (fun _ : Fin 2 => n) (fun i => (amplitude k n L z i : ℂ) * (X i + Y i * I)) x‖ * 10 ^ 6)
    z (some L) (some n)⟩

/-- `galactic_synch_fg` (`foreground_model.py` lines 12-51): the maps of the redshifts, which the code stacks along the
last axis.  All of them are made from the same random numbers. -/
noncomputable def galacticSynch (k : Const) (v : Conv) (X Y : (Fin 2 → ℤ) → ℝ) (z : ZArg) (n : ℕ) (L : ℝ) :
    Except Err (List (Arr (Fin 2) ℝ)) :=
  match z.values with
  | .error e => .error e
  | .ok zs => zs.mapM (synchMap k v X Y n L)

/-! ### Extragalactic point sources -/

/-- A source: its pixel, its spectral index and its flux in μJy at 150 MHz (`foreground_model.py` lines 84-86). -/
structure Source where
  x : ℤ
  y : ℤ
  alpha : ℝ
  flux : ℝ

/-- The number of fluxes in `np.arange(0.1, S_max, dS)` (`foreground_model.py` line 81). -/
noncomputable def gridSize (Smax : ℝ) : ℕ := ⌈(Smax - 1 / 10) / (1 / 100)⌉₊

/-- `Ss[j]`. -/
noncomputable def gridFlux (j : ℕ) : ℝ := 1 / 10 + j * (1 / 100)

/-- `np.trapz(Ss**(-1.6), x=Ss, dx=dS)` (`foreground_model.py` line 82). -/
noncomputable def trapz (m : ℕ) : ℝ :=
  ∑ j ∈ Finset.range (m - 1), (gridFlux (j + 1) - gridFlux j) *
    ((gridFlux j ^ (-(16 / 10) : ℝ) + gridFlux (j + 1) ^ (-(16 / 10) : ℝ)) / 2)

/-- `N` (`foreground_model.py` lines 79 and 82); `zmin` is the least redshift. -/
noncomputable def sourceCount (k : Const) (L Smax zmin : ℝ) : ℕ :=
  ⌊(10 : ℝ) ^ (375 / 100 : ℝ) * trapz (gridSize Smax) * (L ^ 2 / cdist k zmin ^ 2)⌋₊

/-- The flux of a source drawn by `np.random.choice(Ss, N)` (`foreground_model.py` line 86), averaged over the equally
likely draws. -/
noncomputable def meanDraw (Smax : ℝ) : ℝ := (∑ j ∈ Finset.range (gridSize Smax), gridFlux j) / gridSize Smax

/-- The map of one redshift (`foreground_model.py` lines 88-92). -/
noncomputable def pointMap (k : Const) (v : Conv) (n : ℕ) (L : ℝ) (sources : List Source) (z : ℝ) : Arr (Fin 2) ℝ :=
  ⟨fun _ => n, sources.foldl (fun m s x => if x = ![s.x, s.y] then
      jansky_2_kelvin k v n (fun _ : Unit => s.flux * (z_to_nu z / 150) ^ (-s.alpha)) z (some L) (some n) ()
    else m x) fun _ => 0⟩

/-- `extragalactic_pointsource_fg` (`foreground_model.py` lines 53-93): `draw N` are the random positions, indices and
fluxes of `N` sources. -/
noncomputable def pointSources (k : Const) (v : Conv) (draw : ℕ → List Source) (z : ZArg) (n : ℕ) (L Smax : ℝ) :
    Except Err (List (Arr (Fin 2) ℝ)) :=
  match z.values with
  | .error e => .error e
  | .ok [] => .error .value
  | .ok (a :: zs) =>
    -- the positions are drawn from an empty range
    if n = 0 then .error .value
    else .ok ((a :: zs).map (pointMap k v n L (draw (sourceCount k L Smax (zs.foldl min a)))))

end Verif.Foreground
