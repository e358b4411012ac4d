import Verif.Model.Noise
/-!
# Model of the windows of `radio_telescope_noise.py`, of `beam_convolve.py` and of `horizon_wedge_equation`

Real numbers replace floating point numbers.
-/

namespace Verif.Beams

/-- The exceptions that occur. -/
inductive Err
  | exception
  | type
  | value
  | attribute
  | zeroDivision
  deriving DecidableEq

/-! ### Windows -/

/-- The names that `signal_window` knows, in lower case (`radio_telescope_noise.py` lines 49-64), with the function of
`scipy.signal.windows`; `None` if there is none. -/
def windowName (method : String) : Option String :=
  if method = "blackmanharris" ∨ method = "blackman-harris" then some "blackmanharris"
  else if method = "blackman" then some "blackman"
  else if method = "barthann" then some "barthann"
  else if method = "bartlett" then some "bartlett"
  else if method = "gaussian" then some "gaussian"
  else if method = "hamming" then some "hamming"
  else if method = "hann" then some "hann"
  else if method = "kaiser" then some "kaiser"
  else none

/-- `signal_window` (`radio_telescope_noise.py` lines 26-76): the value of the window at the indices, whose number is `ndim`;
`scipy` is the window of scipy by its name, its length and the parameter (which those that do not take it ignore).  `none` is the
result `None`. -/
noncomputable def signalWindow (scipy : String → ℕ → ℝ → ℕ → ℝ) (ncells : ℕ) (method : String) (ndim : ℕ) (extra : ℝ) :
    Option (List ℕ → ℝ) :=
  match windowName method with
  | none => none
  | some f =>
    let win := scipy f ncells extra
    if ndim = 1 then some fun i => win (i.getD 0 0)
    else if ndim = 2 then some fun i => win (i.getD 0 0) * win (i.getD 1 0)
    else if ndim = 3 then some fun i => win (i.getD 0 0) * win (i.getD 1 0) * win (i.getD 2 0)
    else none

/-! ### Beams -/

/-- `get_beam_w` (`smoothing.py` lines 251-269) with the constants `const.c` in km/s and `const.nu0` in MHz. -/
noncomputable def beamW (c nu0 baseline z : ℝ) : Except Err ℝ :=
  if 1 + z = 0 ∨ baseline = 0 then .error .zeroDivision
  else
    let fr := nu0 / (1 + z)
    let lw := c / fr / 1000000 * 1000
    .ok (lw / baseline / Real.pi * 180 * 60)

/-- `not x` for `None` or a number. -/
noncomputable def falsy (x : Option ℝ) : Prop := x = none ∨ x = some 0

open Classical in
/-- `beam_convolve` (`beam_convolve.py` lines 8-55) for an array with `ndim` axes.  The format `%g` of line 49 raises for a
string; the kernel has two axes; the slice of line 56 has bounds that are not integers. -/
noncomputable def beamConvolve (c nu0 : ℝ) (ndim : ℕ) (z : ℝ) (beam maxBaseline : Option ℝ) (beamshape : String) :
    Except Err (List (List ℝ)) :=
  let width : Except Err ℝ :=
    if falsy beam ∧ falsy maxBaseline then .error .exception
    else if falsy beam then beamW c nu0 (maxBaseline.getD 0) z
    else .ok (beam.getD 0)
  match width with
  | .error e => .error e
  | .ok _ =>
    if beamshape = "gaussian" then
      if ndim ≠ 2 then .error .value else .error .type
    else .error .type

/-! ### The wedge -/

/-- The names of the module `smoothing` (`smoothing.py` lines 5-19 and the definitions of the file). -/
def smoothingNames : List String :=
  ["np", "const", "conv", "cm", "get_uv_map", "ndimage", "scipy", "signal", "fft", "ifft", "fftn", "ifftn", "rfftn", "irfftn",
    "ceil", "floor", "array", "asarray", "roll", "find_idx", "fftconvolve", "tqdm", "u", "gauss_kernel", "gauss_kernel_3d",
    "tophat_kernel", "tophat_kernel_3d", "lanczos_kernel", "smooth_gauss", "smooth_tophat", "smooth_lanczos",
    "smooth_with_kernel", "get_beam_w", "interpolate3d", "interpolate2d", "smooth_lightcone", "smooth_coeval",
    "smooth_coeval_tophat", "smooth_coeval_gauss", "smooth_lightcone_tophat", "smooth_lightcone_gauss",
    "smooth_lightcone_uv_threshold", "remove_baselines_from_uvmap", "convolve_uvmap", "convolve_uvmap_coeval", "smooth_line"]

/-- The function returned by `horizon_wedge_equation` (`power_spect_fast.py` lines 335-347), for a module `smoothing` of the
given names; `hubble` is the function `hubble_parameter` (of `cosmo.py`) and `dist` is `cosmo.z_to_cdist`. -/
noncomputable def horizonWedge (names : List String) (hubble dist : ℝ → ℝ) (c z fovDeg kper : ℝ) : Except Err ℝ :=
  if "hubble_parameter" ∈ names then
    .ok (kper * Real.sin (fovDeg * Real.pi / 180) / (1 + z) * hubble z / c * dist z)
  else .error .attribute

end Verif.Beams
