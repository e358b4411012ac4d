import Verif.Model.PowerSpectrum
import Verif.Model.Conversions
import Mathlib.Data.List.Sort
/-!
# Model of the thermal noise: `radio_telescope_sensitivity.py` and `radio_telescope_noise.py`

Floating point numbers are exact reals; infinities and not-a-number are errors here.  The random
numbers are arguments.  UV maps have `ncells` × `ncells` entries.
-/

namespace Verif.Noise
open Verif.Convolve Verif.PowerSpectrum Verif.Conversions Verif.Constants

/-- A number or a vector. -/
inductive Nums where
  | one (x : ℝ)
  | many (l : List ℝ)

/-- `np.atleast_1d`. -/
def Nums.list : Nums → List ℝ
  | .one x => [x]
  | .many l => l

/-- The forms of `T_sys` and `ep_aperture`: `None`, a number, a function of the frequency. -/
inductive Param where
  | default
  | const (x : ℝ)
  | fn (f : ℝ → ℝ)

/-- The value of a parameter at the frequencies `nu` (`radio_telescope_sensitivity.py` lines 70-76 and
81-89): a constant stays a number. -/
noncomputable def Param.eval (p : Param) (dflt : ℝ → ℝ) (nu : List ℝ) : Nums :=
  match p with
  | .default => .many (nu.map dflt)
  | .const x => .one x
  | .fn f => .many (nu.map f)

/-- The default `T_sys` in K (`radio_telescope_sensitivity.py` lines 71-73). -/
noncomputable def defaultT (nu : ℝ) : ℝ := 60 * (300 / nu) ^ (255 / 100 : ℝ) + 100

open Classical in
/-- The default `ep_aperture` (`radio_telescope_sensitivity.py` lines 82-83). -/
noncomputable def defaultEp (nu : ℝ) : ℝ := if 110 < nu then (110 / nu) ^ 2 else 1

/-- The SEFD for one temperature and one aperture efficiency (`radio_telescope_sensitivity.py` lines 79, 90
and 93). -/
noncomputable def sefdOf (D t ep : ℝ) : ℝ := 2 * kbSI * t / (ep * Real.pi * (D / 2) ^ 2) / janskyToWatt

/-- Broadcasting the division of `radio_telescope_sensitivity.py` line 93. -/
noncomputable def combine (f : ℝ → ℝ → ℝ) : Nums → Nums → Nums
  | .one t, .one e => .one (f t e)
  | .one t, .many l => .many (l.map (f t))
  | .many l, .one e => .many (l.map fun t => f t e)
  | .many l, .many m => .many (List.zipWith f l m)

/-- `sefd_data`: `None`, an array, the name of the table of the package, any other string. -/
inductive SefdData where
  | none
  | array (l : List ℝ)
  | table
  | unknown

open Classical in
/-- `interp1d(x, y, fill_value='extrapolate')` of the points at `x` (SciPy sorts them; `_call_linear`).  Fewer than
two points are an error here.  Equal abscissae divide by zero. -/
noncomputable def interp (pts : List (ℝ × ℝ)) (x : ℝ) : Except String ℝ :=
  let s := pts.insertionSort fun p q => p.1 ≤ q.1
  if s.length < 2 then .error "fewer than two points"
  else
    let c := (s.filter fun p => decide (p.1 < x)).length
    let hi := max 1 (min c (s.length - 1))
    let p := s.getD (hi - 1) (0, 0)
    let q := s.getD hi (0, 0)
    if q.1 - p.1 = 0 then .error "not finite"
    else .ok ((q.2 - p.2) / (q.1 - p.1) * (x - p.1) + p.2)

/-- `10**log10_sefd_fct(nu_obs)` at one frequency (`radio_telescope_sensitivity.py` lines 62 and 65); logarithms of
numbers that are not positive are not finite. -/
noncomputable def tableAt (nus sefds : List ℝ) (x : ℝ) : Except String ℝ :=
  open Classical in
  if nus.length ≠ sefds.length then .error "x and y arrays must be equal in length"
  else if ∃ v ∈ sefds, v ≤ 0 then .error "not finite"
  else (interp (nus.zip (sefds.map (Real.logb 10))) x).map fun y => (10 : ℝ) ^ y

/-- `10**log10_sefd_fct(nu_obs)`: like the frequencies, a number or a vector. -/
noncomputable def tableSefd (nus sefds : List ℝ) : Nums → Except String Nums
  | .one x => (tableAt nus sefds x).map .one
  | .many l => (l.mapM (tableAt nus sefds)).map .many

/-- `get_SEFD` (`radio_telescope_sensitivity.py` lines 10-96); `table` holds the frequencies and values of the file of
the package.  A string that is not known goes to `np.log10`. -/
noncomputable def getSEFD (table : List ℝ × List ℝ) (nu : Nums) (tsys : Param) (data : SefdData) (nuData : Option (List ℝ))
    (D : ℝ) (ep : Param) : Except String Nums :=
  match data with
  | .table => tableSefd table.1 table.2 nu
  | .unknown => .error "ValueError or TypeError"
  | .array l =>
    match nuData with
    | none => .error "If sefd_data is provided, nu_data must also be provided."
    | some nus => tableSefd nus l nu
  | .none =>
    let t := tsys.eval defaultT nu.list
    let e := ep.eval defaultEp nu.list
    open Classical in
    if D = 0 ∨ 0 ∈ e.list then .error "not finite"
    else
      let sefd := combine (sefdOf D) t e
      if nu.list.length = 1 then
        match sefd with
        | .one _ => .error "'float' object is not subscriptable"
        | .many l => .ok (.one (l.getD 0 0))
      else .ok sefd

/-- `sigma_noise_radio` (`radio_telescope_sensitivity.py` lines 98-164) after the SEFD: `(sigma, rms_noise)`.  `None`
for `sigma` if it is not finite, as for fewer than two antennas. -/
noncomputable def sigmaNoise (sefd depth obs int : ℝ) (nAnt : ℕ) : Except String (Option ℝ × ℝ) :=
  open Classical in
  if 2 * depth * 10 ^ 6 * int ≤ 0 then .error "not finite"
  else
    let rms := 10 ^ 6 * sefd / Real.sqrt (2 * depth * 10 ^ 6 * int)
    let pairs : ℝ := (nAnt : ℝ) * (nAnt - 1) / 2
    .ok (if pairs ≤ 0 ∨ 3600 * obs / int ≤ 0 then none
      else some (rms / Real.sqrt pairs / Real.sqrt (3600 * obs / int)), rms)

/-- `sigma_noise_radio` from the redshift. -/
noncomputable def sigmaNoiseRadio (table : List ℝ × List ℝ) (z depth obs int : ℝ) (nAnt : ℕ) (tsys : Param)
    (data : SefdData) (nuData : Option (List ℝ)) (D : ℝ) (ep : Param) : Except String (Option ℝ × ℝ) :=
  match getSEFD table (.one (1420 / (1 + z))) tsys data nuData D ep with
  | .error e => .error e
  | .ok (.many _) => .error "unreachable"
  | .ok (.one s) => sigmaNoise s depth obs int nAnt

/-! ### Maps -/

/-- `scipy.signal.windows.blackmanharris(n)[j]` (`general_cosine`; a single sample is one). -/
noncomputable def blackmanHarris (n : ℕ) (j : ℤ) : ℝ :=
  if n = 1 then 1
  else
    let x : ℝ := -Real.pi + j * (2 * Real.pi / (n - 1))
    35875 / 100000 + 48829 / 100000 * Real.cos x + 14128 / 100000 * Real.cos (2 * x) +
      1168 / 100000 * Real.cos (3 * x)

/-- The shape of a map. -/
def square (n : ℕ) : Fin 2 → ℕ := fun _ => n

/-- `signal_window(ncells, 'blackmanharris', ndim=2)` (`radio_telescope_noise.py` lines 49-50 and 69-70). -/
noncomputable def window2 (n : ℕ) (i : Fin 2 → ℤ) : ℝ := blackmanHarris n (i 0) * blackmanHarris n (i 1)

/-- `uv_weighting`. -/
inductive Weighting where
  | natural
  | uniform
  | unknown

/-- The names of the schemes (`radio_telescope_noise.py` lines 462 and 468), in lower case. -/
def weightingOf (s : String) : Weighting :=
  if s ∈ ["nat", "natural", "natural_weighting"] then .natural
  else if s ∈ ["uni", "uniform", "uniform_weighting"] then .uniform
  else .unknown

/-- `suppress_sharp_features_uv_map`: off, `True`, or a method that is not known.  The methods `'gaussian'` and
`'binned'` are not modelled. -/
inductive Suppress where
  | off
  | yes
  | unknown

open Classical in
/-- `apply_uv_response_noise` (`radio_telescope_noise.py` lines 435-473): what happens to the noise of a cell with the
given value of the UV map. -/
noncomputable def response (w : Weighting) (sup : Suppress) : Except String (ℝ → ℂ → ℂ) :=
  match w, sup with
  | .natural, .off => .ok fun uv noise => if uv < 1 / 100 then 0 else noise / (Real.sqrt uv : ℂ)
  | .natural, .yes => .error "'bool' object has no attribute 'lower'"
  | .natural, .unknown => .error "cannot access local variable 'uv_map_smooth'"
  | .uniform, _ => .ok fun uv noise => if uv < 1 / 100 then 0 else noise
  | .unknown, _ => .error "cannot access local variable 'out'"

open Classical in
/-- `noise_map` (`radio_telescope_noise.py` lines 320-397) for the given UV map and `rms_noi`; `a` and `b` are the
standard normal numbers behind `np.random.normal`, which rejects a negative scale.  `ifft2_wrap` slices with floats
(lines 504-526). -/
noncomputable def noiseMap (n : ℕ) (rms : ℝ) (a b uv : (Fin 2 → ℤ) → ℝ) (w : Weighting) (sup : Suppress) (wrap : Bool)
    (int obs : ℝ) : Except String (Arr (Fin 2) ℝ) :=
  if rms < 0 then .error "scale < 0"
  else
    match response w sup with
    | .error e => .error e
    | .ok f =>
      if wrap then .error "slice indices must be integers"
      else if obs = 0 ∨ int / 3600 / obs < 0 then .error "not finite"
      else
        let win : (Fin 2 → ℤ) → ℝ := shift (square n) (window2 n)
        .ok ⟨square n, fun x => (ifftn (square n)
          (fun i => f (uv i) ((rms * a i : ℝ) + (rms * b i : ℝ) * Complex.I) * (win i : ℂ)) x *
          (Real.sqrt (int / 3600 / obs) : ℂ)).re⟩

/-! ### Cubes -/

/-- The telescope and the observation. -/
structure Setup where
  obs : ℝ
  int : ℝ
  nAnt : ℕ
  tsys : Param
  data : SefdData
  nuData : Option (List ℝ)
  D : ℝ
  ep : Param
  w : Weighting
  sup : Suppress
  wrap : Bool

/-- `noise_map` with the noise of `sigma_noise_radio` (`radio_telescope_noise.py` lines 386-397). -/
noncomputable def mapAt (table : List ℝ × List ℝ) (p : Setup) (n : ℕ) (z depth : ℝ) (a b uv : (Fin 2 → ℤ) → ℝ) :
    Except String (Arr (Fin 2) ℝ) :=
  match sigmaNoiseRadio table z depth p.obs p.int p.nAnt p.tsys p.data p.nuData p.D p.ep with
  | .error e => .error e
  | .ok (_, rms) => noiseMap n rms a b uv p.w p.sup p.wrap p.int p.obs

/-- `noise_cube_coeval` (`radio_telescope_noise.py` lines 683-727) for the given UV map: the slices of the cube.
`toZ` is `cdist_to_z`; `a t` and `b t` are the random numbers of slice `t`. -/
noncomputable def noiseCube (k : Const) (v : Conv) (toZ : ℝ → ℝ) (table : List ℝ × List ℝ) (p : Setup) (n : ℕ) (z : ℝ)
    (depth box : Option ℝ) (a b : ℕ → (Fin 2 → ℤ) → ℝ) (uv : (Fin 2 → ℤ) → ℝ) :
    Except String (List (Arr (Fin 2) ℝ)) :=
  let l := box.getD v.LB
  let d := depth.getD ((z_to_nu (toZ (cdist k z - l / 2)) - z_to_nu (toZ (cdist k z + l / 2))) / n)
  match (List.range n).mapM fun t => mapAt table p n z d (a t) (b t) uv with
  | .error e => .error e
  | .ok l' => .ok (l'.map fun m => ⟨m.shape, jansky_2_kelvin k v n m.val z (some l) none⟩)

/-- `depth_mhz` of slice `t` of `noise_lightcone` (`radio_telescope_noise.py` lines 849-852); the index `-1` is the
last entry. -/
noncomputable def depthAt (zs : List ℝ) (t : ℕ) : ℝ :=
  if t + 1 < zs.length then |z_to_nu (zs.getD (t + 1) 0) - z_to_nu (zs.getD t 0)|
  else |z_to_nu (zs.getD t 0) - z_to_nu (zs.getD (if t = 0 then zs.length - 1 else t - 1) 0)|

/-- `noise_lightcone` (`radio_telescope_noise.py` lines 768-868); `uv t` is the UV map of slice `t`, for which
see `Model/UVCache`. -/
noncomputable def noiseLightcone (k : Const) (v : Conv) (table : List ℝ × List ℝ) (p : Setup) (n : ℕ) (zs : List ℝ)
    (box : Option ℝ) (a b uv : ℕ → (Fin 2 → ℤ) → ℝ) : Except String (List (Arr (Fin 2) ℝ)) :=
  (List.range zs.length).mapM fun t =>
    match mapAt table p n (zs.getD t 0) (depthAt zs t) (a t) (b t) (uv t) with
    | .error e => .error e
    | .ok m => .ok ⟨m.shape, jansky_2_kelvin k v n m.val (zs.getD t 0) box none⟩

/-- Number of positional parameters of `noise_lightcone` (`radio_telescope_noise.py` lines 768-770). -/
def lightconeParams : ℕ := 20

/-- The positional arguments with which `noise_cube_lightcone` calls it (`radio_telescope_noise.py` lines 763-766). -/
def lightconeArgs : List String :=
  ["ncells", "zs", "obs_time", "subarray_type", "boxsize", "save_uvmap", "total_int_time", "int_time", "declination",
    "N_ant", "uv_weighting", "fft_wrap", "verbose", "n_jobs", "checkpoint", "T_sys", "sefd_data", "nu_data", "D_station",
    "ep_aperture", "suppress_sharp_features_uv_map"]

/-- `noise_cube_lightcone` (`radio_telescope_noise.py` lines 729-766): Python rejects a call with too many positional
arguments. -/
noncomputable def noiseCubeLightcone (k : Const) (v : Conv) (table : List ℝ × List ℝ) (p : Setup) (n : ℕ)
    (zs : List ℝ) (box : Option ℝ) (a b uv : ℕ → (Fin 2 → ℤ) → ℝ) : Except String (List (Arr (Fin 2) ℝ)) :=
  if lightconeParams < lightconeArgs.length then .error "takes from 2 to 20 positional arguments but 21 were given"
  else noiseLightcone k v table p n zs box a b uv

/-! ### Power spectrum -/

open Classical in
/-- `np.histogram` with weights, of which `none` is not finite, over the number of modes: it subtracts cumulative
sums, so that what is not finite spoils all bins above. -/
noncomputable def averageInf (s : Fin 2 → ℕ) (k : (Fin 2 → ℤ) → ℝ) (v : (Fin 2 → ℤ) → Option ℝ) (e : List ℝ) (b : ℕ) :
    Option ℝ :=
  if ∃ i ∈ box s, v i = none ∧ (k i < e.getD (b + 1) 0 ∨ (b + 2 = e.length ∧ k i = e.getD (b + 1) 0)) then none
  else average s k (fun i => (v i).getD 0) e b

open Classical in
/-- `noise_coeval_power_spectrum_1d` (`radio_telescope_noise.py` lines 78-180) for the given UV map.  With uniform
weighting `out` is a number, which `fftshift` and `_get_k` do not accept. -/
noncomputable def noisePower (LB : ℝ) (table : List ℝ × List ℝ) (p : Setup) (n : ℕ) (z depth : ℝ) (boxsize : Option ℝ)
    (kbins : KBins) (binning : Binning) (uv : (Fin 2 → ℤ) → ℝ) : Except String Radial :=
  match sigmaNoiseRadio table z depth p.obs p.int p.nAnt p.tsys p.data p.nuData p.D p.ep with
  | .error e => .error e
  | .ok (_, rms) =>
    match p.w with
    | .unknown => .error "cannot access local variable 'out'"
    | .uniform => .error "not enough values to unpack"
    | .natural =>
      let l := boxsize.getD LB
      let L := [l, l]
      let s := square n
      match getKbins s L kbins binning (1 / 10) with
      | .error _ => .error "bins"
      | .ok e =>
        if e.Pairwise (· ≤ ·) then
          let power : (Fin 2 → ℤ) → Option ℝ := shift s fun i =>
            if uv i ≤ 0 then none else some ((rms / Real.sqrt (uv i)) ^ 2 * scale s L)
          .ok {
            data := (List.range (e.length - 1)).map (averageInf s (kMag s L) power e)
            bins := centres e
            modes := (List.range (e.length - 1)).map (nModes s (kMag s L) e) }
        else .error "bins must increase monotonically"

end Verif.Noise
