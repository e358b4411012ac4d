import Verif.Model.UVResponse
import Verif.Model.Smoothing
/-!
# Model of the smoothing in the UV plane (`smoothing.py` lines 484-595) and of the smoothing of cubes and lightcones to the
resolution of a telescope (`smoothing.py` lines 333-403)

Floating point numbers are exact.  Arrays with zero cells along an axis cannot be Fourier transformed.
-/

namespace Verif.UVSmooth
open Verif.Convolve Verif.Smoothing
open Verif.UVResponse (slice)

inductive Err where
  | index | type | attribute | nan | value | assertion | zeroDivision
  deriving DecidableEq

/-! ### `smooth_lightcone_uv_threshold` -/

/-- The argument `threshold`: a float, or a number of another type. -/
inductive Threshold where
  | float (t : ℝ)
  | int (n : ℤ)

/-- The argument `uv_box`: one map for each slice, or one map for all of them. -/
inductive UVBox where
  | cube (uv : Arr (Fin 3) ℝ)
  | plane (uv : Arr (Fin 2) ℝ)

/-- What the function returns: a lightcone, or an exception (which is returned, not raised). -/
inductive Returned where
  | cone (a : Arr (Fin 3) ℝ)
  | exception

/-- The shape of a boolean array must be that of the first axes of the array which it indexes. -/
def fits (s : Fin 3 → ℕ) : UVBox → Prop
  | .cube uv => uv.shape = s
  | .plane uv => uv.shape = ![s 0, s 1]

/-- `uv_box[x, y, k]`. -/
def cell (k : ℤ) (x : Fin 2 → ℤ) : UVBox → ℝ
  | .cube uv => uv.val ![x 0, x 1, k]
  | .plane uv => uv.val x

open Classical in
/-- `smooth_lightcone_uv_threshold` (`smoothing.py` lines 484-504). -/
noncomputable def uvThreshold (a : Arr (Fin 3) ℝ) (uv : UVBox) (t : Threshold) : Except Err Returned :=
  match t with
  | .int _ => .ok .exception
  | .float t =>
    if t < 0 then .ok .exception
    else if a.shape 0 = 0 ∨ a.shape 1 = 0 then .error .value
    else if fits a.shape uv then
      .ok (.cone ⟨a.shape, fun x => (ifftn ![a.shape 0, a.shape 1] (fun i => if cell (x 2) i uv < t then 0 else
        fftn ![a.shape 0, a.shape 1] (fun y => (a.val ![y 0, y 1, x 2] : ℂ)) i) ![x 0, x 1]).re⟩)
    else .error .index

/-! ### `remove_baselines_from_uvmap`, `convolve_uvmap` -/

/-- `output_dx_Mpc` (`smoothing.py` lines 511-512): the resolution of the baseline `B` (in km) at redshift `z`, where `dist`
is `cm.z_to_cdist(z)`. -/
noncomputable def resolution {K : Type} [Field K] (z dist B : K) : K := (1 + z) * (21 / 100000) / B * dist

open Classical in
/-- `remove_baselines_from_uvmap` (`smoothing.py` lines 506-526).  With the resolution zero all cells are in reach.  `xx` runs
along the second axis, so the masks have the shape of the transposed map. -/
noncomputable def removeBaselines (uv : Arr (Fin 2) ℝ) (z : Option ℝ) (dist : ℝ → ℝ) (B L : ℝ) :
    Except Err (Arr (Fin 2) ℝ) :=
  match z with
  | none => .error .type
  | some z =>
    if B = 0 then .error .zeroDivision
    else if uv.shape 0 ≠ uv.shape 1 ∨ uv.shape 0 = 0 then .error .index
    else
      let dx := resolution z (dist z) B
      let within (r : ℤ) : Prop := dx = 0 ∨ (r : ℝ) ≤ (L / dx) ^ 2
      let n0 : ℤ := uv.shape 0
      let n1 : ℤ := uv.shape 1
      .ok ⟨uv.shape, fun i =>
        let xx := i 1
        let yy := i 0
        if i = 0 then 0
        else if within (xx ^ 2 + yy ^ 2) ∨ within ((n0 - xx) ^ 2 + yy ^ 2) ∨ within (xx ^ 2 + (n1 - yy) ^ 2) ∨
          within ((n0 - xx) ^ 2 + (n1 - yy) ^ 2) then uv.val i else 0⟩

open Classical in
/-- `np.real(np.fft.ifft2(np.fft.fft2(array)*kernel2d/kernel2d.max()))` (`smoothing.py` lines 544-549).  Arrays of unequal
shape are not multiplied here: numpy does so if the lengths which differ are one. -/
noncomputable def applyMap (a uv : Arr (Fin 2) ℝ) : Except Err (Arr (Fin 2) ℝ) :=
  if h : (box uv.shape).Nonempty then
    let top := (box uv.shape).sup' h uv.val
    if uv.shape ≠ a.shape then .error .value
    else if top = 0 then .error .nan
    else .ok ⟨a.shape, fun x => (ifftn a.shape (fun i => ((uv.val i / top : ℝ) : ℂ) *
      fftn a.shape (fun y => (a.val y : ℂ)) i) x).re⟩
  else .error .value

/-- `convolve_uvmap` (`smoothing.py` lines 528-549); `getMap n z` is the map which `get_uv_map` makes, `L` the resolved box
size. -/
noncomputable def convolveUvmap (getMap : ℕ → Option ℝ → Except Err (Arr (Fin 2) ℝ)) (dist : ℝ → ℝ) (a : Arr (Fin 2) ℝ)
    (z : Option ℝ) (uv : Option (Arr (Fin 2) ℝ)) (B : Option ℝ) (L : ℝ) : Except Err (Arr (Fin 2) ℝ) := do
  let uv ← match uv with
    | some uv => .ok uv
    | none => getMap (a.shape 0) z
  let uv ← match B with
    | none => .ok uv
    | some B => removeBaselines uv z dist B L
  applyMap a uv

/-! ### `convolve_uvmap_coeval` -/

/-- `np.swapaxes(cube, nu, 2)`. -/
def swap (a : Arr (Fin 3) ℝ) (nu : Fin 3) : Arr (Fin 3) ℝ :=
  ⟨fun i => a.shape (Equiv.swap nu 2 i), fun x => a.val fun i => x (Equiv.swap nu 2 i)⟩

/-- The images of `[convolve_uvmap(output_cube[:,:,i], uv_map=uv_map) for i in …]` in a new first axis
(`smoothing.py` lines 592-594), for cubes whose frequency axis is the last. -/
noncomputable def stack (a : Arr (Fin 3) ℝ) (uv : Arr (Fin 2) ℝ) : Except Err (Arr (Fin 3) ℝ) :=
  match (List.range (a.shape 2)).mapM fun k => applyMap (slice a k) uv with
  | .error e => .error e
  | .ok l => .ok ⟨![a.shape 2, a.shape 0, a.shape 1], fun x =>
      ((l[(x 0).toNat]?).map fun d => d.val ![x 1, x 2]).getD 0⟩

/-- `convolve_uvmap_coeval` (`smoothing.py` lines 553-595): `array` is a function of numpy (line 579), and `max_baseline` is
divided by even if it is `None` (line 590).  `dist` is the comoving distance; redshift, distance, baseline and box size are
floats, so they are rational. -/
noncomputable def convolveCoeval (dist : ℚ → ℚ) (cube : Arr (Fin 3) ℝ) (z L : ℚ) (B : Option ℚ) (ratio : ℚ) (nu : Fin 3)
    (uv : Option (Arr (Fin 2) ℝ)) : Except Err (Arr (Fin 3) ℝ) :=
  match uv, B with
  | none, _ => .error .attribute
  | some _, none => .error .type
  | some uv, some B => do
    let uv ← removeBaselines uv (some z) (fun _ => (dist z : ℝ)) B L
    let width := resolution z (dist z) B * cube.shape 0 / L
    match smoothCoevalTophat cube (width * ratio) nu with
    | .error _ => .error .value
    | .ok sm => do
      let out ← stack (if nu = 2 then sm else swap sm nu) uv
      .ok (if nu = 2 then out else swap out nu)

/-! ### `smooth_coeval`, `smooth_lightcone` -/

/-- One slice of `smooth_lightcone_gauss` (`smoothing.py` lines 478-481), written into the output, which needs the shape of the
slice. -/
noncomputable def gaussSlice (a : Arr (Fin 3) ℝ) (w : ℝ) (nu : Fin 3) (i : ℕ) : Except Err (Arr (Fin 2) ℝ) :=
  match smoothGauss (plane a nu i) w with
  | .error _ => .error .nan
  | .ok o => if o.shape ≠ nu.removeNth a.shape then .error .value else .ok o

/-- `smooth_lightcone_gauss` (`smoothing.py` lines 464-482): every slice perpendicular to axis `nu` is smoothed with its own
width. -/
noncomputable def gaussSlices (a : Arr (Fin 3) ℝ) (fwhm : List ℝ) (nu : Fin 3) : Except Err (Arr (Fin 3) ℝ) :=
  if a.shape nu ≠ fwhm.length then .error .assertion
  else
    match (List.range (a.shape nu)).mapM fun i => gaussSlice a (fwhm.getD i 0) nu i with
    | .error e => .error e
    | .ok l => .ok ⟨a.shape, fun x => ((l[(x nu).toNat]?).map fun d => d.val (nu.removeNth x)).getD 0⟩

/-- `smooth_coeval` (`smoothing.py` lines 377-403) with `smooth_coeval_gauss` (lines 427-441); `L` is the resolved box size
and `dist` the comoving distance. -/
noncomputable def smoothCoeval (dist : ℚ → ℚ) (cube : Arr (Fin 3) ℝ) (z L B ratio : ℚ) (nu : Fin 3) :
    Except Err (Arr (Fin 3) ℝ) :=
  if B = 0 then .error .zeroDivision
  else
    let width := resolution z (dist z) B * cube.shape 0 / L
    match smoothCoevalTophat cube (width * ratio) nu with
    | .error "nan" => .error .nan
    | .error _ => .error .value
    | .ok sm => gaussSlices sm (List.replicate (sm.shape nu) (width : ℝ)) nu

/-- The argument `z_array`: a number, which has no `shape`, or an array. -/
inductive Redshifts where
  | number (z : ℝ)
  | array (l : List ℝ)

/-- The functions of `cosmo.py` and `const.py` that are used: `z_to_cdist`, `cdist_to_z`, `hubble_parameter` and the speed of
light. -/
structure Cosmo where
  dist : ℝ → ℝ
  redshift : ℝ → ℝ
  hubble : ℝ → ℝ
  c : ℝ

/-- `smooth_lightcone_tophat` (`smoothing.py` lines 443-462) for a whole lightcone: pixel by pixel. -/
noncomputable def tophatCone (lc : Arr (Fin 3) ℝ) (zs dz : List ℝ) : Except Err (Arr (Fin 3) ℝ) :=
  open Classical in
  let line (x : Fin 3 → ℤ) : List ℝ := (List.range (lc.shape 2)).map fun (k : ℕ) => lc.val ![x 0, x 1, k]
  match lightconeTophat zs dz (line 0) with
  | .error _ => .error .value
  | .ok _ => .ok ⟨lc.shape, fun x => match lightconeTophat zs dz (line x) with
    | .ok l => l.getD (x 2).toNat 0
    | .error _ => 0⟩  -- unreachable: whether an error occurs does not depend on the values

/-- `np.flip(lightcone, axis=2)`. -/
def flip (a : Arr (Fin 3) ℝ) : Arr (Fin 3) ℝ := ⟨a.shape, fun x => a.val ![x 0, x 1, a.shape 2 - 1 - x 2]⟩

/-- The redshifts of the slices (`smoothing.py` lines 350-356).  An array with neither one redshift nor one for each slice cannot
be added to the distances. -/
noncomputable def sliceRedshifts (c : Cosmo) (lc : Arr (Fin 3) ℝ) (zs : Redshifts) (L : ℝ) : Except Err (List ℝ) :=
  match zs with
  | .number _ => .error .attribute
  | .array l =>
    if l.length = lc.shape 2 then .ok l
    else match l with
      | [z] => .ok ((List.range (lc.shape 2)).map fun (k : ℕ) => c.redshift (c.dist z + k * (1 * L / lc.shape 0)))
      | _ => .error .value

/-- `smooth_lightcone` (`smoothing.py` lines 333-375): the smoothed lightcone and the redshifts. -/
noncomputable def smoothLightcone (c : Cosmo) (lc : Arr (Fin 3) ℝ) (zs : Redshifts) (L B ratio : ℝ) :
    Except Err (Arr (Fin 3) ℝ × List ℝ) :=
  open Classical in
  match sliceRedshifts c lc zs L with
  | .error e => .error e
  | .ok given =>
    match given with
    | z0 :: z1 :: _ =>
      let decreasing : Prop := z1 - z0 < 0
      let zs := if decreasing then given.reverse else given
      let lc := if decreasing then flip lc else lc
      let ang := zs.map fun z => (1 + z) * (21 / 100000) / B * c.dist z
      let dz := zs.map fun z => ratio * ((1 + z) * (21 / 100000) / B * c.dist z) / c.c * c.hubble z
      match tophatCone lc zs dz with
      | .error e => .error e
      | .ok a =>
        match gaussSlices a (ang.map fun w => w * lc.shape 0 / L) 2 with
        | .error e => .error e
        | .ok b => .ok (if decreasing then (flip b, zs.reverse) else (b, zs))
    | _ => .error .index

end Verif.UVSmooth
