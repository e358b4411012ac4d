import Verif.Model.PowerSpectrum
import Verif.Model.Conversions
/-!
# Model of the UV response of images and of the wedge filter

`radio_telescope_noise.py` (`apply_uv_response_on_image`, `apply_uv_response_on_coeval`, the cut of long
baselines of `get_uv_map`, Briggs weights) and `foreground_model.py` (`diabolo_filter`, `barrel_filter`,
`remove_wedge_image`).  Floating point numbers are exact reals.
-/

namespace Verif.UVResponse
open Verif.Convolve Verif.PowerSpectrum Verif.Conversions Verif.Constants

inductive Err where
  | assertion | type | value | attribute
  deriving DecidableEq

open Classical in
/-- `apply_uv_response_on_image` (`radio_telescope_noise.py` lines 528-552), for real images. -/
noncomputable def applyImage (a uv : Arr (Fin 2) ℝ) : Except Err (Arr (Fin 2) ℝ) :=
  if a.shape = uv.shape then
    .ok ⟨a.shape, fun x => (ifftn a.shape (fun i => if uv.val i = 0 then 0 else
      fftn a.shape (fun y => (a.val y : ℂ)) i) x).re⟩
  else .error .assertion

/-- `array[:,:,k]`. -/
def slice (a : Arr (Fin 3) ℝ) (k : ℕ) : Arr (Fin 2) ℝ :=
  ⟨![a.shape 0, a.shape 1], fun x => a.val ![x 0, x 1, k]⟩

/-- `apply_uv_response_on_coeval` (`radio_telescope_noise.py` lines 656-681); `uvMap` is the argument `uv_map`, and
`getMap n` the map which `get_uv_map` makes for `n` cells.  The slices are stacked along the last axis. -/
noncomputable def applyCoeval (getMap : ℕ → Arr (Fin 2) ℝ) (a : Arr (Fin 3) ℝ) (uvMap : Option (Arr (Fin 2) ℝ)) :
    Except Err (Arr (Fin 3) ℝ) :=
  let uv := uvMap.getD (getMap (a.shape 2))
  match (List.range (a.shape 2)).mapM fun k => applyImage (slice a k) uv with
  | .error e => .error e
  | .ok l => .ok ⟨a.shape, fun x => ((l[(x 2).toNat]?).map fun d => d.val ![x 0, x 1]).getD 0⟩

/-- `max_baseline_to_max_k` (`radio_telescope_noise.py` lines 554-575), `B` in km and the result in 1/Mpc. -/
noncomputable def maxK (k : Const) (z B : ℝ) : ℝ :=
  Real.pi / ((1 + z) * (21 / 100 / (B * 1000)) * cdist k z)

/-- `kk[i]` (`radio_telescope_noise.py` line 617). -/
noncomputable def cutAxis (n : ℕ) (L : ℝ) (i : ℤ) : ℝ :=
  (-((n : ℝ) / 2) + (n : ℝ) * i / ((n : ℝ) - 1)) * Real.pi / L

open Classical in
/-- The cut of the map at `max_baseline` (`radio_telescope_noise.py` lines 615-623), `kcut` being the largest wave
number. -/
noncomputable def cutMap (n : ℕ) (L kcut : ℝ) (uv : (Fin 2 → ℤ) → ℝ) : (Fin 2 → ℤ) → ℝ :=
  shift (fun _ => n) fun j =>
    if kcut ^ 2 < cutAxis n L (j 1) ^ 2 + cutAxis n L (j 0) ^ 2 then 0 else shift (fun _ => n) uv j

open Classical in
/-- `np.mean(w_nat[w_nat > 0]) + epsilon` (`radio_telescope_noise.py` line 496), for a map with a positive count. -/
noncomputable def meanWeight (uv : Arr (Fin 2) ℝ) (ε : ℝ) : ℝ :=
  (∑ i ∈ (box uv.shape).filter (fun i => 0 < uv.val i), uv.val i) /
    ((box uv.shape).filter (fun i => 0 < uv.val i)).card + ε

open Classical in
/-- `apply_uv_response_noise_briggs` (`radio_telescope_noise.py` lines 475-502), for maps with a positive count and
without negative ones. -/
noncomputable def briggs (noise : (Fin 2 → ℤ) → ℝ) (uv : Arr (Fin 2) ℝ) (robust ε : ℝ) (i : Fin 2 → ℤ) : ℝ :=
  if uv.val i = 0 then 0 else
    noise i / Real.sqrt (uv.val i / (1 + (uv.val i / meanWeight uv ε) ^ 2 * (10 : ℝ) ^ (2 * robust)) + ε)

/-- The argument `funct` of `diabolo_filter`. -/
inductive Funct where
  | step | sigmoid | gaussian | other
  deriving DecidableEq

/-- `k0[i]` (`foreground_model.py` lines 102 and 129). -/
noncomputable def wedgeAxis (n : ℕ) (L : ℝ) (i : ℤ) : ℝ :=
  -(n * Real.pi / L) + 2 * (n * Real.pi / L) * i / ((n : ℝ) - 1)

/-- `k2` (`foreground_model.py` lines 103-107). -/
noncomputable def perp (n : ℕ) (L : ℝ) (x : Fin 3 → ℤ) : ℝ :=
  Real.sqrt (wedgeAxis n L (x 0) ^ 2 + wedgeAxis n L (x 1) ^ 2)

/-- `kmin` (`foreground_model.py` line 109). -/
noncomputable def shortest (k : Const) (z base : ℝ) : ℝ := Real.pi / (cdist k z * (21 / base / 100))

open Classical in
/-- One entry of the filter (`foreground_model.py` lines 110-120). -/
noncomputable def filterAt (n : ℕ) (L mu kmin : ℝ) (f : Funct) (x : Fin 3 → ℤ) : ℝ :=
  let kpr := |wedgeAxis n L (x 2)| * (1 - mu ^ 2) / mu
  if perp n L x ≤ kmin then 0
  else if f = .sigmoid then 1 - 1 / (1 + Real.exp (10 * (perp n L x - kpr)))
  else if perp n L x ≤ kpr then 0 else 1

/-- `diabolo_filter` (`foreground_model.py` lines 96-123): `array` is the shape of the array, `ncells` zero counts as
absent, `L` is the resolved `boxsize`. -/
noncomputable def diabolo (k : Const) (z : ℝ) (ncells : Option ℕ) (array : Option (Fin 3 → ℕ)) (L mu : ℝ) (f : Funct)
    (base : ℝ) : Except Err (Arr (Fin 3) ℝ) :=
  if f = .other then .error .assertion
  else match array with
    | some s =>
      let n := max (max (s 0) (s 1)) (s 2)
      -- slicing with the quotients `ncells/2` (line 121)
      if s 2 < n then .error .type
      else .ok ⟨fun _ => n, filterAt n L mu (shortest k z base) f⟩
    | none =>
      if ncells.getD 0 = 0 then .error .assertion
      -- `array.shape` of `None` (line 121)
      else .error .attribute

/-- `barrel_filter` (`foreground_model.py` lines 125-142) for arrays of shape `s`: `filt[:,:,i] = filt` (line 139)
needs a cube of one cell, or none. -/
noncomputable def barrel (ncells : Option ℕ) (array : Option (Fin 3 → ℕ)) : Except Err (Arr (Fin 3) ℝ) :=
  match array with
  | some s =>
    let n := max (max (s 0) (s 1)) (s 2)
    if 1 < n then .error .value
    else if s 2 < n then .error .type
    else .ok ⟨fun _ => n, fun _ => 0⟩
  | none =>
    if ncells.getD 0 = 0 then .error .assertion
    else if 1 < ncells.getD 0 then .error .value
    else .error .attribute

/-- `remove_wedge_image` (`foreground_model.py` lines 144-149) with the filter `filt`.  Arrays of unequal shape are not
multiplied here: numpy does so if the lengths which differ are one. -/
noncomputable def removeWith (a filt : Arr (Fin 3) ℝ) : Except Err (Arr (Fin 3) ℝ) :=
  if a.shape = filt.shape then
    .ok ⟨a.shape, fun x => (ifftn a.shape (shift a.shape fun j =>
      shift a.shape (fftn a.shape fun y => (a.val y : ℂ)) j * (filt.val j : ℂ)) x).re⟩
  else .error .value

/-- `remove_wedge_image` (`foreground_model.py` lines 144-149). -/
noncomputable def removeWedge (k : Const) (a : Arr (Fin 3) ℝ) (z mu : ℝ) (f : Funct) (L : ℝ)
    (filt : Option (Arr (Fin 3) ℝ)) : Except Err (Arr (Fin 3) ℝ) :=
  match filt with
  | some g => removeWith a g
  | none =>
    match diabolo k z none (some a.shape) L mu f 40 with
    | .error e => .error e
    | .ok g => removeWith a g

end Verif.UVResponse
