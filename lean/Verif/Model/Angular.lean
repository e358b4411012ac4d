import Verif.Model.Binning
/-!
# Model of `physical_lightcone_to_observational` (`angular_coordinates.py`)

The resampling of a slice (`resample_slice`, lines 234-256: tophat smoothing and a spline) is a
parameter: it takes a slice and the number of cells and returns a square slice of that size.
-/

namespace Verif.Angular

open Verif.Conversions Verif.Constants Verif.Padding Verif.Binning

/-- Resampling a slice to a number of cells. -/
abbrev Resample := Mat ℝ → ℕ → Mat ℝ

/-- `n_cells_resampled` (`angular_coordinates.py` lines 182-187): even numbers are lowered by one. -/
noncomputable def resampledN (k : Const) (z sliceMpc fovDeg dtheta : ℝ) : ℤ :=
  let fovMpc := deg_to_cdist k fovDeg z
  let cell := fovMpc / (fovDeg * 60 / dtheta)
  let n := trunc (sliceMpc / cell)
  if n % 2 = 0 then n - 1 else n

/-- `physical_slice_to_angular` (`angular_coordinates.py` lines 166-201).  A negative number of cells
raises in `np.linspace`; an angular resolution of zero divides by zero. -/
noncomputable def sliceToAngular (k : Const) (resample : Resample) (s : Mat ℝ) (z sliceMpc fovDeg dtheta : ℝ) :
    Except String (Mat ℝ) :=
  if dtheta = 0 then .error "float division by zero"
  else
    let n := resampledN k z sliceMpc fovDeg dtheta
    if n < 0 then .error "Number of samples must be non-negative."
    else
      let r := resample s n.toNat
      getPaddedSlice r (paddedSize r.rows (trunc (fovDeg * 60 / dtheta)).toNat)

/-- One slice of the lightcone across the line of sight. -/
def Cone.slice (lc : Cone) (i : ℕ) : Mat ℝ := ⟨lc.n0, lc.n1, fun x y => lc.val x y i⟩

/-- `output_volume[:,:,i] = ...` (`angular_coordinates.py` lines 95-98) into an array of `n` by `n` cells;
a single cell is broadcast. -/
def assign (n : ℕ) (s : Mat ℝ) : Except String (ℕ → ℕ → ℝ) :=
  if (s.rows = n ∨ s.rows = 1) ∧ (s.cols = n ∨ s.cols = 1) then
    .ok fun x y => s.val ((spread s.rows n x).getD 0) ((spread s.cols n y).getD 0)
  else .error "could not broadcast input array"

/-- One pass of the loop over the channels (`angular_coordinates.py` lines 94-98). -/
noncomputable def plane (k : Const) (resample : Resample) (cone : Cone) (freqs : List ℝ) (box fovLow dtheta : ℝ)
    (n i : ℕ) : Except String (ℕ → ℕ → ℝ) :=
  match sliceToAngular k resample (Cone.slice cone i) (nu_to_z (freqs.getD i 0)) box fovLow dtheta with
  | .error e => .error e
  | .ok s => assign n s

/-- `output_volume[a:b,a:b,:]` with `a = (n-h)//2` and `b = (n+h)//2` (`angular_coordinates.py`
lines 102-104). -/
def crop (n h : ℤ) (c : Cone) : Cone :=
  let a0 := stopOf c.n0 ((n - h) / 2)
  let a1 := stopOf c.n1 ((n - h) / 2)
  ⟨stopOf c.n0 ((n + h) / 2) - a0, stopOf c.n1 ((n + h) / 2) - a1, c.n2, fun x y i => c.val (x + a0) (y + a1) i⟩

/-- `physical_lightcone_to_observational` (`angular_coordinates.py` lines 17-108) with a number for
`input_z_low` and the box size given. -/
noncomputable def toObservational (k : Const) (toZ : List ℝ → Except String (List ℝ)) (resample : Resample)
    (lc : Cone) (zLow dnu dtheta box : ℝ) (mode : String) : Except String (Cone × List ℝ) :=
  let mode := mode.toLower
  if mode ∉ ["pad", "full", "extend", "crop", "valid"] then .error "Accepted input for mode"
  else if lc.n0 = 0 then .error "float division by zero"
  else
    match toZ (distances k zLow (box / lc.n0) lc.n2) with
    | .error e => .error e
    | .ok zs =>
      match zs.max? with
      | none => .error "zero-size array to reduction operation maximum which has no identity"
      | some zHigh =>
        let fovLow := angular_size_comoving k box zLow
        let fovHigh := angular_size_comoving k box zHigh
        match binFrequency k toZ lc zLow box dnu with
        | .error e => .error e
        | .ok (cone, freqs) =>
          if dtheta = 0 then .error "float division by zero"
          else
            let n := trunc (fovLow * 60 / dtheta)
            if n < 0 then .error "negative dimensions are not allowed"
            else
              match (List.range freqs.length).mapM (plane k resample cone freqs box fovLow dtheta n.toNat) with
              | .error e => .error e
              | .ok planes =>
                let out : Cone := ⟨n.toNat, n.toNat, freqs.length,
                  fun x y i => (planes.getD i fun _ _ => 0) x y⟩
                if mode = "crop" ∨ mode = "valid" then .ok (crop n (trunc (fovHigh * 60 / dtheta)) out, freqs)
                else .ok (out, freqs)

end Verif.Angular
