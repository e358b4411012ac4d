import Verif.Model.Angular
/-!
# Model of `observational_lightcone_to_physical` (`angular_coordinates.py`)

As in `Model/Angular` the resampling of a slice (`resample_slice`, lines 237-256) is a parameter.
-/

namespace Verif.PhysicalCone

open Verif.Conversions Verif.Constants Verif.Padding Verif.Binning Verif.Angular

/-- `n_cells_resampled` (`angular_coordinates.py` lines 218-222): even numbers are raised by one. -/
noncomputable def resampledN (k : Const) (z sizeDeg cell : ℝ) : ℤ :=
  let n := trunc (deg_to_cdist k sizeDeg z / cell)
  if n % 2 = 0 then n + 1 else n

/-- `angular_slice_to_physical` (`angular_coordinates.py` lines 203-234).  A negative number of cells raises in
`np.linspace`; a cell size of zero raises in `int`. -/
noncomputable def sliceToPhysical (k : Const) (resample : Resample) (s : Mat ℝ) (z sizeDeg cell sizeMpc : ℝ) :
    Except String (Mat ℝ) :=
  if cell = 0 then .error "cannot convert float infinity to integer"
  else
    let n := resampledN k z sizeDeg cell
    if n < 0 then .error "Number of samples must be non-negative."
    else
      let r := resample s n.toNat
      let c := trunc (sizeMpc / cell)
      let c := if (s.rows : ℤ) < c then (s.rows : ℤ) else c
      .ok ⟨stopOf r.rows c, stopOf r.cols c, r.val⟩

/-- One pass of the loop over the channels (`angular_coordinates.py` lines 153-157). -/
noncomputable def plane (k : Const) (resample : Resample) (lc : Cone) (freqs : List ℝ) (fovDeg cell fovMpc : ℝ)
    (n i : ℕ) : Except String (ℕ → ℕ → ℝ) :=
  match freqs[i]? with
  | none => .error "index out of bounds"
  | some nu =>
    match sliceToPhysical k resample (Cone.slice lc i) (nu_to_z nu) fovDeg cell fovMpc with
    | .error e => .error e
    | .ok s => assign n s

/-- `observational_lightcone_to_physical` (`angular_coordinates.py` lines 113-162): the volume, the redshifts and the
cell size. -/
noncomputable def coneToPhysical (k : Const) (toZ : List ℝ → Except String (List ℝ)) (resample : Resample)
    (lc : Cone) (freqs : List ℝ) (dtheta : ℝ) : Except String (Cone × List ℝ × ℝ) :=
  match freqs.head?, freqs.getLast? with
  | some f0, some f1 =>
    if ¬ f1 < f0 then .error "AssertionError"
    else if lc.n0 ≠ lc.n1 then .error "AssertionError"
    else if lc.n0 = 0 then .error "cannot convert float NaN to integer"
    else
      let zLow := nu_to_z f0
      let fovDeg := (lc.n0 : ℝ) * dtheta / 60
      let fovMpc := fovDeg / angular_size_comoving k 1 zLow
      let perp := fovMpc / lc.n0
      let par := nu_to_cdist k f1 - nu_to_cdist k (freqs.getD (freqs.length - 2) 0)
      let cell := max par perp
      if cell = 0 then .error "cannot convert float NaN to integer"
      else
        let n := trunc (fovMpc / cell)
        if n < 0 then .error "negative dimensions are not allowed"
        else
          match (List.range lc.n2).mapM (plane k resample lc freqs fovDeg cell fovMpc n.toNat) with
          | .error e => .error e
          | .ok planes =>
            match binMpc k toZ ⟨n.toNat, n.toNat, lc.n2, fun x y i => (planes.getD i fun _ _ => 0) x y⟩ freqs cell with
            | .error e => .error e
            | .ok (out, zs) => .ok (out, zs, cell)
  | _, _ => .error "index out of bounds"

end Verif.PhysicalCone
