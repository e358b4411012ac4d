import Verif.Model.Lightcone
/-!
# Model of the cells of `make_lightcone`
-/

namespace Verif.Lightcone

variable {K : Type} [Field K] [LinearOrder K]

/-- The slices of the output of `make_lightcone` in order (`lightcone.py` lines 110-150): the selection of the snapshots and the
interpolation of each slice.  The loop interpolates a slice before it looks for the snapshots of the next one; all its errors
are `ValueError`s (the axis is checked in `_get_slice`). -/
def coneCells (C : Cosmo K) (exp : K → K) (s : Scheme K) (axis : ℕ) (read : ℕ → Cube K) (zs : List K) (zLow zHigh : Option K)
    (gridN boxLength : K) (dnu : Option K) (fuel : ℕ) : Option (Except String (List (ℕ → ℕ → K))) :=
  (makeLightcone C read zs zLow zHigh gridN boxLength dnu fuel).map fun o => o.bind fun us => us.mapM (interpSlice exp s axis)

end Verif.Lightcone
