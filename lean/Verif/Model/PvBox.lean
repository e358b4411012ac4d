import Verif.Model.Distort
/-!
# Model of `pv_mpm.make_pv_box`

The three files have been read: `dT` is the cube of the first, in single precision; `kms` are the velocities of `get_kms_from_density` (C195), which are
finite if no density is zero.  All have the same shape.
-/

namespace Verif.PvBox

open Verif.Constants Verif.Distort

/-- Velocities in km/s: a component for each axis. -/
abbrev Velocities := Fin 3 → (Fin 3 → ℕ) → ℝ

/-- The arguments of `get_distorted_dt` that have default values (`pv_mpm.py` line 8). -/
structure Options where
  los : Fin 3 := 0
  velocityAxis : Fin 3 := 0
  particles : ℕ := 10
  periodic : Bool := true

/-- `get_distorted_dt` for one redshift: the component of the velocity is `kms[velocity_axis,:,:,:]` (`pv_mpm.py` lines 8 and 81). -/
noncomputable def getDistorted (k : Const) (LB : ℝ) (dT : Box) (kms : Velocities) (z : ℝ) (o : Options) : Except String Box :=
  distorted k LB dT (kms o.velocityAxis) (fun _ => z) o.los o.particles o.periodic

/-- `make_pv_box` (`pv_mpm.py` lines 134-157): `los` and `num_particles` are handed on, `velocity_axis` is not. -/
noncomputable def makePvBox (k : Const) (LB : ℝ) (dT : Box) (kms : Velocities) (z : ℝ) (los : Fin 3) (particles : ℕ) : Except String Box :=
  getDistorted k LB dT kms z { los := los, particles := particles }

end Verif.PvBox
