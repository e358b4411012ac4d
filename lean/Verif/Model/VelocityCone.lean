import Verif.Model.Lightcone
/-!
# Model of the light cones of velocities (`lightcone.py` lines 155-271)

The velocities of a snapshot are `vel_file.get_kms_from_density(dfile)` of the files with the same index (or the entry of the dictionary); `read i` stands for
them.  Sides of length one, which `np.squeeze` drops and assignments broadcast, are not modelled: shapes have to be the same here.
-/

namespace Verif.VelocityCone

open Verif.Lightcone

/-- An array of the shape `(3, n0, n1, n2)`. -/
structure Field3 (K : Type) where
  n0 : ℕ
  n1 : ℕ
  n2 : ℕ
  val : Fin 3 → ℕ → ℕ → ℕ → K

/-- An array of the shape `(3, n, m)`. -/
structure Plane (K : Type) where
  n : ℕ
  m : ℕ
  val : Fin 3 → ℕ → ℕ → K

/-- The result: an array of the shape `(3, n, m, l)`. -/
structure Cone (K : Type) where
  n : ℕ
  m : ℕ
  l : ℕ
  val : Fin 3 → ℕ → ℕ → ℕ → K

variable {K : Type} [Field K] [LinearOrder K]

/-- `_get_slice` of an array with four axes (`lightcone.py` lines 493-514).  Beyond the end the slice is empty, and cannot be stored. -/
def sliceOf (d : Field3 K) (idx : ℕ) (axis : ℤ) : Except String (Plane K) :=
  if axis = 0 then
    if idx < d.n0 then .ok ⟨d.n1, d.n2, fun c i j => d.val c idx i j⟩ else .error "ValueError"
  else if axis = 1 then
    if idx < d.n1 then .ok ⟨d.n0, d.n2, fun c i j => d.val c i idx j⟩ else .error "ValueError"
  else if axis = 2 then
    if idx < d.n2 then .ok ⟨d.n0, d.n1, fun c i j => d.val c i j idx⟩ else .error "ValueError"
  else .error "AssertionError"

/-- `_get_interp_slice` (`lightcone.py` lines 431-441) with the default interpolation, and the assignment of line 267: `shape[1]` of an array of four axes is the
first axis of the box. -/
def slice (axis : ℤ) (mesh0 mesh1 : ℕ) (u : Used K (Field3 K)) : Except String (Plane K) :=
  let idx := u.pos % u.dataLow.n0
  match sliceOf u.dataLow idx axis, sliceOf u.dataHigh idx axis with
  | .ok lo, .ok hi =>
    if lo.n = hi.n ∧ lo.m = hi.m ∧ lo.n = mesh0 ∧ lo.m = mesh1 then
      .ok ⟨mesh0, mesh1, fun c i j => ((u.z - u.zLow) * hi.val c i j + (u.zHigh - u.z) * lo.val c i j) / (u.zHigh - u.zLow)⟩
    else .error "ValueError"
  | .error e, _ => .error e
  | _, .error e => .error e

/-- `make_velocity_lightcone` (`lightcone.py` lines 227-271) for given output redshifts; `mesh0` and `mesh1` are those of the first density file. -/
def velocityLightcone (read : ℕ → Field3 K) (zs outputZ : List K) (axis : ℤ) (mesh0 mesh1 : ℕ) : Except String (Cone K) :=
  match velocitySlices read zs outputZ with
  | .error e => .error e
  | .ok us =>
    match us.mapM (slice axis mesh0 mesh1) with
    | .error e => .error e
    | .ok ps => .ok ⟨mesh0, mesh1, outputZ.length, fun c i j k => match ps[k]? with | some p => p.val c i j | none => 0⟩

end Verif.VelocityCone
