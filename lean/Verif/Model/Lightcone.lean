import Mathlib.Algebra.Order.Field.Basic
import Mathlib.Algebra.Order.Group.Abs
import Mathlib.Data.List.MinMax
/-!
# Model of `lightcone.py`

Redshifts, frequencies and cell values are elements of an arbitrary ordered field `K` (exact
arithmetic).  `D` is the type of the data cubes; `read i` stands for
`reading_function(filenames[i])` (or the default reader on the same file).
Exceptions are `Except.error`.
-/

namespace Verif.Lightcone

variable {K : Type} [Field K] [LinearOrder K] {D : Type}

/-- `np.argmin` of a non-empty array: the first index of the smallest element (`np.argmin` raises on
an empty array; the callers below never pass one). -/
def argmin (l : List K) : ℕ :=
  match l.min? with
  | some m => l.idxOf m
  | none => 0

/-- `np.argmin(np.abs(zs - z))` (`lightcone.py` lines 131, 141, 249, 258, 409, 410). -/
def nearest (zs : List K) (z : K) : ℕ := argmin (zs.map fun x => |x - z|)

/-- `file_redshifts[file_redshifts <= z].max()`; `.max()` of an empty selection raises
(`lightcone.py` line 125, 244). -/
def bracketLow (zs : List K) (z : K) : Option K := (zs.filter fun x => decide (x ≤ z)).max?

/-- `file_redshifts[file_redshifts > z].min()` (`lightcone.py` line 126, 245). -/
def bracketHigh (zs : List K) (z : K) : Option K := (zs.filter fun x => decide (z < x)).min?

/-- The arguments of one call of `_get_interp_slice` (`lightcone.py` lines 146-147, 265-266). -/
structure Used (K D : Type) where
  dataHigh : D
  dataLow : D
  zHigh : K
  zLow : K
  z : K
  pos : ℕ
  deriving DecidableEq

/-- Loop variables `z_bracket_low`, `z_bracket_high`, `data_low`, `data_high`; `none` is Python's
`None` (`lightcone.py` lines 115-117). -/
structure Vars (K D : Type) where
  zLow : Option K
  zHigh : Option K
  dataLow : Option D
  dataHigh : Option D

/-- One iteration of the loop of `make_lightcone` (`lightcone.py` lines 124-150). -/
def stepScalar (read : ℕ → D) (zs : List K) (v : Vars K D) (z : K) (pos : ℕ) :
    Except String (Vars K D × Used K D) :=
  match bracketLow zs z, bracketHigh zs z with
  | some lo, some hi =>
    -- lines 129-136
    let v : Vars K D :=
      if some lo ≠ v.zLow then
        { v with
          zLow := some lo
          dataLow := match v.dataHigh with
            | none => some (read (nearest zs lo))
            | some d => some d }
      else v
    -- lines 139-143
    let v : Vars K D :=
      if some hi ≠ v.zHigh then
        { v with zHigh := some hi, dataHigh := some (read (nearest zs hi)) }
      else v
    match v.dataHigh, v.dataLow with
    | some dh, some dl => .ok (v, ⟨dh, dl, hi, lo, z, pos⟩)
    | _, _ => .error "TypeError"
  | _, _ => .error "ValueError"

/-- One iteration of the loop of `make_velocity_lightcone` (`lightcone.py` lines 243-269):
both files are read anew whenever the bracket changes. -/
def stepVelocity (read : ℕ → D) (zs : List K) (v : Vars K D) (z : K) (pos : ℕ) :
    Except String (Vars K D × Used K D) :=
  match bracketLow zs z, bracketHigh zs z with
  | some lo, some hi =>
    let v : Vars K D :=
      if some lo ≠ v.zLow then
        { v with zLow := some lo, dataLow := some (read (nearest zs lo)) }
      else v
    let v : Vars K D :=
      if some hi ≠ v.zHigh then
        { v with zHigh := some hi, dataHigh := some (read (nearest zs hi)) }
      else v
    match v.dataHigh, v.dataLow with
    | some dh, some dl => .ok (v, ⟨dh, dl, hi, lo, z, pos⟩)
    | _, _ => .error "TypeError"
  | _, _ => .error "ValueError"

/-- The loop over `output_z` (`lightcone.py` lines 123-150, 242-269). -/
def loop (step : Vars K D → K → ℕ → Except String (Vars K D × Used K D)) :
    Vars K D → ℕ → List K → Except String (List (Used K D))
  | _, _, [] => .ok []
  | v, pos, z :: rest => do
    let (v, u) ← step v z pos
    let us ← loop step v (pos + 1) rest
    .ok (u :: us)

/-- Everything before the first iteration (`lightcone.py` lines 115-117). -/
def Vars.start : Vars K D := ⟨none, none, none, none⟩

/-- The slices of `make_lightcone` for given output redshifts. -/
def scalarSlices (read : ℕ → D) (zs outputZ : List K) : Except String (List (Used K D)) :=
  loop (stepScalar read zs) .start 0 outputZ

/-- The slices of `make_velocity_lightcone` for given output redshifts. -/
def velocitySlices (read : ℕ → D) (zs outputZ : List K) : Except String (List (Used K D)) :=
  loop (stepVelocity read zs) .start 0 outputZ

/-! ### Output redshifts -/

/-- `while cond(z): z_array.append(z); z = next(z)`, cut off after `fuel` tests of the condition:
`none` means the loop is still running. -/
def whileLoop (cond : K → Bool) (next : K → K) : ℕ → K → Option (List K)
  | 0, _ => none
  | fuel + 1, z =>
    if cond z then (whileLoop cond next fuel (next z)).map (z :: ·) else some []

/-- Loop body of `redshifts_at_equal_frequncy_width` (`lightcone.py` line 353). -/
def freqNext (nu0 dnu z : K) : K := (z - dnu / nu0 * (1 + z)) / (1 + dnu / nu0 * (1 + z))

/-- `redshifts_at_equal_frequncy_width` (`lightcone.py` lines 333-355). -/
def freqRedshifts (nu0 zLow zHigh dnu : K) (fuel : ℕ) : Option (Except String (List K)) :=
  if zLow < zHigh then
    (whileLoop (fun z => decide (zLow < z)) (freqNext nu0 dnu) fuel zHigh).map fun l => .ok l.reverse
  else some (.error "AssertionError")

/-- Loop body of `redshifts_at_equal_comoving_distance` (`lightcone.py` lines 326-328); `H` is
`const.Hz`, `cell` is `box_length_mpc/box_grid_n`. -/
def comovingNext (H : K → K) (nu0 c L n z : K) : K :=
  let nu := nu0 / (1 + z)
  let dnu := nu0 * H z * L / (1 + z) ^ 2 / c / n
  nu0 / (nu - dnu) - 1

/-- `redshifts_at_equal_comoving_distance` (`lightcone.py` lines 300-330). -/
def comovingRedshifts (H : K → K) (nu0 c L n zLow zHigh : K) (fuel : ℕ) :
    Option (Except String (List K)) :=
  if zLow < zHigh then
    (whileLoop (fun z => decide (z < zHigh)) (comovingNext H nu0 c L n) fuel zLow).map .ok
  else some (.error "AssertionError")

/-- The truncation at the end of `_get_output_z` (`lightcone.py` lines 288-297); `min` or `max` of an
empty sequence raises. -/
def truncate (zs out : List K) : Except String (List K) :=
  match out.min?, out.max?, zs.min?, zs.max? with
  | some lo, some hi, some flo, some fhi =>
    let out :=
      if lo < flo ∨ fhi < hi then
        (out.filter fun z => decide (flo ≤ z)).filter fun z => decide (z ≤ fhi)
      else out
    if out.length < 1 then .error "No valid redshifts in range!" else .ok out
  | _, _, _, _ => .error "ValueError"

/-- Physical constants used by `_get_output_z`. -/
structure Cosmo (K : Type) where
  H : K → K
  nu0 : K
  c : K

/-- `_get_output_z` (`lightcone.py` lines 274-297).  `if(dnu)` is false for `None` and 0. -/
def outputZ (C : Cosmo K) (zs : List K) (zLow zHigh : Option K) (gridN boxLength : K)
    (dnu : Option K) (fuel : ℕ) : Option (Except String (List K)) :=
  match zs.min?, zs.max? with
  | some flo, some fhi =>
    let zl := zLow.getD flo
    let zh := zHigh.getD fhi
    let out :=
      match dnu with
      | none => comovingRedshifts C.H C.nu0 C.c boxLength gridN zl zh fuel
      | some d =>
        if d = 0 then comovingRedshifts C.H C.nu0 C.c boxLength gridN zl zh fuel
        else freqRedshifts C.nu0 zl zh d fuel
    out.map fun o => o.bind (truncate zs)
  | _, _ => some (.error "ValueError")

/-- `make_lightcone` up to the interpolation of the slices (`lightcone.py` lines 110-150);
`boxLength` is the value of `box_length_mpc`, or of `conv.LB` when it is `None`. -/
def makeLightcone (C : Cosmo K) (read : ℕ → D) (zs : List K) (zLow zHigh : Option K)
    (gridN boxLength : K) (dnu : Option K) (fuel : ℕ) : Option (Except String (List (Used K D))) :=
  (outputZ C zs zLow zHigh gridN boxLength dnu fuel).map fun o => o.bind (scalarSlices read zs)

/-! ### Interpolation between two slices -/

/-- A data cube with its three sides. -/
structure Cube (K : Type) where
  n0 : ℕ
  n1 : ℕ
  n2 : ℕ
  val : ℕ → ℕ → ℕ → K

/-- `_get_slice(data, idx, los_axis)` of a 3-D cube (`lightcone.py` lines 493-508). An index beyond the
side gives an empty array, which cannot be assigned to a lightcone slice (line 148); that
error is reported here. `np.squeeze` on sides of length 1 is not modelled. -/
def getSlice (d : Cube K) (idx axis : ℕ) : Except String (ℕ → ℕ → K) :=
  if axis = 0 then
    if idx < d.n0 then .ok fun i j => d.val idx i j else .error "ValueError"
  else if axis = 1 then
    if idx < d.n1 then .ok fun i j => d.val i idx j else .error "ValueError"
  else if axis = 2 then
    if idx < d.n2 then .ok fun i j => d.val i j idx else .error "ValueError"
  else .error "AssertionError"

/-- The interpolation schemes of `make_lightcone`; `step_cell` carries the array of transition
positions that `_get_step_transitions` computes (randomised, not modelled). -/
inductive Scheme (K : Type) where
  | linear
  | step
  | sigmoid
  | stepCell (transitions : ℕ → ℕ → K)

/-- One cell of `_get_interp_slice` (`lightcone.py` lines 439-456; 473-477 for `step_cell`), given the
cell of the lower and of the upper slice. `exp` is `np.exp`. -/
def interpCell (exp : K → K) (s : Scheme K) (hi lo zh zl z : K) (i j : ℕ) : K :=
  match s with
  | .linear => ((z - zl) * hi + (zh - z) * lo) / (zh - zl)
  | .step => if z < (zh - zl) / 2 then lo else hi
  | .sigmoid =>
    let zp := -10 + 20 * (z - zl) / (zh - zl)
    let g := 1 / (1 + exp (-2 * zp))
    lo * (1 - g) + hi * g
  | .stepCell t => if z < zl + t i j * (zh - zl) then lo else hi

/-- `_get_interp_slice` (`lightcone.py` lines 431-458). -/
def interpSlice (exp : K → K) (s : Scheme K) (axis : ℕ) (u : Used K (Cube K)) :
    Except String (ℕ → ℕ → K) := do
  let idx := u.pos % u.dataLow.n1
  let lo ← getSlice u.dataLow idx axis
  let hi ← getSlice u.dataHigh idx axis
  .ok fun i j => interpCell exp s (hi i j) (lo i j) u.zHigh u.zLow u.z i j

/-! ### Sub-volumes -/

/-- The part of `get_lightcone_subvolume` after the redshift limits are known
(`lightcone.py` lines 402-428): the slice range `low_n:high_n` that is cut out. The verbose
message reads `redshifts[high_n]` (line 422). -/
def subvolume (redshifts : List K) (lowZ highZ : K) (odd verbose : Bool) :
    Except String (ℕ × ℕ) :=
  match redshifts.min?, redshifts.max? with
  | some mn, some mx =>
    if lowZ < mn then .error "Lowest z is outside range"
    else if mx < highZ then .error "Highest z is outside range"
    else
      let lowN := nearest redshifts lowZ
      let highN := nearest redshifts highZ
      let highN := if ((highN : Int) - lowN) % 2 = 0 ∧ odd = true then highN + 1 else highN
      if verbose = true ∧ ¬ highN < redshifts.length then .error "IndexError"
      else .ok (lowN, highN)
  | _, _ => .error "ValueError"

/-- The redshift limits for a depth in MHz (`lightcone.py` lines 389, 397, 399-400), with `nu_to_z` and
`z_to_nu` of `cosmo.py`. -/
def mhzLimits (nu0 centralZ depth : K) : K × K :=
  let nu := nu0 / (1 + centralZ)
  (nu0 / (nu + depth / 2) - 1, nu0 / (nu - depth / 2) - 1)

end Verif.Lightcone
