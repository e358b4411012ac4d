import Mathlib.Algebra.Order.Field.Rat
/-!
# Model of the coeval cube readers of `usefuls.py` and `read_files.py`

A directory is the list of its snapshots, redshift (from the file name) and cube, in the order
of `glob.glob`, which is arbitrary.  A cube is a function of the cell.
-/

namespace Verif.Coeval

/-- The exceptions that occur. -/
inductive Err
  | type
  | value
  | index
  | attribute
  deriving DecidableEq

/-- `a.argmax()`: the first index of the greatest entry; raises on an empty array. -/
def argmax (l : List ℚ) : Except Err ℕ :=
  match l.findIdx? fun x => decide (∀ y ∈ l, y ≤ x) with
  | some i => .ok i
  | none => .error .value

/-- `a.argmin()`. -/
def argmin (l : List ℚ) : Except Err ℕ :=
  match l.findIdx? fun x => decide (∀ y ∈ l, x ≤ y) with
  | some i => .ok i
  | none => .error .value

/-- `files[i]`. -/
def file {ι : Type*} (files : List (ℚ × (ι → ℚ))) (i : ℕ) : Except Err (ι → ℚ) :=
  match files[i]? with
  | some f => .ok f.2
  | none => .error .index

/-- `coeval_xfrac` and `coeval_dens` (`usefuls.py` lines 53-95) and `coeval_xfrac_c2ray`
(`read_files.py` lines 102-132).  If the redshift is there, a list is indexed with the
two-dimensional array of `np.argwhere`, which raises.  Otherwise the position within the
selected redshifts is used as the position in the list of all files.  The conversion to double
precision is left out. -/
def coeval {ι : Type*} (files : List (ℚ × (ι → ℚ))) (z : ℚ) : Except Err (ι → ℚ) :=
  let zs := files.map Prod.fst
  if z ∈ zs then .error .type
  else
    let lo := zs.filter fun x => x < z
    let hi := zs.filter fun x => z < x
    match argmax lo, argmin hi with
    | .ok i, .ok j =>
      let zl := lo.getD i 0
      let zh := hi.getD j 0
      match file files i, file files j with
      | .ok fl, .ok fh => .ok fun c => fh c + (fl c - fh c) * (z - zh) / (zl - zh)
      | .error e, _ => .error e
      | _, .error e => .error e
    | .error e, _ => .error e
    | _, .error e => .error e

/-- `coeval_vel` (`usefuls.py` lines 107-133): in the inner function the parameter `vel_file`
hides the module of that name, so that calling it raises. -/
def coevalVel (vels dens : List ℚ) (z : ℚ) : Except Err Unit :=
  if z ∈ vels then .error .type
  else
    match argmax (vels.filter fun x => x < z), argmin (vels.filter fun x => z < x) with
    | .ok i, .ok _ => if i < vels.length ∧ i < dens.length then .error .attribute else .error .index
    | .error e, _ => .error e
    | _, .error e => .error e

/-- `coeval_dens_c2ray` (`read_files.py` lines 134-161). -/
def coevalDens {ι : Type*} (files : List (ℚ × (ι → ℚ))) (z : ℚ) : Except Err (ι → ℚ) :=
  let zs := files.map Prod.fst
  if z ∈ zs then .error .type
  else
    let hi := zs.filter fun x => z < x
    match argmin hi with
    | .ok j =>
      let zh := hi.getD j 0
      match file files j with
      | .ok fh => .ok fun c => fh c * (1 + zh) ^ 3 / (1 + z) ^ 3
      | .error e => .error e
    | .error e => .error e

end Verif.Coeval
