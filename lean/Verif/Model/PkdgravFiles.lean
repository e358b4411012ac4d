import Verif.Model.Pkdgrav
/-!
# Model of the functions around the reader of pkdgrav haloes

`read_pkdgrav_fof_halo_catalogue` (`nbody_file.py` lines 152-173), `read_pkdgrav_density_grid` (lines 175-193) and `save_fof_data` (`nbody_pkdgrav.py` lines 202-216).
The reader itself is `Model/Pkdgrav`.
-/

namespace Verif.PkdgravFiles
open Verif.Pkdgrav

/-- The default of `rho_c`, which the functions pass on (`nbody_file.py` lines 169-170 and 190-191). -/
def rhoC : ℝ := 277536627 * 1000

/-- `read_pkdgrav_fof_halo_catalogue` (`nbody_file.py` lines 152-173) of a file or a list of files: `box_len` is computed (line 168) and not used. -/
noncomputable def catalogue (files : List (List Halo)) (boxDim hlittle : ℝ) : Except Err (Option (List (ℝ × (Fin 3 → ℝ)))) :=
  let _boxLen := boxDim * hlittle
  match readFof boxDim rhoC none files with
  | .error e => .error e
  | .ok s => .ok (arrayFof boxDim s)

/-- `read_pkdgrav_density_grid` (`nbody_file.py` lines 175-193). -/
noncomputable def densityGrid (dens : List ℝ) (boxDim : ℝ) (nGrid : Option ℕ) : Except Err (ℕ × (ℕ → ℕ → ℕ → Option ℝ)) := loadDensity dens boxDim rhoC nGrid

/-- The kinds of files that are written. -/
inductive Format
  | txt | npy
  deriving DecidableEq

/-- What a file has: the lines, or the object `None`. -/
inductive Content
  | lines (l : List (ℝ × (Fin 3 → ℝ)))
  | nothing

/-- The messages of `save_fof_data`. -/
inductive Message
  | saved | unknown
  deriving DecidableEq

/-- `savefile[-5:]` of a name. -/
def tail5 (name : List Char) : List Char := name.drop (name.length - 5)

/-- The message (`nbody_pkdgrav.py` lines 213-216). -/
def messageOf (verbose isSaved : Bool) : Message := if verbose && isSaved then .saved else .unknown

/-- `save_fof_data` (`nbody_pkdgrav.py` lines 202-216): what is written, and the message.  If nothing has been read, `array_fof_data` returns `None`, which
`np.savetxt` rejects and `np.save` writes as an object. -/
def save (L : ℝ) (s : State) (verbose : Bool) (name : List Char) : Except Err (Option (Format × Content) × Message) :=
  if ".txt".toList <:+: tail5 name then
    match arrayFof L s with
    | none => .error .value
    | some l => .ok (some (.txt, .lines l), messageOf verbose true)
  else if ".npy".toList <:+: tail5 name then
    match arrayFof L s with
    | none => .ok (some (.npy, .nothing), messageOf verbose true)
    | some l => .ok (some (.npy, .lines l), messageOf verbose true)
  else .ok (none, messageOf verbose false)

end Verif.PkdgravFiles
