import Mathlib.Data.Rat.Floor
import Mathlib.Algebra.Order.Field.Rat
import Mathlib.Logic.Function.Basic
/-!
# Model of the UV map cache: `radio_telescope_noise.get_uv_map_lightcone` (lines 182-318)

The cache file is a pickled (or HDF5, ...) dictionary, rewritten in place by `write_dictionary_data`
(`read_files.py` lines 243-316). A run is a sequence of events; a crash stops the run after any number of events.
-/

namespace Verif.UVCache

variable {Z K M F V : Type}

/-- The dictionary `uvs`: observation parameters and one map per redshift key. -/
structure Cache (K M F V : Type) where
  params : F → Option V
  maps : K → Option M

/-- State of the file `save_uvmap`. A file that was opened for writing and not completed is `torn`: every reader of
`read_dictionary_data` (`read_files.py` lines 164-241) raises on it. -/
inductive File (K M F V : Type) where
  | absent
  | torn
  | complete (c : Cache K M F V)

/-- Visible steps of a run. -/
inductive Event (Z K M F V : Type) where
  | compute (z : Z)                    -- `_uvmap_worker(zi)`
  | openForWriting                     -- `open(filename, 'wb')`, `h5py.File(filename, 'w')`: truncates
  | written (c : Cache K M F V)        -- the file is complete and closed

/-- Effect of an event on the file. -/
def File.after (f : File K M F V) : Event Z K M F V → File K M F V
  | .compute _ => f
  | .openForWriting => .torn
  | .written c => .complete c

/-- The file after a sequence of events. -/
def fileAfter (f : File K M F V) (es : List (Event Z K M F V)) : File K M F V := es.foldl File.after f

/-- File formats of `write_dictionary_data`, by what they do with a dictionary that contains arrays: `pickle`, `hdf5` and
`npz` store it; `json` and `yaml` open the file and raise while writing an array; the others raise
before the file is opened (an unsupported extension, or a table/dataset that cannot be built from the dictionary). -/
inductive Format where
  | stores | raisesAfterOpen | raisesBeforeOpen
  deriving DecidableEq

/-- Arguments of `get_uv_map_lightcone` that control the run. -/
structure Config where
  save : Bool               -- `save_uvmap` given
  format : Format
  nJobs : ℤ
  checkpoint : Option ℤ

/-- `uvs['{:.3f}'.format(zi)] = uv_map`. -/
def Cache.put [DecidableEq K] (c : Cache K M F V) (k : K) (m : M) : Cache K M F V :=
  { c with maps := Function.update c.maps k (some m) }

/-- The updates for a list of redshifts, in order. -/
def putAll [DecidableEq K] (key : Z → K) (worker : Z → M) (c : Cache K M F V) (l : List Z) : Cache K M F V :=
  l.foldl (fun c z => c.put (key z) (worker z)) c

/-- `write_dictionary_data(uvs, save_uvmap)`. -/
def writeEvents (c : Cache K M F V) : List (Event Z K M F V) := [.openForWriting, .written c]

/-- Chunked parallel branch (lines 272-289): after each chunk of `n + 1` redshifts the dictionary is saved. -/
def chunked [DecidableEq K] (key : Z → K) (worker : Z → M) (save : Bool) (n : ℕ) (c : Cache K M F V) (l : List Z) :
    List (Event Z K M F V) :=
  match l with
  | [] => []
  | z :: l =>
    let chunk := (z :: l).take (n + 1)
    let c' := putAll key worker c chunk
    chunk.map .compute ++ (if save then writeEvents c' else []) ++ chunked key worker save n c' ((z :: l).drop (n + 1))
termination_by l.length
decreasing_by simp only [List.length_drop, List.length_cons]; omega

/-- `checkpoint and (i + 1) % checkpoint == 0` (line 305). -/
def isCheckpoint (checkpoint : Option ℤ) (i : ℕ) : Bool :=
  match checkpoint with
  | none => false
  | some n => decide (n ≠ 0) && decide (((i : ℤ) + 1) % n = 0)

/-- Sequential branch (lines 300-309), from the `i`-th redshift of `total`. -/
def sequential [DecidableEq K] (key : Z → K) (worker : Z → M) (save : Bool) (checkpoint : Option ℤ) (total : ℕ) :
    ℕ → Cache K M F V → List Z → List (Event Z K M F V)
  | _, _, [] => []
  | i, c, z :: l =>
    let c' := c.put (key z) (worker z)
    .compute z :: ((if save && isCheckpoint checkpoint i && decide (i + 1 < total) then writeEvents c' else [])
      ++ sequential key worker save checkpoint total (i + 1) c' l)

/-- Lines 259-315 for the redshifts `zrun` that are not in the dictionary: the events up to the return. -/
def produce [DecidableEq K] (key : Z → K) (worker : Z → M) (cfg : Config) (c : Cache K M F V) (zrun : List Z) :
    List (Event Z K M F V) :=
  match zrun with
  | [] => []
  | _ =>
    let body := match cfg.checkpoint with
      | some n => if 1 < cfg.nJobs ∧ 0 < n then chunked key worker cfg.save (n.toNat - 1) c zrun
          else if 1 < cfg.nJobs then zrun.map .compute
          else sequential key worker cfg.save cfg.checkpoint zrun.length 0 c zrun
      | none => if 1 < cfg.nJobs then zrun.map .compute
          else sequential key worker cfg.save cfg.checkpoint zrun.length 0 c zrun
    body ++ (if cfg.save then writeEvents (putAll key worker c zrun) else [])

/-- The events before the first `openForWriting`. -/
def beforeOpen (es : List (Event Z K M F V)) : List (Event Z K M F V) :=
  es.takeWhile fun e => match e with | .openForWriting => false | _ => true

/-- Does the run write? -/
def writes (es : List (Event Z K M F V)) : Bool :=
  es.any fun e => match e with | .openForWriting => true | _ => false

/-- `cached_val is not None and cached_val != current_val` (line 242). -/
def mismatch [DecidableEq V] (params : F → V) (c : Cache K M F V) (x : F) : Bool :=
  match c.params x with
  | none => false
  | some v => decide (v ≠ params x)

/-- Lines 231-257: load the cache and compare its parameters, or start a new one. `f` is `absent` if no file name
was given. -/
def load [DecidableEq V] (fields : List F) (params : F → V) (f : File K M F V) : Except String (Cache K M F V) :=
  match f with
  | .absent => .ok ⟨fun x => some (params x), fun _ => none⟩
  | .torn => .error "UnpicklingError"
  | .complete c => if fields.any (mismatch params c) then .error "ValueError" else .ok c

/-- Lines 259-318 once the dictionary `c` is loaded. -/
def execute [DecidableEq K] (key : Z → K) (worker : Z → M) (cfg : Config) (c : Cache K M F V) (zs : List Z) :
    List (Event Z K M F V) × Except String (Cache K M F V) :=
  let zrun := zs.filter fun z => (c.maps (key z)).isNone                  -- line 260
  let es := produce key worker cfg c zrun
  if writes es = true then
    match cfg.format with
    | .stores => (es, .ok (putAll key worker c zrun))
    | .raisesAfterOpen => (beforeOpen es ++ [.openForWriting], .error "TypeError")
    | .raisesBeforeOpen => (beforeOpen es, .error "ValueError")
  else (es, .ok (putAll key worker c zrun))

/-- `get_uv_map_lightcone` (lines 182-318): the events and the returned dictionary or exception. `subarray_type` is a name
(with an array of antenna positions line 220 raises). -/
def run [DecidableEq K] [DecidableEq V] (fields : List F) (key : Z → K) (worker : Z → M) (cfg : Config)
    (params : F → V) (f : File K M F V) (zs : List Z) :
    List (Event Z K M F V) × Except String (Cache K M F V) :=
  match load fields params (if cfg.save then f else .absent) with
  | .error e => ([], .error e)
  | .ok c => execute key worker cfg c zs

/-- The number in `'{:.3f}'.format(z)`, in thousandths: round half to even. -/
def key3 (z : ℚ) : ℤ :=
  let x := 1000 * z
  let f := ⌊x⌋
  if x - f < 1 / 2 then f else if 1 / 2 < x - f then f + 1 else if f % 2 = 0 then f else f + 1

end Verif.UVCache
