import Mathlib.Data.Nat.Notation
import Mathlib.Data.Int.Notation

/-!
# Particles of PKDGRAV3 in the tipsy format

`ReaderPkdgrav3.read_particles` of `nbody_pkdgrav.py` (lines 54-79).  A file is the list of its bytes; numbers are kept as the bit patterns of their words, of which only
the counts of the header are interpreted (as signed integers).
-/

namespace Verif.Tipsy

/-- The errors of Python. -/
inductive Err where
  | index
  deriving DecidableEq

/-- The word of some bytes, the most significant first (the `>` of the types of lines 56-62). -/
def beWord (bytes : List ℕ) : ℕ := bytes.foldl (fun n b => 256 * n + b) 0

/-- A word of four bytes as a signed integer (`i4`). -/
def signed32 (w : ℕ) : ℤ := if w < 2 ^ 31 then w else (w : ℤ) - 2 ^ 32

/-- A structured type: names and widths of the fields. -/
abbrev DType := List (String × ℕ)

/-- `header_type` (line 56). -/
def headerType : DType := [("time", 8), ("N", 4), ("Dims", 4), ("Ngas", 4), ("Ndark", 4), ("Nstar", 4), ("pad", 4)]

/-- `gas_type` (lines 57-58). -/
def gasType : DType := [("mass", 4), ("x", 4), ("y", 4), ("z", 4), ("vx", 4), ("vy", 4), ("vz", 4), ("rho", 4), ("temp", 4), ("hsmooth", 4), ("metals", 4), ("phi", 4)]

/-- `dark_type` (lines 59-60). -/
def darkType : DType := [("mass", 4), ("x", 4), ("y", 4), ("z", 4), ("vx", 4), ("vy", 4), ("vz", 4), ("eps", 4), ("phi", 4)]

/-- `star_type` (lines 61-62). -/
def starType : DType := [("mass", 4), ("x", 4), ("y", 4), ("z", 4), ("vx", 4), ("vy", 4), ("vz", 4), ("metals", 4), ("tform", 4), ("eps", 4), ("phi", 4)]

/-- `dtype.itemsize` of a packed type. -/
def itemsize (t : DType) : ℕ := (t.map (·.2)).sum

/-- The fields of one record. -/
def record : DType → List ℕ → List ℕ
  | [], _ => []
  | (_, w) :: t, bytes => beWord (bytes.take w) :: record t (bytes.drop w)

/-- The first `n` records of some bytes. -/
def records (t : DType) : ℕ → List ℕ → List (List ℕ)
  | 0, _ => []
  | n + 1, bytes => record t bytes :: records t n (bytes.drop (itemsize t))

/-- `np.fromfile(file, dtype=t, count=c)` on an open file: the records and the bytes that are left.  A negative count stands for as many records as there are; with too few
bytes for a count that is not negative, there are fewer records and the file is at its end. -/
def fromfile (t : DType) (c : ℤ) (bytes : List ℕ) : List (List ℕ) × List ℕ :=
  let there := bytes.length / itemsize t
  if c < 0 then (records t there bytes, bytes.drop (there * itemsize t))
  else if c.toNat ≤ there then (records t c.toNat bytes, bytes.drop (c.toNat * itemsize t))
  else (records t there bytes, [])

/-- A data frame: names of the columns and rows. -/
structure Frame where
  columns : List String
  rows : List (List ℕ)
  deriving DecidableEq

/-- `pd.DataFrame(a, columns=a.dtype.names)` (lines 67, 69, 71). -/
def frame (t : DType) (rows : List (List ℕ)) : Frame := ⟨t.map (·.1), rows⟩

/-- The dictionary that is returned (lines 74-79). -/
structure Data where
  header : List (String × ℕ)
  gas : Frame
  dark : Frame
  star : Frame
  deriving DecidableEq

/-- A count of the header (`header['Ngas']` and so on); the names are all there. -/
def count (header : List (String × ℕ)) (name : String) : ℤ := signed32 ((header.lookup name).getD 0)

/-- `read_particles` (lines 54-79). -/
def readParticles (file : List ℕ) : Except Err Data :=
  let h := fromfile headerType 1 file
  match h.1 with
  | [] => .error .index
  | h0 :: _ =>
    let header := (headerType.map (·.1)).zip h0
    let gas := fromfile gasType (count header "Ngas") h.2
    let dark := fromfile darkType (count header "Ndark") gas.2
    let star := fromfile starType (count header "Nstar") dark.2
    .ok ⟨header, frame gasType gas.1, frame darkType dark.1, frame starType star.1⟩

end Verif.Tipsy
