import Mathlib.Algebra.Order.Field.Basic
/-!
# Model of `source_file.py`, and of `write_to_file` without data

A source is its cell (0-based) and its mass.  The text file is a list of lines, a line a list of tokens.
-/

namespace Verif.Sources

variable {K : Type} [Field K] [LinearOrder K]

/-- One row of `sources_list` with four columns. -/
structure Source (K : Type) where
  x : ℤ
  y : ℤ
  z : ℤ
  mass : K
  deriving DecidableEq

/-- A white-space separated token of a line. -/
inductive Token (K : Type) where
  | int (n : ℤ)
  | num (v : K)

/-- `SourceFile.mass`: `'hm'`, `'lm'` or anything else. -/
inductive Mode where
  | hm | lm | other

/-- `SourceFile.write_to_file` (`source_file.py` lines 91-159) for a list with four columns.  `none` means
that nothing is written (lines 104-107).  `g` is `M_grid*solar_masses_per_gram`, `log10 (m * g)` is
`conv.gridmass_to_msol(m)`, and `fmt` is the formatting with six decimals. -/
def writeSources (log10 fmt : K → K) (g : K) (l : List (Source K)) : Option (List (List (Token K))) :=
  if l = [] then none
  else some ([.int l.length, .num 0] :: l.flatMap fun s =>
    [[.int (s.x + 1), .int (s.y + 1), .int (s.z + 1),
      .num (fmt (if 0 < s.mass then log10 (s.mass * g) else -99))], []])

/-- `np.array(text[:3], dtype=int) - 1` (`source_file.py` line 69). -/
def readPos : List (Token K) → Except String (ℤ × ℤ × ℤ)
  | .int x :: .int y :: .int z :: _ => .ok (x - 1, y - 1, z - 1)
  | _ => .error "ValueError"

/-- A float token: `float(text[i])`. -/
def tokenNum (t : Token K) : K :=
  match t with
  | .int n => n
  | .num v => v

/-- `np.power(10, conv.gridmass_to_msol(float(text[idx_mass])))` (`source_file.py` line 70) with exact
arithmetic: `10 ** log10(v)` is `v`, and nan (`none`) for negative `v`. With an index list
(`idx_mass = [3, 4]`) indexing a Python list raises. -/
def readMass (g : K) (mode : Mode) (text : List (Token K)) : Except String (Option K) :=
  let at_ (i : ℕ) : Except String (Option K) :=
    match text[i]? with
    | none => .error "IndexError"
    | some t => .ok (if tokenNum t * g < 0 then none else some (tokenNum t * g))
  match mode with
  | .hm => at_ 3
  | .lm => at_ 4
  | .other => .error "TypeError"

/-- The loop of `SourceFile.read_from_file` (`source_file.py` lines 65-70). -/
def readLoop (g : K) (mode : Mode) (lines : List (List (Token K))) (i : ℕ) :
    ℕ → Except String (List ((ℤ × ℤ × ℤ) × Option K))
  | 0 => .ok []
  | n + 1 =>
    match lines[2 * i + 1]? with
    | none => .error "IndexError"
    | some text => do
      let p ← readPos text
      let m ← readMass g mode text
      let rest ← readLoop g mode lines (i + 1) n
      .ok ((p, m) :: rest)

/-- `SourceFile.read_from_file` (`source_file.py` lines 37-79). -/
def readSources (g : K) (mode : Mode) (lines : List (List (Token K))) :
    Except String (List ((ℤ × ℤ × ℤ) × Option K)) :=
  match lines with
  | [] => .error "IndexError"
  | [] :: _ => .error "IndexError"
  | (.num _ :: _) :: _ => .error "ValueError"
  | (.int n :: _) :: _ => readLoop g mode lines 0 n.toNat

/-- Index of an axis of length `mesh`: negative indices count from the end. -/
def wrapIndex (mesh : ℕ) (i : ℤ) : Option ℤ :=
  if 0 ≤ i ∧ i < mesh then some i
  else if -(mesh : ℤ) ≤ i ∧ i < 0 then some (i + mesh)
  else none

/-- `SourceFile.grid_sources` (`source_file.py` lines 81-89). -/
def gridSources (mesh : ℕ) : List (Source K) → (ℤ × ℤ × ℤ → K) → Except String (ℤ × ℤ × ℤ → K)
  | [], f => .ok f
  | s :: l, f =>
    match wrapIndex mesh s.x, wrapIndex mesh s.y, wrapIndex mesh s.z with
    | some i, some j, some k => gridSources mesh l (Function.update f (i, j, k) s.mass)
    | _, _, _ => .error "IndexError"

/-- A `VelocityFile`, `ClumpingFile` or `SourceFile` object together with the disk: the data attribute of the
object (`none` for Python's `None`) and the contents of the files. Contents are identified with the data
they decode to; the byte level is in `Verif.Files`. -/
structure Session (D : Type) where
  data : Option D
  files : String → Option D

/-- One call on the object: `read_from_file(f)` or `write_to_file(f, data)`, `none` when the data argument is
left out. -/
inductive Call (D : Type) where
  | read (f : String)
  | write (f : String) (arg : Option D)

/-- `read_from_file` replaces the data (`vel_file.py` lines 33-66, `density_file.py` lines 152-180,
`source_file.py` lines 37-79), raising for a missing file, which leaves the object as it was.
`write_to_file` (`vel_file.py` lines 82-110, `density_file.py` lines 192-217, `source_file.py` lines
104-159) first assigns its argument to the attribute, also when it is `None`, and only then looks whether
there is anything to write. -/
def Session.call {D : Type} (s : Session D) : Call D → Session D
  | .read f =>
    match s.files f with
    | none => s
    | some d => { s with data := some d }
  | .write f arg =>
    let s := { s with data := arg }
    match s.data with
    | none => s
    | some d => { s with files := Function.update s.files f (some d) }

end Verif.Sources
