import Mathlib.Data.List.Basic
/-!
# Arrays and binary files as numpy sees them

Library semantics used by the file readers and writers: n-dimensional arrays, `flatten`, `reshape`,
`.T`, `tofile` and `fromfile`.  Not code of the repository itself; the functions that use these are in
`Model/Files.lean`.
-/

namespace Verif.Nd

/-- An array: its shape, and the value at every multi-index (values outside the shape are meaningless). -/
structure Arr (V : Type) where
  shape : List ℕ
  val : List ℕ → V

/-- The multi-indices of a shape, last index fastest (numpy order `'C'`). -/
def indicesC : List ℕ → List (List ℕ)
  | [] => [[]]
  | n :: s => (List.range n).flatMap fun i => (indicesC s).map (i :: ·)

/-- numpy's memory orders. -/
inductive Order where
  | C
  | F
  deriving DecidableEq

/-- The multi-indices of a shape in the given order; `'F'` runs the first index fastest. -/
def indices : Order → List ℕ → List (List ℕ)
  | .C, s => indicesC s
  | .F, s => (indicesC s.reverse).map List.reverse

variable {V W : Type}

/-- `a.flatten(order=o)`. -/
def Arr.flatten (a : Arr V) (o : Order) : List V := (indices o a.shape).map a.val

/-- `a.T`. -/
def Arr.T (a : Arr V) : Arr V := ⟨a.shape.reverse, fun i => a.val i.reverse⟩

/-- `a.astype(...)` and other element-wise operations. -/
def Arr.map (f : V → W) (a : Arr V) : Arr W := ⟨a.shape, fun i => f (a.val i)⟩

/-- `np.reshape(l, shape, order=o)` of a one-dimensional array: the elements are read off in sequence
and placed along the index order; a different number of elements raises. -/
def reshape [Inhabited V] (l : List V) (shape : List ℕ) (o : Order) : Except String (Arr V) :=
  if l.length = shape.prod then
    .ok ⟨shape, fun i => (l[(indices o shape).idxOf i]?).getD default⟩
  else .error "ValueError: cannot reshape"

/-- Little-endian bytes of a `w`-byte word. -/
def leBytes : ℕ → ℕ → List ℕ
  | 0, _ => []
  | w + 1, n => n % 256 :: leBytes w (n / 256)

/-- The word stored in little-endian bytes. -/
def leNat : List ℕ → ℕ
  | [] => 0
  | b :: bs => b + 256 * leNat bs

/-- `tofile` of an array of `w`-byte words. -/
def toBytes (w : ℕ) (l : List ℕ) : List ℕ := l.flatMap (leBytes w)

/-- `np.fromfile(f, count=c)` of `w`-byte words: the words read (fewer at the end of the file) and the
rest of the file. -/
def fromFile (w : ℕ) : ℕ → List ℕ → List ℕ × List ℕ
  | 0, bs => ([], bs)
  | c + 1, bs =>
    if bs.length < w then ([], bs)
    else
      let r := fromFile w c (bs.drop w)
      (leNat (bs.take w) :: r.1, r.2)

/-- `np.fromfile(f)` without `count`: all complete words. -/
def fromFileAll (w : ℕ) (bs : List ℕ) : List ℕ := (fromFile w (bs.length / w) bs).1

end Verif.Nd
