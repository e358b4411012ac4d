import Mathlib.Data.Rat.Floor
import Mathlib.Data.Fin.VecNotation
import Mathlib.Data.List.Dedup
import Mathlib.Data.List.Sort
import Mathlib.Data.Fintype.Pi
import Mathlib.Logic.Function.Basic
/-!
# Model of the test-time augmentation in `segmentation.py`

Three-dimensional arrays as functions of integer coordinates with a shape.  The network is a
parameter that maps a two-dimensional slice to a slice of the same shape.
-/

namespace Verif.Augment

/-- A three-dimensional array. -/
structure Arr (R : Type*) where
  shape : Fin 3 → ℕ
  val : (Fin 3 → ℤ) → R

variable {R : Type*}

/-- `np.flip(m, d)`. -/
def Arr.flip (d : Fin 3) (m : Arr R) : Arr R :=
  ⟨m.shape, fun c => m.val (Function.update c d (m.shape d - 1 - c d))⟩

/-- `np.transpose` exchanging the axes `a` and `b`. -/
def Arr.swap (a b : Fin 3) (m : Arr R) : Arr R :=
  ⟨m.shape ∘ Equiv.swap a b, fun c => m.val (c ∘ Equiv.swap a b)⟩

/-- `np.rot90(m, k, axes=(a, b))`. -/
def Arr.rot90 (k : ℤ) (a b : Fin 3) (m : Arr R) : Arr R :=
  if k % 4 = 0 then m
  else if k % 4 = 2 then (m.flip a).flip b
  else if k % 4 = 1 then (m.flip b).swap a b
  else (m.swap a b).flip b

/-- The functions of the list `func` (`segmentation.py` line 140). -/
inductive Opt where
  | id | fliplr | flipud | udlr | lrud
  deriving DecidableEq

/-- Their action; `np.fliplr` flips axis 1, `np.flipud` axis 0. -/
def Opt.apply : Opt → Arr R → Arr R
  | .id, m => m
  | .fliplr, m => m.flip 1
  | .flipud, m => m.flip 0
  | .udlr, m => (m.flip 1).flip 0
  | .lrud, m => (m.flip 0).flip 1

/-- `ax_tup`: the axes without `rotax` (`segmentation.py` lines 151-152, 187-188, 200-201). -/
def axes : Fin 3 → Fin 3 × Fin 3
  | 0 => (1, 2)
  | 1 => (0, 2)
  | 2 => (0, 1)

/-- An entry `[f, rotax, rot]` of the table of operations. -/
abbrev Manip := Opt × Fin 3 × ℤ

/-- `np.rot90(opt(x), k=rot, axes=ax_tup)` (`segmentation.py` line 190, also 154). -/
def forward (o : Manip) (x : Arr R) : Arr R :=
  (o.1.apply x).rot90 o.2.2 (axes o.2.1).1 (axes o.2.1).2

/-- `opt(np.rot90(X_tta[itta], k=-rot, axes=ax_tup))` (`segmentation.py` line 202). -/
def backward (o : Manip) (x : Arr R) : Arr R :=
  o.1.apply (x.rot90 (-o.2.2) (axes o.2.1).1 (axes o.2.1).2)

/-- The 60 operations in the order of the loops (`segmentation.py` lines 140-156). -/
def allOps : List Manip :=
  [Opt.id, .fliplr, .flipud, .udlr, .lrud].flatMap fun f =>
    [(0 : Fin 3), 1, 2].flatMap fun ax => [(0 : ℤ), 1, 2, 3].map fun r => (f, ax, r)

/-- `np.array(range(27)).reshape((3,3,3))` (`segmentation.py` line 138). -/
def data27 : Arr ℤ := ⟨fun _ => 3, fun c => 9 * c 0 + 3 * c 1 + c 2⟩

/-- `.flatten()` of a cube of side 3. -/
def flatten27 (m : Arr ℤ) : List ℤ :=
  [(0 : ℤ), 1, 2].flatMap fun i => [(0 : ℤ), 1, 2].flatMap fun j =>
    [(0 : ℤ), 1, 2].map fun k => m.val ![i, j, k]

/-- One row of `tot_manipl_data_flat` (`segmentation.py` line 154). -/
def row (o : Manip) : List ℤ := flatten27 (forward o data27)

/-- `uniq_operations` of `IndependentOperations` (`segmentation.py` lines 158-169): for every
distinct row the first operation producing it.  `np.unique` sorts the rows; here they are in
order of appearance, which only renumbers the keys. -/
def uniqueOps : List Manip :=
  ((allOps.map row).dedup).filterMap fun r => allOps.find? fun o => row o == r

/-- `self.MANIP` (`segmentation.py` lines 101-104). -/
def manip (tta : ℤ) : List Manip := if tta = 2 then uniqueOps else [(.id, 0, 0)]

/-- A two-dimensional slice with its shape. -/
structure Slice (R : Type*) where
  rows : ℕ
  cols : ℕ
  val : ℤ → ℤ → R

/-- `X[:, j, :, :, :]`, `X[:, :, j, :, :]` and `X[:, :, :, j, :]`. -/
def Arr.slice (m : Arr R) : Fin 3 → ℤ → Slice R
  | 0, j => ⟨m.shape 1, m.shape 2, fun p q => m.val ![j, p, q]⟩
  | 1, j => ⟨m.shape 0, m.shape 2, fun p q => m.val ![p, j, q]⟩
  | 2, j => ⟨m.shape 0, m.shape 1, fun p q => m.val ![p, q, j]⟩

/-- The two coordinates left within a slice across axis `d`. -/
def within (d : Fin 3) (c : Fin 3 → ℤ) : ℤ × ℤ := (c (axes d).1, c (axes d).2)

/-- The copy predicted slice by slice across axis `d` (`segmentation.py` lines 193-196):
planes `0 .. n0-1` are filled, where `n0` is the first side of the image; the others keep the
zeros of `X_tta`. -/
def copy [Zero R] (net : Slice R → Slice R) (n0 : ℕ) (cube : Arr R) (d : Fin 3) : Arr R :=
  ⟨cube.shape, fun c =>
    if c d < n0 then (net (cube.slice d (c d))).val (within d c).1 (within d c).2 else 0⟩

/-- `np.round`: halves go to the even neighbour. -/
def roundEven (q : ℚ) : ℤ :=
  if q - ⌊q⌋ < 1 / 2 then ⌊q⌋
  else if 1 / 2 < q - ⌊q⌋ then ⌊q⌋ + 1
  else if ⌊q⌋ % 2 = 0 then ⌊q⌋ else ⌊q⌋ + 1

/-- The copies stacked in `X_tta`, over the three axes and the operations, each turned back
(`segmentation.py` lines 180-203). -/
def copies (net : Slice ℚ → Slice ℚ) (ops : List Manip) (x : Arr ℚ) : List (Arr ℚ) :=
  [(0 : Fin 3), 1, 2].flatMap fun d =>
    ops.map fun o => backward o (copy net (x.shape 0) (forward o x) d)

/-- `np.mean(X_tta, axis=0)` (`segmentation.py` line 204). -/
def mean (l : List (Arr ℚ)) (c : Fin 3 → ℤ) : ℚ := (l.map fun m => m.val c).sum / l.length

/-- `np.std(X_tta, axis=0)` (`segmentation.py` line 205), squared. -/
def variance (l : List (Arr ℚ)) (c : Fin 3 → ℤ) : ℚ :=
  (l.map fun m => (m.val c - mean l c) ^ 2).sum / l.length

/-- `prediction` (`segmentation.py` lines 172-206): the rounded mean and the squared
standard deviation of all copies.  Raises when a copy does not fit into `X_tta` or a plane does
not exist (broadcasting of sides of length one is not modelled). -/
def prediction (net : Slice ℚ → Slice ℚ) (ops : List Manip) (x : Arr ℚ) :
    Except String (((Fin 3 → ℤ) → ℤ) × ((Fin 3 → ℤ) → ℚ)) :=
  if ∃ o ∈ ops, (forward o x).shape ≠ x.shape ∨ ∃ d, (forward o x).shape d < x.shape 0 then
    .error "could not broadcast, or index out of bounds"
  else
    .ok (fun c => roundEven (mean (copies net ops x) c), variance (copies net ops x))

end Verif.Augment
