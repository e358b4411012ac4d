import Mathlib.Data.Fintype.BigOperators
import Mathlib.Data.Int.Interval
import Mathlib.Algebra.Order.Field.Rat
import Mathlib.Data.Fin.VecNotation
/-!
# Model of `topology.py`: `genus`
-/

namespace Verif.Genus

/-- A cube of `shape 0 × shape 1 × shape 2` numbers; only the cells of the box are used. -/
structure Cube (K : Type) where
  shape : Fin 3 → ℕ
  val : ℤ → ℤ → ℤ → K

/-- A structuring element of 3 × 3 × 3 zeros and ones. -/
abbrev Stencil := Fin 3 → Fin 3 → Fin 3 → Bool

/-- The element types of `data>=xth` (bool) and of `1-data` (integers). -/
inductive DType where
  | bool
  | int

/-- The value as it is stored in an array of the type: `scipy.ndimage` returns an array of the type of its input. -/
def DType.store (t : DType) (n : ℕ) : ℕ :=
  match t with
  | .int => n
  | .bool => if n = 0 then 0 else 1

/-- `scipy.ndimage.filters.convolve(data, w, mode='wrap')` of a cube of zeros and ones, before it is stored
(`topology.py` lines 202-203): the weights are mirrored, the box is periodic. -/
def convolve (s : Fin 3 → ℕ) (f : ℤ → ℤ → ℤ → Bool) (w : Stencil) (x y z : ℤ) : ℕ :=
  ∑ i : Fin 3, ∑ j : Fin 3, ∑ k : Fin 3,
    if w i j k && f ((x + 1 - i) % s 0) ((y + 1 - j) % s 1) ((z + 1 - k) % s 2) then 1 else 0

/-- `stela.sum()`. -/
def total (w : Stencil) : ℕ := ∑ i : Fin 3, ∑ j : Fin 3, ∑ k : Fin 3, if w i j k then 1 else 0

/-- `neb26` and `neba` (lines 202-203): the product with the data. -/
def around (t : DType) (s : Fin 3 → ℕ) (f : ℤ → ℤ → ℤ → Bool) (w : Stencil) (x y z : ℤ) : ℕ :=
  t.store (convolve s f w x y z) * (if f x y z then 1 else 0)

/-- The cells of the box. -/
def cells (s : Fin 3 → ℕ) : Finset (ℤ × ℤ × ℤ) :=
  Finset.Ico 0 (s 0 : ℤ) ×ˢ Finset.Ico 0 (s 1 : ℤ) ×ˢ Finset.Ico 0 (s 2 : ℤ)

/-- `count_neighbors_once` (lines 200-205): how often `stela.sum()` is among the values of `neba[neba==neb26]`. -/
def countOnce (t : DType) (s : Fin 3 → ℕ) (f : ℤ → ℤ → ℤ → Bool) (w : Stencil) : ℕ :=
  ((cells s).filter fun p => around t s f w p.1 p.2.1 p.2.2 = around t s f (fun _ _ _ => true) p.1 p.2.1 p.2.2 ∧
    around t s f w p.1 p.2.1 p.2.2 = total w).card

/-- `np.rot90(m, 1, (0,1))`. -/
def rot1 (m : Stencil) : Stencil := fun i j k => m j i.rev k

/-- `np.rot90(m, 2, (0,1))`. -/
def rot2 (m : Stencil) : Stencil := fun i j k => m i.rev j.rev k

/-- `np.rot90(m, 3, (0,1))`. -/
def rot3 (m : Stencil) : Stencil := fun i j k => m j.rev i k

/-- `np.rot90(m, 2, (0,2))`. -/
def turn (m : Stencil) : Stencil := fun i j k => m i.rev j k.rev

/-- `count_neighbors` (lines 189-198). -/
def countAll (t : DType) (s : Fin 3 → ℕ) (f : ℤ → ℤ → ℤ → Bool) (w : Stencil) : ℕ :=
  countOnce t s f w + countOnce t s f (rot1 w) + countOnce t s f (rot2 w) + countOnce t s f (rot3 w) +
    countOnce t s f (turn w) + countOnce t s f (rot1 (turn w)) + countOnce t s f (rot2 (turn w)) + countOnce t s f (rot3 (turn w))

/-- A structuring element with ones in the listed cells. -/
def ofList (l : List (Fin 3 × Fin 3 × Fin 3)) : Stencil := fun i j k => l.contains (i, j, k)

/-- `stela` (lines 160-161). -/
def stela : Stencil := fun i j k => decide (i < 2) && decide (j < 2) && decide (k < 2)

/-- `steld` (lines 163-168). -/
def steld : Stencil := ofList [(0,0,0), (0,0,1), (0,0,2), (0,1,0), (0,1,1), (0,1,2), (1,1,0), (1,1,1), (1,1,2), (1,0,0), (1,0,1),
  (1,0,2), (2,0,1), (2,0,2), (2,1,1), (2,1,2)]

/-- `stele` (lines 170-175). -/
def stele : Stencil := ofList [(0,1,0), (0,1,1), (0,1,2), (1,1,0), (1,1,2), (1,2,1), (1,2,2), (2,2,1), (2,1,1), (1,0,0), (1,0,1),
  (2,0,1), (0,0,0), (0,0,1), (0,0,2), (1,0,2), (2,0,2), (2,1,2), (2,2,2), (1,1,1)]

/-- `stelf` (lines 177-182). -/
def stelf : Stencil := ofList [(0,1,0), (0,1,1), (0,2,1), (1,2,1), (1,2,2), (1,1,2), (2,1,2), (2,1,1), (2,0,1), (1,0,1), (1,0,0),
  (1,1,0), (0,0,0), (0,0,1), (0,0,2), (0,2,2), (1,0,2), (2,0,2), (1,1,1)]

/-- `count_neighbors(data, w) + count_neighbors(1-data, w)`. -/
def bothPhases (s : Fin 3 → ℕ) (f : ℤ → ℤ → ℤ → Bool) (w : Stencil) : ℕ :=
  countAll .bool s f w + countAll .int s (fun x y z => !f x y z) w

/-- `genus` (`topology.py` lines 143-186) of a cube. -/
def genus {K : Type} [LinearOrder K] (data : Cube K) (xth : K) : ℚ :=
  let f := fun x y z => decide (xth ≤ data.val x y z)
  let ma := bothPhases data.shape f stela
  let md := bothPhases data.shape f steld
  let me := bothPhases data.shape f stele
  let mf := bothPhases data.shape f stelf
  1 + ((md : ℚ) + 2 * (me + mf) - ma) / 8

end Verif.Genus
