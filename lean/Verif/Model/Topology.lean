import Verif.Model.CubeMap
import Mathlib.Combinatorics.SimpleGraph.Connectivity.Connected
import Mathlib.SetTheory.Cardinal.Finite
import Mathlib.Algebra.BigOperators.Group.Finset.Basic
/-!
# Model of the Betti numbers of `topology.py` and of `percolation.py`

`skimage.measure.label` is taken by its documentation: it numbers the connected components of the non-zero cells, two
cells being neighbours if they differ by one step along at most `connectivity` axes.
-/

namespace Verif.Topology
open Verif.CubeMap

/-! ### Connected components -/

/-- Coordinates that are at most one step apart. -/
def close (a b : ℕ) : Prop := a = b ∨ a + 1 = b ∨ b + 1 = a

instance (a b : ℕ) : Decidable (close a b) := by unfold close; infer_instance

/-- Number of axes along which two cells differ. -/
def axesApart (p q : Idx) : ℕ :=
  (if p.1 = q.1 then 0 else 1) + (if p.2.1 = q.2.1 then 0 else 1) + (if p.2.2 = q.2.2 then 0 else 1)

/-- Neighbours for the `connectivity` of scikit-image. -/
def near (connectivity : ℕ) (p q : Idx) : Prop :=
  p ≠ q ∧ close p.1 q.1 ∧ close p.2.1 q.2.1 ∧ close p.2.2 q.2.2 ∧ axesApart p q ≤ connectivity

instance (c : ℕ) (p q : Idx) : Decidable (near c p q) := by unfold near; infer_instance

/-- The cells of the box where the mask is set. -/
def Cells (s : Shape) (A : Idx → Bool) : Type :=
  {p : Idx // p.1 < s.nx ∧ p.2.1 < s.ny ∧ p.2.2 < s.nz ∧ A p = true}

/-- The neighbours among these cells. -/
def graph (s : Shape) (A : Idx → Bool) (connectivity : ℕ) : SimpleGraph (Cells s A) where
  Adj p q := near connectivity p.1 q.1
  symm := ⟨fun p q h => by
    simp only [near, close, axesApart] at h ⊢
    obtain ⟨h1, h2, h3, h4, h5⟩ := h
    refine ⟨h1.symm, by omega, by omega, by omega, ?_⟩
    simp only [eq_comm (a := q.1.1), eq_comm (a := q.1.2.1), eq_comm (a := q.1.2.2)]
    exact h5⟩
  loopless := ⟨fun p h => h.1 rfl⟩

/-- `label(A, return_num=1, connectivity=connectivity)[1]`. -/
noncomputable def labelNum (s : Shape) (A : Idx → Bool) (connectivity : ℕ) : ℕ :=
  Nat.card (graph s A connectivity).ConnectedComponent

/-- The label image `lab` of `label(A, connectivity=connectivity)`: zero outside the mask, otherwise the numbers from
one on, the same ones for cells of the same component, in the order in which the components appear. -/
structure IsLabel (s : Shape) (A : Idx → Bool) (connectivity : ℕ) (lab : Idx → ℕ) : Prop where
  outside : ∀ p ∈ cells s, lab p = 0 ↔ A p = false
  same : ∀ p q : Cells s A, lab p.1 = lab q.1 ↔ (graph s A connectivity).Reachable p q
  first : ∀ i p, (cells s)[i]? = some p → lab p ≤ ((((cells s).take i).map lab).foldr max 0) + 1

/-! ### Betti numbers -/

section
variable {α : Type} [LT α] [DecidableRel (α := α) (· < ·)]

/-- The `connectivity` chosen for `neighbors` (`topology.py` lines 91-92 and 111-112). -/
def connectivityOf (neighbors : ℕ) : ℕ := if neighbors = 6 ∨ neighbors = 4 then 1 else 2

/-- `betti0` (`topology.py` lines 76-93). -/
noncomputable def betti0 (s : Shape) (data : Idx → α) (thres : α) (neighbors : ℕ := 6) : ℕ :=
  labelNum s (fun p => decide (thres < data p)) (connectivityOf neighbors)

/-- `betti2` (`topology.py` lines 95-113). -/
noncomputable def betti2 (s : Shape) (data : Idx → α) (thres : α) (neighbors : ℕ := 6) : ℕ :=
  labelNum s (fun p => !decide (thres < data p)) (connectivityOf neighbors)

/-- `betti1` (`topology.py` lines 115-138) without values given for the others; the Euler characteristic by the
sequential backends. -/
noncomputable def betti1 (s : Shape) (data : Idx → α) (thres : α) (neighbors : ℕ := 6) : ℤ :=
  betti0 s data thres neighbors + betti2 s data thres neighbors - euler s data thres neighbors

end

/-! ### Percolation -/

/-- `np.unique` of the label image. -/
def uniqueLabels (s : Shape) (lab : Idx → ℕ) : List ℕ :=
  (List.range (((cells s).map lab).foldr max 0 + 1)).filter fun l => l ∈ (cells s).map lab

/-- `np.any(out_label + np.roll(out_label, 1, axis) > 1)` for the label `l` (`percolation.py` lines 36-38). -/
def overlaps (s : Shape) (lab : Idx → ℕ) (l : ℕ) : Bool :=
  (cells s).any fun p => lab p == l &&
    (lab (dec p.1 s.nx, p.2.1, p.2.2) == l || lab (p.1, dec p.2.1 s.ny, p.2.2) == l ||
      lab (p.1, p.2.1, dec p.2.2 s.nz) == l)

/-- `find_percolation_cluster` (`percolation.py` lines 11-43) for the label image of `fof`; `none` is the `IndexError`
for an empty array. -/
def percolationCluster (s : Shape) (lab : Idx → ℕ) : Option ℕ :=
  match uniqueLabels s lab with
  | [] => none
  | [l] => some (if l = 1 then (cells s).length else 0)
  | _ :: l :: _ => some (if overlaps s lab l then ((cells s).filter fun p => lab p == l).length else 0)

end Verif.Topology
