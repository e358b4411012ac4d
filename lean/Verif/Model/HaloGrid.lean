import Mathlib.Data.Real.Basic
import Mathlib.Algebra.BigOperators.Group.List.Basic
import Mathlib.Algebra.BigOperators.Fin
import Mathlib.Order.Interval.Finset.Nat
import Mathlib.Data.Int.Interval
import Mathlib.Data.Fintype.Pi
/-!
# Model of the halo gridding of `nbody_file.py`

Haloes are pairs of a position and a value.  Floating point is replaced by the real numbers.  `binned_statistic_dd` of
scipy is modelled for the statistic `'sum'`, an integer number of bins and no range, which is how it is called.
-/

namespace Verif.HaloGrid

/-- The exceptions that occur. -/
inductive Err
  | value | attribute
  deriving DecidableEq

/-- A position. -/
abbrev Pos := Fin 3 → ℝ

/-- The range of the bins along an axis: from the least to the greatest sample (`scipy.stats._bin_edges` with
`range=None`); a range of no width is widened by a half on both sides. -/
noncomputable def range (l : List ℝ) : ℝ × ℝ :=
  let lo := l.min?.getD 0
  let hi := l.max?.getD 0
  if lo = hi then (lo - 1 / 2, hi + 1 / 2) else (lo, hi)

/-- The edges: `np.linspace(lo, hi, n + 1)[i]`. -/
noncomputable def edge (r : ℝ × ℝ) (n : ℕ) (i : ℕ) : ℝ := r.1 + (i : ℝ) * ((r.2 - r.1) / n)

open Classical in
/-- `np.digitize(x, edges)`: the number of edges which are not greater. -/
noncomputable def digitize (r : ℝ × ℝ) (n : ℕ) (x : ℝ) : ℕ :=
  ((Finset.range (n + 1)).filter fun i => edge r n i ≤ x).card

open Classical in
/-- The cell along an axis (`scipy.stats._bin_numbers`): samples on the last edge belong to the last bin.  The first bin
has the number one, as the samples below the edges have the number zero; these are cut off afterwards. -/
noncomputable def cell (r : ℝ × ℝ) (n : ℕ) (x : ℝ) : ℤ :=
  (digitize r n x : ℤ) - (if x = edge r n n then 1 else 0) - 1

open Classical in
/-- `Halo2Grid.value_on_grid(positions, values)` (`nbody_file.py` lines 247-252), the binned values.  There must be
haloes and bins, and as many values as positions. -/
noncomputable def valueOnGrid (n : ℕ) (pos : List Pos) (values : List ℝ) : Except Err ((Fin 3 → ℤ) → ℝ) :=
  if pos.length ≠ values.length then .error .attribute
  else if pos = [] ∨ n = 0 then .error .value
  else .ok fun c => (((pos.zip values).filter fun h =>
    ∀ j, cell (range (pos.map fun p => p j)) n (h.1 j) = c j).map fun h => h.2).sum

/-- `Halo2Grid.pos_mpc_to_grid` (`nbody_file.py` lines 230-234). -/
noncomputable def mpcToGrid (box : ℝ) (n : ℕ) (p : Pos) : Pos := fun j => p j * n / box

/-- `self.mpc_to_cm` (`nbody_file.py` line 201). -/
noncomputable def mpcToCm : ℝ := 3.085677581491367e+24

/-- `self.Msun_to_g` (`nbody_file.py` line 202). -/
noncomputable def msunToG : ℝ := 1.988409870698051e+33

/-- `Halo2Grid.pos_cm_to_grid` (`nbody_file.py` lines 223-228). -/
noncomputable def cmToGrid (box : ℝ) (n : ℕ) (p : Pos) : Pos := fun j => p j / mpcToCm * n / box

/-- Masses and positions with or without a unit of astropy; the unit of a mass is given in solar masses, that of a
position in Mpc. -/
inductive Quantity (α : Type)
  | plain (x : List α)
  | quantity (x : List α) (unit : ℝ)

/-- `halo_list_to_grid` (`nbody_file.py` lines 282-321), the first of the three results, for a box length without unit.
Both branches look at the type of the masses; positions without unit have no method `to` (line 312). Positions with a
unit next to masses without are not modelled: they keep their unit, which `binned_statistic_dd` does not expect. -/
noncomputable def haloListToGrid (mass : Quantity ℝ) (pos : Quantity Pos) (box : ℝ) (n : ℕ) :
    Option (Except Err ((Fin 3 → ℤ) → ℝ)) :=
  match mass, pos with
  | .plain m, .plain p => some (valueOnGrid n (p.map (mpcToGrid box n)) m)
  | .quantity m u, .quantity p v =>
    some (valueOnGrid n ((p.map fun x j => x j * v).map (mpcToGrid box n)) (m.map fun x => x * u))
  | .quantity _ _, .plain _ => some (.error .attribute)
  | .plain _, .quantity _ _ => none

/-! ## The class -/

/-- The strings given as `unit`, in lower case. -/
inductive Unit
  | cm | mpc | kg | gram | msun | other
  deriving DecidableEq

/-- The attributes of a `Halo2Grid` object. -/
structure State where
  box : ℝ
  n : ℕ
  posGrid : Option (List Pos)
  mass : Option (List ℝ)

/-- `Halo2Grid(box_len, n_grid)` (`nbody_file.py` lines 197-203). -/
def init (box : ℝ) (n : ℕ) : State := ⟨box, n, none, none⟩

/-- `set_halo_pos` (`nbody_file.py` lines 205-211); the default unit `None` has no method `lower`. -/
noncomputable def setPos (s : State) (pos : List Pos) (unit : Option Unit) : Except Err State :=
  match unit with
  | none => .error .attribute
  | some .cm => .ok { s with posGrid := some (pos.map (cmToGrid s.box s.n)) }
  | some .mpc => .ok { s with posGrid := some (pos.map (mpcToGrid s.box s.n)) }
  | some _ => .ok { s with posGrid := some pos }

/-- `set_halo_mass` (`nbody_file.py` lines 213-221); unknown units leave the masses as they were. -/
noncomputable def setMass (s : State) (mass : List ℝ) (unit : Option Unit) : Except Err State :=
  match unit with
  | none => .error .attribute
  | some .kg => .ok { s with mass := some (mass.map fun x => x * 1000 / msunToG) }
  | some .gram => .ok { s with mass := some (mass.map fun x => x / msunToG) }
  | some .msun => .ok { s with mass := some mass }
  | some _ => .ok s

open Classical in
/-- `np.argwhere(g > 0)` and `g[g > 0]` (`nbody_file.py` lines 266-267 and 278-279): the cells with a positive value, in
some order, with their values. -/
noncomputable def positive (n : ℕ) (g : (Fin 3 → ℤ) → ℝ) : Finset ((Fin 3 → ℤ) × ℝ) :=
  ((Fintype.piFinset fun _ : Fin 3 => Finset.Ico (0 : ℤ) n).filter fun c => 0 < g c).image fun c => (c, g c)

/-- `halo_mass_on_grid(mass=mass)` with the positions set before (`nbody_file.py` lines 254-268).  Without the argument
the masses are the *positions* (line 259): an array of shape `(N, 3)`, which `binned_statistic_dd` takes for `N` lists of
three values and refuses unless `N` is three; the case of three haloes is not modelled.  Without positions `None` is
returned. -/
noncomputable def massOnGrid (s : State) (mass : Option (List ℝ)) :
    Option (Except Err (Option (Finset ((Fin 3 → ℤ) × ℝ)))) :=
  match s.posGrid with
  | none => some (.ok none)
  | some pos =>
    match mass with
    | some m => some (match valueOnGrid s.n pos m with
      | .error e => .error e
      | .ok g => .ok (some (positive s.n g)))
    | none => if pos.length = 3 then none else some (.error .attribute)

/-- `halo_value_on_grid(value)` (`nbody_file.py` lines 270-280). -/
noncomputable def haloValueOnGrid (s : State) (value : List ℝ) : Except Err (Option (Finset ((Fin 3 → ℤ) × ℝ))) :=
  match s.posGrid with
  | none => .ok none
  | some pos =>
    match valueOnGrid s.n pos value with
    | .error e => .error e
    | .ok g => .ok (some (positive s.n g))

end Verif.HaloGrid
