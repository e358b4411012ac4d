import Verif.Lemmas.CubeMapChar
import Mathlib.Algebra.BigOperators.Intervals
import Mathlib.Algebra.BigOperators.Ring.Finset
import Mathlib.Algebra.Order.BigOperators.Group.Finset
import Mathlib.Data.Finset.Prod
import Mathlib.Tactic.Ring
import Mathlib.Tactic.IntervalCases
/-! Helper lemmas: counting the markers. -/

namespace Verif.CubeMap
open Finset

/-- Triple sum over a box. -/
def boxSum (s : Shape) (f : Idx → Int) : Int :=
  ∑ i ∈ range s.nx, ∑ j ∈ range s.ny, ∑ k ∈ range s.nz, f (i, j, k)

theorem list_range_map_sum (n : Nat) (f : Nat → Int) :
    ((List.range n).map f).sum = ∑ i ∈ range n, f i := by
  induction n with
  | zero => simp
  | succ n ih => rw [List.range_succ, Finset.sum_range_succ]; simp [ih]

theorem sum_flatMap' {α : Type} (l : List α) (f : α → List Int) :
    (l.flatMap f).sum = (l.map fun a => (f a).sum).sum := by
  induction l with
  | nil => rfl
  | cons a l ih => simp [List.flatMap_cons, ih]

theorem cells_sum (s : Shape) (f : Idx → Int) : ((cells s).map f).sum = boxSum s f := by
  unfold cells cellsFrom boxSum
  simp only [List.map_flatMap, List.map_map, sum_flatMap', Nat.sub_zero]
  rw [← List.range_eq_range', list_range_map_sum]
  refine Finset.sum_congr rfl fun i _ => ?_
  simp only [Function.comp_def]
  rw [list_range_map_sum]
  refine Finset.sum_congr rfl fun j _ => ?_
  rw [list_range_map_sum]

theorem filter_length_sum (l : List Idx) (t : Idx → Bool) :
    ((l.filter t).length : Int) = (l.map fun p => if t p = true then (1 : Int) else 0).sum := by
  induction l with
  | nil => rfl
  | cons a l ih =>
    by_cases h : t a = true
    · rw [List.filter_cons_of_pos h]
      simp only [List.length_cons, List.map_cons, List.sum_cons, if_pos h, ← ih]
      push_cast; ring
    · rw [List.filter_cons_of_neg h]
      simp only [List.map_cons, List.sum_cons, if_neg h, ← ih]
      ring

theorem countMarker_sum (N : Shape) (m : Mem) (v : Nat) :
    (countMarker N m v : Int) = boxSum N fun p => if m p = v then 1 else 0 := by
  unfold countMarker
  rw [filter_length_sum, cells_sum]
  simp only [beq_iff_eq]

theorem sum_dbl (n : Nat) (f : Nat → Int) :
    ∑ i ∈ range (2 * n), f i = ∑ i ∈ range n, (f (2 * i) + f (2 * i + 1)) := by
  induction n with
  | zero => simp
  | succ n ih =>
    rw [show 2 * (n + 1) = 2 * n + 1 + 1 by ring, sum_range_succ, sum_range_succ, ih, sum_range_succ]
    ring

/-- 1 if the proposition holds, else 0. -/
def ind (b : Bool) : Int := if b = true then 1 else 0

theorem ind_and (a b : Bool) : ind (a && b) = ind a * ind b := by cases a <;> cases b <;> rfl

theorem boxSum_add (s : Shape) (f g : Idx → Int) :
    boxSum s (fun p => f p + g p) = boxSum s f + boxSum s g := by
  simp only [boxSum, sum_add_distrib]

theorem boxSum_sub (s : Shape) (f g : Idx → Int) :
    boxSum s (fun p => f p - g p) = boxSum s f - boxSum s g := by
  simp only [boxSum, sum_sub_distrib]

/-- The value of one cell of the doubled grid in the alternating sum. -/
def weight (v : Nat) : Int :=
  (if v = 1 then 1 else 0) - (if v = 2 then 1 else 0) + (if v = 3 then 1 else 0) -
    (if v = 4 then 1 else 0)

theorem eulerOfMap_sum (N : Shape) (m : Mem) : eulerOfMap N m = boxSum N fun p => weight (m p) := by
  unfold eulerOfMap weight
  simp only [countMarker_sum, boxSum_add, boxSum_sub]

/-- Contribution of the data cell `p` as lower corner. -/
def localChi (s : Shape) (A : Idx → Bool) (p : Idx) : Int :=
  let x := (p.1 + 1) % s.nx
  let y := (p.2.1 + 1) % s.ny
  let z := (p.2.2 + 1) % s.nz
  let a := fun u v w => ind (A (u, v, w))
  let i := p.1
  let j := p.2.1
  let k := p.2.2
  a i j k - (a i j k * a x j k) - (a i j k * a i y k) - (a i j k * a i j z)
    + (a i j k * a x j k * (a i y k * a x y k)) + (a i j k * a i y k * (a i j z * a i y z))
    + (a i j k * a x j k * (a i j z * a x j z))
    - (a i j k * a x j k * (a i y k * a x y k)) * (a i j z * a x j z * (a i y z * a x y z))

theorem mark_even_odd (s : Shape) (A : Idx → Bool) (p : Idx) (hp : p.1 < 2 * s.nx ∧ p.2.1 < 2 * s.ny ∧
    p.2.2 < 2 * s.nz) : weight (mark 3 s A p) = ind (occ s A p) * (-1) ^ odd p := by
  unfold mark
  have hodd : odd p ≤ 3 := by unfold odd; omega
  by_cases ho : occ s A p = true
  · rw [if_pos ⟨hp, hodd, ho⟩]
    simp only [ind, ho, if_true]
    interval_cases odd p <;> simp [weight]
  · rw [if_neg fun h => ho h.2.2]
    simp [ind, ho, weight]

theorem euler_mark (s : Shape) (A : Idx → Bool) :
    eulerOfMap s.dbl (mark 3 s A) = boxSum s (localChi s A) := by
  rw [eulerOfMap_sum]
  unfold boxSum Shape.dbl
  dsimp only
  simp only [sum_dbl]
  refine Finset.sum_congr rfl fun i hi => ?_
  rw [← Finset.sum_add_distrib]
  refine Finset.sum_congr rfl fun j hj => ?_
  rw [← Finset.sum_add_distrib, ← Finset.sum_add_distrib, ← Finset.sum_add_distrib]
  refine Finset.sum_congr rfl fun k hk => ?_
  rw [Finset.mem_range] at hi hj hk
  rw [mark_even_odd, mark_even_odd, mark_even_odd, mark_even_odd, mark_even_odd, mark_even_odd,
    mark_even_odd, mark_even_odd]
  · simp only [occ, odd, corners, even_mod, odd_mod, even_div, odd_div, List.all_cons, List.all_nil,
      Bool.and_true, if_true, ind_and, localChi, Nat.one_ne_zero, if_false]
    ring
  all_goals (dsimp only; omega)

end Verif.CubeMap
