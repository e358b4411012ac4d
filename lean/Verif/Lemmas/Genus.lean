import Verif.Model.Genus
import Mathlib.Data.Fintype.Pi
import Mathlib.Tactic.Ring
import Mathlib.Tactic.Linarith

import Mathlib.Algebra.Order.BigOperators.Group.Finset
/-!
# Lemmas for `Model/Genus.lean`
-/

namespace Verif.Genus

/-! ## Counting exact neighbourhoods -/

theorem sum_zero_one {ι : Type} (s : Finset ι) (w g : ι → Bool) :
    (∑ p ∈ s, (if w p && g p then 1 else 0) = ∑ p ∈ s, (if g p then 1 else 0) ∧
      ∑ p ∈ s, (if w p && g p then 1 else 0) = ∑ p ∈ s, (if w p then 1 else 0)) ↔ ∀ p ∈ s, g p = w p := by
  constructor
  · rintro ⟨h1, h2⟩ p hp
    have e1 := (Finset.sum_eq_sum_iff_of_le (f := fun p => if w p && g p then 1 else 0) (g := fun p => if g p then 1 else 0)
      fun i _ => by cases w i <;> cases g i <;> simp).1 h1 p hp
    have e2 := (Finset.sum_eq_sum_iff_of_le (f := fun p => if w p && g p then 1 else 0) (g := fun p => if w p then 1 else 0)
      fun i _ => by cases w i <;> cases g i <;> simp).1 h2 p hp
    revert e1 e2
    cases w p <;> cases g p <;> simp
  · intro h
    constructor
    · refine Finset.sum_congr rfl fun p hp => ?_
      rw [h p hp]; cases w p <;> rfl
    · refine Finset.sum_congr rfl fun p hp => ?_
      rw [h p hp]; cases w p <;> rfl

theorem sum3 (g : Fin 3 → Fin 3 → Fin 3 → ℕ) :
    ∑ i : Fin 3, ∑ j : Fin 3, ∑ k : Fin 3, g i j k = ∑ p : Fin 3 × Fin 3 × Fin 3, g p.1 p.2.1 p.2.2 := by
  rw [Fintype.sum_prod_type]
  simp only [Fintype.sum_prod_type]

/-- The neighbourhood of a cell. -/
def near (s : Fin 3 → ℕ) (f : ℤ → ℤ → ℤ → Bool) (x y z : ℤ) : Stencil := fun i j k =>
  f ((x + 1 - i) % s 0) ((y + 1 - j) % s 1) ((z + 1 - k) % s 2)

theorem mem_cells {s : Fin 3 → ℕ} {p : ℤ × ℤ × ℤ} : p ∈ cells s ↔
    (0 ≤ p.1 ∧ p.1 < s 0) ∧ (0 ≤ p.2.1 ∧ p.2.1 < s 1) ∧ (0 ≤ p.2.2 ∧ p.2.2 < s 2) := by
  unfold cells
  simp only [Finset.mem_product, Finset.mem_Ico]

theorem countOnce_int (s : Fin 3 → ℕ) (f : ℤ → ℤ → ℤ → Bool) (w : Stencil) (hw : w 1 1 1 = true) :
    countOnce .int s f w = ((cells s).filter fun p => near s f p.1 p.2.1 p.2.2 = w).card := by
  unfold countOnce
  congr 1
  refine Finset.filter_congr fun p hp => ?_
  obtain ⟨⟨a1, a2⟩, ⟨b1, b2⟩, ⟨c1, c2⟩⟩ := mem_cells.1 hp
  have hc : near s f p.1 p.2.1 p.2.2 1 1 1 = f p.1 p.2.1 p.2.2 := by
    unfold near
    simp only [Fin.val_one, Nat.cast_one, add_sub_cancel_right]
    rw [Int.emod_eq_of_lt a1 a2, Int.emod_eq_of_lt b1 b2, Int.emod_eq_of_lt c1 c2]
  have key := sum_zero_one Finset.univ (fun q : Fin 3 × Fin 3 × Fin 3 => w q.1 q.2.1 q.2.2)
    fun q => near s f p.1 p.2.1 p.2.2 q.1 q.2.1 q.2.2
  have hall : (∀ q ∈ (Finset.univ : Finset (Fin 3 × Fin 3 × Fin 3)), near s f p.1 p.2.1 p.2.2 q.1 q.2.1 q.2.2 = w q.1 q.2.1 q.2.2) ↔
      near s f p.1 p.2.1 p.2.2 = w :=
    ⟨fun h => by funext i j k; exact h (i, j, k) (Finset.mem_univ _), fun h q _ => by rw [h]⟩
  rw [hall] at key
  have e1 : convolve s f w p.1 p.2.1 p.2.2 = ∑ q : Fin 3 × Fin 3 × Fin 3,
      if w q.1 q.2.1 q.2.2 && near s f p.1 p.2.1 p.2.2 q.1 q.2.1 q.2.2 then 1 else 0 := sum3 _
  have e2 : convolve s f (fun _ _ _ => true) p.1 p.2.1 p.2.2 = ∑ q : Fin 3 × Fin 3 × Fin 3,
      if near s f p.1 p.2.1 p.2.2 q.1 q.2.1 q.2.2 then 1 else 0 := by
    unfold convolve
    rw [sum3]
    simp only [Bool.true_and]
    rfl
  have e3 : total w = ∑ q : Fin 3 × Fin 3 × Fin 3, if w q.1 q.2.1 q.2.2 then 1 else 0 := sum3 _
  rw [← e1, ← e2, ← e3] at key
  rw [← key]
  unfold around DType.store
  simp only []
  cases hf : f p.1 p.2.1 p.2.2
  · simp only [Bool.false_eq_true, if_false, Nat.mul_zero]
    have hpos : total w ≠ 0 := by
      rw [e3]
      refine (Finset.sum_pos' (fun _ _ => Nat.zero_le _) ⟨(1, 1, 1), Finset.mem_univ _, ?_⟩).ne'
      simp [hw]
    refine ⟨fun h => absurd h.2.symm hpos, fun h => ?_⟩
    have := congrFun (congrFun (congrFun (key.1 h) 1) 1) 1
    rw [hc, hf, hw] at this
    cases this
  · simp

theorem countOnce_bool (s : Fin 3 → ℕ) (f : ℤ → ℤ → ℤ → Bool) (w : Stencil) (hw : 2 ≤ total w) :
    countOnce .bool s f w = 0 := by
  unfold countOnce
  rw [Finset.card_eq_zero, Finset.filter_eq_empty_iff]
  rintro p - ⟨-, h⟩
  have : around .bool s f w p.1 p.2.1 p.2.2 ≤ 1 := by
    unfold around DType.store
    simp only []
    split_ifs <;> simp
  omega

/-- The eight orientations of a structuring element which are counted. -/
def orientations (w : Stencil) : List Stencil :=
  [w, rot1 w, rot2 w, rot3 w, turn w, rot1 (turn w), rot2 (turn w), rot3 (turn w)]

theorem total_orientations : ([stela, steld, stele, stelf].all fun w => (orientations w).all fun v =>
    decide (2 ≤ total v) && v 1 1 1) = true := by
  decide +kernel

/-- All neighbourhoods in which the box is divided by three intervals. -/
def corner (a b c : Fin 3 → Bool) : Stencil := fun i j k => a i && b j && c k

def sames (v w : Stencil) : Bool := decide (∀ i j k, v i j k = w i j k)

/-- The intervals that a corner would be made of. -/
def shadow (v : Stencil) : Stencil := corner (fun i => v i 1 1) (fun j => v 1 j 1) fun k => v 1 1 k

/-- The intervals that the outside of a block would be made of. -/
def hull (v : Stencil) : Stencil := corner (fun i => decide (∃ j k, v i j k = true)) (fun j => decide (∃ i k, v i j k = true))
  fun k => decide (∃ i j, v i j k = true)

theorem not_corner : ([steld, stele, stelf].all fun w => (orientations w).all fun v => !sames (shadow v) v) = true := by
  decide +kernel

theorem not_outside : ([stela, steld, stele, stelf].all fun w => (orientations w).all fun v =>
    !sames (hull fun i j k => !v i j k) (fun i j k => !v i j k)) = true := by
  decide +kernel

end Verif.Genus
