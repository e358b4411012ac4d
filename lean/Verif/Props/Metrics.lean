import Verif.Model.Metrics
import Mathlib.Tactic.Linarith
import Mathlib.Tactic.Ring
import Mathlib.Tactic.NormNum
import Mathlib.Tactic.FieldSimp
import Mathlib.Tactic.Positivity
/-!
# Scores of segmented maps (C180-C184)

A map of true and predicted cells is a set of cells; `ones` is its tensor.
-/

namespace Verif.Metrics

variable {ι κ : Type} [Fintype ι] [Fintype κ] [DecidableEq ι] [DecidableEq κ]

/-! ## Specification -/

/-- The tensor of a set of cells. -/
def ones {α : Type} [DecidableEq α] (A : Finset α) (i : α) : ℝ := if i ∈ A then 1 else 0

/-- Overlap of two sets: common cells among all cells of either. -/
noncomputable def jaccard {α : Type} [DecidableEq α] (A B : Finset α) : ℝ := if A ∪ B = ∅ then 1 else ((A ∩ B).card : ℝ) / (A ∪ B).card

/-- Values of a soft map. -/
def Soft (x : ι → ℝ) : Prop := ∀ i, 0 ≤ x i ∧ x i ≤ 1

/-! ## Intersection over union -/

theorem sum_ones {α : Type} [Fintype α] [DecidableEq α] (A : Finset α) : ∑ i, ones A i = A.card := by
  unfold ones
  rw [Finset.sum_ite_mem, Finset.univ_inter, Finset.sum_const, nsmul_eq_mul, mul_one]

theorem ones_mul {α : Type} [DecidableEq α] (A B : Finset α) (i : α) : ones A i * ones B i = ones (A ∩ B) i := by
  unfold ones
  by_cases ha : i ∈ A <;> by_cases hb : i ∈ B <;> simp [ha, hb]

theorem ones_nonneg {α : Type} [DecidableEq α] (A : Finset α) (i : α) : 0 ≤ ones A i := by
  unfold ones
  split <;> norm_num

/-- **C180**.  Of two maps `iou` is the number of common cells divided by the number of cells of either, 1 if both are empty. -/
theorem C180 (A B : Finset ι) : iou (ones A) (ones B) = jaccard A B := by
  have h : ∑ i, |ones A i * ones B i| = ((A ∩ B).card : ℝ) := by
    rw [← sum_ones]
    refine Finset.sum_congr rfl fun i _ => ?_
    rw [ones_mul, abs_of_nonneg (ones_nonneg _ _)]
  have hc : (A.card : ℝ) + B.card - (A ∩ B).card = (A ∪ B).card := by
    have := Finset.card_union_add_card_inter A B
    have h2 : ((A ∪ B).card : ℝ) + (A ∩ B).card = A.card + B.card := by exact_mod_cast this
    linarith
  unfold iou jaccard
  dsimp only
  rw [h, sum_ones, sum_ones, hc]
  by_cases he : A ∪ B = ∅
  · rw [if_pos (by rw [he]; simp), if_pos he]
  · rw [if_neg (by simpa using he), if_neg he]

/-- 1 for equal maps and for no others. -/
theorem C180_equal (A B : Finset ι) : iou (ones A) (ones B) = 1 ↔ A = B := by
  rw [C180]
  unfold jaccard
  constructor
  · intro h
    by_cases he : A ∪ B = ∅
    · obtain ⟨ha, hb⟩ := Finset.union_eq_empty.1 he
      rw [ha, hb]
    · rw [if_neg he] at h
      have hp : ((A ∪ B).card : ℝ) ≠ 0 := by simpa using he
      have hcard : (A ∩ B).card = (A ∪ B).card := by exact_mod_cast (div_eq_one_iff_eq hp).1 h
      have hi := Finset.eq_of_subset_of_card_le (Finset.inter_subset_left.trans Finset.subset_union_left : A ∩ B ⊆ A ∪ B) hcard.ge
      apply Finset.Subset.antisymm
      · exact fun x hx => (Finset.mem_inter.1 (hi ▸ Finset.mem_union_left B hx)).2
      · exact fun x hx => (Finset.mem_inter.1 (hi ▸ Finset.mem_union_right A hx)).1
  · rintro rfl
    by_cases he : A ∪ A = ∅
    · rw [if_pos he]
    · rw [if_neg he, Finset.inter_self, Finset.union_self]
      rw [Finset.union_self] at he
      exact div_self (by simpa using he)

example : iou (ones ({0, 1} : Finset (Fin 4))) (ones {1, 2}) = 1 / 3 := by
  rw [C180]
  unfold jaccard
  rw [if_neg (by decide), show (({0, 1} : Finset (Fin 4)) ∩ {1, 2}).card = 1 by decide, show (({0, 1} : Finset (Fin 4)) ∪ {1, 2}).card = 3 by decide]
  norm_num

/-- Of soft maps it is a number from 0 to 1, the same in either order. -/
theorem C180_soft (t p : ι → ℝ) (ht : Soft t) (hp : Soft p) : 0 ≤ iou t p ∧ iou t p ≤ 1 ∧ iou t p = iou p t := by
  have h0 : 0 ≤ ∑ i, |t i * p i| := Finset.sum_nonneg fun i _ => abs_nonneg _
  have h1 : ∑ i, |t i * p i| ≤ (∑ i, t i) + (∑ i, p i) - ∑ i, |t i * p i| := by
    have : 0 ≤ ∑ i, (t i + p i - 2 * |t i * p i|) := by
      refine Finset.sum_nonneg fun i _ => ?_
      rw [abs_of_nonneg (mul_nonneg (ht i).1 (hp i).1)]
      nlinarith [mul_nonneg (ht i).1 (sub_nonneg.2 (hp i).2), mul_nonneg (hp i).1 (sub_nonneg.2 (ht i).2)]
    rw [Finset.sum_sub_distrib, Finset.sum_add_distrib, ← Finset.mul_sum] at this
    linarith
  refine ⟨?_, ?_, ?_⟩
  · unfold iou
    dsimp only
    split
    · norm_num
    · exact div_nonneg h0 (h0.trans h1)
  · unfold iou
    dsimp only
    split
    · exact le_rfl
    · exact div_le_one_of_le₀ h1 (h0.trans h1)
  · unfold iou
    dsimp only
    have : ∑ i, |p i * t i| = ∑ i, |t i * p i| := Finset.sum_congr rfl fun i _ => by rw [mul_comm]
    rw [this, add_comm (∑ i, p i)]

example : Soft (fun _ : Fin 3 => (1 : ℝ) / 2) := fun _ => by norm_num

/-! ## Dice -/

/-- **C181**.  For each row, of any numbers: more than 0 and at most 1, which it is where the absolute values agree, and the same in either order. -/
theorem C181 {s : ℝ} (hs : 0 < s) (t p : ι → κ → ℝ) (i : ι) :
    ∃ d, dice s t p i = some d ∧ dice s p t i = some d ∧ 0 < d ∧ d ≤ 1 ∧ (d = 1 ↔ ∀ j, |t i j| = |p i j|) := by
  have h0 : 0 ≤ ∑ j, |t i j * p i j| := Finset.sum_nonneg fun j _ => abs_nonneg _
  have ht : 0 ≤ ∑ j, t i j ^ 2 := Finset.sum_nonneg fun j _ => sq_nonneg _
  have hp : 0 ≤ ∑ j, p i j ^ 2 := Finset.sum_nonneg fun j _ => sq_nonneg _
  have hd : 0 < (∑ j, t i j ^ 2) + (∑ j, p i j ^ 2) + s := by linarith
  have hsq : (∑ j, t i j ^ 2) + (∑ j, p i j ^ 2) - 2 * ∑ j, |t i j * p i j| = ∑ j, (|t i j| - |p i j|) ^ 2 := by
    rw [Finset.mul_sum, ← Finset.sum_add_distrib, ← Finset.sum_sub_distrib]
    refine Finset.sum_congr rfl fun j _ => ?_
    rw [abs_mul, ← sq_abs (t i j), ← sq_abs (p i j)]
    ring
  have hn : 0 ≤ ∑ j, (|t i j| - |p i j|) ^ 2 := Finset.sum_nonneg fun j _ => sq_nonneg _
  refine ⟨_, if_neg hd.ne', ?_, div_pos (by linarith) hd, div_le_one_of_le₀ (by linarith) hd.le, ?_⟩
  · have hc : ∑ j, |p i j * t i j| = ∑ j, |t i j * p i j| := Finset.sum_congr rfl fun j _ => by rw [mul_comm]
    unfold dice
    dsimp only
    rw [hc, add_comm (∑ j, p i j ^ 2), if_neg hd.ne']
  · rw [div_eq_one_iff_eq hd.ne']
    constructor
    · intro h j
      have hz : ∑ j, (|t i j| - |p i j|) ^ 2 = 0 := by linarith
      have := (Finset.sum_eq_zero_iff_of_nonneg fun j _ => sq_nonneg (|t i j| - |p i j|)).1 hz j (Finset.mem_univ j)
      exact sub_eq_zero.1 (pow_eq_zero_iff (two_ne_zero) |>.1 this)
    · intro h
      have hz : ∑ j, (|t i j| - |p i j|) ^ 2 = 0 := Finset.sum_eq_zero fun j _ => by rw [h j, sub_self, zero_pow two_ne_zero]
      linarith

/-- Of maps: twice the common cells of the row among the cells of either, with `smooth` added to both. -/
theorem C181_maps {s : ℝ} (hs : 0 < s) (A B : ι → Finset κ) (i : ι) :
    dice s (fun i => ones (A i)) (fun i => ones (B i)) i = some ((2 * ((A i ∩ B i).card : ℝ) + s) / ((A i).card + (B i).card + s)) := by
  have hq : ∀ C : Finset κ, ∑ j, ones C j ^ 2 = (C.card : ℝ) := by
    intro C
    rw [← sum_ones]
    exact Finset.sum_congr rfl fun j _ => by rw [sq, ones_mul, Finset.inter_self]
  have h : ∑ j, |ones (A i) j * ones (B i) j| = ((A i ∩ B i).card : ℝ) := by
    rw [← sum_ones]
    exact Finset.sum_congr rfl fun j _ => by rw [ones_mul, abs_of_nonneg (ones_nonneg _ _)]
  unfold dice
  dsimp only
  rw [h, hq, hq, if_neg (by positivity)]

example : dice 1 (fun _ : Fin 1 => ones ({0, 1} : Finset (Fin 4))) (fun _ => ones {1, 2}) 0 = some (3 / 5) := by
  rw [C181_maps one_pos]
  rw [show (({0, 1} : Finset (Fin 4)) ∩ {1, 2}).card = 1 by decide, show ({0, 1} : Finset (Fin 4)).card = 2 by decide,
    show ({1, 2} : Finset (Fin 4)).card = 2 by decide]
  norm_num

/-- With `smooth=0` the rows that are zero in both tensors, and only they, are not numbers. -/
theorem C181_empty (t p : ι → κ → ℝ) (i : ι) : dice 0 t p i = none ↔ ∀ j, t i j = 0 ∧ p i j = 0 := by
  have ht : 0 ≤ ∑ j, t i j ^ 2 := Finset.sum_nonneg fun j _ => sq_nonneg _
  have hp : 0 ≤ ∑ j, p i j ^ 2 := Finset.sum_nonneg fun j _ => sq_nonneg _
  unfold dice
  dsimp only
  constructor
  · intro h j
    by_cases hd : (∑ j, t i j ^ 2) + (∑ j, p i j ^ 2) + 0 = 0
    · have h1 : ∑ j, t i j ^ 2 = 0 := by linarith
      have h2 : ∑ j, p i j ^ 2 = 0 := by linarith
      exact ⟨pow_eq_zero_iff two_ne_zero |>.1 ((Finset.sum_eq_zero_iff_of_nonneg fun j _ => sq_nonneg (t i j)).1 h1 j (Finset.mem_univ j)),
        pow_eq_zero_iff two_ne_zero |>.1 ((Finset.sum_eq_zero_iff_of_nonneg fun j _ => sq_nonneg (p i j)).1 h2 j (Finset.mem_univ j))⟩
    · rw [if_neg hd] at h
      exact absurd h (by simp)
  · intro h
    rw [if_pos]
    rw [Finset.sum_eq_zero fun j _ => by rw [(h j).1, zero_pow two_ne_zero], Finset.sum_eq_zero fun j _ => by rw [(h j).2, zero_pow two_ne_zero]]
    norm_num

/-! ## Precision and recall -/

theorem clip_ones {α : Type} [DecidableEq α] {e : ℝ} (h0 : 0 < e) (h1 : e ≤ 1 / 2) (A : Finset α) (i : α) :
    clip (ones A i) e (1 - e) = e + (1 - 2 * e) * ones A i := by
  unfold clip ones
  split
  · rw [max_eq_left (by linarith), min_eq_right (by linarith)]
    ring
  · rw [max_eq_right h0.le, min_eq_left (by linarith)]
    ring

theorem sum_clip {e : ℝ} (h0 : 0 < e) (h1 : e ≤ 1 / 2) (A : Finset ι) :
    ∑ i, clip (ones A i) e (1 - e) = Fintype.card ι * e + (1 - 2 * e) * A.card := by
  rw [Finset.sum_congr rfl fun i _ => clip_ones h0 h1 A i, Finset.sum_add_distrib, ← Finset.mul_sum, sum_ones, Finset.sum_const, nsmul_eq_mul]
  rfl

theorem sum_clip_mul {e : ℝ} (h0 : 0 < e) (h1 : e ≤ 1 / 2) (A B : Finset ι) :
    ∑ i, clip (ones B i) e (1 - e) * clip (ones A i) e (1 - e) =
      Fintype.card ι * e ^ 2 + e * (1 - 2 * e) * (A.card + B.card) + (1 - 2 * e) ^ 2 * (A ∩ B).card := by
  have : ∀ i, clip (ones B i) e (1 - e) * clip (ones A i) e (1 - e) =
      e ^ 2 + (e * (1 - 2 * e) * ones A i + (e * (1 - 2 * e) * ones B i + (1 - 2 * e) ^ 2 * ones (A ∩ B) i)) := by
    intro i
    rw [clip_ones h0 h1, clip_ones h0 h1, ← ones_mul]
    ring
  rw [Finset.sum_congr rfl fun i _ => this i, Finset.sum_add_distrib, Finset.sum_add_distrib, Finset.sum_add_distrib, ← Finset.mul_sum,
    ← Finset.mul_sum, ← Finset.mul_sum, sum_ones, sum_ones, sum_ones, Finset.sum_const, nsmul_eq_mul]
  simp only [Finset.card_univ]
  ring

theorem precision_eq (e : ℝ) (t p : ι → ℝ) :
    precision e t p = (∑ i, clip (p i) e (1 - e) * clip (t i) e (1 - e)) / ((∑ i, clip (p i) e (1 - e)) + e) := by
  unfold precision
  dsimp only
  rw [← Finset.sum_add_distrib]
  congr 2
  exact Finset.sum_congr rfl fun i _ => by ring

/-- What is recalled is what would be precise with the maps exchanged. -/
theorem C182_exchange (e : ℝ) (t p : ι → ℝ) : recall e t p = precision e p t := by
  unfold recall precision
  dsimp only
  have h1 : ∑ i, clip (p i) e (1 - e) * clip (t i) e (1 - e) = ∑ i, clip (t i) e (1 - e) * clip (p i) e (1 - e) :=
    Finset.sum_congr rfl fun i _ => mul_comm _ _
  have h2 : ∑ i, (1 - clip (p i) e (1 - e)) * clip (t i) e (1 - e) = ∑ i, clip (t i) e (1 - e) * (1 - clip (p i) e (1 - e)) :=
    Finset.sum_congr rfl fun i _ => mul_comm _ _
  rw [h1, h2]

/-- **C182** (partial).  Of maps of `n` cells: the fraction of the predicted cells that are true, and of the true cells that are predicted, up to
`8 n eps` divided by the number of those cells.  Missing: few cells among many (`C182_false`) and none (`C182_empty_false`). -/
theorem C182_partial {e : ℝ} (h0 : 0 < e) (h1 : e ≤ 1 / 2) (A B : Finset ι) :
    (B.Nonempty → |precision e (ones A) (ones B) - ((A ∩ B).card : ℝ) / B.card| ≤ 8 * Fintype.card ι * e / B.card) ∧
    (A.Nonempty → |recall e (ones A) (ones B) - ((A ∩ B).card : ℝ) / A.card| ≤ 8 * Fintype.card ι * e / A.card) := by
  have main : ∀ A B : Finset ι, B.Nonempty →
      |precision e (ones A) (ones B) - ((A ∩ B).card : ℝ) / B.card| ≤ 8 * Fintype.card ι * e / B.card := by
    intro A B hB
    rw [precision_eq, sum_clip_mul h0 h1, sum_clip h0 h1]
    have hb : (1 : ℝ) ≤ B.card := by exact_mod_cast hB.card_pos
    have hbn : (B.card : ℝ) ≤ Fintype.card ι := by exact_mod_cast B.card_le_univ
    have han : (A.card : ℝ) ≤ Fintype.card ι := by exact_mod_cast A.card_le_univ
    have hcb : ((A ∩ B).card : ℝ) ≤ B.card := by exact_mod_cast Finset.card_le_card Finset.inter_subset_right
    have hc0 : (0 : ℝ) ≤ (A ∩ B).card := Nat.cast_nonneg _
    have ha0 : (0 : ℝ) ≤ A.card := Nat.cast_nonneg _
    generalize (B.card : ℝ) = b at *
    generalize ((A ∩ B).card : ℝ) = c at *
    generalize (A.card : ℝ) = a at *
    generalize (Fintype.card ι : ℝ) = n at *
    have hn : 1 ≤ n := hb.trans hbn
    have hD : b / 2 ≤ n * e + (1 - 2 * e) * b + e := by nlinarith
    have hD0 : 0 < n * e + (1 - 2 * e) * b + e := by linarith
    have hb0 : 0 < b := by linarith
    rw [div_sub_div _ _ hD0.ne' hb0.ne', abs_div, abs_of_pos (mul_pos hD0 hb0), div_le_div_iff₀ (mul_pos hD0 hb0) hb0]
    have hnum : |(n * e ^ 2 + e * (1 - 2 * e) * (a + b) + (1 - 2 * e) ^ 2 * c) * b - (n * e + (1 - 2 * e) * b + e) * c| ≤ 4 * n * e * b := by
      have k1 : 0 ≤ 1 - 2 * e := by linarith
      have i1 : 0 ≤ c * b := mul_nonneg hc0 hb0.le
      have i2 : n * e ^ 2 ≤ n * e * (1 / 2) := by nlinarith [mul_nonneg (by linarith : (0 : ℝ) ≤ n) h0.le]
      have i3 : e * (1 - 2 * e) * (a + b) ≤ e * (2 * n) := by
        have : e * (1 - 2 * e) * (a + b) ≤ e * 1 * (a + b) := by
          apply mul_le_mul_of_nonneg_right _ (by linarith)
          exact mul_le_mul_of_nonneg_left (by linarith) h0.le
        nlinarith
      have i4 : (1 - 2 * e) ^ 2 * c * b ≤ (1 - 2 * e) * b * c := by
        have : (1 - 2 * e) * (1 - 2 * e) ≤ (1 - 2 * e) * 1 := mul_le_mul_of_nonneg_left (by linarith) k1
        nlinarith
      have i5 : (1 - 2 * e) * b * c - (1 - 2 * e) ^ 2 * c * b ≤ 2 * e * (c * b) := by nlinarith [mul_nonneg (mul_nonneg h0.le h0.le) i1]
      have i6 : 0 ≤ n * e ^ 2 := by positivity
      have i7 : 0 ≤ e * (1 - 2 * e) * (a + b) := mul_nonneg (mul_nonneg h0.le k1) (by linarith)
      have i8 : (n * e + e) * c ≤ 2 * n * e * b := by nlinarith [mul_nonneg h0.le hc0, mul_le_mul_of_nonneg_left hcb (by positivity : (0 : ℝ) ≤ n * e)]
      have i9 : e * (c * b) ≤ e * n * b := by
        have : c * b ≤ n * b := mul_le_mul_of_nonneg_right (hcb.trans hbn) hb0.le
        nlinarith
      have j1 : 0 ≤ (1 - 2 * e) ^ 2 * c * b := by positivity
      rw [abs_le]
      constructor
      · nlinarith [mul_nonneg i6 hb0.le, mul_nonneg i7 hb0.le]
      · nlinarith [mul_le_mul_of_nonneg_right i2 hb0.le, mul_le_mul_of_nonneg_right i3 hb0.le, mul_nonneg (mul_nonneg (by linarith : (0:ℝ) ≤ n) h0.le) hb0.le, mul_nonneg (mul_nonneg (by linarith : (0 : ℝ) ≤ n) h0.le) hc0,
          mul_nonneg h0.le hc0]
    calc _ ≤ 4 * n * e * b * b := mul_le_mul_of_nonneg_right hnum hb0.le
      _ = 8 * n * e * (b / 2 * b) := by ring
      _ ≤ 8 * n * e * ((n * e + (1 - 2 * e) * b + e) * b) := by
        apply mul_le_mul_of_nonneg_left (mul_le_mul_of_nonneg_right hD hb0.le)
        have : 0 ≤ n := by linarith
        positivity
  refine ⟨main A B, fun hA => ?_⟩
  rw [C182_exchange, Finset.inter_comm]
  exact main B A hA

example : (1e-7 : ℝ) ≤ 1 / 2 ∧ ({0} : Finset (Fin 3)).Nonempty := ⟨by norm_num, by decide⟩

/-- One cell, found and nothing else, among `10^8` cells: with the default `eps` precision and recall are less than 1/10. -/
theorem C182_false : precision 1e-7 (ones ({0} : Finset (Fin 100000000))) (ones {0}) < 1 / 10 ∧
    recall 1e-7 (ones ({0} : Finset (Fin 100000000))) (ones {0}) < 1 / 10 := by
  rw [C182_exchange, and_self, precision_eq, sum_clip_mul (by norm_num) (by norm_num), sum_clip (by norm_num) (by norm_num), Finset.inter_self,
    Finset.card_singleton, Fintype.card_fin]
  norm_num

/-- If no cell is predicted the precision is neither 0 nor 1 nor undefined: it is nearly the fraction of true cells. -/
theorem C182_empty_false {e : ℝ} (h0 : 0 < e) (h1 : e ≤ 1 / 2) (A : Finset ι) :
    precision e (ones A) (ones ∅) = (Fintype.card ι * e + (1 - 2 * e) * A.card) / (Fintype.card ι + 1) := by
  rw [precision_eq, sum_clip_mul h0 h1, sum_clip h0 h1, Finset.inter_empty, Finset.card_empty]
  have hn : (0 : ℝ) < Fintype.card ι + 1 := by positivity
  push_cast
  have : (Fintype.card ι : ℝ) * e + (1 - 2 * e) * 0 + e = e * (Fintype.card ι + 1) := by ring
  rw [this, div_eq_div_iff (mul_pos h0 hn).ne' hn.ne']
  ring

/-! ## Coefficient of determination -/

/-- The average over the cells. -/
noncomputable def average (x : ι → ℝ) : ℝ := (∑ i, x i) / Fintype.card ι

/-- The sum of the squared deviations from the average. -/
noncomputable def scatter (t : ι → ℝ) : ℝ := ∑ i, (t i - average t) ^ 2

/-- The sum of the squared errors. -/
noncomputable def errors (t p : ι → ℝ) : ℝ := ∑ i, (t i - p i) ^ 2

theorem scatter_nonneg (t : ι → ℝ) : 0 ≤ scatter t := Finset.sum_nonneg fun i _ => sq_nonneg _

theorem errors_nonneg (t p : ι → ℝ) : 0 ≤ errors t p := Finset.sum_nonneg fun i _ => sq_nonneg _

theorem r2_eq (e : ℝ) (t p : ι → ℝ) : r2score e t p = 1 - errors t p / (scatter t + e) := rfl

/-- **C183**.  At most 1, which only the true values reach; if these vary, below the coefficient of determination by none, above it by less than
`eps` divided by their scatter, of the unexplained fraction. -/
theorem C183 {e : ℝ} (h0 : 0 < e) (t p : ι → ℝ) : r2score e t p ≤ 1 ∧ (r2score e t p = 1 ↔ p = t) ∧
    (0 < scatter t → 1 - errors t p / scatter t ≤ r2score e t p ∧
      r2score e t p ≤ 1 - errors t p / scatter t + errors t p / scatter t * (e / scatter t)) := by
  have hD : 0 < scatter t + e := by linarith [scatter_nonneg t]
  have hE := errors_nonneg t p
  rw [r2_eq]
  refine ⟨by linarith [div_nonneg hE hD.le], ?_, fun hS => ⟨?_, ?_⟩⟩
  · constructor
    · intro h
      have hz : errors t p = 0 := by
        have : errors t p / (scatter t + e) = 0 := by linarith
        exact (div_eq_zero_iff.1 this).resolve_right hD.ne'
      funext i
      have := (Finset.sum_eq_zero_iff_of_nonneg fun i _ => sq_nonneg (t i - p i)).1 hz i (Finset.mem_univ i)
      exact (sub_eq_zero.1 (pow_eq_zero_iff two_ne_zero |>.1 this)).symm
    · rintro rfl
      have : errors p p = 0 := Finset.sum_eq_zero fun i _ => by rw [sub_self, zero_pow two_ne_zero]
      rw [this, zero_div, sub_zero]
  · have : errors t p / (scatter t + e) ≤ errors t p / scatter t := div_le_div_of_nonneg_left hE hS (by linarith)
    linarith
  · have : errors t p / scatter t - errors t p / scatter t * (e / scatter t) ≤ errors t p / (scatter t + e) := by
      rw [div_sub' hS.ne', div_le_div_iff₀ hS hD]
      have hx : scatter t * (errors t p / scatter t * (e / scatter t)) = errors t p * e / scatter t := by
        field_simp
      rw [hx]
      have : (errors t p - errors t p * e / scatter t) * (scatter t + e) = errors t p * scatter t - errors t p * e ^ 2 / scatter t := by
        field_simp
        ring
      rw [this]
      have : 0 ≤ errors t p * e ^ 2 / scatter t := by positivity
      linarith
    linarith

/-- A constant added to both changes nothing. -/
theorem C183_shift [Nonempty ι] (e c : ℝ) (t p : ι → ℝ) : r2score e (fun i => t i + c) (fun i => p i + c) = r2score e t p := by
  have hn : (Fintype.card ι : ℝ) ≠ 0 := by exact_mod_cast Fintype.card_ne_zero
  have ha : average (fun i => t i + c) = average t + c := by
    unfold average
    rw [Finset.sum_add_distrib, Finset.sum_const, nsmul_eq_mul, add_div, Finset.card_univ, mul_div_cancel_left₀ _ hn]
  rw [r2_eq, r2_eq]
  congr 2
  · exact Finset.sum_congr rfl fun i _ => by ring
  · congr 1
    unfold scatter
    rw [ha]
    exact Finset.sum_congr rfl fun i _ => by ring

/-- The average of the true values as the prediction has a score of `eps` divided by `eps` and the scatter; for a constant map, 1. -/
theorem C183_average {e : ℝ} (h0 : 0 < e) (t : ι → ℝ) : r2score e t (fun _ => average t) = e / (scatter t + e) := by
  have hD : 0 < scatter t + e := by linarith [scatter_nonneg t]
  rw [r2_eq, show errors t (fun _ => average t) = scatter t from rfl, eq_div_iff hD.ne', sub_mul, div_mul_cancel₀ _ hD.ne']
  ring

example : 0 < scatter (ones ({0} : Finset (Fin 2))) := by
  unfold scatter average ones
  simp [Fin.sum_univ_two]
  norm_num

/-! ## Balanced cross entropy -/

/-- A probability kept away from 0 and 1. -/
noncomputable def inside (e x : ℝ) : ℝ := if x < e then e else if 1 - e < x then 1 - e else x

/-- The fraction of cells that are not true, at least `e`. -/
noncomputable def weight (e : ℝ) (t : ι → ℝ) : ℝ := if e ≤ 1 - average t then 1 - average t else e

/-- The cross entropy of one cell, with weight `b` for true and `1 - b` for other cells. -/
noncomputable def entropy (b t q : ℝ) : ℝ := -(b * t * Real.log q + (1 - b) * (1 - t) * Real.log (1 - q))

theorem clip_inside {e : ℝ} (h1 : e ≤ 1 / 2) (x : ℝ) : clip x e (1 - e) = inside e x := by
  unfold clip inside
  by_cases h : x < e
  · rw [if_pos h, max_eq_right h.le, min_eq_left (by linarith)]
  · rw [if_neg h, max_eq_left (not_lt.1 h)]
    by_cases h' : 1 - e < x
    · rw [if_pos h', min_eq_right h'.le]
    · rw [if_neg h', min_eq_left (not_lt.1 h')]

theorem inside_mem {e : ℝ} (h0 : 0 < e) (h1 : e ≤ 1 / 2) (x : ℝ) : 0 < inside e x ∧ inside e x < 1 := by
  unfold inside
  split_ifs <;> constructor <;> linarith

theorem cellLoss_eq (b t : ℝ) {q : ℝ} (h0 : 0 < q) (h1 : q < 1) :
    cellLoss b t (Real.log (q / (1 - q))) = entropy b t q + t * (1 - 2 * b) * max 0 (Real.log (1 - q) - Real.log q) := by
  have h2 : 0 < 1 - q := by linarith
  have hq : 0 < q / (1 - q) := div_pos h0 h2
  have hl : Real.log (q / (1 - q)) = Real.log q - Real.log (1 - q) := Real.log_div h0.ne' h2.ne'
  unfold cellLoss entropy
  dsimp only
  by_cases h : 0 ≤ Real.log (q / (1 - q))
  · rw [if_pos h, if_pos h, Real.exp_neg, Real.exp_log hq]
    have he : 1 + (q / (1 - q))⁻¹ = q⁻¹ := by
      field_simp
      ring
    rw [he, Real.log_inv, max_eq_left (by linarith), hl]
    ring
  · rw [if_neg h, if_neg h, Real.exp_log hq]
    have he : 1 + q / (1 - q) = (1 - q)⁻¹ := by
      field_simp
      ring
    rw [he, Real.log_inv, max_eq_right (by linarith), hl]
    ring

theorem average_one_sub [Nonempty ι] (t : ι → ℝ) : mean (fun i => 1 - t i) = 1 - average t := by
  have hn : (Fintype.card ι : ℝ) ≠ 0 := by exact_mod_cast Fintype.card_ne_zero
  unfold mean average
  rw [Finset.sum_sub_distrib, Finset.sum_const, nsmul_eq_mul, mul_one, Finset.card_univ, sub_div, div_self hn]

/-- The loss: that of the balanced cross entropy, and for each true cell that is thought to be less likely than not the logarithm of the odds,
times `1 - 2 b`. -/
theorem C184_exact [Nonempty ι] {e : ℝ} (h0 : 0 < e) (h1 : e ≤ 1 / 2) (t p : ι → ℝ) :
    crossEntropy e t p = average fun i => entropy (weight e t) (t i) (inside e (p i)) +
      t i * (1 - 2 * weight e t) * max 0 (Real.log (1 - inside e (p i)) - Real.log (inside e (p i))) := by
  have hw : max (mean fun i => 1 - t i) e = weight e t := by
    rw [average_one_sub]
    unfold weight
    by_cases h : e ≤ 1 - average t
    · rw [if_pos h, max_eq_left h]
    · rw [if_neg h, max_eq_right (not_le.1 h).le]
  unfold crossEntropy
  dsimp only
  rw [hw]
  show average _ = _
  congr 1
  funext i
  rw [clip_inside h1]
  exact cellLoss_eq _ _ (inside_mem h0 h1 _).1 (inside_mem h0 h1 _).2

/-- **C184** (partial).  If each true cell has a probability of at least one half, or if half of the cells are true: the average of the balanced
cross entropy.  Missing: true cells that are missed (`C184_false`). -/
theorem C184_partial [Nonempty ι] {e : ℝ} (h0 : 0 < e) (h1 : e ≤ 1 / 2) (t p : ι → ℝ)
    (h : (∀ i, t i ≠ 0 → 1 / 2 ≤ p i) ∨ average t = 1 / 2) :
    crossEntropy e t p = average fun i => entropy (weight e t) (t i) (inside e (p i)) := by
  rw [C184_exact h0 h1]
  congr 1
  funext i
  rcases h with h | h
  · by_cases ht : t i = 0
    · rw [ht, zero_mul, zero_mul, add_zero]
    · have hp := h i ht
      have hq : 1 / 2 ≤ inside e (p i) := by
        unfold inside
        split_ifs <;> linarith
      rw [max_eq_left, mul_zero, add_zero]
      have := Real.log_le_log (by linarith [(inside_mem h0 h1 (p i)).2]) (by linarith : 1 - inside e (p i) ≤ inside e (p i))
      linarith
  · have hw : weight e t = 1 / 2 := by
      unfold weight
      rw [h, if_pos (by linarith)]
      norm_num
    rw [hw]
    ring

/-- If fewer than half of the cells are true and one of them is missed the loss is less than the balanced cross entropy: the missed cells weigh too
little. -/
theorem C184_false [Nonempty ι] {e : ℝ} (h0 : 0 < e) (h1 : e < 1 / 2) (A : Finset ι) (hA : 2 * A.card < Fintype.card ι) (p : ι → ℝ) {m : ι}
    (hm : m ∈ A) (hp : p m < 1 / 2) :
    crossEntropy e (ones A) p < average fun i => entropy (weight e (ones A)) (ones A i) (inside e (p i)) := by
  have hn : (0 : ℝ) < Fintype.card ι := by exact_mod_cast Fintype.card_pos
  have hav : average (ones A) < 1 / 2 := by
    unfold average
    rw [sum_ones, div_lt_iff₀ hn]
    have : (2 : ℝ) * A.card < Fintype.card ι := by exact_mod_cast hA
    linarith
  have hw : 1 / 2 < weight e (ones A) := by
    unfold weight
    rw [if_pos (by linarith)]
    linarith
  rw [C184_exact h0 h1.le]
  unfold average at hw ⊢
  refine div_lt_div_of_pos_right ?_ hn
  have hterm : ∀ i, ones A i * (1 - 2 * weight e (ones A)) * max 0 (Real.log (1 - inside e (p i)) - Real.log (inside e (p i))) ≤ 0 := by
    intro i
    have : ones A i * (1 - 2 * weight e (ones A)) ≤ 0 := mul_nonpos_of_nonneg_of_nonpos (ones_nonneg A i) (by linarith)
    exact mul_nonpos_of_nonpos_of_nonneg this (le_max_left _ _)
  refine Finset.sum_lt_sum (fun i _ => by linarith [hterm i]) ⟨m, Finset.mem_univ m, ?_⟩
  have hq : inside e (p m) < 1 / 2 := by
    unfold inside
    split_ifs <;> linarith
  have hlog : Real.log (inside e (p m)) < Real.log (1 - inside e (p m)) := Real.log_lt_log (inside_mem h0 h1.le _).1 (by linarith)
  have h1' : ones A m = 1 := if_pos hm
  rw [h1', max_eq_right (by linarith)]
  nlinarith

example : 2 * ({0} : Finset (Fin 4)).card < Fintype.card (Fin 4) := by decide

end Verif.Metrics
