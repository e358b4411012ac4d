import Verif.Model.Smoothing
import Verif.Lemmas.Convolve
import Mathlib.Algebra.Order.BigOperators.Group.Finset
import Mathlib.Algebra.BigOperators.Field
import Mathlib.Data.Fintype.BigOperators
import Mathlib.Tactic.FieldSimp
import Mathlib.Tactic.Positivity
import Mathlib.Tactic.NormNum
/-!
# Smoothing kernels (C27)
-/

set_option linter.unusedSectionVars false
set_option linter.unusedDecidableInType false

namespace Verif.Smoothing

open Verif.Convolve

variable {ι : Type} [Fintype ι] [DecidableEq ι] {K : Type} [Field K]

/-! ## Specification -/

/-- A kernel is normalised: its cells add up to 1. -/
def Normalised (k : Arr ι K) : Prop := ∑ x ∈ box k.shape, k.val x = 1

/-! ## The normalisation -/

theorem normalised_spec [CharZero K] (size : ℕ) (cells : Finset (ι → ℤ)) (hs : cells ⊆ box fun _ => size)
    (hne : cells.Nonempty) :
    ∃ k : Arr ι K, normalised size cells = .ok k ∧ (k.shape = fun _ => size) ∧
      (∀ x, k.val x = if x ∈ cells then 1 / (cells.card : K) else 0) ∧ Normalised k := by
  have h0 : cells.card ≠ 0 := Finset.card_ne_zero.2 hne
  refine ⟨⟨fun _ => size, fun x => if x ∈ cells then 1 / (cells.card : K) else 0⟩, ?_, rfl, fun _ => rfl, ?_⟩
  · simp [normalised, hne.ne_empty]
  · unfold Normalised
    rw [← Finset.sum_filter, Finset.filter_mem_eq_inter, Finset.inter_eq_right.2 hs, Finset.sum_const, nsmul_eq_mul]
    have : (cells.card : K) ≠ 0 := by exact_mod_cast h0
    field_simp

theorem floor_half (w : ℕ) : ⌊(w : ℚ) / 2⌋ = ((w / 2 : ℕ) : ℤ) := by
  rw [Int.floor_eq_iff]
  have h : 2 * (w / 2) + w % 2 = w := Nat.div_add_mod w 2
  have h1 : w % 2 < 2 := Nat.mod_lt _ (by norm_num)
  have h' : (2 : ℚ) * ((w / 2 : ℕ) : ℚ) + ((w % 2 : ℕ) : ℚ) = w := by exact_mod_cast h
  have h1' : ((w % 2 : ℕ) : ℚ) ≤ 1 := by exact_mod_cast (by omega)
  have h2' : (0 : ℚ) ≤ ((w % 2 : ℕ) : ℚ) := by positivity
  constructor
  · rw [Int.cast_natCast]; linarith
  · rw [Int.cast_natCast]; linarith

theorem ceil_half (w : ℕ) : ⌈(w : ℚ) / 2⌉ = (((w + 1) / 2 : ℕ) : ℤ) := by
  rw [Int.ceil_eq_iff]
  have h : 2 * ((w + 1) / 2) + (w + 1) % 2 = w + 1 := Nat.div_add_mod (w + 1) 2
  have h1 : (w + 1) % 2 < 2 := Nat.mod_lt _ (by norm_num)
  have h' : (2 : ℚ) * (((w + 1) / 2 : ℕ) : ℚ) + (((w + 1) % 2 : ℕ) : ℚ) = w + 1 := by exact_mod_cast h
  have h1' : (((w + 1) % 2 : ℕ) : ℚ) ≤ 1 := by exact_mod_cast (by omega)
  have h2' : (0 : ℚ) ≤ (((w + 1) % 2 : ℕ) : ℚ) := by positivity
  constructor
  · rw [Int.cast_natCast]; linarith
  · rw [Int.cast_natCast]; linarith

theorem tophat_bounds (size w : ℕ) (h2 : w ≤ size) :
    bound size (idxLow size w) = ((size / 2 - w / 2 : ℕ) : ℤ) ∧
      bound size (idxHigh size w) = ((size / 2 - w / 2 + w : ℕ) : ℤ) := by
  unfold bound idxLow idxHigh
  rw [floor_half, ceil_half, Int.tdiv_eq_ediv_of_nonneg (by omega), Int.tdiv_eq_ediv_of_nonneg (by omega)]
  constructor
  · rw [if_neg (by omega)]; omega
  · rw [if_neg (by omega)]; omega

theorem cubeCells_eq (size w : ℕ) (h2 : w ≤ size) :
    (cubeCells size w : Finset (ι → ℤ)) = Fintype.piFinset fun _ =>
      Finset.Ico ((size / 2 - w / 2 : ℕ) : ℤ) ((size / 2 - w / 2 + w : ℕ) : ℤ) := by
  obtain ⟨hl, hh⟩ := tophat_bounds size w h2
  ext x
  rw [cubeCells, Finset.mem_filter, hl, hh, mem_box, Fintype.mem_piFinset]
  simp only [Finset.mem_Ico]
  constructor
  · exact fun h => h.2
  · intro h
    refine ⟨fun i => ?_, h⟩
    have := h i
    omega

theorem cubeCells_subset (size : ℕ) (w : ℚ) : (cubeCells size w : Finset (ι → ℤ)) ⊆ box fun _ => size :=
  Finset.filter_subset _ _

theorem cubeCells_card (size w : ℕ) (h2 : w ≤ size) :
    (cubeCells size (w : ℚ) : Finset (ι → ℤ)).card = w ^ Fintype.card ι := by
  rw [cubeCells_eq size w h2, Fintype.card_piFinset]
  simp only [Int.card_Ico, Finset.prod_const, Finset.card_univ]
  congr 1
  omega

/-- C27: for every width between 1 and the size of the map, the tophat kernel (any number of axes) has the value
`1/width^d` on a contiguous block of exactly `width` cells along every axis, 0 elsewhere, and sums to 1. -/
theorem tophat_spec [CharZero K] (size w : ℕ) (h1 : 1 ≤ w) (h2 : w ≤ size) :
    ∃ (k : Arr ι K) (lo : ℤ), tophatKernel size (w : ℚ) = .ok k ∧ (k.shape = fun _ => size) ∧
      0 ≤ lo ∧ lo + w ≤ size ∧
      (∀ x, k.val x = if ∀ i, lo ≤ x i ∧ x i < lo + w then 1 / (w : K) ^ Fintype.card ι else 0) ∧
      Normalised k := by
  have hc := cubeCells_eq (ι := ι) size w h2
  have hcard := cubeCells_card (ι := ι) size w h2
  have hsub := cubeCells_subset (ι := ι) size (w : ℚ)
  have hne : (cubeCells size (w : ℚ) : Finset (ι → ℤ)).Nonempty := by
    rw [← Finset.card_pos, hcard]
    positivity
  obtain ⟨k, hk1, hk2, hk3, hk4⟩ := normalised_spec (K := K) size _ hsub hne
  refine ⟨k, ((size / 2 - w / 2 : ℕ) : ℤ), hk1, hk2, by positivity, by omega, fun x => ?_, hk4⟩
  rw [hk3, hcard, hc]
  simp only [Fintype.mem_piFinset, Finset.mem_Ico, Nat.cast_add, Nat.cast_pow]

example : (1 : ℕ) ≤ 4 ∧ (4 : ℕ) ≤ 7 := by decide

/-- C27: the block is centred: on the middle cell when size and width are odd, and always within half a cell of the
cell boundary below `size/2`. -/
theorem tophat_block (size w : ℕ) (h2 : w ≤ size) (x : ι → ℤ) :
    x ∈ (cubeCells size w : Finset (ι → ℤ)) ↔
      ∀ i, -((w / 2 : ℕ) : ℤ) ≤ x i - (size / 2 : ℕ) ∧ x i - (size / 2 : ℕ) < ((w + 1) / 2 : ℕ) := by
  rw [cubeCells_eq size w h2, Fintype.mem_piFinset]
  simp only [Finset.mem_Ico]
  apply forall_congr'
  intro i
  omega

/-- C27 fails for widths beyond the size: on every map with an even number of cells, the width `size + 2` gives a
kernel with a single non-zero cell, the last corner. -/
theorem C27_false [CharZero K] (m : ℕ) (hm : 0 < m) :
    ∃ k : Arr ι K, tophatKernel (2 * m) ((2 * m + 2 : ℕ) : ℚ) = .ok k ∧
      ∀ x, k.val x = if x = (fun _ => 2 * (m : ℤ) - 1) then 1 else 0 := by
  have hl : bound (2 * m) (idxLow (2 * m) ((2 * m + 2 : ℕ) : ℚ)) = 2 * (m : ℤ) - 1 := by
    unfold bound idxLow
    rw [floor_half]
    have : ((2 * m : ℕ) : ℤ) - 2 * (((2 * m + 2) / 2 : ℕ) : ℤ) = -2 := by omega
    rw [this]
    have : Int.tdiv (-2) 2 = -1 := by decide
    rw [this, if_pos (by norm_num)]
    omega
  have hh : bound (2 * m) (idxHigh (2 * m) ((2 * m + 2 : ℕ) : ℚ)) = 2 * (m : ℤ) := by
    unfold bound idxHigh
    rw [ceil_half, Int.tdiv_eq_ediv_of_nonneg (by omega), if_neg (by omega)]
    omega
  have hc : (cubeCells (2 * m) ((2 * m + 2 : ℕ) : ℚ) : Finset (ι → ℤ)) = {fun _ => 2 * (m : ℤ) - 1} := by
    ext x
    rw [cubeCells, Finset.mem_filter, hl, hh, mem_box, Finset.mem_singleton]
    constructor
    · rintro ⟨_, h⟩
      funext i
      have := h i
      omega
    · rintro rfl
      exact ⟨fun i => by push_cast; omega, fun i => by beta_reduce; omega⟩
  obtain ⟨k, h1, h2, h3, h4⟩ := normalised_spec (K := K) (2 * m)
    (cubeCells (2 * m) ((2 * m + 2 : ℕ) : ℚ) : Finset (ι → ℤ)) (Finset.filter_subset _ _) (by rw [hc]; simp)
  refine ⟨k, h1, fun x => ?_⟩
  rw [h3, hc]
  simp

/-- A width below 1 gives no kernel: 0/0. -/
theorem tophat_zero (size : ℕ) [Nonempty ι] : (tophatKernel size 0 : Except String (Arr ι K)) = .error "nan" := by
  have hc : (cubeCells size 0 : Finset (ι → ℤ)) = ∅ := by
    have := cubeCells_eq (ι := ι) size 0 (Nat.zero_le _)
    rw [Nat.cast_zero] at this
    rw [this]
    simp
  simp [tophatKernel, normalised, hc]

/-- C27 for the spherical kernel: equal positive values on the cells within half a width of the centre cell `size/2`, 0
elsewhere, sum 1. -/
theorem sphere_spec [CharZero K] (size : ℕ) (hsize : 0 < size) (w : ℚ) (hw : 0 ≤ w) :
    ∃ (k : Arr ι K) (n : ℕ), sphereKernel size w = .ok k ∧ 0 < n ∧ (k.shape = fun _ => size) ∧
      (∀ x ∈ box k.shape, k.val x =
        if ((∑ i, (x i - (size / 2 : ℕ)) ^ 2 : ℤ) : ℚ) ≤ (w / 2) ^ 2 then 1 / (n : K) else 0) ∧ Normalised k := by
  have hmem : (fun _ => ((size / 2 : ℕ) : ℤ)) ∈ (sphereCells size w : Finset (ι → ℤ)) := by
    rw [sphereCells, Finset.mem_filter, mem_box]
    refine ⟨fun i => by omega, hw, ?_⟩
    simp
    positivity
  obtain ⟨k, h1, h2, h3, h4⟩ := normalised_spec (K := K) size (sphereCells size w : Finset (ι → ℤ))
    (Finset.filter_subset _ _) ⟨_, hmem⟩
  refine ⟨k, _, h1, Finset.card_pos.2 ⟨_, hmem⟩, h2, fun x hx => ?_, h4⟩
  rw [h2] at hx
  rw [h3]
  simp only [sphereCells, Finset.mem_filter, hx, hw, true_and]

example : (0 : ℕ) < 5 ∧ (0 : ℚ) ≤ 3 := ⟨by norm_num, by norm_num⟩

/-- C27: the Gaussian kernel is positive, sums to 1, and its cells are in the ratio of the Gaussian of their distance
to the centre cell `size/2`. -/
theorem gauss_spec (size : ℕ) (hsize : 0 < size) (sigma : ℝ) (hs : sigma ≠ 0) :
    ∃ k : Arr ι ℝ, gaussKernel size sigma = .ok k ∧ (k.shape = fun _ => size) ∧ (∀ x, 0 < k.val x) ∧ Normalised k ∧
      ∀ x, k.val x = k.val (fun _ => ((size / 2 : ℕ) : ℤ)) *
        Real.exp (-(∑ i, ((x i : ℝ) - (size / 2 : ℕ)) ^ 2) / (2 * sigma ^ 2)) := by
  refine ⟨⟨fun _ => size, fun x => gaussVal size sigma x / ∑ y ∈ box (fun _ : ι => size), gaussVal size sigma y⟩,
    ?_, rfl, ?_, ?_, ?_⟩
  · simp [gaussKernel, hs]
  all_goals
    have hpos : 0 < ∑ y ∈ box (fun _ : ι => size), gaussVal size sigma y := by
      apply Finset.sum_pos
      · intro x _; exact Real.exp_pos _
      · refine ⟨fun _ => 0, ?_⟩
        rw [mem_box]
        intro i
        exact ⟨le_rfl, by exact_mod_cast hsize⟩
  · intro x
    exact div_pos (Real.exp_pos _) hpos
  · unfold Normalised
    simp only
    rw [← Finset.sum_div, div_self hpos.ne']
  · intro x
    simp only
    have hc : gaussVal size sigma (fun _ : ι => ((size / 2 : ℕ) : ℤ)) = 1 := by
      simp only [gaussVal, Int.cast_natCast, sub_self]
      simp
    rw [hc]
    have : 2 * sigma * sigma = 2 * sigma ^ 2 := by ring
    unfold gaussVal
    rw [this, div_mul_eq_mul_div, one_mul]

example : (0 : ℕ) < 9 ∧ (1.5 : ℝ) ≠ 0 := ⟨by norm_num, by norm_num⟩

/-- C27: with `fwhm`, the kernel falls to half of its central value at the distance `fwhm/2`. -/
theorem gauss_fwhm (size : ℕ) (hsize : 0 < size) (fwhm : ℝ) (hf : fwhm ≠ 0) :
    ∃ k : Arr ι ℝ, gaussKernel size (sigmaOfFwhm fwhm) = .ok k ∧
      ∀ x, ∑ i, ((x i : ℝ) - (size / 2 : ℕ)) ^ 2 = (fwhm / 2) ^ 2 →
        2 * k.val x = k.val (fun _ => ((size / 2 : ℕ) : ℤ)) := by
  have hlog : 0 < Real.log 2 := Real.log_pos (by norm_num)
  have hsq : 0 < Real.sqrt (2 * Real.log 2) := Real.sqrt_pos.2 (by positivity)
  have hs : sigmaOfFwhm fwhm ≠ 0 := by
    unfold sigmaOfFwhm
    exact div_ne_zero hf (by positivity)
  obtain ⟨k, h1, -, -, -, h5⟩ := gauss_spec (ι := ι) size hsize _ hs
  refine ⟨k, h1, fun x hx => ?_⟩
  rw [h5 x, hx]
  have he : -(fwhm / 2) ^ 2 / (2 * sigmaOfFwhm fwhm ^ 2) = -Real.log 2 := by
    unfold sigmaOfFwhm
    rw [div_pow, div_pow fwhm (2 * _), mul_pow, Real.sq_sqrt (by positivity)]
    field_simp
  rw [he, Real.exp_neg, Real.exp_log (by norm_num)]
  ring

/-- `fwhm = 4` on a map of 9 cells: the cell two away from the centre is at half maximum. -/
example : ∑ i, (((fun _ => 6 : Fin 1 → ℤ) i : ℝ) - (9 / 2 : ℕ)) ^ 2 = ((4 : ℝ) / 2) ^ 2 := by
  norm_num

/-- A vanishing width gives no kernel: 0/0 in the centre cell. -/
theorem gauss_zero (size : ℕ) (hsize : 0 < size) : (gaussKernel size 0 : Except String (Arr ι ℝ)) = .error "nan" := by
  simp [gaussKernel, hsize.ne']

example : (gaussKernel 5 0 : Except String (Arr (Fin 2) ℝ)) = .error "nan" := gauss_zero 5 (by norm_num)

end Verif.Smoothing
