import Verif.Model.Statistics
import Verif.Lemmas.Convolve
import Mathlib.Algebra.Order.BigOperators.Group.List
import Mathlib.Algebra.Order.Field.Basic
import Mathlib.Algebra.BigOperators.Field
import Mathlib.Algebra.Order.Ring.Rat
import Mathlib.Data.Fintype.BigOperators
import Mathlib.Tactic.LinearCombination
import Mathlib.Tactic.FieldSimp
import Mathlib.Tactic.Positivity
import Mathlib.Tactic.NormNum
/-!
# Mean subtraction and moments (C28, C63, C64)
-/

set_option linter.unusedSectionVars false
set_option linter.unusedDecidableInType false

namespace Verif.Statistics

open Verif.Convolve

variable {K : Type} [Field K]

/-! ## Specification -/

/-- Specification: every slice perpendicular to axis `ax` of a cube with values `v` adds up to 0. -/
def SlicesZero (shape : Fin 3 → ℕ) (v : (Fin 3 → ℤ) → K) (ax : Fin 3) : Prop :=
  ∀ i : ℤ, ∑ y ∈ box (ax.removeNth shape), v (ax.insertNth i y) = 0

theorem planeMean_card (a : Arr (Fin 3) K) (ax : Fin 3) [CharZero K] (h : ∀ i, 0 < a.shape i) (i : ℤ) :
    ∑ y ∈ box (ax.removeNth a.shape), a.val (ax.insertNth i y) =
      ((box (ax.removeNth a.shape)).card : K) * planeMean a ax i := by
  have hne : (box (ax.removeNth a.shape)).Nonempty := by
    refine ⟨fun _ => 0, ?_⟩
    rw [mem_box]
    intro j
    exact ⟨le_rfl, by exact_mod_cast h _⟩
  have : ((box (ax.removeNth a.shape)).card : K) ≠ 0 := by exact_mod_cast (Finset.card_pos.2 hne).ne'
  unfold planeMean
  field_simp

/-- The negative axis numbers stand for the same axes. -/
theorem subtractMean_axis (a : Arr (Fin 3) K) (ax : Fin 3) (los : ℤ) (h : los = ax ∨ los = (ax : ℤ) - 3) :
    subtractMean a los = .ok ⟨a.shape, fun x => a.val x - planeMean a ax (x ax)⟩ := by
  match ax with
  | 0 => rcases h with rfl | rfl <;> rfl
  | 1 => rcases h with rfl | rfl <;> rfl
  | 2 => rcases h with rfl | rfl <;> rfl

/-- C28: `subtract_mean_signal` makes every slice perpendicular to the line of sight average to zero, for every legal
axis number, negative ones included. -/
theorem subtract_zero [CharZero K] (a : Arr (Fin 3) K) (hpos : ∀ i, 0 < a.shape i) (ax : Fin 3) (los : ℤ)
    (h : los = ax ∨ los = (ax : ℤ) - 3) :
    ∃ o, subtractMean a los = .ok ⟨a.shape, o⟩ ∧ SlicesZero a.shape o ax := by
  refine ⟨_, subtractMean_axis a ax los h, fun i => ?_⟩
  simp only [Fin.insertNth_apply_same]
  rw [Finset.sum_sub_distrib, planeMean_card a ax hpos i, Finset.sum_const, nsmul_eq_mul, sub_self]

example := subtract_zero (K := ℚ) ⟨fun i => i + 2, fun x => x 0 + x 1 * x 2⟩ (by simp) 1 (-2) (by decide)

/-- C28: values in one slice keep their differences. -/
theorem subtract_differences (a : Arr (Fin 3) K) (ax : Fin 3) (los : ℤ) (h : los = ax ∨ los = (ax : ℤ) - 3) :
    ∃ o, subtractMean a los = .ok ⟨a.shape, o⟩ ∧
      ∀ x y : Fin 3 → ℤ, x ax = y ax → o x - o y = a.val x - a.val y := by
  refine ⟨_, subtractMean_axis a ax los h, fun x y hxy => ?_⟩
  simp only [hxy]
  ring

/-- C28: together with the differences, the vanishing means determine the result. -/
theorem subtract_unique [CharZero K] (a : Arr (Fin 3) K) (hpos : ∀ i, 0 < a.shape i) (ax : Fin 3) (los : ℤ)
    (h : los = ax ∨ los = (ax : ℤ) - 3) (o' : (Fin 3 → ℤ) → K) (hz : SlicesZero a.shape o' ax)
    (hd : ∀ x y : Fin 3 → ℤ, x ax = y ax → o' x - o' y = a.val x - a.val y) :
    subtractMean a los = .ok ⟨a.shape, o'⟩ := by
  rw [subtractMean_axis a ax los h]
  congr 2
  funext x
  have h1 := hz (x ax)
  have h2 : ∀ y, o' (ax.insertNth (x ax) y) = a.val (ax.insertNth (x ax) y) + (o' x - a.val x) := by
    intro y
    have := hd (ax.insertNth (x ax) y) x (by simp)
    linear_combination this
  rw [Finset.sum_congr rfl fun y _ => h2 y, Finset.sum_add_distrib, planeMean_card a ax hpos, Finset.sum_const,
    nsmul_eq_mul, ← mul_add] at h1
  have hne : (box (ax.removeNth a.shape)).Nonempty := by
    refine ⟨fun _ => 0, ?_⟩
    rw [mem_box]
    intro j
    exact ⟨le_rfl, by exact_mod_cast hpos _⟩
  have hc : ((box (ax.removeNth a.shape)).card : K) ≠ 0 := by exact_mod_cast (Finset.card_pos.2 hne).ne'
  have := (mul_eq_zero.1 h1).resolve_left hc
  linear_combination -this

/-- C28: subtracting twice changes nothing more. -/
theorem subtract_idempotent [CharZero K] (a : Arr (Fin 3) K) (hpos : ∀ i, 0 < a.shape i) (ax : Fin 3) (los : ℤ)
    (h : los = ax ∨ los = (ax : ℤ) - 3) :
    ∃ b, subtractMean a los = .ok b ∧ subtractMean b los = .ok b := by
  obtain ⟨o, h1, h2⟩ := subtract_zero a hpos ax los h
  exact ⟨⟨a.shape, o⟩, h1, subtract_unique ⟨a.shape, o⟩ hpos ax los h o h2 fun _ _ _ => rfl⟩

/-- Any other axis number raises. -/
theorem subtract_axis_error (a : Arr (Fin 3) K) (los : ℤ) (h : los < -3 ∨ 2 < los) :
    subtractMean a los = .error "IndexError" := by
  have : ¬ axisOk los := by unfold axisOk; omega
  simp [subtractMean, this]

/-- A cube and an axis for the theorems above. -/
example : (∀ i, 0 < (⟨fun _ => 2, fun x => (x 0 : ℚ)⟩ : Arr (Fin 3) ℚ).shape i) ∧
    ((-1 : ℤ) = ((2 : Fin 3) : ℕ) ∨ (-1 : ℤ) = (((2 : Fin 3) : ℕ) : ℤ) - 3) := ⟨fun _ => by norm_num, by norm_num⟩

/-- C28, proved part for `signal_overdensity`: with axis 0, 1, 2 every slice is divided by its mean, so that the
overdensity of every slice averages to 0.  Missing: negative axes (`C28_false`). -/
theorem C28_partial [CharZero K] [DecidableEq K] (a : Arr (Fin 3) K) (hpos : ∀ i, 0 < a.shape i) (ax : Fin 3)
    (hm : ∀ i : ℤ, 0 ≤ i → i < a.shape ax → planeMean a ax i ≠ 0) :
    ∃ o, overdensity a ax = .ok ⟨a.shape, o⟩ ∧
      (∀ x, o x = a.val x / planeMean a ax (x ax) - 1) ∧
      ∀ i : ℤ, 0 ≤ i → i < a.shape ax → ∑ y ∈ box (ax.removeNth a.shape), o (ax.insertNth i y) = 0 := by
  have hno : ¬ ∃ i ∈ Finset.Ico 0 (a.shape ax : ℤ), planeMean a ax i = 0 := by
    rintro ⟨i, hi, h0⟩
    rw [Finset.mem_Ico] at hi
    exact hm i hi.1 hi.2 h0
  refine ⟨fun x => a.val x / planeMean a ax (x ax) - 1, ?_, fun _ => rfl, fun i h0 h1 => ?_⟩
  · have hok : axisOk (ax : ℤ) := by
      match ax with
      | 0 => decide
      | 1 => decide
      | 2 => decide
    unfold overdensity
    rw [if_neg (not_not.2 hok)]
    match ax, hno with
    | 0, hno => simp only [Fin.isValue, hno, if_false]; rfl
    | 1, hno => simp only [Fin.isValue, hno, if_false]; rfl
    | 2, hno => simp only [Fin.isValue, hno, if_false]; rfl
  · simp only [Fin.insertNth_apply_same]
    rw [Finset.sum_sub_distrib, ← Finset.sum_div, planeMean_card a ax hpos i, Finset.sum_const, nsmul_eq_mul, mul_one,
      mul_div_assoc, div_self (hm i h0 h1), mul_one, sub_self]

example : ∀ i : ℤ, planeMean (⟨fun _ => 2, fun _ => (3 : ℚ)⟩ : Arr (Fin 3) ℚ) 1 i ≠ 0 := by
  intro i
  unfold planeMean
  rw [Finset.sum_const, nsmul_eq_mul]
  have : (box (Fin.removeNth 1 (fun _ : Fin 3 => 2))).card = 4 := by
    have e : Fin.removeNth 1 (fun _ : Fin 3 => 2) = fun _ : Fin 2 => 2 := rfl
    rw [e, box, Fintype.card_piFinset]
    simp
  rw [this]
  norm_num

/-- C28 fails for negative axes, which numpy and `subtract_mean_signal` accept: `signal_overdensity` divides by nothing
and returns the signal minus 1, whatever the signal. -/
theorem C28_false [DecidableEq K] (a : Arr (Fin 3) K) (los : ℤ) (h : los = -1 ∨ los = -2 ∨ los = -3) :
    overdensity a los = .ok ⟨a.shape, fun x => a.val x - 1⟩ := by
  rcases h with rfl | rfl | rfl <;> rfl

/-! ## C63: functions applied per slice -/

/-- C63, proved part: for scalar fields there is one value per slice along the line of sight, and negative or too large
axes are refused.  Missing: vector fields (`C63_false`). -/
theorem C63_partial (nx ny nz : ℕ) (los : ℤ) :
    (0 ≤ los ∧ los < 3 → ∃ p, losPlan [nx, ny, nz] los = .ok p ∧ p.count = [nx, ny, nz].getD los.toNat 0 ∧
      p.slicedAxis = los.toNat) ∧
    (los < 0 ∨ 3 ≤ los → losPlan [nx, ny, nz] los = .error "AssertionError") := by
  constructor
  · intro h
    unfold losPlan
    rw [if_neg (by simpa using h)]
    simp only
    by_cases h1 : [nx, ny, nz].getD los.toNat 0 = 0
    · rw [if_pos h1]
      exact ⟨_, rfl, h1.symm, rfl⟩
    · rw [if_neg h1, if_neg (by simp), if_neg (not_not.2 h)]
      exact ⟨_, rfl, rfl, by simp⟩
  · intro h
    unfold losPlan
    rw [if_pos]
    simp only [List.length_cons, List.length_nil]
    push_cast
    omega

/-- C63 fails for every vector field on a mesh with other than three cells along the first axis: three values (the number
of components) are returned instead of one per slice. -/
theorem C63_false (nx ny nz : ℕ) (h : nx ≠ 3) :
    losPlan [3, nx, ny, nz] 0 = .ok ⟨3, 1⟩ ∧ (3 : ℕ) ≠ [3, nx, ny, nz].getD 1 0 := by
  exact ⟨rfl, by simpa using h.symm⟩

example : (250 : ℕ) ≠ 3 := by norm_num

/-! ## C64: weighted mean and kurtosis -/

section Ordered

variable [LinearOrder K] [IsStrictOrderedRing K]

/-- C64: the mass-weighted mean with non-negative, not all vanishing densities lies between the bounds of the
ionised fraction. -/
theorem massWeighted_bounds (l : List (K × K)) (lo hi : K) (hx : ∀ p ∈ l, lo ≤ p.1 ∧ p.1 ≤ hi)
    (hr : ∀ p ∈ l, 0 ≤ p.2) (hne : ∃ p ∈ l, 0 < p.2) :
    ∃ m, massWeighted l = .ok m ∧ lo ≤ m ∧ m ≤ hi ∧ m * (l.map fun p => p.2).sum = (l.map fun p => p.1 * p.2).sum := by
  obtain ⟨p0, hp0, hpos⟩ := hne
  have hnil : l ≠ [] := List.ne_nil_of_mem hp0
  have hsum : 0 < (l.map fun p => p.2).sum := by
    have : ∀ (l : List (K × K)), (∀ p ∈ l, 0 ≤ p.2) → p0 ∈ l → 0 < (l.map fun p => p.2).sum := by
      intro l
      induction l with
      | nil => intro _ h; simp at h
      | cons a l ih =>
        intro h1 h2
        rw [List.map_cons, List.sum_cons]
        have ha := h1 a (by simp)
        have hl : 0 ≤ (l.map fun p => p.2).sum := by
          apply List.sum_nonneg
          intro x hx
          obtain ⟨q, hq, rfl⟩ := List.mem_map.1 hx
          exact h1 q (by simp [hq])
        rcases List.mem_cons.1 h2 with rfl | h2
        · linarith
        · have := ih (fun p hp => h1 p (by simp [hp])) h2
          linarith
    exact this l hr hp0
  have hlen : (0 : K) < l.length := by exact_mod_cast List.length_pos_iff.2 hnil
  have hm : (l.map fun p => p.2).sum / (l.length : K) ≠ 0 := (div_pos hsum hlen).ne'
  have hbounds : lo * (l.map fun p => p.2).sum ≤ (l.map fun p => p.1 * p.2).sum ∧
      (l.map fun p => p.1 * p.2).sum ≤ hi * (l.map fun p => p.2).sum := by
    clear hsum hm hlen hnil hp0
    induction l with
    | nil => simp
    | cons a l ih =>
      obtain ⟨i1, i2⟩ := ih (fun p hp => hx p (by simp [hp])) (fun p hp => hr p (by simp [hp]))
      have h1 := hx a (by simp)
      have h2 := hr a (by simp)
      simp only [List.map_cons, List.sum_cons, mul_add]
      constructor
      · have := mul_le_mul_of_nonneg_right h1.1 h2; linarith
      · have := mul_le_mul_of_nonneg_right h1.2 h2; linarith
  have e : (l.map fun p => p.1 * p.2).sum / (l.length : K) / ((l.map fun p => p.2).sum / (l.length : K)) =
      (l.map fun p => p.1 * p.2).sum / (l.map fun p => p.2).sum := by
    have := hsum.ne'
    have := hlen.ne'
    field_simp
  refine ⟨(l.map fun p => p.1 * p.2).sum / (l.map fun p => p.2).sum, ?_, ?_, ?_, ?_⟩
  · unfold massWeighted
    rw [if_neg (by simpa [hnil] using hm), e]
  · rw [le_div_iff₀ hsum]; exact hbounds.1
  · rw [div_le_iff₀ hsum]; exact hbounds.2
  · exact div_mul_cancel₀ _ hsum.ne'

example : massWeighted [((1 : ℚ), 3), (0, 1)] = .ok (3 / 4) := by decide +kernel

theorem sum_mul (l : List K) (c : K) : (l.map (c * ·)).sum = c * l.sum := by
  induction l with
  | nil => simp
  | cons a l ih => simp only [List.map_cons, List.sum_cons, ih]; ring

theorem sum_affine (l : List K) (c d : K) : (l.map fun x => c * x + d).sum = c * l.sum + l.length * d := by
  induction l with
  | nil => simp
  | cons a l ih => simp only [List.map_cons, List.sum_cons, List.length_cons, ih]; push_cast; ring

theorem moment_affine (l : List K) (hl : l ≠ []) (c d : K) (k : ℕ) :
    ((l.map fun x => c * x + d).map fun x =>
      (x - (l.map fun x => c * x + d).sum / (l.length : K)) ^ k).sum =
      c ^ k * (l.map fun x => (x - l.sum / (l.length : K)) ^ k).sum := by
  have hlen : (l.length : K) ≠ 0 := by exact_mod_cast (List.length_pos_iff.2 hl).ne'
  rw [sum_affine, List.map_map, ← sum_mul (l.map _) (c ^ k), List.map_map]
  congr 1
  apply List.map_congr_left
  intro x _
  simp only [Function.comp]
  rw [← mul_pow]
  congr 1
  field_simp
  ring

/-- C64: the kurtosis does not depend on the unit or zero point of the data. -/
theorem kurtosis_affine (l : List K) (c d : K) (hc : c ≠ 0) : kurtosis (l.map fun x => c * x + d) = kurtosis l := by
  by_cases hl : l.length ≤ 1
  · have : (l.map fun x => c * x + d).length ≤ 1 := by simpa using hl
    unfold kurtosis
    rw [if_pos (Or.inl this), if_pos (Or.inl hl)]
  have hne : l ≠ [] := by rintro rfl; simp at hl
  unfold kurtosis
  simp only [List.length_map, moment_affine l hne c d]
  have h1 : c ^ 2 * (l.map fun x => (x - l.sum / (l.length : K)) ^ 2).sum / ((l.length : K) - 1) = 0 ↔
      (l.map fun x => (x - l.sum / (l.length : K)) ^ 2).sum / ((l.length : K) - 1) = 0 := by
    rw [mul_div_assoc, mul_eq_zero]
    simp [hc]
  by_cases h0 : (l.map fun x => (x - l.sum / (l.length : K)) ^ 2).sum / ((l.length : K) - 1) = 0
  · rw [if_pos (Or.inr (h1.2 h0)), if_pos (Or.inr h0)]
  · rw [if_neg (by rw [h1]; simp [hl, h0]), if_neg (by simp [hl, h0])]
    congr 1
    have hlen : (l.length : K) - 1 ≠ 0 := by
      have : (1 : K) < l.length := by exact_mod_cast not_le.1 hl
      linarith
    have hs : (l.map fun x => (x - l.sum / (l.length : K)) ^ 2).sum ≠ 0 := by
      intro h; rw [h, zero_div] at h0; exact h0 rfl
    field_simp

example : kurtosis [(1 : ℚ), 2, 6] = .ok (98 / 147) ∧ kurtosis [(3 : ℚ), 5, 13] = .ok (98 / 147) := by
  decide +kernel

/-- C64: reflecting the data changes the sign of the skewness and keeps its scale; a shift changes neither. -/
theorem skewness_affine (l : List K) (c d : K) (hc : c ≠ 0) :
    skewnessParts (l.map fun x => c * x + d) =
      (skewnessParts l).map fun p => (c ^ 3 * p.1, c ^ 2 * p.2) := by
  by_cases hl : l.length ≤ 1
  · have : (l.map fun x => c * x + d).length ≤ 1 := by simpa using hl
    unfold skewnessParts
    rw [if_pos (Or.inl this), if_pos (Or.inl hl)]
    rfl
  have hne : l ≠ [] := by rintro rfl; simp at hl
  unfold skewnessParts
  simp only [List.length_map, moment_affine l hne c d]
  have h1 : c ^ 2 * (l.map fun x => (x - l.sum / (l.length : K)) ^ 2).sum / ((l.length : K) - 1) = 0 ↔
      (l.map fun x => (x - l.sum / (l.length : K)) ^ 2).sum / ((l.length : K) - 1) = 0 := by
    rw [mul_div_assoc, mul_eq_zero]
    simp [hc]
  by_cases h0 : (l.map fun x => (x - l.sum / (l.length : K)) ^ 2).sum / ((l.length : K) - 1) = 0
  · rw [if_pos (Or.inr (h1.2 h0)), if_pos (Or.inr h0)]
    rfl
  · rw [if_neg (by rw [h1]; simp [hl, h0]), if_neg (by simp [hl, h0])]
    simp only [Except.map, mul_div_assoc]

example : skewnessParts [(1 : ℚ), 2, 6] = .ok (6, 7) ∧ skewnessParts [(-1 : ℚ), -2, -6] = .ok (-6, 7) := by
  decide +kernel

end Ordered

end Verif.Statistics
