import Verif.Props.Interpolate
import Mathlib.Algebra.BigOperators.Ring.Finset
import Mathlib.Algebra.Order.BigOperators.Ring.Finset
import Mathlib.Tactic.FinCases
/-!
# Interpolated values stay within the range of the cells

C261: `interpolate2d` and `interpolate3d` are linear in the array, keep the order of two arrays, and give no value above or below those of the cells,
wherever the coordinates are.
-/

namespace Verif.InterpolateRange

open Verif.Convolve Verif.Interpolate

/-! ## Specification -/

/-- `c` is `u a + v b`, cell by cell. -/
def Combined {d : ℕ} (u v : ℝ) (a b c : Arr (Fin d) ℝ) : Prop :=
  a.shape = c.shape ∧ b.shape = c.shape ∧ ∀ x ∈ box c.shape, c.val x = u * a.val x + v * b.val x

/-- No cell is below `lo` or above `hi`. -/
def Between {d : ℕ} (lo hi : ℝ) (a : Arr (Fin d) ℝ) : Prop := ∀ x ∈ box a.shape, lo ≤ a.val x ∧ a.val x ≤ hi

/-- `a` is nowhere above `b`. -/
def Below {d : ℕ} (a b : Arr (Fin d) ℝ) : Prop := a.shape = b.shape ∧ ∀ x ∈ box a.shape, a.val x ≤ b.val x

/-! ## Lemmas -/

theorem wrap_range {n : ℕ} (hn : 0 < n) (c : ℝ) : 0 ≤ wrap n c ∧ wrap n c ≤ n - 1 := by
  unfold wrap
  have h1 : (1 : ℝ) ≤ n := by exact_mod_cast hn
  split_ifs with h0 h2 h3 h2
  · constructor <;> linarith
  · have h2' : (2 : ℝ) ≤ n := by exact_mod_cast (by omega : 2 ≤ n)
    have hp : (0 : ℝ) < n - 1 := by linarith
    have e : -c / (n - 1) * (n - 1) = -c := div_mul_cancel₀ _ hp.ne'
    have a1 := Int.floor_le (-c / ((n : ℝ) - 1))
    have a2 := Int.lt_floor_add_one (-c / ((n : ℝ) - 1))
    constructor <;> nlinarith
  · constructor <;> linarith
  · have h2' : (2 : ℝ) ≤ n := by exact_mod_cast (by omega : 2 ≤ n)
    have hp : (0 : ℝ) < n - 1 := by linarith
    have e : c / (n - 1) * (n - 1) = c := div_mul_cancel₀ _ hp.ne'
    have a1 := Int.floor_le (c / ((n : ℝ) - 1))
    have a2 := Int.lt_floor_add_one (c / ((n : ℝ) - 1))
    constructor <;> nlinarith
  · constructor <;> linarith

/-- The weights of the corners of a cell. -/
noncomputable def weight {d : ℕ} (c : Fin d → ℝ) (e : Fin d → Fin 2) : ℝ :=
  ∏ j, if e j = 0 then 1 - Int.fract (c j) else Int.fract (c j)

theorem weight_nonneg {d : ℕ} (c : Fin d → ℝ) (e : Fin d → Fin 2) : 0 ≤ weight c e := by
  unfold weight
  refine Finset.prod_nonneg fun j _ => ?_
  split
  · linarith [Int.fract_lt_one (c j)]
  · exact Int.fract_nonneg _

theorem weight_sum {d : ℕ} (c : Fin d → ℝ) : ∑ e : Fin d → Fin 2, weight c e = 1 := by
  unfold weight
  have := (Finset.prod_univ_sum (fun _ : Fin d => (Finset.univ : Finset (Fin 2)))
    fun j (e : Fin 2) => if e = 0 then 1 - Int.fract (c j) else Int.fract (c j)).symm
  rw [Fintype.piFinset_univ] at this
  rw [this]
  refine Finset.prod_eq_one fun j _ => ?_
  rw [Fin.sum_univ_two]
  simp

/-- A corner outside the array has no weight. -/
theorem corner_mem {d : ℕ} {s : Fin d → ℕ} {c : Fin d → ℝ} (hc : ∀ j, 0 ≤ c j ∧ c j ≤ s j - 1) (e : Fin d → Fin 2)
    (he : weight c e ≠ 0) : (fun j => ⌊c j⌋ + ((e j : ℕ) : ℤ)) ∈ box s := by
  rw [mem_box]
  intro j
  have h0 : (0 : ℤ) ≤ ⌊c j⌋ := Int.floor_nonneg.2 (hc j).1
  have hj : (if e j = 0 then 1 - Int.fract (c j) else Int.fract (c j)) ≠ 0 := fun h =>
    he (Finset.prod_eq_zero (Finset.mem_univ j) h)
  have h1 : ⌊c j⌋ ≤ (s j : ℤ) - 1 := by
    have : ((⌊c j⌋ : ℤ) : ℝ) ≤ ((s j : ℤ) - 1 : ℤ) := by
      push_cast
      exact (Int.floor_le _).trans (hc j).2
    exact_mod_cast this
  beta_reduce
  rcases Fin.exists_fin_two.1 ⟨e j, rfl⟩ with h | h
  · rw [h]
    simp only [Fin.val_zero, Nat.cast_zero, add_zero]
    omega
  · rw [h] at hj ⊢
    have hf : Int.fract (c j) ≠ 0 := by simpa using hj
    have hf' : 0 < Int.fract (c j) := lt_of_le_of_ne (Int.fract_nonneg _) hf.symm
    have h2 : ((⌊c j⌋ : ℤ) : ℝ) < ((s j : ℤ) - 1 : ℤ) := by
      push_cast
      have := Int.self_sub_floor (c j)
      have := (hc j).2
      linarith
    have h3 : ⌊c j⌋ < (s j : ℤ) - 1 := by exact_mod_cast h2
    simp only [Fin.val_one, Nat.cast_one]
    omega

theorem nearest_mem {d : ℕ} {s : Fin d → ℕ} {c : Fin d → ℝ} (hc : ∀ j, 0 ≤ c j ∧ c j ≤ s j - 1) :
    (fun j => ⌊c j + 1 / 2⌋) ∈ box s := by
  rw [mem_box]
  intro j
  have := hc j
  refine ⟨Int.floor_nonneg.2 (by linarith), ?_⟩
  rw [Int.floor_lt]
  push_cast
  linarith

/-- An interpolated value is a mean of values of cells, with weights which depend on the place only. -/
theorem spline_mean {d : ℕ} (order : Order) {s : Fin d → ℕ} {c : Fin d → ℝ} (hc : ∀ j, 0 ≤ c j ∧ c j ≤ s j - 1) :
    ∃ w : (Fin d → ℤ) → ℝ, (∀ x, 0 ≤ w x) ∧ ∑ x ∈ box s, w x = 1 ∧ ∀ a : (Fin d → ℤ) → ℝ, spline order a c = ∑ x ∈ box s, w x * a x := by
  classical
  cases order with
  | zero =>
    refine ⟨fun x => if x = (fun j => ⌊c j + 1 / 2⌋) then 1 else 0, fun x => by beta_reduce; split <;> norm_num, ?_, fun a => ?_⟩
    · rw [Finset.sum_ite_eq' (box s), if_pos (nearest_mem hc)]
    · simp only [ite_mul, one_mul, zero_mul]
      rw [Finset.sum_ite_eq' (box s), if_pos (nearest_mem hc)]
      rfl
  | one =>
    have key : ∀ a : (Fin d → ℤ) → ℝ, ∑ e : Fin d → Fin 2, weight c e * a (fun j => ⌊c j⌋ + ((e j : ℕ) : ℤ)) =
        ∑ x ∈ box s, (∑ e : Fin d → Fin 2, if (fun j => ⌊c j⌋ + ((e j : ℕ) : ℤ)) = x then weight c e else 0) * a x := by
      intro a
      simp only [Finset.sum_mul]
      rw [Finset.sum_comm]
      refine Finset.sum_congr rfl fun e _ => ?_
      simp only [ite_mul, zero_mul]
      rw [Finset.sum_ite_eq (box s)]
      split
      · rfl
      · rename_i h
        have : weight c e = 0 := by
          by_contra hw
          exact h (corner_mem hc e hw)
        rw [this, zero_mul]
    refine ⟨fun x => ∑ e : Fin d → Fin 2, if (fun j => ⌊c j⌋ + ((e j : ℕ) : ℤ)) = x then weight c e else 0, fun x => ?_, ?_, fun a => ?_⟩
    · refine Finset.sum_nonneg fun e _ => ?_
      split
      · exact weight_nonneg c e
      · exact le_rfl
    · have := key fun _ => 1
      simp only [mul_one] at this
      rw [← this, weight_sum]
    · rw [← key a]
      rfl

theorem value_mean {d : ℕ} (order : Order) {s : Fin d → ℕ} (hs : ∀ j, 0 < s j) (coords : Fin d → List ℝ) (i : Fin d → ℤ) :
    ∃ w : (Fin d → ℤ) → ℝ, (∀ x, 0 ≤ w x) ∧ ∑ x ∈ box s, w x = 1 ∧
      ∀ a : Arr (Fin d) ℝ, a.shape = s → (interpolate order a coords).val i = ∑ x ∈ box s, w x * a.val x := by
  obtain ⟨w, h1, h2, h3⟩ := spline_mean order (s := s) (c := fun j => wrap (s j) ((coords j).getD (i j).toNat 0)) fun j => wrap_range (hs j) _
  refine ⟨w, h1, h2, fun a ha => ?_⟩
  subst ha
  exact h3 a.val

/-! ## C261 -/

/-- **C261**: the interpolation of `u a + v b` is that of `a` times `u` plus that of `b` times `v`. -/
theorem C261_linear {d : ℕ} (order : Order) (u v : ℝ) (a b c : Arr (Fin d) ℝ) (hs : ∀ j, 0 < c.shape j) (h : Combined u v a b c)
    (coords : Fin d → List ℝ) :
    Combined u v (interpolate order a coords) (interpolate order b coords) (interpolate order c coords) := by
  refine ⟨rfl, rfl, fun i _ => ?_⟩
  obtain ⟨w, -, -, hw⟩ := value_mean order hs coords i
  rw [hw a h.1, hw b h.2.1, hw c rfl, Finset.mul_sum, Finset.mul_sum, ← Finset.sum_add_distrib]
  refine Finset.sum_congr rfl fun x hx => ?_
  rw [h.2.2 x hx]
  ring

/-- **C261**: no value is below the least or above the greatest cell, also where the coordinates are outside the array. -/
theorem C261_between {d : ℕ} (order : Order) (lo hi : ℝ) (a : Arr (Fin d) ℝ) (hs : ∀ j, 0 < a.shape j) (h : Between lo hi a)
    (coords : Fin d → List ℝ) : Between lo hi (interpolate order a coords) := by
  intro i _
  obtain ⟨w, h0, h1, hw⟩ := value_mean order hs coords i
  rw [hw a rfl]
  have e : ∀ t : ℝ, t = ∑ x ∈ box a.shape, w x * t := by
    intro t
    rw [← Finset.sum_mul, h1, one_mul]
  constructor
  · rw [e lo]
    exact Finset.sum_le_sum fun x hx => mul_le_mul_of_nonneg_left (h x hx).1 (h0 x)
  · rw [e hi]
    exact Finset.sum_le_sum fun x hx => mul_le_mul_of_nonneg_left (h x hx).2 (h0 x)

/-- **C261**: where one array is nowhere above another, its interpolation is nowhere above that of the other. -/
theorem C261_order {d : ℕ} (order : Order) (a b : Arr (Fin d) ℝ) (hs : ∀ j, 0 < a.shape j) (h : Below a b) (coords : Fin d → List ℝ) :
    Below (interpolate order a coords) (interpolate order b coords) := by
  refine ⟨rfl, fun i _ => ?_⟩
  obtain ⟨w, h0, -, hw⟩ := value_mean order hs coords i
  rw [hw a rfl, hw b h.1.symm]
  exact Finset.sum_le_sum fun x hx => mul_le_mul_of_nonneg_left (h.2 x hx) (h0 x)

/-! ## Examples -/

/-- A map of neutral fractions, falling along the first axis. -/
noncomputable def fractions : Arr (Fin 2) ℝ := ⟨![2, 3], fun x => if x 0 = 0 then 1 else 1 / 4⟩

/-- The same with the second row neutral too. -/
noncomputable def neutral : Arr (Fin 2) ℝ := ⟨![2, 3], fun _ => 1⟩

example : (∀ j, 0 < fractions.shape j) ∧ Between 0 1 fractions ∧ ¬ Between (1 / 3) 1 fractions ∧ Below fractions neutral := by
  refine ⟨fun j => by fin_cases j <;> norm_num [fractions], fun x _ => ?_, fun h => ?_, rfl, fun x _ => ?_⟩
  · simp only [fractions]
    split <;> norm_num
  · have := (h ![1, 0] ((mem_box _ _).2 fun j => by fin_cases j <;> norm_num [fractions])).1
    norm_num [fractions] at this
  · simp only [fractions, neutral]
    split <;> norm_num

/-- The ionised fractions are the combination `1 - x`. -/
example : Combined 1 (-1) neutral fractions ⟨![2, 3], fun x => if x 0 = 0 then 0 else 3 / 4⟩ := by
  refine ⟨rfl, rfl, fun x _ => ?_⟩
  simp only [fractions, neutral]
  split <;> norm_num

/-- Half way between the rows, at a coordinate inside, the value is half way too. -/
example : at' .one fractions ![1 / 2, 0] = 5 / 8 := by
  have h := (C162_partial fractions).line (fun _ => 0) 0 0 (1 / 2) (fun l => by fin_cases l <;> norm_num [fractions]) le_rfl
    (by norm_num [fractions]) (by norm_num) (by norm_num)
  have c0 := (C162_partial fractions).cell ![0, 0] ((mem_box _ _).2 fun j => by fin_cases j <;> norm_num [fractions])
  have c1 := (C162_partial fractions).cell ![1, 0] ((mem_box _ _).2 fun j => by fin_cases j <;> norm_num [fractions])
  have e0 : (Function.update (fun _ => 0) 0 ((0 : ℤ) : ℝ) : Fin 2 → ℝ) = fun j => ((![0, 0] : Fin 2 → ℤ) j : ℝ) := by
    funext j; fin_cases j <;> simp
  have e1 : (Function.update (fun _ => 0) 0 (((0 : ℤ) : ℝ) + 1) : Fin 2 → ℝ) = fun j => ((![1, 0] : Fin 2 → ℤ) j : ℝ) := by
    funext j; fin_cases j <;> simp
  have e2 : (Function.update (fun _ => 0) 0 (((0 : ℤ) : ℝ) + 1 / 2) : Fin 2 → ℝ) = ![1 / 2, 0] := by
    funext j; fin_cases j <;> simp
  rw [e0, e1, e2, c0, c1] at h
  rw [h]
  norm_num [fractions]

end Verif.InterpolateRange
