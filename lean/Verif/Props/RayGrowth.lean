import Verif.Props.RaySizes
import Mathlib.Algebra.BigOperators.Intervals
/-!
# C259: rays in larger regions are longer
-/

set_option linter.unusedSectionVars false

namespace Verif.RayGrowth
open Verif.RaySizes

variable {ι : Type} [Fintype ι] [DecidableEq ι]

/-! ## Specification -/

/-- The region of the second box (values at or above its threshold) contains that of the first. -/
def Contained (shape : ι → ℕ) (arr : (ι → ℤ) → ℝ) (xth : ℝ) (arr' : (ι → ℤ) → ℝ) (xth' : ℝ) : Prop :=
  ∀ c : ι → ℤ, (∀ i, 0 ≤ c i ∧ c i < shape i) → xth ≤ arr c → xth' ≤ arr' c

/-- After every number of steps, at most as many rays have ended in the second histogram of lengths. -/
def Longer (num num' : List ℕ) : Prop := num'.length = num.length ∧ ∀ r, (num'.take r).sum ≤ (num.take r).sum

/-- Sum of the lengths of the rays in a histogram. -/
def totalLength (num : List ℕ) : ℕ := ∑ n ∈ Finset.range num.length, n * num.getD n 0

/-! ## Proofs -/

theorem interp_mono (shape : ι → ℕ) (hsh : ∀ i, 2 ≤ shape i) (u v : (ι → ℤ) → ℝ)
    (h : ∀ c : ι → ℤ, (∀ i, 0 ≤ c i ∧ c i < shape i) → u c ≤ v c) (x : ι → ℝ) : interp shape u x ≤ interp shape v x := by
  classical
  unfold interp
  by_cases hx : ∀ i, 0 ≤ x i ∧ x i ≤ (shape i : ℝ) - 1
  · rw [if_pos hx, if_pos hx]
    have hl := fun i => lower_spec (shape i) (hsh i) (x i) (hx i).1 (hx i).2
    refine Finset.sum_le_sum fun S _ => mul_le_mul_of_nonneg_left (h _ fun i => ?_) (Finset.prod_nonneg fun i _ => ?_)
    · have := hl i
      split_ifs <;> omega
    · have := hl i
      split_ifs <;> linarith
  · rw [if_neg hx, if_neg hx]

theorem inside_mono (shape : ι → ℕ) (hsh : ∀ i, 2 ≤ shape i) {arr arr' : (ι → ℤ) → ℝ} {xth xth' : ℝ}
    (h : Contained shape arr xth arr' xth') (x : ι → ℝ) (hx : inside shape (mask arr xth) x = true) :
    inside shape (mask arr' xth') x = true := by
  classical
  unfold inside at hx ⊢
  rw [decide_eq_true_iff] at hx ⊢
  refine lt_of_lt_of_le hx (interp_mono shape hsh _ _ (fun c hc => ?_) x)
  unfold mask
  by_cases h1 : arr c ≥ xth
  · rw [if_pos h1, if_pos (h c hc h1)]
  · rw [if_neg h1]
    split_ifs <;> norm_num

theorem take_loop (inside : (ι → ℝ) → Bool) {k r : ℕ} (h : r ≤ k) (l : List (Ray ι)) :
    (rayLoop inside k l).take r = rayLoop inside r l := by
  have h1 := C36_bins inside k l
  have h2 := C36_bins inside r l
  refine List.ext_getElem? fun n => ?_
  by_cases hn : n < r
  · rw [List.getElem?_take_of_lt hn, h1.2 n (by omega), h2.2 n hn]
  · rw [List.getElem?_eq_none (by rw [List.length_take]; omega), List.getElem?_eq_none (by omega)]

theorem loop_longer {P Q : (ι → ℝ) → Bool} (h : ∀ x, P x = true → Q x = true) (k : ℕ) (l : List (Ray ι)) :
    Longer (rayLoop P k l) (rayLoop Q k l) := by
  classical
  have hle : ∀ r, (rayLoop Q r l).sum ≤ (rayLoop P r l).sum := by
    intro r
    have h1 := C36_total P r l
    have h2 := C36_total Q r l
    have h3 : number (Survives P r) l ≤ number (Survives Q r) l := by
      unfold number
      refine List.countP_mono_left fun x _ hx => ?_
      rw [decide_eq_true_iff] at hx ⊢
      exact fun j hj hj' => h _ (hx j hj hj')
    omega
  refine ⟨by rw [(C36_bins Q k l).1, (C36_bins P k l).1], fun r => ?_⟩
  by_cases hr : r ≤ k
  · rw [take_loop Q hr, take_loop P hr]
    exact hle r
  · rw [List.take_of_length_le (by rw [(C36_bins Q k l).1]; omega), List.take_of_length_le (by rw [(C36_bins P k l).1]; omega)]
    exact hle k

theorem abel (c : ℕ → ℕ) (k : ℕ) :
    ∑ n ∈ Finset.range k, n * c n + ∑ r ∈ Finset.range k, ∑ n ∈ Finset.range (r + 1), c n = k * ∑ n ∈ Finset.range k, c n := by
  induction k with
  | zero => simp
  | succ k ih =>
    rw [Finset.sum_range_succ (fun n => n * c n), Finset.sum_range_succ (fun r => ∑ n ∈ Finset.range (r + 1), c n)]
    have e := Finset.sum_range_succ c k
    rw [e]
    nlinarith

theorem sum_take (l : List ℕ) (r : ℕ) : (l.take r).sum = ∑ n ∈ Finset.range r, l.getD n 0 := by
  induction r generalizing l with
  | zero => simp
  | succ r ih =>
    rw [Finset.sum_range_succ']
    cases l with
    | nil => simp
    | cons a l => simp [ih, add_comm]

theorem total_longer {num num' : List ℕ} (h : Longer num num') (hs : num'.sum = num.sum) : totalLength num ≤ totalLength num' := by
  have a1 := abel (fun n => num.getD n 0) num.length
  have a2 := abel (fun n => num'.getD n 0) num'.length
  have s1 : ∑ n ∈ Finset.range num.length, num.getD n 0 = num.sum := by rw [← sum_take, List.take_length]
  have s2 : ∑ n ∈ Finset.range num'.length, num'.getD n 0 = num'.sum := by rw [← sum_take, List.take_length]
  have hle : ∑ r ∈ Finset.range num.length, ∑ n ∈ Finset.range (r + 1), num'.getD n 0 ≤
      ∑ r ∈ Finset.range num.length, ∑ n ∈ Finset.range (r + 1), num.getD n 0 := by
    refine Finset.sum_le_sum fun r _ => ?_
    rw [← sum_take, ← sum_take]
    exact h.2 _
  unfold totalLength
  rw [s1] at a1
  rw [s2, hs, h.1] at a2
  rw [h.1]
  omega

/-! ## Theorems -/

/-- C259 for `mfp2d` and `mfp3d`: in a larger region the rays with the same starts and directions end later. -/
theorem C259_partial :
    (∀ (shape : Fin 2 → ℕ), (∀ i, 2 ≤ shape i) → ∀ (arr arr' : (Fin 2 → ℤ) → ℝ) (xth xth' : ℝ), Contained shape arr xth arr' xth' →
      ∀ (starts : List (Fin 2 → ℤ)) (thetas : List ℕ), Longer (mfp2d shape arr xth starts thetas) (mfp2d shape arr' xth' starts thetas)) ∧
    ∀ (shape : Fin 3 → ℕ), (∀ i, 2 ≤ shape i) → ∀ (arr arr' : (Fin 3 → ℤ) → ℝ) (xth xth' : ℝ), Contained shape arr xth arr' xth' →
      ∀ (starts : List (Fin 3 → ℤ)) (angles : List (ℕ × ℕ)),
        Longer (mfp3d shape arr xth starts angles) (mfp3d shape arr' xth' starts angles) :=
  ⟨fun _ hsh _ _ _ _ h _ _ => loop_longer (inside_mono _ hsh h) _ _, fun _ hsh _ _ _ _ h _ _ => loop_longer (inside_mono _ hsh h) _ _⟩

/-- C259 for the mean length of rays in two dimensions. -/
theorem C259_mean (shape : Fin 2 → ℕ) (hsh : ∀ i, 2 ≤ shape i) (arr arr' : (Fin 2 → ℤ) → ℝ) (xth xth' : ℝ)
    (h : Contained shape arr xth arr' xth') (starts : List (Fin 2 → ℤ)) (thetas : List ℕ)
    (hs : ∀ c ∈ starts, ∀ i, 0 ≤ c i ∧ c i < shape i) (hlen : starts.length = thetas.length) :
    totalLength (mfp2d shape arr xth starts thetas) ≤ totalLength (mfp2d shape arr' xth' starts thetas) :=
  total_longer (C259_partial.1 shape hsh arr arr' xth xth' h starts thetas)
    (by rw [C36_mfp2d shape arr' xth' starts thetas hs hlen, C36_mfp2d shape arr xth starts thetas hs hlen])

/-- A lower threshold, in a map whose values are their columns. -/
example : Contained (fun _ : Fin 2 => 5) (fun c => (c 0 : ℝ)) 3 (fun c => (c 0 : ℝ)) 2 := by
  intro c _ h
  linarith

/-- C259 fails for the mean length of rays in three dimensions: a ray that does not end within the longest side of the box is not
counted at all. -/
theorem C259_false : ¬ ∀ (shape : Fin 3 → ℕ), (∀ i, 2 ≤ shape i) → ∀ (arr arr' : (Fin 3 → ℤ) → ℝ) (xth xth' : ℝ),
    Contained shape arr xth arr' xth' → ∀ (starts : List (Fin 3 → ℤ)) (angles : List (ℕ × ℕ)),
      (∀ c ∈ starts, ∀ i, 0 ≤ c i ∧ c i < shape i) → starts.length = angles.length →
      totalLength (mfp3d shape arr xth starts angles) ≤ totalLength (mfp3d shape arr' xth' starts angles) := by
  classical
  intro H
  let arr : (Fin 3 → ℤ) → ℝ := fun c => if c 0 ≤ 1 then 1 else 0
  have h := H (fun _ => 4) (fun _ => by norm_num) arr (fun _ => 1) (1 / 2) (1 / 2) (fun c _ _ => by norm_num) [fun _ => 0] [(45, 0)]
    (by simp) rfl
  rw [C36_false_3d 4 (le_refl _)] at h
  have h0 : totalLength (List.replicate 4 0) = 0 := by decide
  rw [h0, Nat.le_zero] at h
  have hl : longest3 (fun _ => 4) = 4 := by
    rw [longest3, Finset.sup_const Finset.univ_nonempty]
  rw [mfp3d, hl] at h
  set P := inside (fun _ : Fin 3 => 4) (mask arr (1 / 2)) with hP
  set l := rays dir3 [fun _ => 0] [(45, 0)] with hlr
  have hdir : dir3 (45, 0) = ![Real.sqrt 2 / 2, 0, Real.sqrt 2 / 2] := by
    have : radians 45 = Real.pi / 4 := by
      rw [radians]
      push_cast
      ring
    simp only [dir3, this]
    rw [show radians 0 = 0 by simp [radians], Real.sin_pi_div_four, Real.cos_pi_div_four, Real.sin_zero, Real.cos_zero]
    simp
  have hs1 : 14 / 10 ≤ Real.sqrt 2 := by
    rw [Real.le_sqrt (by norm_num)] <;> norm_num
  have hs2 : Real.sqrt 2 ≤ 3 / 2 := by
    rw [Real.sqrt_le_left (by norm_num)]
    norm_num
  have hpos : ∀ n : ℕ, at_ (⟨fun i => (((fun _ => 0 : Fin 3 → ℤ) i : ℤ) : ℝ), dir3 (45, 0)⟩ : Ray (Fin 3)) n =
      ![(n : ℝ) * (Real.sqrt 2 / 2), 0, (n : ℝ) * (Real.sqrt 2 / 2)] := by
    intro n
    funext i
    simp only [at_, hdir, Pi.add_apply, Pi.smul_apply, smul_eq_mul]
    fin_cases i <;> simp
  have hst := (C36_structure (fun _ : Fin 3 => 4) (fun _ => by norm_num) arr (1 / 2)).2
  have hin : ∀ n : ℕ, n ≤ 4 → ∀ i : Fin 3, 0 ≤ (![(n : ℝ) * (Real.sqrt 2 / 2), 0, (n : ℝ) * (Real.sqrt 2 / 2)] : Fin 3 → ℝ) i ∧
      (![(n : ℝ) * (Real.sqrt 2 / 2), 0, (n : ℝ) * (Real.sqrt 2 / 2)] : Fin 3 → ℝ) i ≤ ((4 : ℕ) : ℝ) - 1 := by
    intro n hn i
    have hn' : (n : ℝ) ≤ 4 := by exact_mod_cast hn
    have hb : 0 ≤ (n : ℝ) * (Real.sqrt 2 / 2) ∧ (n : ℝ) * (Real.sqrt 2 / 2) ≤ ((4 : ℕ) : ℝ) - 1 := by
      refine ⟨by positivity, ?_⟩
      push_cast
      nlinarith [Nat.cast_nonneg (α := ℝ) n]
    match i with
    | 0 => simpa using hb
    | 1 => norm_num
    | 2 => simpa using hb
  have p1 : P (at_ (⟨fun i => (((fun _ => 0 : Fin 3 → ℤ) i : ℤ) : ℝ), dir3 (45, 0)⟩ : Ray (Fin 3)) 1) = true := by
    rw [hpos]
    refine (hst _ (hin 1 (by norm_num))).1 fun c _ hc => ?_
    have h0 := (abs_lt.1 (hc 0)).2
    simp only [Matrix.cons_val_zero, Nat.cast_one, one_mul] at h0
    have : (c 0 : ℝ) < 2 := by linarith
    have : c 0 < 2 := by exact_mod_cast this
    simp only [arr]
    rw [if_pos (by omega)]
    norm_num
  have p3 : P (at_ (⟨fun i => (((fun _ => 0 : Fin 3 → ℤ) i : ℤ) : ℝ), dir3 (45, 0)⟩ : Ray (Fin 3)) 3) = false := by
    rw [hpos]
    refine (hst _ (hin 3 (by norm_num))).2 fun c _ hc => ?_
    have h0 := (abs_lt.1 (hc 0)).1
    simp only [Matrix.cons_val_zero] at h0
    push_cast at h0
    have : (1 : ℝ) < c 0 := by linarith
    have : 1 < c 0 := by exact_mod_cast this
    simp only [arr]
    rw [if_neg (by omega)]
    norm_num
  have hb := C36_bins P 4 l
  have hz : ∀ n, n < 4 → 1 ≤ n → number (Exits P n) l = 0 := by
    intro n hn h1
    have hn4 : (rayLoop P 4 l).getD n 0 = number (Exits P n) l := by
      rw [List.getD_eq_getElem?_getD, hb.2 n hn]
      rfl
    unfold totalLength at h
    rw [hb.1] at h
    have := Finset.sum_eq_zero_iff.1 h n (Finset.mem_range.2 hn)
    rw [hn4] at this
    rcases Nat.mul_eq_zero.1 this with h | h
    · omega
    · exact h
  have hnot : ∀ n, n < 4 → 1 ≤ n → ¬ Exits P n (⟨fun i => (((fun _ => 0 : Fin 3 → ℤ) i : ℤ) : ℝ), dir3 (45, 0)⟩ : Ray (Fin 3)) := by
    intro n hn h1 he
    have := hz n hn h1
    unfold number at this
    rw [List.countP_eq_zero] at this
    exact this ⟨fun i => (((fun _ => 0 : Fin 3 → ℤ) i : ℤ) : ℝ), dir3 (45, 0)⟩ (List.mem_singleton.2 rfl) (decide_eq_true he)
  by_cases p2 : P (at_ (⟨fun i => (((fun _ => 0 : Fin 3 → ℤ) i : ℤ) : ℝ), dir3 (45, 0)⟩ : Ray (Fin 3)) 2) = true
  · refine hnot 2 (by norm_num) (by norm_num) ⟨fun j hj hj' => ?_, p3⟩
    have : j = 1 ∨ j = 2 := by omega
    rcases this with rfl | rfl
    · exact p1
    · exact p2
  · refine hnot 1 (by norm_num) (by norm_num) ⟨fun j hj hj' => ?_, by simpa using p2⟩
    obtain rfl : j = 1 := by omega
    exact p1

end Verif.RayGrowth
