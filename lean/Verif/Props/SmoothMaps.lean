import Verif.Props.Kernels
import Verif.Props.Convolve
/-!
# Smoothing of maps and cubes (C58, C59, C60)
-/

set_option linter.unusedSectionVars false
set_option linter.unusedDecidableInType false

namespace Verif.Smoothing

open Verif.Convolve

variable {K : Type} [Field K] [CharZero K]

/-! ## Specification -/

/-- Specification: the mean of the map over the square of `2v+1` cells around `x`, indices periodic. -/
noncomputable def boxMean (a : Arr (Fin 2) K) (x : Fin 2 → ℤ) (v : ℕ) : K :=
  (∑ d ∈ Fintype.piFinset fun _ : Fin 2 => Finset.Icc (-(v : ℤ)) v, a.val (md a.shape (x + d))) / (2 * v + 1) ^ 2

/-! ## The tophat -/

/-- The tophat of odd width on a map of odd size, as a periodic convolution. -/
theorem periodic_tophat (a k : Arr (Fin 2) K) (n v : ℕ) (hn : n % 2 = 1) (hv : 2 * v + 1 ≤ n)
    (hk : tophatKernel n ((2 * v + 1 : ℕ) : ℚ) = .ok k) (x : Fin 2 → ℤ) :
    Periodic a k (fun i => (((k.shape i + 1) / 2 : ℕ) : ℤ)) x = boxMean a (x + fun _ => 1) v := by
  have hc := cubeCells_eq (ι := Fin 2) n (2 * v + 1) hv
  have hcard : (cubeCells n ((2 * v + 1 : ℕ) : ℚ) : Finset (Fin 2 → ℤ)).card = (2 * v + 1) ^ 2 :=
    cubeCells_card (ι := Fin 2) n (2 * v + 1) hv
  have hsub := cubeCells_subset (ι := Fin 2) n ((2 * v + 1 : ℕ) : ℚ)
  obtain ⟨k', hk1, hk2, hk3, -⟩ := normalised_spec (K := K) n _ hsub
    (by rw [← Finset.card_pos, hcard]; positivity)
  have : k' = k := by
    have h : Except.ok k' = Except.ok k := hk1.symm.trans hk
    injection h
  subst this
  unfold Periodic boxMean
  rw [hk2]
  simp only [hk3, ite_mul, zero_mul]
  rw [← Finset.sum_filter, Finset.filter_mem_eq_inter, Finset.inter_eq_right.2 hsub, ← Finset.mul_sum, hcard,
    div_mul_eq_mul_div, one_mul]
  congr 1
  · rw [hc]
    refine Finset.sum_bij' (fun j _ => (fun i => ((n / 2 : ℕ) : ℤ) - j i)) (fun d _ => (fun i => ((n / 2 : ℕ) : ℤ) - d i))
      ?_ ?_ ?_ ?_ ?_
    · intro j hj
      rw [Fintype.mem_piFinset] at hj ⊢
      intro i
      have := hj i
      rw [Finset.mem_Ico] at this
      rw [Finset.mem_Icc]
      omega
    · intro d hd
      rw [Fintype.mem_piFinset] at hd ⊢
      intro i
      have := hd i
      rw [Finset.mem_Icc] at this
      rw [Finset.mem_Ico]
      omega
    · intro j _; funext i; simp
    · intro j _; funext i; simp
    · intro j _
      congr 2
      funext i
      simp only [Pi.add_apply, Pi.sub_apply]
      omega
  · push_cast; ring

/-- What `smooth_tophat` computes on a square map with an odd number of cells: the mean over the square around the
*next* cell along both axes. -/
theorem tophat_odd (a : Arr (Fin 2) K) (n v : ℕ) (hs : ∀ i, a.shape i = n) (hn : n % 2 = 1) (hv : 2 * v + 1 ≤ n) :
    ∃ o, smoothTophat a ((2 * v + 1 : ℕ) : ℚ) = .ok ⟨a.shape, o⟩ ∧ ∀ x, o x = boxMean a (x + fun _ => 1) v := by
  obtain ⟨k, lo, hk1, hk2, -⟩ := tophat_spec (ι := Fin 2) (K := K) n (2 * v + 1) (by omega) hv
  have hfits : Fits a k := ⟨fun i => by rw [hk2]; simp only; omega, fun i => by rw [hk2, hs]⟩
  obtain ⟨o, h1, h2⟩ := circular_result a k hfits .same (by simp) .numpy (by simp)
  refine ⟨o, ?_, fun x => ?_⟩
  · have : ¬ a.shape 0 % 2 = 0 := by rw [hs]; omega
    simp only [smoothTophat, this, if_false]
    rw [hs, hk1]
    exact h1
  · rw [h2, periodic_tophat a k n v hn hv hk1]

/-- C58 fails on maps with an odd number of cells: with width 1, `smooth_tophat` moves the map. -/
theorem C58_false (a : Arr (Fin 2) K) (n : ℕ) (hs : ∀ i, a.shape i = n) (hn : n % 2 = 1) :
    ∃ o, smoothTophat a 1 = .ok ⟨a.shape, o⟩ ∧ ∀ x, o x = a.val (md a.shape (x + fun _ => 1)) := by
  obtain ⟨o, h1, h2⟩ := tophat_odd a n 0 hs hn (by omega)
  refine ⟨o, by simpa using h1, fun x => ?_⟩
  rw [h2]
  unfold boxMean
  have : (Fintype.piFinset fun _ : Fin 2 => Finset.Icc (-((0 : ℕ) : ℤ)) ((0 : ℕ) : ℤ)) = {fun _ => 0} := by
    simp
  rw [this, Finset.sum_singleton]
  simp only [Nat.cast_zero, mul_zero, zero_add, one_pow, div_one]
  congr 2
  funext i
  simp

example : ∃ a : Arr (Fin 2) ℚ, (∀ i, a.shape i = 3) ∧ a.val (md a.shape (0 + fun _ => 1)) ≠ a.val 0 :=
  ⟨⟨fun _ => 3, fun x => (x 0 : ℚ)⟩, fun _ => rfl, by decide +kernel⟩

/-- What `smooth_tophat` computes on a square map with an even number of cells: the mean, around the next cell, of
the map lengthened by one cell (periods `n+1`). -/
theorem tophat_even (a : Arr (Fin 2) K) (n v : ℕ) (hs : ∀ i, a.shape i = n) (hn : n % 2 = 0) (hv : 2 * v ≤ n) :
    ∃ o, smoothTophat a ((2 * v + 1 : ℕ) : ℚ) = .ok ⟨a.shape, o⟩ ∧
      ∀ x, o x = boxMean (paddedSlice a (n + 1)) (x + fun _ => 1) v := by
  obtain ⟨k, lo, hk1, hk2, -⟩ := tophat_spec (ι := Fin 2) (K := K) (n + 1) (2 * v + 1) (by omega) (by omega)
  have hfits : Fits (paddedSlice a (n + 1)) k :=
    ⟨fun i => by rw [hk2]; simp only; omega, fun i => by rw [hk2]; simp [paddedSlice]⟩
  obtain ⟨o, h1, h2⟩ := circular_result (paddedSlice a (n + 1)) k hfits .same (by simp) .numpy (by simp)
  refine ⟨o, ?_, fun x => ?_⟩
  · have h0 : a.shape 0 % 2 = 0 := by rw [hs]; omega
    have h3 : ¬ (a.shape 1 ≠ a.shape 0) := by rw [hs, hs]; simp
    simp only [smoothTophat, h0, h3, if_false, if_true]
    rw [hs, hk1]
    have h4 : smoothWithKernel (paddedSlice a (n + 1)) k = .ok ⟨(paddedSlice a (n + 1)).shape, o⟩ := h1
    change (smoothWithKernel (paddedSlice a (n + 1)) k >>= fun out =>
      Except.ok (⟨fun i => out.shape i - 1, out.val⟩ : Arr (Fin 2) K)) = _
    rw [h4]
    have h5 : (fun i => (paddedSlice a (n + 1)).shape i - 1) = a.shape := by
      funext i
      simp [paddedSlice, hs]
    change Except.ok (⟨fun i => (paddedSlice a (n + 1)).shape i - 1, o⟩ : Arr (Fin 2) K) = _
    rw [h5]
  · rw [h2, periodic_tophat (paddedSlice a (n + 1)) k (n + 1) v (by omega) (by omega) hk1]

/-- C58, proved part: `smooth_tophat` averages over the square of the requested width around the next cell, for maps of
odd size everywhere and for maps of even size away from the upper edge.  Missing: the position (it should be the
cell itself, `C58_false`) and the upper edge of even maps (`C58_false_seam`). -/
theorem C58_partial (a : Arr (Fin 2) K) (n v : ℕ) (hs : ∀ i, a.shape i = n) (hv : 2 * v + 1 ≤ n) :
    ∃ o, smoothTophat a ((2 * v + 1 : ℕ) : ℚ) = .ok ⟨a.shape, o⟩ ∧
      ∀ x : Fin 2 → ℤ, (n % 2 = 1 ∨ ∀ i, (v : ℤ) ≤ x i + 1 ∧ x i + 1 + v ≤ n) → o x = boxMean a (x + fun _ => 1) v := by
  rcases Nat.mod_two_eq_zero_or_one n with hn | hn
  · obtain ⟨o, h1, h2⟩ := tophat_even a n v hs hn (by omega)
    refine ⟨o, h1, fun x hx => ?_⟩
    rcases hx with hx | hx
    · omega
    rw [h2]
    unfold boxMean
    congr 1
    apply Finset.sum_congr rfl
    intro d hd
    rw [Fintype.mem_piFinset] at hd
    simp only [paddedSlice]
    have : md (fun _ : Fin 2 => n + 1) (x + (fun _ => 1) + d) = x + (fun _ => 1) + d := by
      funext i
      have h3 := hx i
      have h4 := hd i
      rw [Finset.mem_Icc] at h4
      simp only [md, Pi.add_apply]
      exact Int.emod_eq_of_lt (by omega) (by push_cast; omega)
    rw [this]
  · obtain ⟨o, h1, h2⟩ := tophat_odd a n v hs hn hv
    exact ⟨o, h1, fun x _ => h2 x⟩

example : ∀ i : Fin 2, ((1 : ℕ) : ℤ) ≤ (fun _ => 2 : Fin 2 → ℤ) i + 1 ∧ (fun _ => 2 : Fin 2 → ℤ) i + 1 + (1 : ℕ) ≤ (6 : ℕ) := by
  intro i; norm_num

theorem box_two : box (fun _ : Fin 2 => 2) = {![0, 0], ![0, 1], ![1, 0], ![1, 1]} := by
  ext x
  rw [mem_box]
  simp only [Finset.mem_insert, Finset.mem_singleton, funext_iff, Fin.forall_fin_two]
  simp
  omega

/-- C58 fails at the edge of even maps, where the first row is counted twice: the tophat of width 3 turns a point
source of total 1 on the 2×2 map into a map of total 16/9. -/
theorem C58_false_seam :
    ∃ o, smoothTophat (⟨fun _ => 2, fun x => if x = 0 then 1 else 0⟩ : Arr (Fin 2) ℚ) 3 = .ok ⟨fun _ => 2, o⟩ ∧
      ∑ x ∈ box (fun _ : Fin 2 => 2), o x = 16 / 9 := by
  set a : Arr (Fin 2) ℚ := ⟨fun _ => 2, fun x => if x = 0 then 1 else 0⟩ with ha
  obtain ⟨o, h1, h2⟩ := tophat_even a 2 1 (fun _ => rfl) rfl (by norm_num)
  refine ⟨o, by simpa using h1, ?_⟩
  have h3 : ∀ x, o x = 4 / 9 := by
    intro x
    rw [h2]
    unfold boxMean
    have h4 : ∑ d ∈ Fintype.piFinset fun _ : Fin 2 => Finset.Icc (-((1 : ℕ) : ℤ)) (1 : ℕ),
        (paddedSlice a (2 + 1)).val (md (paddedSlice a (2 + 1)).shape (x + (fun _ => 1) + d)) =
        ∑ y ∈ box (fun _ : Fin 2 => 3), (paddedSlice a 3).val y := by
      rw [← sum_shift (fun _ : Fin 2 => 3) x]
      refine Finset.sum_bij' (fun d _ => (d + fun _ => 1)) (fun y _ => (y - fun _ => 1)) ?_ ?_ ?_ ?_ ?_
      · intro d hd
        rw [Fintype.mem_piFinset] at hd
        rw [mem_box]
        intro i
        have := hd i
        rw [Finset.mem_Icc] at this
        simp only [Pi.add_apply]
        push_cast at this ⊢
        omega
      · intro d hd
        rw [mem_box] at hd
        rw [Fintype.mem_piFinset]
        intro i
        have := hd i
        rw [Finset.mem_Icc]
        simp only [Pi.sub_apply]
        push_cast at this ⊢
        omega
      · intro d _; funext i; simp
      · intro d _; funext i; simp
      · intro d _
        simp only [paddedSlice]
        congr 3
        funext i
        simp only [Pi.add_apply]
        ring
    rw [h4]
    have h5 : ∑ y ∈ box (fun _ : Fin 2 => 3), (paddedSlice a 3).val y = 4 := by
      have h6 : box (fun _ : Fin 2 => 3) = {![0, 0], ![0, 1], ![0, 2], ![1, 0], ![1, 1], ![1, 2], ![2, 0], ![2, 1], ![2, 2]} := by
        ext x
        rw [mem_box]
        simp only [Finset.mem_insert, Finset.mem_singleton, funext_iff, Fin.forall_fin_two]
        simp
        omega
      rw [h6]
      decide +kernel
    rw [h5]
    norm_num
  simp only [h3]
  rw [Finset.sum_const, box_two]
  decide +kernel

/-! ## C59: the shape of the result -/

/-- C59, proved part: a map whose first axis is not the longer one keeps its shape in `smooth_gauss`.  Missing: maps
with a longer first axis (`C59_false`). -/
theorem C59_partial (a : Arr (Fin 2) ℝ) (h0 : 0 < a.shape 0) (h : a.shape 0 ≤ a.shape 1) (fwhm : ℝ) (hf : fwhm ≠ 0) :
    ∃ o, smoothGauss a fwhm = .ok ⟨a.shape, o⟩ := by
  obtain ⟨k, hk, hks, -⟩ := gauss_spec (ι := Fin 2) (a.shape 0) h0 (sigmaOfFwhm fwhm) (by
    unfold sigmaOfFwhm
    have : 0 < Real.log 2 := Real.log_pos (by norm_num)
    exact div_ne_zero hf (by positivity))
  have hfits : Fits a k := by
    constructor
    · intro i; rw [hks]; exact h0
    · intro i
      rw [hks]
      match i with
      | 0 => exact le_rfl
      | 1 => exact h
  obtain ⟨o, h1, -⟩ := circular_result a k hfits .same (by simp) .numpy (by simp)
  refine ⟨o, ?_⟩
  simp only [smoothGauss, hk]
  exact h1

example : (0 : ℕ) < 5 ∧ (5 : ℕ) ≤ 8 := by decide

/-- C59 fails for every map whose first axis is longer: `smooth_gauss` returns a square map. -/
theorem C59_false (a : Arr (Fin 2) ℝ) (h : a.shape 1 < a.shape 0) (fwhm : ℝ) (hf : fwhm ≠ 0) :
    ∃ out, smoothGauss a fwhm = .ok out ∧ out.shape 1 = a.shape 0 ∧ out.shape 1 ≠ a.shape 1 := by
  obtain ⟨k, hk, hks, -⟩ := gauss_spec (ι := Fin 2) (a.shape 0) (by omega) (sigmaOfFwhm fwhm) (by
    unfold sigmaOfFwhm
    have : 0 < Real.log 2 := Real.log_pos (by norm_num)
    exact div_ne_zero hf (by positivity))
  have h1 : smoothGauss a fwhm = smoothWithKernel a k := by
    simp only [smoothGauss, hk]
    rfl
  have hshape : max (a.shape 1) (k.shape 1) = a.shape 0 := by rw [hks]; exact max_eq_right h.le
  refine ⟨⟨fun i => max (a.shape i) (k.shape i), _⟩, by rw [h1]; rfl, hshape, ?_⟩
  simp only [hshape]
  omega

example : (⟨fun i => if i = 0 then 6 else 4, fun _ => 0⟩ : Arr (Fin 2) ℝ).shape 1 <
    (⟨fun i => if i = 0 then 6 else 4, fun _ => 0⟩ : Arr (Fin 2) ℝ).shape 0 := by
  simp

/-! ## C60: frequency smoothing of a coeval cube -/

/-- What `smooth_coeval_tophat` computes on a cube with sides `n`: in every plane that contains the frequency axis and
one *angular* axis, the two-dimensional periodic convolution with the square kernel. -/
theorem coeval_result (cube : Arr (Fin 3) K) (n w : ℕ) (hs : ∀ i, cube.shape i = n) (h1 : 1 ≤ w) (h2 : w ≤ n)
    (nu : Fin 3) :
    ∃ (k : Arr (Fin 2) K) (o : (Fin 3 → ℤ) → K), tophatKernel n (w : ℚ) = .ok k ∧
      smoothCoevalTophat cube w nu = .ok ⟨cube.shape, o⟩ ∧
      ∀ x, o x = Periodic (plane cube (if nu = 0 then 1 else 0) (x (if nu = 0 then 1 else 0))) k
        (fun _ => (((n + 1) / 2 : ℕ) : ℤ)) (Fin.removeNth (if nu = 0 then 1 else 0) x) := by
  obtain ⟨k, lo, hk1, hk2, -⟩ := tophat_spec (ι := Fin 2) (K := K) n w h1 h2
  generalize hax : (if nu = 0 then 1 else 0 : Fin 3) = ax
  have hp : ∀ (i : ℤ) (j : Fin 2), (plane cube ax i).shape j = n := fun i j => hs _
  have hfits : ∀ i, Fits (plane cube ax i) k := fun i =>
    ⟨fun j => by rw [hk2]; simp only; omega, fun j => by rw [hk2, hp]⟩
  have hres := fun i => circular_result (plane cube ax i) k (hfits i) .same (by simp) .numpy (by simp)
  choose f hf1 hf2 using hres
  refine ⟨k, fun x => f (x ax) (ax.removeNth x), hk1, ?_, fun x => ?_⟩
  · unfold smoothCoevalTophat
    rw [hs, hk1]
    have e0 : smoothWithKernel (plane cube ax 0) k = .ok ⟨(plane cube ax 0).shape, f 0⟩ := hf1 0
    have e : ∀ i, smoothWithKernel (plane cube ax i) k = .ok ⟨(plane cube ax i).shape, f i⟩ := hf1
    simp only [hax, e, bind, Except.bind]
    rw [if_neg (by simp [plane])]
  · beta_reduce
    rw [hf2]
    congr 1
    funext i
    rw [hk2]

/-- C60 fails: smoothing "along the frequency axis" with the full width of the cube also averages over the second
axis. On every cube with an odd number `n` of cells and frequency along the last axis the result at `(x, y, z)` is the
mean over *all* `(y', z')`. -/
theorem C60_false (cube : Arr (Fin 3) K) (n : ℕ) (hs : ∀ i, cube.shape i = n) (hn : 0 < n) :
    ∃ o, smoothCoevalTophat cube n 2 = .ok ⟨cube.shape, o⟩ ∧
      ∀ x, o x = (∑ y ∈ box (fun _ : Fin 2 => n), cube.val (Fin.insertNth 0 (x 0) y)) / n ^ 2 := by
  obtain ⟨k, o, hk, h1, h2⟩ := coeval_result cube n n hs hn le_rfl 2
  refine ⟨o, h1, fun x => ?_⟩
  obtain ⟨k', lo, hk1, hk2, hlo1, hlo2, hk3, -⟩ := tophat_spec (ι := Fin 2) (K := K) n n hn le_rfl
  have : k' = k := by
    have h : Except.ok k' = Except.ok k := hk1.symm.trans hk
    injection h
  subst this
  have hlo : lo = 0 := by omega
  rw [h2]
  unfold Periodic
  rw [hk2]
  have e : (if (2 : Fin 3) = 0 then 1 else 0 : Fin 3) = 0 := rfl
  simp only [e]
  have hv : ∀ j ∈ box (fun _ : Fin 2 => n), k'.val j = 1 / (n : K) ^ 2 := by
    intro j hj
    rw [hk3, if_pos]
    · simp
    · intro i
      have := (mem_box _ _).1 hj i
      omega
  rw [Finset.sum_congr rfl fun j hj => by rw [hv j hj], ← Finset.mul_sum, div_mul_eq_mul_div, one_mul]
  congr 1
  have hpl : (plane cube 0 (x 0)).shape = fun _ : Fin 2 => n := by
    funext j
    exact hs _
  rw [hpl]
  have := sum_reflect (fun _ : Fin 2 => n) (Fin.removeNth 0 x + fun _ => (((n + 1) / 2 : ℕ) : ℤ))
    (fun y => (plane cube 0 (x 0)).val y)
  first
    | exact this
    | exact this.symm

/-- A cube where this differs from the mean along the frequency axis. -/
example : ∃ cube : Arr (Fin 3) ℚ, (∀ i, cube.shape i = 3) ∧ cube.val ![0, 0, 0] ≠ cube.val ![0, 1, 0] :=
  ⟨⟨fun _ => 3, fun x => x 1⟩, fun _ => rfl, by simp⟩

/-- C60, proved part: planes at different positions of the remaining axis are not mixed, and the total of every plane
is preserved.  Missing: the smoothing is not restricted to the frequency axis (`C60_false`). -/
theorem C60_partial (cube : Arr (Fin 3) K) (n w : ℕ) (hs : ∀ i, cube.shape i = n) (h1 : 1 ≤ w) (h2 : w ≤ n)
    (nu : Fin 3) :
    ∃ o : (Fin 3 → ℤ) → K, smoothCoevalTophat cube w nu = .ok ⟨cube.shape, o⟩ ∧
      ∀ i : ℤ, ∑ y ∈ box (fun _ : Fin 2 => n), o (Fin.insertNth (if nu = 0 then 1 else 0) i y) =
        ∑ y ∈ box (fun _ : Fin 2 => n), cube.val (Fin.insertNth (if nu = 0 then 1 else 0) i y) := by
  obtain ⟨k, o, hk, ho, h3⟩ := coeval_result cube n w hs h1 h2 nu
  refine ⟨o, ho, fun i => ?_⟩
  obtain ⟨k', lo, hk1, hk2, -, -, -, hnorm⟩ := tophat_spec (ι := Fin 2) (K := K) n w h1 h2
  have : k' = k := by
    have h : Except.ok k' = Except.ok k := hk1.symm.trans hk
    injection h
  subst this
  generalize (if nu = 0 then 1 else 0 : Fin 3) = ax at h3 ⊢
  simp only [h3, Fin.insertNth_apply_same, Fin.removeNth_insertNth]
  have hpl : (plane cube ax i).shape = fun _ : Fin 2 => n := by
    funext j
    exact hs _
  have hfits : Fits (plane cube ax i) k' :=
    ⟨fun j => by rw [hk2]; simp only; omega, fun j => by rw [hk2, hpl]⟩
  obtain ⟨o', hc, hsum⟩ := circular_sum (plane cube ax i) k' hfits .numpy (by simp)
  obtain ⟨o'', hc', hval⟩ := circular_result (plane cube ax i) k' hfits .same (by simp) .numpy (by simp)
  have : o'' = o' := by
    have h : Except.ok (⟨(plane cube ax i).shape, o''⟩ : Arr (Fin 2) K) = Except.ok ⟨(plane cube ax i).shape, o'⟩ :=
      hc'.symm.trans hc
    injection h with h
    injection h
  subst this
  unfold Normalised at hnorm
  rw [hnorm, mul_one, hpl] at hsum
  have hk4 : (fun i => (((k'.shape i + 1) / 2 : ℕ) : ℤ)) = fun _ => (((n + 1) / 2 : ℕ) : ℤ) := by
    funext i; rw [hk2]
  rw [hk4] at hval
  rw [Finset.sum_congr rfl fun y _ => (hval y).symm, hsum]
  rfl

example := C60_partial (K := ℚ) ⟨fun _ => 5, fun x => x 0 + x 1⟩ 5 3 (fun _ => rfl) (by norm_num) (by norm_num) 2

end Verif.Smoothing
