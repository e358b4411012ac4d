import Verif.Model.Lanczos
import Verif.Props.Convolve
import Mathlib.Analysis.SpecialFunctions.Trigonometric.Sinc
/-!
# Properties of the smoothing with a Lanczos kernel (C161)
-/

namespace Verif.Lanczos
open Verif.Convolve Verif.Smoothing

/-! ## Specification -/

/-- The Lanczos window of width `a`. -/
noncomputable def window (a x : ℝ) : ℝ := open Classical in
  if |x| ≤ a then Real.sinc (Real.pi * x) * Real.sinc (Real.pi * (x / a)) else 0

/-- The distance in cells of cell `i` from the middle of an axis of `n` cells. -/
noncomputable def offset (n : ℕ) (i : ℤ) : ℝ := i - ((n : ℝ) - 1) / 2

/-- The map is the same after point reflection about the cell `y`. -/
def Symmetric (m : Arr (Fin 2) ℝ) (y : Fin 2 → ℤ) : Prop := ∀ d, m.val (md m.shape (y + d)) = m.val (md m.shape (y - d))

/-! ## Lemmas -/

theorem sinc_eq (x : ℝ) : sinc x = Real.sinc (Real.pi * x) := by
  unfold sinc
  by_cases h : x = 0
  · simp [h]
  · rw [if_neg h, Real.sinc_of_ne_zero (mul_ne_zero Real.pi_ne_zero h)]

theorem factor_eq (a x : ℝ) : factor a x = window a x := by
  unfold factor window
  by_cases h : |x| ≤ a
  · rw [if_neg (not_lt.2 h), if_pos h, sinc_eq, sinc_eq]
  · rw [if_pos (not_le.1 h), if_neg h]

theorem coord_eq {n : ℕ} (hn : 2 ≤ n) (i : ℤ) : coord n i = offset n i * (n / (n - 1)) := by
  have : (n : ℝ) - 1 ≠ 0 := by
    have : (2 : ℝ) ≤ n := by exact_mod_cast hn
    linarith
  unfold coord offset
  field_simp
  ring

theorem window_neg (a x : ℝ) : window a (-x) = window a x := by
  unfold window
  rw [abs_neg, mul_neg, neg_div, mul_neg, Real.sinc_neg, Real.sinc_neg]

theorem window_zero {a : ℝ} (ha : 0 < a) : window a 0 = 1 := by
  unfold window
  simp [ha.le]

theorem coord_neg (n : ℕ) (i : ℤ) : 2 ≤ n → coord n (n - 1 - i) = - coord n i := fun hn => by
  rw [coord_eq hn, coord_eq hn]
  unfold offset
  push_cast
  ring

theorem raw_reflect {n : ℕ} (hn : 2 ≤ n) (a : ℝ) (i : Fin 2 → ℤ) : raw n a (fun j => n - 1 - i j) = raw n a i := by
  unfold raw
  rw [coord_neg n _ hn, coord_neg n _ hn]
  simp only [factor_eq, window_neg]

theorem kernel_ok {n : ℕ} {a : ℝ} {k : Arr (Fin 2) ℝ} (h : lanczosKernel n a = .ok k) :
    0 < a ∧ ∑ i ∈ box (fun _ : Fin 2 => n), raw n a i ≠ 0 ∧
      k = ⟨fun _ => n, fun i => raw n a i / ∑ i ∈ box (fun _ : Fin 2 => n), raw n a i⟩ := by
  unfold lanczosKernel at h
  simp only [] at h
  by_cases hc : a ≤ 0 ∨ ∑ i ∈ box (fun _ : Fin 2 => n), raw n a i = 0
  · rw [if_pos hc] at h
    cases h
  · rw [if_neg hc] at h
    push Not at hc
    exact ⟨hc.1, hc.2, (Except.ok.inj h).symm⟩

theorem sum_reflect {n : ℕ} (f : (Fin 2 → ℤ) → ℝ) :
    ∑ i ∈ box (fun _ : Fin 2 => n), f (fun j => n - 1 - i j) = ∑ i ∈ box (fun _ : Fin 2 => n), f i := by
  refine Finset.sum_nbij' (fun i j => n - 1 - i j) (fun i j => n - 1 - i j) ?_ ?_ ?_ ?_ ?_
  · intro i hi
    rw [mem_box] at hi ⊢
    intro j
    have := hi j
    omega
  · intro i hi
    rw [mem_box] at hi ⊢
    intro j
    have := hi j
    omega
  · intro i _
    funext j
    simp
  · intro i _
    funext j
    simp
  · intro i _
    rfl

/-! ## C161 -/

/-- **C161, the kernel.** It is normalised, even, the same along both axes, and separable: the product of two Lanczos windows, in
coordinates that are stretched by `n/(n-1)`. -/
theorem C161_kernel {n : ℕ} (hn : 2 ≤ n) {a : ℝ} {k : Arr (Fin 2) ℝ} (h : lanczosKernel n a = .ok k) :
    (∀ j, k.shape j = n) ∧ ∑ i ∈ box k.shape, k.val i = 1 ∧ (∀ i, k.val ![i 1, i 0] = k.val i) ∧
      (∀ i, k.val (fun j => n - 1 - i j) = k.val i) ∧
      ∃ c : ℝ, ∀ i, k.val i = c * window a (offset n (i 0) * (n / (n - 1))) * window a (offset n (i 1) * (n / (n - 1))) := by
  obtain ⟨h1, h2, rfl⟩ := kernel_ok h
  refine ⟨fun _ => rfl, ?_, fun i => ?_, fun i => ?_, (∑ i ∈ box (fun _ : Fin 2 => n), raw n a i)⁻¹, fun i => ?_⟩
  · simp only []
    rw [← Finset.sum_div, div_self h2]
  · simp [raw, mul_comm]
  · simp only []
    rw [raw_reflect hn]
  · simp only [raw, factor_eq, coord_eq hn]
    ring

/-- Smoothing with a kernel that exists. -/
theorem smooth_eq (m : Arr (Fin 2) ℝ) (h0 : 0 < m.shape 0) (hm : m.shape 0 ≤ m.shape 1) {a : ℝ} {k : Arr (Fin 2) ℝ}
    (hk : lanczosKernel (m.shape 0) a = .ok k) :
    Fits m k ∧ smoothLanczos m a = fftconvolve m k .same .circular .numpy := by
  obtain ⟨h1, h2, rfl⟩ := kernel_ok hk
  refine ⟨⟨fun i => h0, fun i => ?_⟩, ?_⟩
  · match i with
    | 0 => exact le_rfl
    | 1 => exact hm
  · unfold smoothLanczos
    rw [hk]
    rfl

/-- **C161, partial**: the result has the shape of the map, the total is kept and a constant map is not changed.
The full property also demands that the map is not displaced and that the kernel is in units of cells (see below). -/
theorem C161_partial (m : Arr (Fin 2) ℝ) (h0 : 2 ≤ m.shape 0) (hm : m.shape 0 ≤ m.shape 1) {a : ℝ} {k : Arr (Fin 2) ℝ}
    (hk : lanczosKernel (m.shape 0) a = .ok k) :
    ∃ o, smoothLanczos m a = .ok ⟨m.shape, o⟩ ∧ ∑ x ∈ box m.shape, o x = ∑ x ∈ box m.shape, m.val x ∧
      ∀ v, (∀ x ∈ box m.shape, m.val x = v) → ∀ x, o x = v := by
  obtain ⟨hf, hs⟩ := smooth_eq m (by omega) hm hk
  obtain ⟨-, h1, -⟩ := C161_kernel h0 hk
  obtain ⟨o, ho, hsum⟩ := circular_sum m k hf .numpy (by simp)
  refine ⟨o, hs.trans ho, by rw [hsum, h1, mul_one], fun v hv x => ?_⟩
  obtain ⟨o', ho', hc⟩ := circular_constant m k hf v hv h1 .numpy (by simp)
  rw [ho] at ho'
  have := Except.ok.inj ho'
  have : o = o' := by simpa using this
  rw [this, hc]

/-- **C161, displacement.** A map that is symmetric about a cell is symmetric about a point one cell (odd sizes) or half a cell (even
sizes) away after it is smoothed, along both axes. -/
theorem C161_displaced (m : Arr (Fin 2) ℝ) (h0 : 2 ≤ m.shape 0) (hm : m.shape 0 ≤ m.shape 1) {a : ℝ} {k : Arr (Fin 2) ℝ}
    (hk : lanczosKernel (m.shape 0) a = .ok k) (y : Fin 2 → ℤ) (hy : Symmetric m y) :
    ∃ o, smoothLanczos m a = .ok ⟨m.shape, o⟩ ∧
      ∀ d : Fin 2 → ℤ, o (y + d) = o (y - d - fun _ => if m.shape 0 % 2 = 1 then 2 else 1) := by
  obtain ⟨hf, hs⟩ := smooth_eq m (by omega) hm hk
  obtain ⟨hsh, -, -, hr, -⟩ := C161_kernel h0 hk
  have hsh' : k.shape = fun _ => m.shape 0 := funext hsh
  obtain ⟨o, ho, hP⟩ := circular_result m k hf .same (by simp) .numpy (by simp)
  refine ⟨o, hs.trans ho, fun d => ?_⟩
  rw [hP, hP]
  unfold Periodic
  rw [hsh', ← sum_reflect]
  refine Finset.sum_congr rfl fun j _ => ?_
  rw [hr]
  congr 1
  set n := m.shape 0
  have e1 : (y + d + (fun _ => (((n + 1) / 2 : ℕ) : ℤ)) - fun i => (n : ℤ) - 1 - j i) =
      y + (d + (fun _ => (((n + 1) / 2 : ℕ) : ℤ)) - fun i => (n : ℤ) - 1 - j i) := by
    funext i
    simp only [Pi.add_apply, Pi.sub_apply]
    ring
  rw [e1, hy]
  congr 2
  funext i
  simp only [Pi.add_apply, Pi.sub_apply]
  split <;> omega

/-- **C161 is false**: a kernel narrower than the distance of two cells leaves only the cell in the middle, so that smoothing should
not change a map of odd size; it moves the map by one cell along both axes. -/
theorem C161_false (m : Arr (Fin 2) ℝ) (h0 : 3 ≤ m.shape 0) (hodd : m.shape 0 % 2 = 1) (hm : m.shape 0 ≤ m.shape 1) {a : ℝ}
    (ha : 0 < a) (ha' : a < m.shape 0 / (m.shape 0 - 1)) :
    ∃ o, smoothLanczos m a = .ok ⟨m.shape, o⟩ ∧ ∀ x, o x = m.val (md m.shape (x + fun _ => 1)) := by
  set n := m.shape 0 with hn
  obtain ⟨h, hh⟩ : ∃ h : ℕ, n = 2 * h + 1 := ⟨n / 2, by omega⟩
  have hn2 : 2 ≤ n := by omega
  have hpos : (0 : ℝ) < (n : ℝ) / (n - 1) := ha.trans ha'
  have hoff : ∀ i : ℤ, offset n i = ((i - h : ℤ) : ℝ) := fun i => by
    unfold offset
    rw [hh]
    push_cast
    ring
  have hraw : ∀ i : Fin 2 → ℤ, raw n a i = if i = fun _ => (h : ℤ) then 1 else 0 := by
    have hfac : ∀ i : ℤ, factor a (coord n i) = if i = h then 1 else 0 := fun i => by
      rw [factor_eq, coord_eq hn2, hoff]
      by_cases hi : i = h
      · rw [if_pos hi, hi]
        simp [window_zero ha]
      · rw [if_neg hi]
        unfold window
        rw [if_neg]
        rw [not_le, abs_mul, abs_of_pos hpos]
        have : (1 : ℝ) ≤ |((i - h : ℤ) : ℝ)| := by
          rw [← Int.cast_abs]
          exact_mod_cast Int.one_le_abs (sub_ne_zero.2 hi)
        nlinarith
    intro i
    unfold raw
    rw [hfac, hfac]
    by_cases hi : i = fun _ => (h : ℤ)
    · simp [hi]
    · rw [if_neg hi]
      have : i 0 ≠ h ∨ i 1 ≠ h := by
        by_contra hc
        push Not at hc
        exact hi (funext fun j => by match j with | 0 => exact hc.1 | 1 => exact hc.2)
      rcases this with hc | hc <;> simp [hc]
  have hmem : (fun _ => (h : ℤ)) ∈ box (fun _ : Fin 2 => n) := (mem_box _ _).2 fun _ => ⟨by positivity, by omega⟩
  have htot : ∑ i ∈ box (fun _ : Fin 2 => n), raw n a i = 1 := by
    simp only [hraw]
    rw [Finset.sum_ite_eq', if_pos hmem]
  have hk : lanczosKernel n a = .ok ⟨fun _ => n, fun i => raw n a i / ∑ i ∈ box (fun _ : Fin 2 => n), raw n a i⟩ := by
    unfold lanczosKernel
    simp only []
    rw [if_neg]
    rw [htot]
    push Not
    exact ⟨ha, one_ne_zero⟩
  obtain ⟨hf, hs⟩ := smooth_eq m (by omega) hm hk
  obtain ⟨o, ho, hP⟩ := circular_result m _ hf .same (by simp) .numpy (by simp)
  refine ⟨o, hs.trans ho, fun x => ?_⟩
  rw [hP]
  unfold Periodic
  rw [Finset.sum_eq_single (fun _ => (h : ℤ))]
  · rw [htot]
    dsimp only
    rw [hraw, if_pos rfl, div_one, one_mul]
    congr 2
    funext i
    simp only [Pi.add_apply, Pi.sub_apply]
    omega
  · intro j _ hj
    dsimp only
    rw [hraw, if_neg hj, zero_div, zero_mul]
  · exact fun hc => absurd hmem hc

/-- **C161 is false in units of cells**: for a map of five cells and the width of two cells the window at the distance of one cell is
zero, but the neighbours of the cell in the middle have a weight. -/
theorem C161_scale_false : window 2 1 = 0 ∧ ∃ k, lanczosKernel 5 2 = .ok k ∧ k.val ![2, 3] < 0 ∧ 0 < k.val ![2, 2] := by
  have hw : window 2 1 = 0 := by
    unfold window
    rw [if_pos (by norm_num), Real.sinc_of_ne_zero (by simp [Real.pi_ne_zero])]
    simp
  have hc : ∀ i : ℤ, coord 5 i = (i - 2) * (5 / 4) := fun i => by
    rw [coord_eq (by norm_num)]
    unfold offset
    norm_num
  have hpi := Real.pi_pos
  have h8 : 0 < Real.sinc (Real.pi * (5 / 4 / 2)) := by
    rw [Real.sinc_of_ne_zero (by positivity)]
    exact div_pos (Real.sin_pos_of_pos_of_lt_pi (by positivity) (by nlinarith)) (by positivity)
  have h4 : Real.sinc (Real.pi * (5 / 4)) < 0 := by
    rw [Real.sinc_of_ne_zero (by positivity)]
    refine div_neg_of_neg_of_pos ?_ (by positivity)
    have : Real.pi * (5 / 4) = Real.pi * (1 / 4) + Real.pi := by ring
    rw [this, Real.sin_add_pi]
    exact neg_neg_of_pos (Real.sin_pos_of_pos_of_lt_pi (by positivity) (by nlinarith))
  have h4' : -(1 / 2) < Real.sinc (Real.pi * (5 / 4)) := by
    rw [Real.sinc_of_ne_zero (by positivity), lt_div_iff₀ (by positivity)]
    have := Real.neg_one_le_sin (Real.pi * (5 / 4))
    have := Real.two_le_pi
    nlinarith
  set f := Real.sinc (Real.pi * (5 / 4)) * Real.sinc (Real.pi * (5 / 4 / 2)) with hf
  have hf0 : f < 0 := mul_neg_of_neg_of_pos h4 h8
  have hf1 : -(1 / 2) < f := by
    have := Real.sinc_le_one (Real.pi * (5 / 4 / 2))
    nlinarith
  have w1 : window 2 (5 / 4) = f := by
    unfold window
    rw [if_pos (by rw [abs_of_pos (by norm_num)]; norm_num)]
  have w2 : window 2 (5 / 2) = 0 := by
    unfold window
    rw [if_neg (by rw [abs_of_pos (by norm_num)]; norm_num)]
  have w1' : window 2 (-(5 / 4)) = f := by rw [window_neg, w1]
  have w2' : window 2 (-(5 / 2)) = 0 := by rw [window_neg, w2]
  have w0 : window 2 0 = 1 := window_zero (by norm_num)
  have g : ∀ i : ℤ, factor 2 (coord 5 i) = window 2 ((i - 2) * (5 / 4)) := fun i => by rw [factor_eq, hc]
  have g0 : factor 2 (coord 5 0) = 0 := by rw [g, ← w2']; norm_num
  have g1 : factor 2 (coord 5 1) = f := by rw [g, ← w1']; norm_num
  have g2 : factor 2 (coord 5 2) = 1 := by rw [g, ← w0]; norm_num
  have g3 : factor 2 (coord 5 3) = f := by rw [g, ← w1]; norm_num
  have g4 : factor 2 (coord 5 4) = 0 := by rw [g, ← w2]; norm_num
  have htot : ∑ i ∈ box (fun _ : Fin 2 => 5), raw 5 2 i = (1 + 2 * f) ^ 2 := by
    have : ∑ i ∈ box (fun _ : Fin 2 => 5), raw 5 2 i = ∑ i ∈ box (fun _ : Fin 2 => 5), ∏ j, factor 2 (coord 5 (i j)) := by
      refine Finset.sum_congr rfl fun i _ => ?_
      rw [Fin.prod_univ_two]
      unfold raw
      ring
    rw [this]
    unfold box
    rw [← Finset.prod_univ_sum (fun _ : Fin 2 => Finset.Ico 0 ((5 : ℕ) : ℤ)) (fun _ i => factor 2 (coord 5 i)), Fin.prod_univ_two]
    have : Finset.Ico 0 ((5 : ℕ) : ℤ) = {0, 1, 2, 3, 4} := by decide
    rw [this]
    simp [g0, g1, g2, g3, g4]
    ring
  have hpos : 0 < (1 + 2 * f) ^ 2 := by
    have : 0 < 1 + 2 * f := by linarith
    positivity
  refine ⟨hw, ⟨fun _ => 5, fun i => raw 5 2 i / (1 + 2 * f) ^ 2⟩, ?_, ?_, ?_⟩
  · unfold lanczosKernel
    simp only [htot]
    rw [if_neg]
    push Not
    exact ⟨by norm_num, hpos.ne'⟩
  · simp only [raw, Matrix.cons_val_zero, Matrix.cons_val_one, g2, g3, mul_one]
    exact div_neg_of_neg_of_pos hf0 hpos
  · simp only [raw, Matrix.cons_val_zero, Matrix.cons_val_one, g2, mul_one]
    positivity

/-- **C161, widths**: a width that is not positive gives not a number. -/
theorem C161_raises (m : Arr (Fin 2) ℝ) {a : ℝ} (ha : a ≤ 0) : smoothLanczos m a = .error "nan" := by
  unfold smoothLanczos lanczosKernel
  simp only []
  rw [if_pos (Or.inl ha)]
  rfl

/-! ## Examples -/

/-- A point source on seven by nine cells, which the kernel of width 1 moves from (3, 4) to (2, 3). -/
example : ∃ o, smoothLanczos ⟨![7, 9], fun x => if x = ![3, 4] then 1 else 0⟩ 1 = .ok ⟨![7, 9], o⟩ ∧ o ![2, 3] = 1 ∧ o ![3, 4] = 0 := by
  obtain ⟨o, h1, h2⟩ := C161_false ⟨![7, 9], fun x => if x = ![3, 4] then 1 else 0⟩ (by simp) (by simp) (by simp)
    (a := 1) one_pos (by norm_num)
  have e1 : md ![7, 9] (![2, 3] + fun _ => 1) = ![3, 4] := by decide
  have e2 : md ![7, 9] (![3, 4] + fun _ => 1) ≠ ![3, 4] := by decide
  refine ⟨o, h1, ?_, ?_⟩
  · rw [h2]
    simp only [e1, if_true]
  · rw [h2]
    simp only [if_neg e2]

/-- The kernel of `C161_scale_false` meets the hypotheses of the theorems about kernels that exist. -/
example : ∃ o, smoothLanczos ⟨![5, 6], fun x => x 0 + x 1⟩ 2 = .ok ⟨![5, 6], o⟩ ∧
    ∑ x ∈ box ![5, 6], o x = ∑ x ∈ box ![5, 6], ((x 0 : ℝ) + x 1) := by
  obtain ⟨-, k, hk, -⟩ := C161_scale_false
  obtain ⟨o, h1, h2, -⟩ := C161_partial ⟨![5, 6], fun x => x 0 + x 1⟩ (by simp) (by simp) hk
  exact ⟨o, h1, h2⟩

example : Symmetric ⟨![7, 9], fun x => if x = ![3, 4] then 1 else 0⟩ ![3, 4] := by
  intro d
  have h : md ![7, 9] (![3, 4] + d) = ![3, 4] ↔ md ![7, 9] (![3, 4] - d) = ![3, 4] := by
    simp only [funext_iff, Fin.forall_fin_two, md, Pi.add_apply, Pi.sub_apply, Matrix.cons_val_zero, Matrix.cons_val_one]
    omega
  simp only [h]

end Verif.Lanczos
