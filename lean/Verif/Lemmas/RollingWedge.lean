import Verif.Model.RollingWedge
import Verif.Lemmas.Spectrum
import Mathlib.Tactic.FieldSimp
import Mathlib.Tactic.Positivity
import Mathlib.Tactic.NormNum
import Mathlib.Analysis.SpecialFunctions.Trigonometric.Bounds
/-!
# Lemmas about chunks and tapers
-/

namespace Verif.RollingWedge
open Verif.Convolve Complex

/-- A sum over a cube as a sum over images and channels. -/
theorem sum_box3 {R : Type} [AddCommMonoid R] (n n' c : ℕ) (f : (Fin 3 → ℤ) → R) :
    ∑ i ∈ box ![n, n', c], f i = ∑ y ∈ box ![n, n'], ∑ t ∈ Finset.Ico (0 : ℤ) c, f ![y 0, y 1, t] := by
  rw [← Finset.sum_product']
  refine Finset.sum_nbij' (fun i => (![i 0, i 1], i 2)) (fun q => ![q.1 0, q.1 1, q.2]) ?_ ?_ ?_ ?_ ?_
  · intro i hi
    have := (mem_box _ _).1 hi
    refine Finset.mem_product.2 ⟨(mem_box _ _).2 fun j => ?_, Finset.mem_Ico.2 (this 2)⟩
    match j with
    | 0 => exact this 0
    | 1 => exact this 1
  · intro q hq
    obtain ⟨h1, h2⟩ := Finset.mem_product.1 hq
    refine (mem_box _ _).2 fun j => ?_
    match j with
    | 0 => exact (mem_box _ _).1 h1 0
    | 1 => exact (mem_box _ _).1 h1 1
    | 2 => exact Finset.mem_Ico.1 h2
  · intro i _
    funext j
    match j with
    | 0 | 1 | 2 => rfl
  · intro q _
    refine Prod.ext ?_ rfl
    funext j
    match j with
    | 0 | 1 => rfl
  · intro i _
    congr 1
    funext j
    match j with
    | 0 | 1 | 2 => rfl

theorem exp_split (s : ℂ) (n n' c : ℕ) (i x : Fin 3 → ℤ) :
    exp (s * ∑ j, (i j : ℂ) * x j / (![n, n', c] j : ℕ)) =
      exp (s * ∑ j, ((![i 0, i 1] : Fin 2 → ℤ) j : ℂ) * (![x 0, x 1] : Fin 2 → ℤ) j / (![n, n'] j : ℕ)) *
        exp (s * ((i 2 : ℂ) * x 2 / c)) := by
  rw [← Complex.exp_add, ← mul_add, Fin.sum_univ_three, Fin.sum_univ_two]
  rfl

/-- The transform of a product. -/
theorem fftn_split (n n' c : ℕ) (F : (Fin 2 → ℤ) → ℂ) (g : ℤ → ℂ) (i : Fin 3 → ℤ) :
    fftn ![n, n', c] (fun x => F ![x 0, x 1] * g (x 2)) i = fftn ![n, n'] F ![i 0, i 1] *
      ∑ t ∈ Finset.Ico (0 : ℤ) c, g t * exp (-(2 * Real.pi * I) * ((i 2 : ℂ) * t / c)) := by
  unfold fftn
  rw [sum_box3, Finset.sum_mul_sum]
  refine Finset.sum_congr rfl fun y _ => Finset.sum_congr rfl fun t _ => ?_
  rw [exp_split]
  have e : (![y 0, y 1] : Fin 2 → ℤ) = y := by
    funext j
    match j with
    | 0 | 1 => rfl
  simp only [show (![y 0, y 1, t] : Fin 3 → ℤ) 0 = y 0 from rfl, show (![y 0, y 1, t] : Fin 3 → ℤ) 1 = y 1 from rfl,
    show (![y 0, y 1, t] : Fin 3 → ℤ) 2 = t from rfl, e]
  ring

open Classical in
/-- A channel whose chunk is an image times a function of frequency. -/
theorem channel_split (a : Arr (Fin 3) ℝ) (c : ℕ) (d mf : ℝ) (idx : ℕ) (x : Fin 3 → ℤ) (F : (Fin 2 → ℤ) → ℝ) (g : ℤ → ℝ)
    (hc : ∀ y : Fin 3 → ℤ, 0 ≤ y 2 → y 2 < c → chunk a c (x 2) y = F ![y 0, y 1] * g (y 2)) :
    channel a c d mf idx x = ((∑ y ∈ box ![a.shape 0, a.shape 0], ∑ j ∈ Finset.Ico (0 : ℤ) c,
      if Keep (a.shape 0) c d mf idx ![y 0, y 1, j] then
        fftn ![a.shape 0, a.shape 0] (fun y => (F y : ℂ)) y *
          (∑ t ∈ Finset.Ico (0 : ℤ) c, (g t : ℂ) * exp (-(2 * Real.pi * I) * ((j : ℂ) * t / c))) *
          (exp ((2 * Real.pi * I) * ∑ l, (y l : ℂ) * (![x 0, x 1] : Fin 2 → ℤ) l / (![a.shape 0, a.shape 0] l : ℕ)) *
            exp ((2 * Real.pi * I) * ((j : ℂ) * ((c / 2 : ℕ) : ℤ) / c)))
      else 0) / (a.shape 0 * a.shape 0 * c)).re := by
  unfold channel ifftn
  rw [sum_box3]
  congr 1
  congr 1
  · refine Finset.sum_congr rfl fun y _ => Finset.sum_congr rfl fun j _ => ?_
    have hf : fftn ![a.shape 0, a.shape 0, c] (fun y => (chunk a c (x 2) y : ℂ)) ![y 0, y 1, j] =
        fftn ![a.shape 0, a.shape 0, c] (fun x => (F ![x 0, x 1] : ℂ) * (g (x 2) : ℂ)) ![y 0, y 1, j] := by
      unfold fftn
      refine Finset.sum_congr rfl fun w hw => ?_
      have := (mem_box _ _).1 hw 2
      simp only []
      rw [hc w this.1 this.2]
      push_cast
      rfl
    simp only []
    rw [hf, fftn_split _ _ _ (fun y => (F y : ℂ)) (fun t => (g t : ℂ)), exp_split]
    have e : (![(![y 0, y 1, j] : Fin 3 → ℤ) 0, (![y 0, y 1, j] : Fin 3 → ℤ) 1] : Fin 2 → ℤ) = y := by
      funext l
      match l with
      | 0 | 1 => rfl
    rw [e, ite_mul, zero_mul]
    rfl
  · rw [Fin.prod_univ_three]
    rfl

/-- The Blackman window from the cosine. -/
theorem blackman_eq {c : ℕ} (hc : c ≠ 1) (t : ℤ) :
    blackman c t = 16 / 100 * (Real.cos (Real.pi * (1 - c + 2 * t) / (c - 1)) + 1) *
      (Real.cos (Real.pi * (1 - c + 2 * t) / (c - 1)) + 2125 / 1000) := by
  unfold blackman
  rw [if_neg hc, show 2 * Real.pi * (1 - c + 2 * t) / (c - 1) = 2 * (Real.pi * (1 - c + 2 * t) / ((c : ℝ) - 1)) by ring,
    Real.cos_two_mul]
  ring

theorem blackman_nonneg (c : ℕ) (t : ℤ) : 0 ≤ blackman c t := by
  by_cases hc : c = 1
  · simp [blackman, hc]
  · rw [blackman_eq hc]
    have := Real.neg_one_le_cos (Real.pi * (1 - c + 2 * t) / (c - 1))
    exact mul_nonneg (mul_nonneg (by norm_num) (by linarith)) (by linarith)

theorem blackman_le (c : ℕ) (t : ℤ) : blackman c t ≤ 1 := by
  by_cases hc : c = 1
  · simp [blackman, hc]
  · rw [blackman_eq hc]
    have h1 := Real.neg_one_le_cos (Real.pi * (1 - c + 2 * t) / (c - 1))
    have h2 := Real.cos_le_one (Real.pi * (1 - c + 2 * t) / (c - 1))
    nlinarith

/-- The window is symmetric. -/
theorem blackman_symm (c : ℕ) (t : ℤ) : blackman c (c - 1 - t) = blackman c t := by
  by_cases hc : c = 1
  · simp [blackman, hc]
  · rw [blackman_eq hc, blackman_eq hc]
    have : Real.pi * (1 - c + 2 * ((c : ℤ) - 1 - t : ℤ)) / ((c : ℝ) - 1) =
        -(Real.pi * (1 - c + 2 * t) / ((c : ℝ) - 1)) := by
      push_cast
      ring
    rw [this, Real.cos_neg]

theorem blackman_pos {c : ℕ} (hc : 3 ≤ c) : 0 < blackman c 1 := by
  rw [blackman_eq (by omega)]
  have hc' : (3 : ℝ) ≤ c := by exact_mod_cast hc
  have h : 0 < Real.cos (Real.pi * (1 - c + 2 * (1 : ℤ)) / ((c : ℝ) - 1)) + 1 := by
    have e : Real.pi * (1 - c + 2 * (1 : ℤ)) / ((c : ℝ) - 1) = 2 * Real.pi / (c - 1) - Real.pi := by
      have : (c : ℝ) - 1 ≠ 0 := by linarith
      push_cast
      field_simp
      ring
    rw [e, Real.cos_sub_pi]
    have hx0 : 0 < 2 * Real.pi / ((c : ℝ) - 1) := div_pos (by positivity) (by linarith)
    have hx1 : 2 * Real.pi / ((c : ℝ) - 1) ≤ Real.pi := by
      rw [div_le_iff₀ (by linarith)]
      nlinarith [Real.pi_pos]
    have := Real.cos_lt_cos_of_nonneg_of_le_pi le_rfl hx1 hx0
    rw [Real.cos_zero] at this
    linarith
  have h2 := Real.neg_one_le_cos (Real.pi * (1 - c + 2 * (1 : ℤ)) / ((c : ℝ) - 1))
  have : 0 < Real.cos (Real.pi * (1 - c + 2 * (1 : ℤ)) / ((c : ℝ) - 1)) + 2125 / 1000 := by linarith
  positivity

theorem taper_zero (c : ℕ) : taper c 0 = ((∑ t ∈ Finset.Ico (0 : ℤ) c, blackman c t : ℝ) : ℂ) := by
  unfold taper
  push_cast
  refine Finset.sum_congr rfl fun t _ => ?_
  simp

theorem taper_le (c : ℕ) (j : ℤ) : ‖taper c j‖ ≤ ∑ t ∈ Finset.Ico (0 : ℤ) c, blackman c t := by
  unfold taper
  refine (norm_sum_le _ _).trans (Finset.sum_le_sum fun t _ => ?_)
  rw [norm_mul, Complex.norm_real, Real.norm_of_nonneg (blackman_nonneg c t),
    show -(2 * Real.pi * I) * ((j : ℂ) * t / c) = ((-(2 * Real.pi * ((j : ℝ) * t / c)) : ℝ) : ℂ) * I by push_cast; ring,
    norm_exp_ofReal_mul_I, mul_one]

theorem window_sum_pos {c : ℕ} (hc : 3 ≤ c) : 0 < ∑ t ∈ Finset.Ico (0 : ℤ) c, blackman c t :=
  Finset.sum_pos' (fun t _ => blackman_nonneg c t) ⟨1, Finset.mem_Ico.2 ⟨by norm_num, by omega⟩, blackman_pos hc⟩

/-- The greatest power of the taper is at zero. -/
theorem bm_zero (c : ℕ) : bm c 0 = (∑ t ∈ Finset.Ico (0 : ℤ) c, blackman c t) ^ 2 := by
  unfold bm
  rw [taper_zero, Complex.norm_real, Real.norm_eq_abs, sq_abs]

theorem bm_le (c : ℕ) (j : ℤ) : bm c j ≤ bm c 0 := by
  rw [bm_zero]
  exact pow_le_pow_left₀ (norm_nonneg _) (taper_le c j) 2

/-- `Below` with the greatest power filled in. -/
theorem below_iff {c : ℕ} (hc : 3 ≤ c) (thr : ℝ) (j : ℕ) : Below c thr j ↔ j < c ∧ bm c j ≤ thr * bm c 0 := by
  have h0 : 0 < bm c 0 := by
    rw [bm_zero]
    have := window_sum_pos hc
    positivity
  have hmem : (0 : ℤ) ∈ Finset.Ico (0 : ℤ) c := Finset.mem_Ico.2 ⟨le_rfl, by omega⟩
  constructor
  · rintro ⟨h1, m, hm, ⟨i, hi, he⟩, hmax, hle⟩
    have : m = bm c 0 := le_antisymm (he ▸ bm_le c i) (hmax 0 hmem)
    subst this
    exact ⟨h1, (div_le_iff₀ h0).1 hle⟩
  · rintro ⟨h1, h2⟩
    exact ⟨h1, bm c 0, h0, ⟨0, hmem, rfl⟩, fun i _ => bm_le c i, (div_le_iff₀ h0).2 h2⟩

/-- For an even length the taper has no power at the Nyquist frequency. -/
theorem taper_nyquist {c h : ℕ} (hc : c = 2 * h) (hh : 1 ≤ h) : taper c h = 0 := by
  have hex : ∀ t : ℤ, exp (-(2 * Real.pi * I) * (((h : ℤ) : ℂ) * t / c)) = ((-1 : ℝ) ^ t.natAbs : ℝ) := by
    intro t
    have hh' : (h : ℂ) ≠ 0 := by exact_mod_cast (by omega : h ≠ 0)
    have e : -(2 * Real.pi * I) * (((h : ℤ) : ℂ) * t / c) = ((-t : ℤ) : ℂ) * (Real.pi * I) := by
      rw [hc]
      push_cast
      field_simp
    rw [e, exp_int_mul, exp_pi_mul_I]
    push_cast
    rcases Int.natAbs_eq t with ht | ht
    · generalize t.natAbs = m at *
      subst ht
      rw [zpow_neg, zpow_natCast, ← inv_pow]
      norm_num
    · generalize t.natAbs = m at *
      subst ht
      rw [neg_neg, zpow_natCast]
  have hpar : ∀ t ∈ Finset.Ico (0 : ℤ) c, ((-1 : ℝ)) ^ ((c : ℤ) - 1 - t).natAbs = -(-1 : ℝ) ^ t.natAbs := by
    intro t ht
    have := Finset.mem_Ico.1 ht
    obtain ⟨m, rfl⟩ := Int.eq_ofNat_of_zero_le this.1
    have h1 : ((c : ℤ) - 1 - (m : ℤ)).natAbs = c - 1 - m := by omega
    rw [h1, Int.natAbs_natCast]
    have h2 : (-1 : ℝ) ^ (c - 1 - m) * (-1) ^ m = -1 := by
      rw [← pow_add, show c - 1 - m + m = 2 * (h - 1) + 1 by omega]
      rw [pow_succ, pow_mul]
      norm_num
    have h3 : (-1 : ℝ) ^ m * (-1) ^ m = 1 := by
      rw [← mul_pow]
      norm_num
    linear_combination (-1 : ℝ) ^ m * h2 - (-1) ^ (c - 1 - m) * h3
  have key : ∑ t ∈ Finset.Ico (0 : ℤ) c, blackman c t * (-1 : ℝ) ^ t.natAbs = 0 := by
    have hrefl : ∑ t ∈ Finset.Ico (0 : ℤ) c, blackman c t * (-1 : ℝ) ^ t.natAbs =
        ∑ t ∈ Finset.Ico (0 : ℤ) c, blackman c (c - 1 - t) * (-1 : ℝ) ^ ((c : ℤ) - 1 - t).natAbs := by
      refine Finset.sum_nbij' (fun t => (c : ℤ) - 1 - t) (fun t => (c : ℤ) - 1 - t) ?_ ?_ ?_ ?_ ?_
      · intro t ht
        rw [Finset.mem_Ico] at *
        omega
      · intro t ht
        rw [Finset.mem_Ico] at *
        omega
      · intro t _
        ring
      · intro t _
        ring
      · intro t _
        rw [show (c : ℤ) - 1 - (c - 1 - t) = t by ring]
    have hneg : ∑ t ∈ Finset.Ico (0 : ℤ) c, blackman c (c - 1 - t) * (-1 : ℝ) ^ ((c : ℤ) - 1 - t).natAbs =
        -∑ t ∈ Finset.Ico (0 : ℤ) c, blackman c t * (-1 : ℝ) ^ t.natAbs := by
      rw [← Finset.sum_neg_distrib]
      refine Finset.sum_congr rfl fun t ht => ?_
      rw [blackman_symm, hpar t ht]
      ring
    linarith
  unfold taper
  rw [show (0 : ℂ) = ((0 : ℝ) : ℂ) by norm_num, ← key]
  push_cast
  refine Finset.sum_congr rfl fun t _ => ?_
  have := hex t
  push_cast at this
  rw [this]

/-- For even lengths the buffer is found. -/
theorem firstBelow_some {c h : ℕ} (hc : c = 2 * h) (hh : 2 ≤ h) {thr : ℝ} (ht : 0 ≤ thr) :
    ∃ idx, firstBelow c thr = some idx ∧ Below c thr idx ∧ (∀ j < idx, ¬ Below c thr j) ∧ idx ≤ h := by
  classical
  have hb : Below c thr h := by
    rw [below_iff (by omega)]
    refine ⟨by omega, ?_⟩
    have h1 : bm c ((h : ℕ) : ℤ) = 0 := by
      unfold bm
      rw [taper_nyquist hc (by omega)]
      simp
    rw [h1]
    exact mul_nonneg ht (sq_nonneg _)
  have he : ∃ j, Below c thr j := ⟨h, hb⟩
  unfold firstBelow
  rw [dif_pos he]
  exact ⟨_, rfl, Nat.find_spec he, fun j hj => Nat.find_min he hj, Nat.find_min' he hb⟩

end Verif.RollingWedge
