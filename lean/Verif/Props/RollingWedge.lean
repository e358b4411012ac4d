import Verif.Lemmas.RollingWedge
import Mathlib.Tactic.Linarith
/-!
# C124: removing the wedge from lightcones channel by channel
-/

namespace Verif.RollingWedge
open Verif.Convolve Verif.Constants Complex

/-- Specification: the signed number of waves of the mode `i` of `n`. -/
def waves (n : ℕ) (i : ℤ) : ℤ := if 2 * i < n then i else i - n

/-- Specification: the Blackman window. -/
noncomputable def window (c : ℕ) (t : ℤ) : ℝ :=
  0.42 - 0.5 * Real.cos (2 * Real.pi * t / (c - 1)) + 0.08 * Real.cos (4 * Real.pi * t / (c - 1))

/-- Specification: the power of the window at `j` waves. -/
noncomputable def windowPower (c : ℕ) (j : ℤ) : ℝ :=
  ‖∑ t ∈ Finset.Ico (0 : ℤ) c, (window c t : ℂ) * exp (-(2 * Real.pi * I) * ((j : ℂ) * t / c))‖ ^ 2

/-- Specification: a mode outside the wedge of slope `mf` and the buffer of `b` waves, in a chunk of `c` channels of
`n` × `n` cells; wave numbers are in units of the inverse cell. -/
def Outside (n c : ℕ) (mf b : ℝ) (i : Fin 3 → ℤ) : Prop :=
  Real.sqrt (((waves n (i 0) : ℝ) / n) ^ 2 + ((waves n (i 1) : ℝ) / n) ^ 2) * mf + b / c < |(waves c (i 2) : ℝ) / c|

/-- Specification: the expansion rate in units of today's, of a flat universe with matter. -/
noncomputable def expansion (Om z : ℝ) : ℝ := Real.sqrt (Om * (1 + z) ^ 3 + (1 - Om))

/-- Specification: the slope of the wedge, `H D / (c (1 + z))` with the comoving distance `D`. -/
noncomputable def slope (Om z : ℝ) : ℝ := expansion Om z * (∫ x in (0 : ℝ)..z, (expansion Om x)⁻¹) / (1 + z)

theorem factor_slope (Om z : ℝ) : factor Om z = slope Om z := by
  unfold factor slope expansion
  simp only [one_div, inv_inv]
  ring

theorem fftfreq_eq (n : ℕ) (d : ℝ) (i : ℤ) : fftfreq n d i = (waves n i : ℝ) / n / d := by
  unfold fftfreq waves
  rw [div_div]
  have : (i < (((n + 1) / 2 : ℕ) : ℤ)) ↔ 2 * i < (n : ℤ) := by omega
  by_cases h : 2 * i < (n : ℤ)
  · rw [if_pos h, if_pos (this.2 h)]
  · rw [if_neg h, if_neg fun h' => h (this.1 h')]
    push_cast
    rfl

theorem blackman_window {c : ℕ} (hc : 2 ≤ c) (t : ℤ) : blackman c t = window c t := by
  unfold blackman window
  rw [if_neg (by omega)]
  have hc' : (c : ℝ) - 1 ≠ 0 := by
    have : (2 : ℝ) ≤ c := by exact_mod_cast hc
    linarith
  have e1 : Real.pi * (1 - c + 2 * t) / ((c : ℝ) - 1) = 2 * Real.pi * t / (c - 1) - Real.pi := by
    field_simp
    ring
  have e2 : 2 * Real.pi * (1 - c + 2 * t) / ((c : ℝ) - 1) = 4 * Real.pi * t / (c - 1) - 2 * Real.pi := by
    field_simp
    ring
  rw [e1, e2, Real.cos_sub_pi, Real.cos_sub_two_pi]
  norm_num
  ring

theorem bm_window {c : ℕ} (hc : 2 ≤ c) (j : ℤ) : bm c j = windowPower c j := by
  unfold bm taper windowPower
  simp only [blackman_window hc]

/-- The ratio `W` does not depend on the unit of length. -/
theorem keep_cell (n c : ℕ) {d : ℝ} (hd : 0 < d) (mf : ℝ) (idx : ℕ) (i : Fin 3 → ℤ) :
    Keep n c d mf idx i ↔ Keep n c 1 mf idx i := by
  unfold Keep
  simp only [fftfreq_eq, div_one]
  have e : Real.sqrt (((waves n (i 1) : ℝ) / n / d) ^ 2 + ((waves n (i 0) : ℝ) / n / d) ^ 2) =
      Real.sqrt (((waves n (i 1) : ℝ) / n) ^ 2 + ((waves n (i 0) : ℝ) / n) ^ 2) / d := by
    rw [div_pow _ d, div_pow _ d, ← add_div, Real.sqrt_div' _ (sq_nonneg d), Real.sqrt_sq hd.le]
  rw [e]
  generalize Real.sqrt _ = k
  have e2 : k / d * mf + ((waves c 1 : ℝ) / c / d - (waves c 0 : ℝ) / c / d) * ((idx : ℝ) - 1) =
      (k * mf + ((waves c 1 : ℝ) / c - (waves c 0 : ℝ) / c) * ((idx : ℝ) - 1)) / d := by ring
  rw [e2]
  generalize k * mf + ((waves c 1 : ℝ) / c - (waves c 0 : ℝ) / c) * ((idx : ℝ) - 1) = q
  rw [div_div_div_cancel_right₀ hd.ne']
  by_cases hq : q = 0
  · rw [if_pos hq, if_pos (by rw [hq, zero_div]), ne_eq, ne_eq, div_eq_zero_iff, or_iff_left hd.ne']
  · rw [if_neg hq, if_neg (div_ne_zero hq hd.ne')]

theorem keep_iff {n c : ℕ} (hc : 3 ≤ c) {d mf : ℝ} (hd : 0 < d) (hmf : 0 ≤ mf) {idx : ℕ} (hi : 1 ≤ idx)
    (i : Fin 3 → ℤ) : Keep n c d mf idx i ↔ Outside n c mf (idx - 1) i := by
  rw [keep_cell n c hd]
  unfold Keep Outside
  simp only [fftfreq_eq, div_one]
  have w1 : waves c 1 = 1 := if_pos (by omega)
  have w0 : waves c 0 = 0 := if_pos (by omega)
  rw [w1, w0, add_comm (((waves n (i 1) : ℝ) / n) ^ 2)]
  have e : Real.sqrt (((waves n (i 0) : ℝ) / n) ^ 2 + ((waves n (i 1) : ℝ) / n) ^ 2) * mf +
      (((1 : ℤ) : ℝ) / c - ((0 : ℤ) : ℝ) / c) * ((idx : ℝ) - 1) =
      Real.sqrt (((waves n (i 0) : ℝ) / n) ^ 2 + ((waves n (i 1) : ℝ) / n) ^ 2) * mf + ((idx : ℝ) - 1) / c := by
    push_cast
    ring
  rw [e]
  have hi' : (1 : ℝ) ≤ idx := by exact_mod_cast hi
  have h0 : 0 ≤ Real.sqrt (((waves n (i 0) : ℝ) / n) ^ 2 + ((waves n (i 1) : ℝ) / n) ^ 2) * mf + ((idx : ℝ) - 1) / c :=
    add_nonneg (mul_nonneg (Real.sqrt_nonneg _) hmf) (div_nonneg (by linarith) (Nat.cast_nonneg c))
  generalize Real.sqrt (((waves n (i 0) : ℝ) / n) ^ 2 + ((waves n (i 1) : ℝ) / n) ^ 2) * mf + ((idx : ℝ) - 1) / c = q at *
  generalize (waves c (i 2) : ℝ) / c = p
  split_ifs with hq
  · rw [hq]
    exact abs_pos.symm
  · have hq' : 0 < q := lt_of_le_of_ne h0 (Ne.symm hq)
    rw [div_lt_iff₀ hq', lt_div_iff₀ hq', lt_abs]
    constructor
    · rintro (h | h)
      · right; linarith
      · left; linarith
    · rintro (h | h)
      · right; linarith
      · left; linarith

theorem factor_nonneg {Om z : ℝ} (hz : 0 ≤ z) : 0 ≤ factor Om z := by
  unfold factor
  refine mul_nonneg (div_nonneg (by positivity) (by linarith)) ?_
  exact intervalIntegral.integral_nonneg hz fun x _ => by positivity

/-- What the result is for even lengths of the chunk. -/
theorem rolling_ok (k : Const) (a : Arr (Fin 3) ℝ) (n m : ℕ) (hs : a.shape = ![n, n, m]) (hm : 0 < m) (zs : List ℝ)
    (hz : m ≤ zs.length) (d : ℝ) (h : ℕ) (hh : 2 ≤ h) (Om : ℝ) {thr : ℝ} (ht : 0 ≤ thr) :
    ∃ idx, Below (2 * h) thr idx ∧ (∀ j < idx, ¬ Below (2 * h) thr j) ∧
      rolling k a zs (some d) (some (2 * h)) (some Om) thr = .ok ⟨a.shape, fun x => channel a (2 * h) d
        (factor Om (zs.getD (min ((x 2).toNat + h - 1) (m - 1)) 0)) idx x⟩ := by
  obtain ⟨idx, h1, h2, h3, -⟩ := firstBelow_some (c := 2 * h) rfl hh ht
  refine ⟨idx, h2, h3, ?_⟩
  unfold rolling
  simp only [Option.getD_some]
  rw [if_neg (by omega), h1]
  have s0 : a.shape 0 = n := by rw [hs]; rfl
  have s1 : a.shape 1 = n := by rw [hs]; rfl
  have s2 : a.shape 2 = m := by rw [hs]; rfl
  simp only []
  rw [if_neg (by rw [s0, s1]; simp), if_neg (by omega), if_neg (by omega), if_neg (by omega), s2,
    show 2 * h / 2 = h by omega]

/-- **C124, cell size.** The size of the cells does not matter, as wave numbers along and across the line of sight have
the same unit; nor does its default, which is a number of cells. -/
theorem C124_cell (k : Const) (a : Arr (Fin 3) ℝ) (zs : List ℝ) (c : Option ℕ) (Om : Option ℝ) (thr : ℝ) {d : ℝ}
    (hd : 0 < d) (hs : ∀ j, 0 < a.shape j) :
    rolling k a zs (some d) c Om thr = rolling k a zs none c Om thr := by
  classical
  have hl : (0 : ℝ) < ((min (min (a.shape 0) (a.shape 1)) (a.shape 2) : ℕ) : ℝ) := by
    exact_mod_cast lt_min (lt_min (hs 0) (hs 1)) (hs 2)
  have hch : ∀ (c idx : ℕ) (mf d : ℝ) x, 0 < d → channel a c d mf idx x = channel a c 1 mf idx x := by
    intro c idx mf d x hd
    unfold channel
    congr 2
    funext i
    simp only [keep_cell _ _ hd]
  unfold rolling
  simp only [Option.getD_some, Option.getD_none]
  simp only [hch _ _ _ _ _ hd, hch _ _ _ _ _ hl]

theorem taper_reflect (c : ℕ) (hc : 0 < c) (j : ℤ) : ‖taper c (j - c)‖ = ‖taper c (-j)‖ ∧ ‖taper c (-j)‖ = ‖taper c j‖ := by
  have hper : ∀ j : ℤ, taper c (j - c) = taper c j := by
    intro j
    unfold taper
    refine Finset.sum_congr rfl fun t _ => ?_
    congr 1
    refine exp_period _ _ (-t) ?_
    have : (c : ℂ) ≠ 0 := by exact_mod_cast hc.ne'
    push_cast
    field_simp
    ring
  have hneg : ‖taper c (-j)‖ = ‖taper c j‖ := by
    have : taper c (-j) = (starRingEnd ℂ) (taper c j) := by
      unfold taper
      rw [map_sum]
      refine Finset.sum_congr rfl fun t _ => ?_
      rw [map_mul, conj_ofReal, ← exp_conj]
      congr 2
      simp only [map_mul, map_neg, map_div₀, conj_ofReal, conj_I, map_ofNat, map_intCast, map_natCast]
      push_cast
      ring
    rw [this, RCLike.norm_conj]
  exact ⟨by rw [hper, hneg], hneg⟩

theorem bm_waves {c : ℕ} (hc : 0 < c) (j : ℤ) : bm c |waves c j| = bm c j := by
  have h1 := taper_reflect c hc j
  have habs : ∀ i : ℤ, bm c |i| = bm c i := by
    intro i
    unfold bm
    rcases abs_choice i with h | h
    · rw [h]
    · rw [h, (taper_reflect c hc i).2]
  rw [habs]
  unfold waves
  split_ifs
  · rfl
  · unfold bm
    rw [h1.1, h1.2]

/-- **C124, foregrounds.** Emission which does not depend on frequency is removed from the channels whose chunk lies in
the lightcone: at most the part of it beyond the buffer is left, if the power of the taper stays below the threshold there. -/
theorem C124_partial (k : Const) (a : Arr (Fin 3) ℝ) (n m : ℕ) (hs : a.shape = ![n, n, m]) (hn : 0 < n) (hm : 0 < m)
    (zs : List ℝ) (hz : m ≤ zs.length) (hz0 : ∀ z ∈ zs, 0 ≤ z) {d : ℝ} (hd : 0 < d) (h : ℕ) (hh : 2 ≤ h) {Om thr : ℝ}
    (_hOm : 0 ≤ Om ∧ Om ≤ 1) (ht : 0 ≤ thr) (ht1 : thr < 1) (F : (Fin 2 → ℤ) → ℝ)
    (hF : ∀ x : Fin 3 → ℤ, 0 ≤ x 2 → x 2 < m → a.val x = F ![x 0, x 1])
    (hb : ∀ i j : ℕ, i ≤ j → j ≤ h → windowPower (2 * h) i ≤ thr * windowPower (2 * h) 0 →
      windowPower (2 * h) j ≤ thr * windowPower (2 * h) 0) :
    ∃ r, rolling k a zs (some d) (some (2 * h)) (some Om) thr = .ok r ∧ r.shape = a.shape ∧
      ∀ x : Fin 3 → ℤ, h ≤ x 2 → x 2 + h ≤ m →
        |r.val x| ≤ Real.sqrt thr * (2 * h) * ((∑ y ∈ box ![n, n], ‖fftn ![n, n] (fun y => (F y : ℂ)) y‖) / n ^ 2) := by
  classical
  obtain ⟨idx, hbel, hmin, hok⟩ := rolling_ok k a n m hs hm zs hz d h hh Om ht
  refine ⟨_, hok, rfl, fun x hx1 hx2 => ?_⟩
  set c := 2 * h with hc
  have s0 : a.shape 0 = n := by rw [hs]; rfl
  have s2 : a.shape 2 = m := by rw [hs]; rfl
  have hW := window_sum_pos (c := c) (by omega)
  set S := ∑ t ∈ Finset.Ico (0 : ℤ) c, blackman c t with hS
  have hbm0 : bm c 0 = S ^ 2 := bm_zero c
  have hbmp : 0 < bm c 0 := by rw [hbm0]; positivity
  have hSc : S ≤ 2 * h := by
    have : S ≤ ∑ t ∈ Finset.Ico (0 : ℤ) c, (1 : ℝ) := Finset.sum_le_sum fun t _ => blackman_le c t
    rw [Finset.sum_const, Int.card_Ico, nsmul_eq_mul, mul_one] at this
    rw [show ((c : ℤ) - 0).toNat = c by omega, hc] at this
    push_cast at this
    exact this
  rw [below_iff (by omega)] at hbel
  have hidx : 1 ≤ idx := by
    by_contra h0
    have : idx = 0 := by omega
    rw [this] at hbel
    have := hbel.2
    push_cast at this
    nlinarith
  simp only []
  have hmf : 0 ≤ factor Om (zs.getD (min ((x 2).toNat + h - 1) (m - 1)) 0) := by
    refine factor_nonneg ?_
    rw [List.getD_eq_getElem?_getD, List.getElem?_eq_getElem (by omega : min ((x 2).toNat + h - 1) (m - 1) < zs.length)]
    exact hz0 _ (List.getElem_mem _)
  generalize factor Om (zs.getD (min ((x 2).toNat + h - 1) (m - 1)) 0) = mf at hmf
  -- the power of the taper in the modes which are kept
  have hkeep : ∀ i : Fin 3 → ℤ, 0 ≤ i 2 → i 2 < c → Keep n c d mf idx i → ‖taper c (i 2)‖ ≤ Real.sqrt thr * S := by
    intro i hi0 hi1 hi
    rw [keep_iff (by omega) hd hmf hidx] at hi
    unfold Outside at hi
    have hc0 : (0 : ℝ) < c := by exact_mod_cast (by omega : 0 < c)
    have h1 : ((idx : ℝ) - 1) / c < |(waves c (i 2) : ℝ) / c| := by
      have : 0 ≤ Real.sqrt (((waves n (i 0) : ℝ) / n) ^ 2 + ((waves n (i 1) : ℝ) / n) ^ 2) * mf := by positivity
      linarith
    rw [abs_div, abs_of_pos hc0, div_lt_div_iff_of_pos_right hc0] at h1
    have h2 : (idx : ℤ) - 1 < |waves c (i 2)| := by
      have : ((idx : ℤ) : ℝ) - 1 < |((waves c (i 2) : ℤ) : ℝ)| := by exact_mod_cast h1
      exact_mod_cast this
    have h3 : |waves c (i 2)| ≤ h := by
      unfold waves
      rw [abs_le]
      split_ifs <;> omega
    obtain ⟨q, hq⟩ := Int.eq_ofNat_of_zero_le (abs_nonneg (waves c (i 2)))
    have h4 := hb idx q (by omega) (by omega) (by
      rw [← bm_window (by omega), ← bm_window (by omega)]
      exact hbel.2)
    rw [← bm_window (by omega), ← bm_window (by omega), ← hq, bm_waves (by omega), hbm0] at h4
    unfold bm at h4
    refine le_of_sq_le_sq ?_ (by positivity)
    rw [mul_pow, Real.sq_sqrt ht]
    exact h4
  rw [channel_split a c d mf idx x F (blackman c) fun y hy0 hy1 => ?_]
  · refine (Complex.abs_re_le_norm _).trans ?_
    rw [norm_div, s0]
    have hnn : ‖(n : ℂ) * n * c‖ = (n : ℝ) ^ 2 * c := by
      rw [norm_mul, norm_mul, Complex.norm_natCast, Complex.norm_natCast]
      ring
    rw [hnn]
    have hc0 : (0 : ℝ) < c := by exact_mod_cast (by omega : 0 < c)
    have hn0 : (0 : ℝ) < n := by exact_mod_cast hn
    rw [div_le_iff₀ (by positivity)]
    have hb1 : ∀ y ∈ box ![n, n], ‖∑ j ∈ Finset.Ico (0 : ℤ) c,
        (if Keep n c d mf idx ![y 0, y 1, j] then
        fftn ![n, n] (fun y => (F y : ℂ)) y *
          (∑ t ∈ Finset.Ico (0 : ℤ) c, (blackman c t : ℂ) * exp (-(2 * Real.pi * I) * ((j : ℂ) * t / c))) *
          (exp ((2 * Real.pi * I) * ∑ l, (y l : ℂ) * (![x 0, x 1] : Fin 2 → ℤ) l / (![n, n] l : ℕ)) *
            exp ((2 * Real.pi * I) * ((j : ℂ) * ((c / 2 : ℕ) : ℤ) / c)))
        else 0)‖ ≤ c * (‖fftn ![n, n] (fun y => (F y : ℂ)) y‖ * (Real.sqrt thr * S)) := by
      intro y _
      refine (norm_sum_le _ _).trans ?_
      have : ∀ j ∈ Finset.Ico (0 : ℤ) c, ‖(if Keep n c d mf idx ![y 0, y 1, j] then
        fftn ![n, n] (fun y => (F y : ℂ)) y *
          (∑ t ∈ Finset.Ico (0 : ℤ) c, (blackman c t : ℂ) * exp (-(2 * Real.pi * I) * ((j : ℂ) * t / c))) *
          (exp ((2 * Real.pi * I) * ∑ l, (y l : ℂ) * (![x 0, x 1] : Fin 2 → ℤ) l / (![n, n] l : ℕ)) *
            exp ((2 * Real.pi * I) * ((j : ℂ) * ((c / 2 : ℕ) : ℤ) / c)))
        else 0)‖ ≤ ‖fftn ![n, n] (fun y => (F y : ℂ)) y‖ * (Real.sqrt thr * S) := by
        intro j hj
        have hj' := Finset.mem_Ico.1 hj
        split_ifs with hk
        · have h1 := hkeep ![y 0, y 1, j] hj'.1 hj'.2 hk
          have p1 : ‖exp ((2 * Real.pi * I) * ∑ l, (y l : ℂ) * (![x 0, x 1] : Fin 2 → ℤ) l / (![n, n] l : ℕ))‖ = 1 := by
            rw [show (2 * Real.pi * I) * ∑ l, (y l : ℂ) * (![x 0, x 1] : Fin 2 → ℤ) l / (![n, n] l : ℕ) =
              ((2 * Real.pi * ∑ l, (y l : ℝ) * (![x 0, x 1] : Fin 2 → ℤ) l / (![n, n] l : ℕ) : ℝ) : ℂ) * I by
                push_cast; ring, norm_exp_ofReal_mul_I]
          have p2 : ‖exp ((2 * Real.pi * I) * ((j : ℂ) * ((c / 2 : ℕ) : ℤ) / c))‖ = 1 := by
            rw [show (2 * Real.pi * I) * ((j : ℂ) * ((c / 2 : ℕ) : ℤ) / c) =
              ((2 * Real.pi * ((j : ℝ) * ((c / 2 : ℕ) : ℤ) / c) : ℝ) : ℂ) * I by push_cast; ring, norm_exp_ofReal_mul_I]
          rw [norm_mul, norm_mul, norm_mul, p1, p2, mul_one, mul_one]
          exact mul_le_mul_of_nonneg_left h1 (norm_nonneg _)
        · rw [norm_zero]
          positivity
      refine (Finset.sum_le_sum this).trans (le_of_eq ?_)
      rw [Finset.sum_const, Int.card_Ico, nsmul_eq_mul]
      simp
    refine (norm_sum_le _ _).trans ((Finset.sum_le_sum hb1).trans ?_)
    rw [← Finset.mul_sum, ← Finset.sum_mul]
    set T := ∑ y ∈ box ![n, n], ‖fftn ![n, n] (fun y => (F y : ℂ)) y‖ with hT
    have hT0 : 0 ≤ T := Finset.sum_nonneg fun _ _ => norm_nonneg _
    have e : Real.sqrt thr * (2 * h) * (T / n ^ 2) * (n ^ 2 * c) = c * (T * (Real.sqrt thr * (2 * h))) := by
      field_simp
    rw [e]
    have := Real.sqrt_nonneg thr
    gcongr
  · unfold chunk
    simp only []
    rw [if_pos (by rw [s2]; omega), hF _ (by show 0 ≤ x 2 - _ + y 2; omega) (by show x 2 - _ + y 2 < _; omega)]
    rfl

/-- The inverse transform of the transform. -/
theorem ifftn_fftn {ι : Type} [Fintype ι] [DecidableEq ι] (s : ι → ℕ) (hs : ∀ i, 0 < s i) (W : (ι → ℤ) → ℂ)
    {x : ι → ℤ} (hx : x ∈ box s) : ifftn s (fftn s W) x = W x := by
  have h1 := ifft_fft_mul s hs W (fun y => if y = 0 then 1 else 0) x
  have h2 : ∀ q, fftn s (fun y => if y = 0 then (1 : ℂ) else 0) q = 1 := by
    intro q
    unfold fftn
    rw [Finset.sum_eq_single 0]
    · simp
    · intro y _ hy
      simp [hy]
    · intro hy
      exact absurd ((mem_box _ _).2 fun j => ⟨le_rfl, by simpa using hs j⟩) hy
  simp only [h2, mul_one] at h1
  rw [show fftn s W = fun q => fftn s W q from rfl, h1]
  unfold circ
  rw [Finset.sum_eq_single x]
  · have : md s (0 : ι → ℤ) = 0 := by
      funext j
      simp [md]
    simp [this]
  · intro y hy hxy
    have : md s (x - y) ≠ 0 := by
      intro h0
      apply hxy
      funext j
      have h1 := (mem_box _ _).1 hx j
      have h2 := (mem_box _ _).1 hy j
      have h3 := congrFun h0 j
      simp only [md, Pi.sub_apply, Pi.zero_apply] at h3
      have h4 := Int.emod_emod_of_dvd (x j - y j) (dvd_refl (s j : ℤ))
      obtain ⟨q, hq⟩ := Int.dvd_of_emod_eq_zero h3
      have h5 : 0 < (s j : ℤ) := by exact_mod_cast hs j
      have h6 : q = 0 := by nlinarith
      rw [h6] at hq
      omega
    simp [this]
  · intro h
    exact absurd hx h

/-- The transform of a wave across the sky. -/
theorem fftn_wave (s : Fin 2 → ℕ) (hs : ∀ i, 0 < s i) (κ : Fin 2 → ℤ) {i : Fin 2 → ℤ} (hi : i ∈ box s) :
    fftn s (fun y => exp ((2 * Real.pi * I) * ∑ j, (κ j : ℂ) * y j / s j)) i =
      if i = md s κ then ∏ j, (s j : ℂ) else 0 := by
  unfold fftn
  have h1 : ∀ y : Fin 2 → ℤ, exp ((2 * Real.pi * I) * ∑ j, (κ j : ℂ) * y j / s j) *
      exp (-(2 * Real.pi * I) * ∑ j, (i j : ℂ) * y j / s j) =
      exp ((2 * Real.pi * I) * ∑ j, (y j : ℂ) * ((κ - i) j : ℤ) / s j) := by
    intro y
    rw [← exp_add, neg_mul, ← mul_neg, ← mul_add, ← Finset.sum_neg_distrib, ← Finset.sum_add_distrib]
    congr 2
    refine Finset.sum_congr rfl fun j _ => ?_
    simp only [Pi.sub_apply]
    push_cast
    ring
  simp only [h1]
  rw [sum_modes s hs]
  simp only [dvd_iff_md s κ i hi]

theorem waves_mod {n : ℕ} (hn : 0 < n) (q : ℤ) : ∃ l, waves n (q % n) = q + l * n := by
  have h := Int.emod_add_mul_ediv q n
  unfold waves
  split_ifs
  · exact ⟨-(q / n), by linear_combination h⟩
  · exact ⟨-(q / n) - 1, by linear_combination h⟩

theorem taper_period {c : ℕ} (hc : 0 < c) (j l : ℤ) : taper c (j + l * c) = taper c j := by
  unfold taper
  refine Finset.sum_congr rfl fun t _ => ?_
  congr 1
  refine exp_period _ _ (l * t) ?_
  have : (c : ℂ) ≠ 0 := by exact_mod_cast hc.ne'
  push_cast
  field_simp

/-- The square of the number of waves is even. -/
theorem waves_neg_sq {n : ℕ} (hn : 0 < n) (q : ℤ) : waves n (-q % n) ^ 2 = waves n (q % n) ^ 2 := by
  have h1 := Int.emod_nonneg q (by omega : (n : ℤ) ≠ 0)
  have h2 := Int.emod_lt_of_pos q (by omega : (0 : ℤ) < n)
  have h3 : -q % (n : ℤ) = if q % n = 0 then 0 else n - q % n := by
    split_ifs with h
    · exact Int.emod_eq_zero_of_dvd (dvd_neg.2 (Int.dvd_of_emod_eq_zero h))
    · have : -q = (n - q % n) + n * (-(q / n) - 1) := by
        have := Int.emod_add_mul_ediv q n
        linear_combination this
      rw [this, Int.add_mul_emod_self_left]
      exact Int.emod_eq_of_lt (by omega) (by omega)
  rw [h3]
  generalize q % (n : ℤ) = r at *
  by_cases hr : r = 0
  · rw [if_pos hr, hr]
  rw [if_neg hr]
  unfold waves
  by_cases h4 : 2 * r < n
  · rw [if_pos h4, if_neg (by omega)]
    ring
  · rw [if_neg h4]
    by_cases h5 : 2 * ((n : ℤ) - r) < n
    · rw [if_pos h5]
      ring
    · rw [if_neg h5]
      have : (n : ℤ) = 2 * r := by omega
      rw [this]
      ring

/-- Specification: the wave with `κ` waves across the sky of `n` × `n` cells and `J` waves in `c` channels. -/
noncomputable def planeWave (n c : ℕ) (A φ : ℝ) (κ : Fin 2 → ℤ) (J : ℤ) (x : Fin 3 → ℤ) : ℝ :=
  A * Real.cos (2 * Real.pi * (κ 0 * x 0 / n + κ 1 * x 1 / n + J * x 2 / c) + φ)

/-- **C124, signal.** A wave whose frequency is further away from the wedge and its buffer than the taper reaches is kept
in the channels whose chunk lies in the lightcone, up to the weight of the taper in the middle of the chunk. -/
theorem C124_signal (k : Const) (a : Arr (Fin 3) ℝ) (n m : ℕ) (hs : a.shape = ![n, n, m]) (hn : 0 < n)
    (zs : List ℝ) (hz : m ≤ zs.length) (hz0 : ∀ z ∈ zs, 0 ≤ z) {d : ℝ} (hd : 0 < d) (h : ℕ) (hh : 2 ≤ h) {Om thr : ℝ}
    (_hOm : 0 ≤ Om ∧ Om ≤ 1) (ht : 0 ≤ thr) (ht1 : thr < 1) (A φ : ℝ) (κ : Fin 2 → ℤ) (J : ℤ)
    (ha : ∀ x : Fin 3 → ℤ, 0 ≤ x 2 → x 2 < m → a.val x = planeWave n (2 * h) A φ κ J x) (b : ℕ)
    (hb : IsLeast {j : ℕ | j < 2 * h ∧ windowPower (2 * h) j ≤ thr * windowPower (2 * h) 0} b) (p : ℕ) (hp1 : h ≤ p)
    (hp2 : p + h ≤ m)
    (hfar : ∀ j : ℤ, |j| ≤ 2 * h * (Real.sqrt (((waves n (κ 0 % n) : ℝ) / n) ^ 2 + ((waves n (κ 1 % n) : ℝ) / n) ^ 2) *
      slope Om (zs.getD (min (p + h - 1) (m - 1)) 0)) + (b - 1) →
      windowPower (2 * h) (j - J) ≤ thr * windowPower (2 * h) 0) :
    ∃ r, rolling k a zs (some d) (some (2 * h)) (some Om) thr = .ok r ∧ r.shape = a.shape ∧
      ∀ x y : ℤ, 0 ≤ x → x < n → 0 ≤ y → y < n →
        |r.val ![x, y, p] - window (2 * h) h * a.val ![x, y, p]| ≤ Real.sqrt thr * (2 * h) * |A| := by
  classical
  obtain ⟨idx, hbel, hmin, hok⟩ := rolling_ok k a n m hs (by omega) zs hz d h hh Om ht
  refine ⟨_, hok, rfl, fun x y hx0 hx1 hy0 hy1 => ?_⟩
  set c := 2 * h with hc
  have s0 : a.shape 0 = n := by rw [hs]; rfl
  have s2 : a.shape 2 = m := by rw [hs]; rfl
  have hc0 : (0 : ℝ) < c := by exact_mod_cast (by omega : 0 < c)
  have hn0 : (0 : ℝ) < n := by exact_mod_cast hn
  have hW := window_sum_pos (c := c) (by omega)
  set S := ∑ t ∈ Finset.Ico (0 : ℤ) c, blackman c t with hS
  have hbm0 : bm c 0 = S ^ 2 := bm_zero c
  have hSc : S ≤ 2 * h := by
    have : S ≤ ∑ t ∈ Finset.Ico (0 : ℤ) c, (1 : ℝ) := Finset.sum_le_sum fun t _ => blackman_le c t
    rw [Finset.sum_const, Int.card_Ico, nsmul_eq_mul, mul_one] at this
    rw [show ((c : ℤ) - 0).toNat = c by omega, hc] at this
    push_cast at this
    exact this
  -- the buffer
  have hib : idx = b := by
    have hset : ∀ j : ℕ, (j < c ∧ windowPower c j ≤ thr * windowPower c 0) ↔ Below c thr j := by
      intro j
      rw [below_iff (by omega), bm_window (by omega), bm_window (by omega)]
    refine le_antisymm ?_ (hb.2 ((hset idx).2 hbel))
    by_contra hlt
    exact hmin b (by omega) ((hset b).1 hb.1)
  subst hib
  have hidx : 1 ≤ idx := by
    by_contra h0
    have h1 : idx = 0 := by omega
    have h2 := hb.1.2
    rw [h1, ← bm_window (by omega), ← bm_window (by omega), hbm0] at h2
    push_cast at h2
    rw [hbm0] at h2
    nlinarith [pow_pos hW 2]
  have e2 : ((![x, y, (p : ℤ)] : Fin 3 → ℤ) 2).toNat = p := by
    show ((p : ℤ)).toNat = p
    simp
  have hmf : 0 ≤ factor Om (zs.getD (min (p + h - 1) (m - 1)) 0) := by
    refine factor_nonneg ?_
    rw [List.getD_eq_getElem?_getD, List.getElem?_eq_getElem (by omega : min (p + h - 1) (m - 1) < zs.length)]
    exact hz0 _ (List.getElem_mem _)
  simp only [e2]
  rw [← factor_slope] at hfar
  generalize factor Om (zs.getD (min (p + h - 1) (m - 1)) 0) = mf at hmf hfar
  set kp := Real.sqrt (((waves n (κ 0 % n) : ℝ) / n) ^ 2 + ((waves n (κ 1 % n) : ℝ) / n) ^ 2) with hkp
  -- the taper at the modes which are removed
  have hrem : ∀ (i : Fin 3 → ℤ) (σ : ℤ), σ = 1 ∨ σ = -1 → 0 ≤ i 2 → i 2 < c → ![i 0, i 1] = md ![n, n] (fun j => σ * κ j) →
      ¬ Keep n c d mf idx i → ‖taper c (i 2 - σ * J)‖ ≤ Real.sqrt thr * S := by
    intro i σ hσ hi0 hi1 he hi
    rw [keep_iff (by omega) hd hmf hidx] at hi
    unfold Outside at hi
    rw [not_lt, abs_div, abs_of_pos hc0, div_le_iff₀ hc0] at hi
    have hi0' : i 0 = (σ * κ 0) % n := congrFun he 0
    have hi1' : i 1 = (σ * κ 1) % n := congrFun he 1
    have hsq : ∀ q : ℤ, ((waves n ((σ * q) % n) : ℝ) / n) ^ 2 = ((waves n (q % n) : ℝ) / n) ^ 2 := by
      intro q
      rcases hσ with rfl | rfl
      · rw [one_mul]
      · have h3 := waves_neg_sq hn q
        rw [div_pow, div_pow, neg_one_mul]
        congr 1
        exact_mod_cast h3
    rw [hi0', hi1', hsq, hsq, ← hkp] at hi
    have h5 : |((σ * waves c (i 2) : ℤ) : ℝ)| ≤ 2 * h * (kp * mf) + (idx - 1) := by
      have h6 : |((σ * waves c (i 2) : ℤ) : ℝ)| = |(waves c (i 2) : ℝ)| := by
        rcases hσ with rfl | rfl
        · rw [one_mul]
        · push_cast
          rw [neg_one_mul, abs_neg]
      rw [h6]
      refine hi.trans (le_of_eq ?_)
      rw [hc]
      push_cast
      have : (h : ℝ) ≠ 0 := by
        have : (2 : ℝ) ≤ h := by exact_mod_cast hh
        linarith
      field_simp
    have h7 := hfar (σ * waves c (i 2)) (by exact_mod_cast h5)
    rw [← bm_window (by omega), ← bm_window (by omega), hbm0] at h7
    obtain ⟨l, hl⟩ := waves_mod (n := c) (by omega) (i 2)
    rw [Int.emod_eq_of_lt hi0 hi1] at hl
    have h8 : ‖taper c (σ * waves c (i 2) - J)‖ = ‖taper c (i 2 - σ * J)‖ := by
      rw [hl]
      rcases hσ with rfl | rfl
      · rw [one_mul, one_mul, show i 2 + l * c - J = i 2 - J + l * c by ring, taper_period (by omega)]
      · rw [show -1 * (i 2 + l * (c : ℤ)) - J = -(i 2 - -1 * J) + (-l) * c by ring, taper_period (by omega),
          (taper_reflect c (by omega) _).2]
    unfold bm at h7
    rw [h8] at h7
    refine le_of_sq_le_sq ?_ (by positivity)
    rw [mul_pow, Real.sq_sqrt ht]
    exact h7
  -- the transform of the chunk
  set sh : Fin 3 → ℕ := ![n, n, c] with hsh
  have hshp : ∀ j, 0 < sh j := fun j => match j with
    | 0 => hn
    | 1 => hn
    | 2 => by show 0 < c; omega
  set g : (Fin 3 → ℤ) → ℂ := fun w => (chunk a c ((![x, y, (p : ℤ)] : Fin 3 → ℤ) 2) w : ℂ) with hg
  set θ : ℝ := 2 * Real.pi * (J * ((p : ℝ) - h) / c) + φ with hθ
  set W : ℤ → (Fin 3 → ℤ) → ℂ := fun σ w =>
    exp ((2 * Real.pi * I) * ∑ j, ((σ * κ j : ℤ) : ℂ) * (![w 0, w 1] : Fin 2 → ℤ) j / (![n, n] j : ℕ)) *
      ((blackman c (w 2) : ℂ) * exp ((2 * Real.pi * I) * (((σ * J : ℤ) : ℂ) * w 2 / c))) with hWd
  have hgw : ∀ w ∈ box sh, g w = (A / 2 : ℂ) * exp (θ * I) * W 1 w + (A / 2 : ℂ) * exp (-(θ * I)) * W (-1) w := by
    intro w hw
    have hw2 : 0 ≤ w 2 ∧ w 2 < c := (mem_box _ _).1 hw 2
    rw [hg, hWd]
    simp only []
    unfold chunk
    simp only []
    rw [show (![x, y, (p : ℤ)] : Fin 3 → ℤ) 2 = (p : ℤ) from rfl, if_pos (by rw [s2]; omega),
      ha _ (by show 0 ≤ (p : ℤ) - (c / 2 : ℕ) + w 2; omega) (by show (p : ℤ) - (c / 2 : ℕ) + w 2 < m; omega)]
    unfold planeWave
    have hcos : ∀ v : ℝ, ((Real.cos v : ℝ) : ℂ) = (exp (v * I) + exp (-(v * I))) / 2 := by
      intro v
      rw [ofReal_cos, Complex.cos, neg_mul]
    rw [ofReal_mul, ofReal_mul, hcos]
    set v : ℝ := 2 * Real.pi * ((κ 0 : ℝ) * w 0 / n + κ 1 * w 1 / n + J * w 2 / c) with hv
    have harg : 2 * Real.pi * ((κ 0 : ℝ) * ((![w 0, w 1, (p : ℤ) - (c / 2 : ℕ) + w 2] : Fin 3 → ℤ) 0 : ℤ) / n +
        κ 1 * ((![w 0, w 1, (p : ℤ) - (c / 2 : ℕ) + w 2] : Fin 3 → ℤ) 1 : ℤ) / n +
        J * ((![w 0, w 1, (p : ℤ) - (c / 2 : ℕ) + w 2] : Fin 3 → ℤ) 2 : ℤ) / c) + φ = v + θ := by
      show 2 * Real.pi * ((κ 0 : ℝ) * (w 0 : ℤ) / n + κ 1 * (w 1 : ℤ) / n +
        J * (((p : ℤ) - (c / 2 : ℕ) + w 2 : ℤ) : ℝ) / c) + φ = v + θ
      rw [hv, hθ, show c / 2 = h by omega]
      push_cast
      ring
    rw [harg]
    have hexp : ∀ σ : ℤ, exp ((2 * Real.pi * I) * ∑ j, ((σ * κ j : ℤ) : ℂ) * (![w 0, w 1] : Fin 2 → ℤ) j / (![n, n] j : ℕ)) *
        exp ((2 * Real.pi * I) * (((σ * J : ℤ) : ℂ) * w 2 / c)) = exp (σ * (v * I)) := by
      intro σ
      rw [← exp_add, Fin.sum_univ_two]
      congr 1
      show (2 * Real.pi * I) * (((σ * κ 0 : ℤ) : ℂ) * (w 0 : ℤ) / (n : ℕ) + ((σ * κ 1 : ℤ) : ℂ) * (w 1 : ℤ) / (n : ℕ)) +
        (2 * Real.pi * I) * (((σ * J : ℤ) : ℂ) * w 2 / c) = σ * (v * I)
      rw [hv]
      push_cast
      ring
    have h1 := hexp 1
    have h2 := hexp (-1)
    have e3 : exp ((((v + θ : ℝ)) : ℂ) * I) = exp (v * I) * exp (θ * I) := by
      rw [← exp_add]
      push_cast
      ring_nf
    have e4 : exp (-((((v + θ : ℝ)) : ℂ) * I)) = exp (-(v * I)) * exp (-(θ * I)) := by
      rw [← exp_add]
      push_cast
      ring_nf
    rw [e3, e4]
    rw [show (((1 : ℤ) : ℂ)) * (v * I) = v * I by push_cast; ring] at h1
    rw [show (((-1 : ℤ) : ℂ)) * (v * I) = -(v * I) by push_cast; ring] at h2
    rw [← h1, ← h2]
    ring
  -- its size at the modes which are removed
  have hFW : ∀ (σ : ℤ), ∀ i ∈ box sh, fftn sh (W σ) i =
      (if ![i 0, i 1] = md ![n, n] (fun j => σ * κ j) then (n : ℂ) * n else 0) * taper c (i 2 - σ * J) := by
    intro σ i hi
    have hb2 : (![i 0, i 1] : Fin 2 → ℤ) ∈ box ![n, n] := (mem_box _ _).2 fun j => match j with
      | 0 => (mem_box _ _).1 hi 0
      | 1 => (mem_box _ _).1 hi 1
    rw [hWd, hsh]
    simp only []
    rw [fftn_split n n c (fun u => exp ((2 * Real.pi * I) * ∑ j, ((σ * κ j : ℤ) : ℂ) * u j / (![n, n] j : ℕ)))
      (fun t => (blackman c t : ℂ) * exp ((2 * Real.pi * I) * (((σ * J : ℤ) : ℂ) * t / c))) i,
      fftn_wave ![n, n] (fun j => match j with | 0 => hn | 1 => hn) (fun j => σ * κ j) hb2, Fin.prod_univ_two]
    congr 1
    unfold taper
    refine Finset.sum_congr rfl fun t _ => ?_
    rw [mul_assoc, ← exp_add]
    congr 2
    push_cast
    ring
  have hbound : ∀ i ∈ box sh, ¬ Keep n c d mf idx i → ‖fftn sh g i‖ ≤
      |A| / 2 * ((if ![i 0, i 1] = md ![n, n] (fun j => 1 * κ j) then (n : ℝ) * n * (Real.sqrt thr * S) else 0) +
        (if ![i 0, i 1] = md ![n, n] (fun j => -1 * κ j) then (n : ℝ) * n * (Real.sqrt thr * S) else 0)) := by
    intro i hi hk
    have hi2 : 0 ≤ i 2 ∧ i 2 < c := (mem_box _ _).1 hi 2
    have hlin : fftn sh g i = (A / 2 : ℂ) * exp (θ * I) * fftn sh (W 1) i + (A / 2 : ℂ) * exp (-(θ * I)) * fftn sh (W (-1)) i := by
      unfold fftn
      rw [Finset.mul_sum, Finset.mul_sum, ← Finset.sum_add_distrib]
      refine Finset.sum_congr rfl fun w hw => ?_
      rw [hgw w hw]
      ring
    have hcoef : ∀ v : ℂ, ‖v‖ = 1 → ‖(A / 2 : ℂ) * v‖ = |A| / 2 := by
      intro v hv
      rw [norm_mul, hv, mul_one, norm_div, Complex.norm_real, Real.norm_eq_abs]
      norm_num
    have n1 : ‖exp ((θ : ℂ) * I)‖ = 1 := norm_exp_ofReal_mul_I θ
    have n2 : ‖exp (-((θ : ℂ) * I))‖ = 1 := by
      rw [show -((θ : ℂ) * I) = ((-θ : ℝ) : ℂ) * I by push_cast; ring, norm_exp_ofReal_mul_I]
    have hone : ∀ σ : ℤ, σ = 1 ∨ σ = -1 → ‖fftn sh (W σ) i‖ ≤
        if ![i 0, i 1] = md ![n, n] (fun j => σ * κ j) then (n : ℝ) * n * (Real.sqrt thr * S) else 0 := by
      intro σ hσ
      rw [hFW σ i hi]
      split_ifs with he
      · rw [norm_mul, norm_mul, Complex.norm_natCast]
        exact mul_le_mul_of_nonneg_left (hrem i σ hσ hi2.1 hi2.2 he hk) (by positivity)
      · simp
    rw [hlin]
    refine (norm_add_le _ _).trans ?_
    rw [norm_mul, norm_mul _ (fftn sh (W (-1)) i), hcoef _ n1, hcoef _ n2, mul_add]
    exact add_le_add (mul_le_mul_of_nonneg_left (hone 1 (Or.inl rfl)) (by positivity))
      (mul_le_mul_of_nonneg_left (hone (-1) (Or.inr rfl)) (by positivity))
  -- the result is the chunk without the removed modes
  have hpos : (![x, y, ((c / 2 : ℕ) : ℤ)] : Fin 3 → ℤ) ∈ box sh := (mem_box _ _).2 fun j => match j with
    | 0 => ⟨hx0, hx1⟩
    | 1 => ⟨hy0, hy1⟩
    | 2 => by show 0 ≤ ((c / 2 : ℕ) : ℤ) ∧ ((c / 2 : ℕ) : ℤ) < c; omega
  set R : ℂ := ifftn sh (fun i => if Keep n c d mf idx i then 0 else fftn sh g i) ![x, y, ((c / 2 : ℕ) : ℤ)] with hR
  have hch : channel a c d mf idx ![x, y, (p : ℤ)] = (g ![x, y, ((c / 2 : ℕ) : ℤ)] - R).re := by
    unfold channel
    rw [s0]
    congr 1
    rw [← ifftn_fftn sh hshp g hpos, hR]
    unfold ifftn
    rw [← sub_div, ← Finset.sum_sub_distrib]
    congr 1
    refine Finset.sum_congr rfl fun i _ => ?_
    show (if Keep n c d mf idx i then fftn sh g i else 0) * exp _ =
      fftn sh g i * exp _ - (if Keep n c d mf idx i then 0 else fftn sh g i) * exp _
    split_ifs
    · rw [zero_mul, sub_zero]
      rfl
    · rw [zero_mul]
      exact (sub_self _).symm
  have hgx : g ![x, y, ((c / 2 : ℕ) : ℤ)] = ((window c h * a.val ![x, y, (p : ℤ)] : ℝ) : ℂ) := by
    rw [hg]
    simp only []
    congr 1
    unfold chunk
    simp only []
    have e5 : (![x, y, (p : ℤ)] : Fin 3 → ℤ) 2 - ((c / 2 : ℕ) : ℤ) + (![x, y, ((c / 2 : ℕ) : ℤ)] : Fin 3 → ℤ) 2 = p := by
      show (p : ℤ) - ((c / 2 : ℕ) : ℤ) + ((c / 2 : ℕ) : ℤ) = p
      ring
    rw [if_pos (by rw [e5, s2]; omega), e5]
    show a.val ![x, y, (p : ℤ)] * blackman c ((c / 2 : ℕ) : ℤ) = _
    rw [blackman_window (by omega), show c / 2 = h by omega, mul_comm]
  have hRb : ‖R‖ ≤ Real.sqrt thr * (2 * h) * |A| := by
    rw [hR]
    unfold ifftn
    rw [norm_div, Fin.prod_univ_three]
    have hprod : ‖((sh 0 : ℕ) : ℂ) * (sh 1 : ℕ) * (sh 2 : ℕ)‖ = (n : ℝ) * n * c := by
      show ‖(n : ℂ) * n * c‖ = _
      rw [norm_mul, norm_mul, Complex.norm_natCast, Complex.norm_natCast]
    rw [hprod, div_le_iff₀ (by positivity)]
    have hterm : ∀ i ∈ box sh, ‖(if Keep n c d mf idx i then 0 else fftn sh g i) *
        exp ((2 * Real.pi * I) * ∑ j, (i j : ℂ) * (![x, y, ((c / 2 : ℕ) : ℤ)] : Fin 3 → ℤ) j / sh j)‖ ≤
        |A| / 2 * ((if ![i 0, i 1] = md ![n, n] (fun j => 1 * κ j) then (n : ℝ) * n * (Real.sqrt thr * S) else 0) +
        (if ![i 0, i 1] = md ![n, n] (fun j => -1 * κ j) then (n : ℝ) * n * (Real.sqrt thr * S) else 0)) := by
      intro i hi
      have p1 : ‖exp ((2 * Real.pi * I) * ∑ j, (i j : ℂ) * (![x, y, ((c / 2 : ℕ) : ℤ)] : Fin 3 → ℤ) j / sh j)‖ = 1 := by
        rw [show (2 * Real.pi * I) * ∑ j, (i j : ℂ) * (![x, y, ((c / 2 : ℕ) : ℤ)] : Fin 3 → ℤ) j / sh j =
          ((2 * Real.pi * ∑ j, (i j : ℝ) * (![x, y, ((c / 2 : ℕ) : ℤ)] : Fin 3 → ℤ) j / sh j : ℝ) : ℂ) * I by
            push_cast; ring, norm_exp_ofReal_mul_I]
      rw [norm_mul, p1, mul_one]
      by_cases hk : Keep n c d mf idx i
      · rw [if_pos hk, norm_zero]
        refine mul_nonneg (by positivity) (add_nonneg ?_ ?_) <;> split_ifs <;> positivity
      · rw [if_neg hk]
        exact hbound i hi hk
    refine (norm_sum_le _ _).trans ((Finset.sum_le_sum hterm).trans ?_)
    rw [← Finset.mul_sum, Finset.sum_add_distrib]
    have hcount : ∀ u : Fin 2 → ℤ, u ∈ box ![n, n] → ∑ i ∈ box sh,
        (if (![i 0, i 1] : Fin 2 → ℤ) = u then (n : ℝ) * n * (Real.sqrt thr * S) else 0) = c * (n * n * (Real.sqrt thr * S)) := by
      intro u hu
      rw [hsh, sum_box3]
      rw [Finset.sum_eq_single u]
      · have : ∀ t ∈ Finset.Ico (0 : ℤ) c, (if (![(![u 0, u 1, t] : Fin 3 → ℤ) 0, (![u 0, u 1, t] : Fin 3 → ℤ) 1] : Fin 2 → ℤ) = u
            then (n : ℝ) * n * (Real.sqrt thr * S) else 0) = n * n * (Real.sqrt thr * S) := by
          intro t _
          rw [if_pos]
          funext j
          match j with
          | 0 | 1 => rfl
        rw [Finset.sum_congr rfl this, Finset.sum_const, Int.card_Ico, nsmul_eq_mul]
        simp
      · intro v _ hv
        refine Finset.sum_eq_zero fun t _ => if_neg fun he => hv ?_
        rw [← he]
        funext j
        match j with
        | 0 | 1 => rfl
      · exact fun h' => absurd hu h'
    have hmd : ∀ σ : ℤ, md ![n, n] (fun j => σ * κ j) ∈ box ![n, n] := fun σ =>
      md_mem _ (fun j => match j with | 0 => hn | 1 => hn) _
    rw [hcount _ (hmd 1), hcount _ (hmd (-1))]
    have hA := abs_nonneg A
    have hq := Real.sqrt_nonneg thr
    have e : |A| / 2 * (c * (n * n * (Real.sqrt thr * S)) + c * (n * n * (Real.sqrt thr * S))) =
        Real.sqrt thr * S * |A| * (n * n * c) := by ring
    rw [e]
    gcongr
  rw [hch, hgx, sub_re, ofReal_re, sub_sub_cancel_left, abs_neg]
  exact (Complex.abs_re_le_norm R).trans hRb

/-- **C124, superposition.** The removal is linear. -/
theorem C124_linear (k : Const) (a b s : Arr (Fin 3) ℝ) (hab : b.shape = a.shape) (has : s.shape = a.shape) (α β : ℝ)
    (hs : ∀ x, s.val x = α * a.val x + β * b.val x) (zs : List ℝ) (cell : Option ℝ) (c : Option ℕ) (Om : Option ℝ) (thr : ℝ)
    {ra rb : Arr (Fin 3) ℝ} (ha : rolling k a zs cell c Om thr = .ok ra) (hb : rolling k b zs cell c Om thr = .ok rb) :
    ∃ r, rolling k s zs cell c Om thr = .ok r ∧ r.shape = a.shape ∧ ∀ x, r.val x = α * ra.val x + β * rb.val x := by
  classical
  have hch : ∀ (c idx : ℕ) (d mf : ℝ) x,
      channel s c d mf idx x = α * channel a c d mf idx x + β * channel b c d mf idx x := by
    intro c idx d mf x
    unfold channel
    rw [hab, has]
    have hk : ∀ y, chunk s c (x 2) y = α * chunk a c (x 2) y + β * chunk b c (x 2) y := by
      intro y
      unfold chunk
      simp only [hab, has, hs]
      split_ifs <;> ring
    have hf : ∀ i, fftn ![a.shape 0, a.shape 0, c] (fun y => (chunk s c (x 2) y : ℂ)) i =
        α * fftn ![a.shape 0, a.shape 0, c] (fun y => (chunk a c (x 2) y : ℂ)) i +
          β * fftn ![a.shape 0, a.shape 0, c] (fun y => (chunk b c (x 2) y : ℂ)) i := by
      intro i
      unfold fftn
      rw [Finset.mul_sum, Finset.mul_sum, ← Finset.sum_add_distrib]
      refine Finset.sum_congr rfl fun y _ => ?_
      simp only [hk y]
      push_cast
      ring
    have hi : ∀ (f g : (Fin 3 → ℤ) → ℂ) (y : Fin 3 → ℤ), (ifftn ![a.shape 0, a.shape 0, c] (fun i => α * f i + β * g i) y).re =
        α * (ifftn ![a.shape 0, a.shape 0, c] f y).re + β * (ifftn ![a.shape 0, a.shape 0, c] g y).re := by
      intro f g y
      rw [← re_ofReal_mul, ← re_ofReal_mul, ← add_re]
      congr 1
      unfold ifftn
      rw [mul_div_assoc', mul_div_assoc', ← add_div, Finset.mul_sum, Finset.mul_sum, ← Finset.sum_add_distrib]
      congr 1
      refine Finset.sum_congr rfl fun i _ => ?_
      ring
    rw [← hi]
    congr 2
    funext i
    split_ifs
    · exact hf i
    · ring
  have key : ∀ v : Arr (Fin 3) ℝ, v.shape = a.shape → ∀ r, rolling k v zs cell c Om thr = .ok r →
      r.shape = a.shape ∧ ((a.shape 2 = 0 ∧ r.val = fun _ => 0) ∨ (a.shape 2 ≠ 0 ∧
        ∃ idx, firstBelow (c.getD (min (min (a.shape 0) (a.shape 1)) (a.shape 2))) thr = some idx ∧
        r.val = fun x => channel v (c.getD (min (min (a.shape 0) (a.shape 1)) (a.shape 2)))
          (cell.getD (min (min (a.shape 0) (a.shape 1)) (a.shape 2) : ℕ))
          (factor (Om.getD k.omega0) (zs.getD (min ((x 2).toNat +
            c.getD (min (min (a.shape 0) (a.shape 1)) (a.shape 2)) / 2 - 1) (a.shape 2 - 1)) 0)) idx x)) := by
    intro v hv r hr
    unfold rolling at hr
    simp only [hv] at hr
    cases hidx : firstBelow (c.getD (min (min (a.shape 0) (a.shape 1)) (a.shape 2))) thr with
    | none =>
      rw [hidx] at hr
      simp only [ite_self] at hr
      cases hr
    | some idx =>
      rw [hidx] at hr
      simp only [] at hr
      split_ifs at hr with h0 h1 h2 h3 h4
      · cases hr
        exact ⟨rfl, Or.inl ⟨h2, rfl⟩⟩
      · cases hr
        exact ⟨rfl, Or.inr ⟨h2, idx, rfl, rfl⟩⟩
  have hok : ∃ r, rolling k s zs cell c Om thr = .ok r := by
    unfold rolling at ha ⊢
    simp only [has] at ha ⊢
    cases hidx : firstBelow (c.getD (min (min (a.shape 0) (a.shape 1)) (a.shape 2))) thr with
    | none =>
      rw [hidx] at ha
      simp only [ite_self] at ha
      cases ha
    | some idx =>
      rw [hidx] at ha
      simp only [] at ha ⊢
      split_ifs at ha ⊢ <;> exact ⟨_, rfl⟩
  obtain ⟨r, hr⟩ := hok
  obtain ⟨a1, a2⟩ := key a rfl ra ha
  obtain ⟨b1, b2⟩ := key b hab rb hb
  obtain ⟨s1, s2⟩ := key s has r hr
  refine ⟨r, hr, s1, fun x => ?_⟩
  rcases a2 with ⟨z, a2⟩ | ⟨z, ia, a3, a2⟩
  · rcases b2 with ⟨-, b2⟩ | ⟨z', -⟩
    · rcases s2 with ⟨-, s2⟩ | ⟨z', -⟩
      · rw [a2, b2, s2]
        ring
      · exact absurd z z'
    · exact absurd z z'
  · rcases b2 with ⟨z', -⟩ | ⟨-, ib, b3, b2⟩
    · exact absurd z' z
    · rcases s2 with ⟨z', -⟩ | ⟨-, is, s3, s2⟩
      · exact absurd z' z
      · rw [a3] at b3 s3
        cases b3
        cases s3
        rw [a2, b2, s2]
        exact hch _ _ _ _ x

theorem window_four : window 4 0 = 0 ∧ window 4 1 = 0.63 ∧ window 4 2 = 0.63 ∧ window 4 3 = 0 := by
  have c1 : Real.cos (2 * Real.pi / 3) = -(1 / 2) := by
    rw [show 2 * Real.pi / 3 = Real.pi - Real.pi / 3 by ring, Real.cos_pi_sub, Real.cos_pi_div_three]
  have c2 : Real.cos (4 * Real.pi / 3) = -(1 / 2) := by
    rw [show 4 * Real.pi / 3 = Real.pi / 3 + Real.pi by ring, Real.cos_add_pi, Real.cos_pi_div_three]
  have c4 : Real.cos (8 * Real.pi / 3) = -(1 / 2) := by
    rw [show 8 * Real.pi / 3 = 2 * Real.pi / 3 + 2 * Real.pi by ring, Real.cos_add_two_pi, c1]
  have c6 : Real.cos (4 * Real.pi) = 1 := by
    rw [show 4 * Real.pi = 0 + 2 * Real.pi + 2 * Real.pi by ring, Real.cos_add_two_pi, Real.cos_add_two_pi, Real.cos_zero]
  unfold window
  refine ⟨?_, ?_, ?_, ?_⟩
  · norm_num
  · push_cast
    rw [show 2 * Real.pi * 1 / ((4 : ℝ) - 1) = 2 * Real.pi / 3 by ring,
      show 4 * Real.pi * 1 / ((4 : ℝ) - 1) = 4 * Real.pi / 3 by ring, c1, c2]
    norm_num
  · push_cast
    rw [show 2 * Real.pi * 2 / ((4 : ℝ) - 1) = 4 * Real.pi / 3 by ring,
      show 4 * Real.pi * 2 / ((4 : ℝ) - 1) = 8 * Real.pi / 3 by ring, c2, c4]
    norm_num
  · push_cast
    rw [show 2 * Real.pi * 3 / ((4 : ℝ) - 1) = 2 * Real.pi by ring,
      show 4 * Real.pi * 3 / ((4 : ℝ) - 1) = 4 * Real.pi by ring, Real.cos_two_pi, c6]
    norm_num

/-- A sum over four cells. -/
theorem sum_four {R : Type} [AddCommMonoid R] (f : ℤ → R) :
    ∑ t ∈ Finset.Ico (0 : ℤ) (4 : ℕ), f t = f 0 + f 1 + f 2 + f 3 := by
  have : Finset.Ico (0 : ℤ) (4 : ℕ) = {0, 1, 2, 3} := by decide
  rw [this, Finset.sum_insert (by decide), Finset.sum_insert (by decide), Finset.sum_insert (by decide),
    Finset.sum_singleton]
  simp only [add_assoc]

/-- The quarter turns. -/
theorem quarter (q : ℤ) : exp (-(2 * Real.pi * I) * ((q : ℂ) / 4)) = (-I) ^ q := by
  have : exp (-(2 * Real.pi * I) * ((1 : ℂ) / 4)) = -I := by
    rw [show -(2 * Real.pi * I) * ((1 : ℂ) / 4) = -(Real.pi / 2 * I) by ring, exp_neg, exp_pi_div_two_mul_I, inv_I]
  rw [← this, ← exp_int_mul]
  congr 1
  ring

theorem windowPower_four (j : ℤ) :
    windowPower 4 j = 0.63 ^ 2 * ‖(-I) ^ j + (-I) ^ (2 * j)‖ ^ 2 := by
  unfold windowPower
  rw [sum_four, window_four.1, window_four.2.1, window_four.2.2.1, window_four.2.2.2]
  have h1 := quarter j
  have h2 := quarter (2 * j)
  push_cast at h1 h2 ⊢
  rw [mul_one, h1, show (j : ℂ) * 2 / 4 = 2 * j / 4 by ring, h2]
  have : (0 : ℂ) * exp (-(2 * Real.pi * I) * ((j : ℂ) * 0 / 4)) + 0.63 * (-I) ^ j + 0.63 * (-I) ^ (2 * j) +
      0 * exp (-(2 * Real.pi * I) * ((j : ℂ) * 3 / 4)) = ((0.63 : ℝ) : ℂ) * ((-I) ^ j + (-I) ^ (2 * j)) := by
    push_cast
    ring
  rw [this, norm_mul, Complex.norm_real, mul_pow, Real.norm_of_nonneg (by norm_num)]

theorem windowPower_four_values : windowPower 4 0 = 4 * 0.63 ^ 2 ∧ windowPower 4 1 = 2 * 0.63 ^ 2 ∧ windowPower 4 2 = 0 ∧
    windowPower 4 (-2) = 0 := by
  have i2 : (-I) ^ (2 : ℤ) = -1 := by
    rw [show (2 : ℤ) = ((2 : ℕ) : ℤ) from rfl, zpow_natCast, neg_sq, I_sq]
  have i4 : (-I) ^ (4 : ℤ) = 1 := by
    rw [show (4 : ℤ) = 2 * 2 by norm_num, zpow_mul, i2]
    norm_num
  refine ⟨?_, ?_, ?_, ?_⟩ <;> rw [windowPower_four]
  · rw [mul_zero, zpow_zero]
    norm_num
  · rw [mul_one, zpow_one, i2]
    have : ‖-I + -1‖ ^ 2 = 2 := by
      rw [← Complex.normSq_eq_norm_sq]
      simp [Complex.normSq]
      norm_num
    rw [this]
    ring
  · rw [show (2 : ℤ) * 2 = 4 by norm_num, i4, i2]
    norm_num
  · rw [show (2 : ℤ) * -2 = -4 by norm_num, zpow_neg, zpow_neg, i4, i2]
    norm_num

/-- The buffer for chunks of four channels. -/
theorem buffer_four {thr : ℝ} (ht : 0 ≤ thr) (ht2 : thr < 1 / 2) :
    IsLeast {j : ℕ | j < 4 ∧ windowPower 4 j ≤ thr * windowPower 4 0} 2 := by
  obtain ⟨w0, w1, w2, -⟩ := windowPower_four_values
  constructor
  · refine ⟨by norm_num, ?_⟩
    push_cast
    rw [w2, w0]
    positivity
  · rintro j ⟨-, hj⟩
    by_contra hlt
    have : j = 0 ∨ j = 1 := by omega
    rcases this with rfl | rfl
    · push_cast at hj
      rw [w0] at hj
      norm_num at hj
      nlinarith
    · push_cast at hj
      rw [w1, w0] at hj
      norm_num at hj
      nlinarith

/-- **C124 is false: waves outside.** A wave along the line of sight which is outside of the wedge and the buffer does not
keep its amplitude: the taper has moved most of it into the buffer. -/
theorem C124_false (k : Const) (m : ℕ) (zs : List ℝ) (hz : m ≤ zs.length) (hz0 : ∀ z ∈ zs, 0 ≤ z) {d : ℝ} (hd : 0 < d)
    {Om thr : ℝ} (_hOm : 0 ≤ Om ∧ Om ≤ 1) (ht : 0 ≤ thr) (ht2 : thr < 1 / 2) (p : ℕ) (hp1 : 2 ≤ p) (hp2 : p + 2 ≤ m) :
    IsLeast {j : ℕ | j < 4 ∧ windowPower 4 j ≤ thr * windowPower 4 0} 2 ∧
    (∀ mf, Outside 1 4 mf (2 - 1) ![0, 0, 2]) ∧
    ∃ r, rolling k ⟨![1, 1, m], planeWave 1 4 1 0 0 2⟩ zs (some d) (some 4) (some Om) thr = .ok r ∧
      r.val ![0, 0, p] = 0.315 * planeWave 1 4 1 0 0 2 ![0, 0, p] ∧ |planeWave 1 4 1 0 0 2 ![0, 0, p]| = 1 := by
  classical
  have w2 : waves 4 2 = -2 := by decide
  have w0 : waves 1 0 = 0 := by decide
  have hout : ∀ mf, Outside 1 4 mf (2 - 1) ![0, 0, 2] := by
    intro mf
    unfold Outside
    show Real.sqrt (((waves 1 0 : ℝ) / (1 : ℕ)) ^ 2 + ((waves 1 0 : ℝ) / (1 : ℕ)) ^ 2) * mf + (2 - 1) / (4 : ℕ) <
      |(waves 4 2 : ℝ) / (4 : ℕ)|
    rw [w2, w0]
    norm_num [abs_of_pos]
  have hleast := buffer_four ht ht2
  refine ⟨hleast, hout, ?_⟩
  set a : Arr (Fin 3) ℝ := ⟨![1, 1, m], planeWave 1 4 1 0 0 2⟩ with ha
  obtain ⟨idx, hbel, hmin, hok⟩ := rolling_ok k a 1 m rfl (by omega) zs hz d 2 le_rfl Om ht
  have hset : ∀ j : ℕ, (j < 4 ∧ windowPower 4 j ≤ thr * windowPower 4 0) ↔ Below 4 thr j := by
    intro j
    rw [below_iff (by omega), bm_window (by omega), bm_window (by omega)]
  have hidx : idx = 2 := by
    refine le_antisymm ?_ (hleast.2 ((hset idx).2 hbel))
    by_contra hlt
    exact hmin 2 (by omega) ((hset 2).1 hleast.1)
  subst hidx
  have hval : ∀ t : ℤ, planeWave 1 4 1 0 0 2 ![0, 0, t] = (-1) ^ t := by
    intro t
    unfold planeWave
    show 1 * Real.cos (2 * Real.pi * ((0 : ℤ) * (0 : ℤ) / (1 : ℕ) + (0 : ℤ) * (0 : ℤ) / (1 : ℕ) + (2 : ℤ) * (t : ℤ) / (4 : ℕ)) + 0) = _
    rw [one_mul, ← Real.cos_int_mul_pi]
    congr 1
    push_cast
    ring
  have habs : |planeWave 1 4 1 0 0 2 ![0, 0, (p : ℤ)]| = 1 := by
    rw [hval, abs_zpow]
    norm_num
  refine ⟨_, hok, ?_, habs⟩
  simp only []
  have e2 : ((![0, 0, (p : ℤ)] : Fin 3 → ℤ) 2).toNat = p := by
    show ((p : ℤ)).toNat = p
    simp
  rw [e2]
  have hmf : 0 ≤ factor Om (zs.getD (min (p + 2 - 1) (m - 1)) 0) := by
    refine factor_nonneg ?_
    rw [List.getD_eq_getElem?_getD, List.getElem?_eq_getElem (by omega : min (p + 2 - 1) (m - 1) < zs.length)]
    exact hz0 _ (List.getElem_mem _)
  generalize factor Om (zs.getD (min (p + 2 - 1) (m - 1)) 0) = mf at hmf
  -- the modes which are kept
  have hkeep : ∀ j : ℤ, Keep 1 4 d mf 2 ![0, 0, j] ↔ 1 < |(waves 4 j : ℝ)| := by
    intro j
    rw [keep_iff (by norm_num) hd hmf (by norm_num)]
    unfold Outside
    show Real.sqrt (((waves 1 0 : ℝ) / (1 : ℕ)) ^ 2 + ((waves 1 0 : ℝ) / (1 : ℕ)) ^ 2) * mf + (((2 : ℕ) : ℝ) - 1) / (4 : ℕ) <
      |(waves 4 j : ℝ) / (4 : ℕ)| ↔ _
    rw [w0, abs_div]
    push_cast
    rw [abs_of_pos (by norm_num : (0 : ℝ) < 4)]
    norm_num
    constructor <;> intro h <;> linarith
  have k0 : ¬ Keep 1 4 d mf 2 ![0, 0, 0] := by
    rw [hkeep, show waves 4 0 = 0 by decide]
    norm_num
  have k1 : ¬ Keep 1 4 d mf 2 ![0, 0, 1] := by
    rw [hkeep, show waves 4 1 = 1 by decide]
    norm_num
  have k2 : Keep 1 4 d mf 2 ![0, 0, 2] := by
    rw [hkeep, w2]
    norm_num
  have k3 : ¬ Keep 1 4 d mf 2 ![0, 0, 3] := by
    rw [hkeep, show waves 4 3 = -1 by decide]
    norm_num
  have hb0 : box (![1, 1] : Fin 2 → ℕ) = {0} := by decide
  show channel a 4 d mf 2 ![0, 0, (p : ℤ)] = _
  unfold channel ifftn
  show ((∑ i ∈ box (![1, 1, 4] : Fin 3 → ℕ), (if Keep 1 4 d mf 2 i then
    fftn ![1, 1, 4] (fun y => (chunk a 4 ((![0, 0, (p : ℤ)] : Fin 3 → ℤ) 2) y : ℂ)) i else 0) *
    exp ((2 * Real.pi * I) * ∑ j, (i j : ℂ) * (![0, 0, (2 : ℤ)] : Fin 3 → ℤ) j / (![1, 1, 4] : Fin 3 → ℕ) j)) /
    ∏ j, ((![1, 1, 4] : Fin 3 → ℕ) j : ℂ)).re = _
  have hp3 : ∏ j, ((![1, 1, 4] : Fin 3 → ℕ) j : ℂ) = 4 := by
    rw [Fin.prod_univ_three]
    show ((1 : ℕ) : ℂ) * ((1 : ℕ) : ℂ) * ((4 : ℕ) : ℂ) = 4
    norm_num
  rw [sum_box3, hb0, Finset.sum_singleton, sum_four, hp3]
  show (((if Keep 1 4 d mf 2 ![0, 0, 0] then _ else 0) * _ + (if Keep 1 4 d mf 2 ![0, 0, 1] then _ else 0) * _ +
    (if Keep 1 4 d mf 2 ![0, 0, 2] then fftn ![1, 1, 4] (fun y => (chunk a 4 ((![0, 0, (p : ℤ)] : Fin 3 → ℤ) 2) y : ℂ)) ![0, 0, 2]
      else 0) *
    exp ((2 * Real.pi * I) * ∑ j, ((![0, 0, 2] : Fin 3 → ℤ) j : ℂ) * (![0, 0, (2 : ℤ)] : Fin 3 → ℤ) j / (![1, 1, 4] : Fin 3 → ℕ) j) +
    (if Keep 1 4 d mf 2 ![0, 0, 3] then _ else 0) * _) / 4 : ℂ).re = _
  rw [if_neg k0, if_neg k1, if_pos k2, if_neg k3, zero_mul, zero_mul, zero_mul, add_zero, zero_add, zero_add]
  have hph : exp ((2 * Real.pi * I) * ∑ j, ((![0, 0, 2] : Fin 3 → ℤ) j : ℂ) * (![0, 0, (2 : ℤ)] : Fin 3 → ℤ) j /
      (![1, 1, 4] : Fin 3 → ℕ) j) = 1 := by
    rw [Fin.sum_univ_three]
    show exp ((2 * Real.pi * I) * (((0 : ℤ) : ℂ) * (0 : ℤ) / (1 : ℕ) + ((0 : ℤ) : ℂ) * (0 : ℤ) / (1 : ℕ) +
      ((2 : ℤ) : ℂ) * (2 : ℤ) / (4 : ℕ))) = 1
    rw [exp_eq_one_iff]
    exact ⟨1, by push_cast; ring⟩
  rw [hph, mul_one]
  have hF : fftn ![1, 1, 4] (fun y => (chunk a 4 ((![0, 0, (p : ℤ)] : Fin 3 → ℤ) 2) y : ℂ)) ![0, 0, 2] =
      (((-1) ^ (p : ℤ) * 1.26 : ℝ) : ℂ) := by
    unfold fftn
    rw [sum_box3, hb0, Finset.sum_singleton, sum_four]
    have hc : ∀ t : ℤ, 0 ≤ t → t < 4 → chunk a 4 ((![0, 0, (p : ℤ)] : Fin 3 → ℤ) 2)
        ![(0 : Fin 2 → ℤ) 0, (0 : Fin 2 → ℤ) 1, t] = (-1) ^ ((p : ℤ) - 2 + t) * window 4 t := by
      intro t h0 h4
      unfold chunk
      simp only []
      have e5 : (![0, 0, (p : ℤ)] : Fin 3 → ℤ) 2 - ((4 / 2 : ℕ) : ℤ) +
          (![(0 : Fin 2 → ℤ) 0, (0 : Fin 2 → ℤ) 1, t] : Fin 3 → ℤ) 2 = (p : ℤ) - 2 + t := rfl
      have e6 : a.shape 2 = m := rfl
      rw [if_pos (by rw [e5, e6]; omega), e5, ← hval, ← blackman_window (by norm_num)]
      rfl
    simp only []
    rw [hc 0 (by norm_num) (by norm_num), hc 1 (by norm_num) (by norm_num), hc 2 (by norm_num) (by norm_num),
      hc 3 (by norm_num) (by norm_num), window_four.1, window_four.2.1, window_four.2.2.1, window_four.2.2.2]
    have hq : ∀ t : ℤ, exp (-(2 * Real.pi * I) * ∑ j, ((![0, 0, 2] : Fin 3 → ℤ) j : ℂ) *
        ((![(0 : Fin 2 → ℤ) 0, (0 : Fin 2 → ℤ) 1, t] : Fin 3 → ℤ) j : ℤ) / ((![1, 1, 4] : Fin 3 → ℕ) j : ℕ)) = (-1) ^ t := by
      intro t
      rw [Fin.sum_univ_three]
      show exp (-(2 * Real.pi * I) * (((0 : ℤ) : ℂ) * ((0 : ℤ) : ℂ) / (1 : ℕ) + ((0 : ℤ) : ℂ) * ((0 : ℤ) : ℂ) / (1 : ℕ) +
        ((2 : ℤ) : ℂ) * (t : ℂ) / (4 : ℕ))) = _
      have := quarter (2 * t)
      rw [zpow_mul, show (-I) ^ (2 : ℤ) = -1 by
        rw [show (2 : ℤ) = ((2 : ℕ) : ℤ) from rfl, zpow_natCast, neg_sq, I_sq]] at this
      rw [← this]
      congr 2
      push_cast
      ring
    rw [hq 1, hq 2]
    have z1 : ((-1 : ℝ)) ^ ((p : ℤ) - 2 + 1) = -(-1) ^ (p : ℤ) := by
      rw [show (p : ℤ) - 2 + 1 = p + (-1) by ring, zpow_add₀ (by norm_num)]
      norm_num
    have z2 : ((-1 : ℝ)) ^ ((p : ℤ) - 2 + 2) = (-1) ^ (p : ℤ) := by
      rw [show (p : ℤ) - 2 + 2 = p by ring]
    rw [z1, z2]
    push_cast
    norm_num
    ring
  rw [hF, hval, show (((-1) ^ (p : ℤ) * 1.26 : ℝ) : ℂ) / 4 = (((-1) ^ (p : ℤ) * 1.26 / 4 : ℝ) : ℂ) by push_cast; ring, ofReal_re]
  ring

/-- **C124 is false: the slope.** The redshift of a channel does not enter its result: the slope of the wedge is taken
`chunk_length / 2 - 1` channels further on (or in the last one). -/
theorem C124_slope_false (k : Const) (a : Arr (Fin 3) ℝ) (n m : ℕ) (hs : a.shape = ![n, n, m]) (hm : 0 < m)
    (zs zs' : List ℝ) (hz : m ≤ zs.length) (hz' : m ≤ zs'.length) (d : ℝ) (h : ℕ) (hh : 2 ≤ h) (Om : ℝ) {thr : ℝ}
    (ht : 0 ≤ thr) (p : ℕ) (hp : p + 1 < m) (he : ∀ q, q ≠ p → zs.getD q 0 = zs'.getD q 0) :
    ∃ r r', rolling k a zs (some d) (some (2 * h)) (some Om) thr = .ok r ∧
      rolling k a zs' (some d) (some (2 * h)) (some Om) thr = .ok r' ∧
      ∀ x y : ℤ, r.val ![x, y, p] = r'.val ![x, y, p] := by
  obtain ⟨idx, h1, h2, h3⟩ := rolling_ok k a n m hs hm zs hz d h hh Om ht
  obtain ⟨idx', h1', h2', h3'⟩ := rolling_ok k a n m hs hm zs' hz' d h hh Om ht
  have hi : idx = idx' := by
    rcases lt_trichotomy idx idx' with hlt | heq | hgt
    · exact absurd h1 (h2' _ hlt)
    · exact heq
    · exact absurd h1' (h2 _ hgt)
  subst hi
  refine ⟨_, _, h3, h3', fun x y => ?_⟩
  simp only []
  have e : ((![x, y, (p : ℤ)] : Fin 3 → ℤ) 2).toNat = p := by
    show ((p : ℤ)).toNat = p
    simp
  rw [e, he (min (p + h - 1) (m - 1)) (by omega)]

/-- **C124, locality.** A channel of the result depends on the neighbouring `chunk_length` channels only. -/
theorem C124_local (k : Const) (a b : Arr (Fin 3) ℝ) (n m : ℕ) (hs : a.shape = ![n, n, m]) (hs' : b.shape = ![n, n, m])
    (hm : 0 < m) (zs : List ℝ) (hz : m ≤ zs.length) (d : ℝ) (h : ℕ) (hh : 2 ≤ h) (Om : ℝ) {thr : ℝ} (ht : 0 ≤ thr)
    (p : ℕ) (he : ∀ x : Fin 3 → ℤ, p - h ≤ x 2 → x 2 < p + h → a.val x = b.val x) :
    ∃ r r', rolling k a zs (some d) (some (2 * h)) (some Om) thr = .ok r ∧
      rolling k b zs (some d) (some (2 * h)) (some Om) thr = .ok r' ∧
      ∀ x y : ℤ, r.val ![x, y, p] = r'.val ![x, y, p] := by
  obtain ⟨idx, h1, h2, h3⟩ := rolling_ok k a n m hs hm zs hz d h hh Om ht
  obtain ⟨idx', h1', h2', h3'⟩ := rolling_ok k b n m hs' hm zs hz d h hh Om ht
  have hi : idx = idx' := by
    rcases lt_trichotomy idx idx' with hlt | heq | hgt
    · exact absurd h1 (h2' _ hlt)
    · exact heq
    · exact absurd h1' (h2 _ hgt)
  subst hi
  refine ⟨_, _, h3, h3', fun x y => ?_⟩
  simp only []
  unfold channel
  rw [hs, hs']
  congr 2
  funext i
  have : fftn ![(![n, n, m] : Fin 3 → ℕ) 0, (![n, n, m] : Fin 3 → ℕ) 0, 2 * h]
      (fun w => (chunk a (2 * h) ((![x, y, (p : ℤ)] : Fin 3 → ℤ) 2) w : ℂ)) i =
      fftn ![(![n, n, m] : Fin 3 → ℕ) 0, (![n, n, m] : Fin 3 → ℕ) 0, 2 * h]
      (fun w => (chunk b (2 * h) ((![x, y, (p : ℤ)] : Fin 3 → ℤ) 2) w : ℂ)) i := by
    unfold fftn
    refine Finset.sum_congr rfl fun w hw => ?_
    have hw2 := (mem_box _ _).1 hw 2
    have hw3 : w 2 < ((2 * h : ℕ) : ℤ) := hw2.2
    simp only []
    congr 2
    unfold chunk
    simp only [hs, hs']
    congr 1
    show (if 0 ≤ (p : ℤ) - (2 * h / 2 : ℕ) + w 2 ∧ _ then a.val ![w 0, w 1, (p : ℤ) - (2 * h / 2 : ℕ) + w 2] else 0) =
      if 0 ≤ (p : ℤ) - (2 * h / 2 : ℕ) + w 2 ∧ _ then b.val ![w 0, w 1, (p : ℤ) - (2 * h / 2 : ℕ) + w 2] else 0
    rw [he ![w 0, w 1, (p : ℤ) - (2 * h / 2 : ℕ) + w 2] (by show (p : ℤ) - h ≤ (p : ℤ) - (2 * h / 2 : ℕ) + w 2; omega)
      (by show (p : ℤ) - (2 * h / 2 : ℕ) + w 2 < p + h; omega)]
  rw [this]

/-- **C124, errors.** Odd lengths of chunks raise; so do images which are not square and lists of redshifts which are too
short. -/
theorem C124_raises (k : Const) (a : Arr (Fin 3) ℝ) (hs : ∀ j, 0 < a.shape j) (zs : List ℝ) (cell Om : Option ℝ)
    (thr : ℝ) (c : ℕ) (hc : c % 2 = 1 ∨ a.shape 0 ≠ a.shape 1 ∨ zs.length < a.shape 2) :
    ∃ e, rolling k a zs cell (some c) Om thr = .error e := by
  unfold rolling
  simp only [Option.getD_some]
  by_cases h1 : c < 2
  · exact ⟨_, if_pos h1⟩
  rw [if_neg h1]
  cases firstBelow c thr with
  | none => exact ⟨_, rfl⟩
  | some idx =>
    simp only []
    by_cases h2 : a.shape 1 ≠ a.shape 0
    · exact ⟨_, if_pos h2⟩
    rw [if_neg h2, if_neg (hs 2).ne']
    by_cases h3 : c % 2 = 1
    · exact ⟨_, if_pos h3⟩
    rw [if_neg h3]
    rcases hc with h | h | h
    · exact absurd h h3
    · exact absurd (not_not.1 h2).symm h
    · exact ⟨_, if_pos h⟩

/-- A lightcone of 2 × 2 × 6 cells with the temperature 5 everywhere. -/
noncomputable def flat : Arr (Fin 3) ℝ := ⟨![2, 2, 6], fun _ => 5⟩

theorem mem_eights : ∀ z ∈ List.replicate 6 (8 : ℝ), 0 ≤ z := by
  intro z hz
  rw [List.eq_of_mem_replicate hz]
  norm_num

example (k : Const) : ∃ r, rolling k flat (List.replicate 6 8) (some 3) (some (2 * 2)) (some 0.3) (1 / 4) = .ok r ∧
    ∀ x : Fin 3 → ℤ, (2 : ℕ) ≤ x 2 → x 2 + (2 : ℕ) ≤ (6 : ℕ) → |r.val x| ≤ Real.sqrt (1 / 4) * (2 * (2 : ℕ)) *
      ((∑ y ∈ box ![2, 2], ‖fftn ![2, 2] (fun _ => ((5 : ℝ) : ℂ)) y‖) / (2 : ℕ) ^ 2) := by
  obtain ⟨w0, w1, w2, -⟩ := windowPower_four_values
  obtain ⟨r, h1, -, h2⟩ := C124_partial k flat 2 6 rfl (by norm_num) (by norm_num) (List.replicate 6 8) (by simp) mem_eights
    (d := 3) (by norm_num) 2 le_rfl (Om := 0.3) (thr := 1 / 4) (by norm_num) (by norm_num) (by norm_num) (fun _ => 5)
    (fun _ _ _ => rfl) (by
      intro i j hij hj hi
      have : i = 0 ∨ i = 1 ∨ i = 2 := by omega
      rcases this with rfl | rfl | rfl
      · exfalso
        have := w0 ▸ hi
        norm_num at this
      · exfalso
        have hi' : windowPower 4 1 ≤ 1 / 4 * windowPower 4 0 := hi
        rw [w0, w1] at hi'
        norm_num at hi'
      · have : j = 2 := by omega
        subst this
        exact hi)
  exact ⟨r, h1, h2⟩

example (k : Const) : ∃ r, rolling k ⟨![2, 2, 6], planeWave 2 (2 * 2) 3 1 0 2⟩ (List.replicate 6 8) (some 3) (some (2 * 2))
    (some 0.3) (1 / 2) = .ok r ∧
    ∀ x y : ℤ, 0 ≤ x → x < (2 : ℕ) → 0 ≤ y → y < (2 : ℕ) →
      |r.val ![x, y, (3 : ℕ)] - window (2 * 2) (2 : ℕ) * planeWave 2 (2 * 2) 3 1 0 2 ![x, y, (3 : ℕ)]| ≤
        Real.sqrt (1 / 2) * (2 * (2 : ℕ)) * |3| := by
  obtain ⟨w0, w1, w2, w3⟩ := windowPower_four_values
  obtain ⟨r, h1, -, h2⟩ := C124_signal k ⟨![2, 2, 6], planeWave 2 (2 * 2) 3 1 0 2⟩ 2 6 rfl (by norm_num)
    (List.replicate 6 8) (by simp) mem_eights (d := 3) (by norm_num) 2 le_rfl (Om := 0.3) (thr := 1 / 2) (by norm_num)
    (by norm_num) (by norm_num) 3 1 0 2 (fun _ _ _ => rfl) 1 (by
      constructor
      · refine ⟨by norm_num, ?_⟩
        show windowPower 4 1 ≤ 1 / 2 * windowPower 4 0
        rw [w0, w1]
        norm_num
      · rintro j ⟨-, hj⟩
        by_contra hlt
        have : j = 0 := by omega
        subst this
        have hj' : windowPower 4 0 ≤ 1 / 2 * windowPower 4 0 := hj
        rw [w0] at hj'
        norm_num at hj') 3 (by norm_num) (by norm_num) (by
      intro j hj
      have e : waves 2 ((0 : Fin 2 → ℤ) 0 % (2 : ℕ)) = 0 := by decide
      have e' : waves 2 ((0 : Fin 2 → ℤ) 1 % (2 : ℕ)) = 0 := by decide
      rw [e, e'] at hj
      norm_num at hj
      subst hj
      show windowPower 4 (0 - 2) ≤ 1 / 2 * windowPower 4 0
      rw [zero_sub, w3, w0]
      norm_num)
  exact ⟨r, h1, h2⟩

example (k : Const) : ∃ r, rolling k ⟨![1, 1, 6], planeWave 1 4 1 0 0 2⟩ (List.replicate 6 8) (some 3) (some 4) (some 0.3)
    (1 / 100) = .ok r ∧ r.val ![0, 0, (3 : ℕ)] = 0.315 * planeWave 1 4 1 0 0 2 ![0, 0, (3 : ℕ)] := by
  obtain ⟨-, -, r, h1, h2, -⟩ := C124_false k 6 (List.replicate 6 8) (by simp) mem_eights (d := 3) (by norm_num) (Om := 0.3)
    (thr := 1 / 100) (by norm_num) (by norm_num) (by norm_num) 3 (by norm_num) (by norm_num)
  exact ⟨r, h1, h2⟩

example (k : Const) : rolling k flat (List.replicate 6 8) (some 3) (some 4) none (1 / 100) =
    rolling k flat (List.replicate 6 8) none (some 4) none (1 / 100) :=
  C124_cell k flat (List.replicate 6 8) (some 4) none (1 / 100) (d := 3) (by norm_num) fun j => match j with
    | 0 => by show 0 < 2; norm_num
    | 1 => by show 0 < 2; norm_num
    | 2 => by show 0 < 6; norm_num

example (k : Const) : ∃ r r', rolling k flat (List.replicate 6 8) (some 3) (some (2 * 2)) (some 0.3) (1 / 100) = .ok r ∧
    rolling k flat [8, 8, 8, 11, 8, 8] (some 3) (some (2 * 2)) (some 0.3) (1 / 100) = .ok r' ∧
    ∀ x y : ℤ, r.val ![x, y, (3 : ℕ)] = r'.val ![x, y, (3 : ℕ)] :=
  C124_slope_false k flat 2 6 rfl (by norm_num) _ _ (by simp) (by simp) 3 2 le_rfl 0.3 (by norm_num) 3 (by norm_num) (by
    intro q hq
    rcases q with _ | _ | _ | _ | _ | _ | q
    · rfl
    · rfl
    · rfl
    · exact absurd rfl hq
    · rfl
    · rfl
    · simp)

example (k : Const) : ∃ r r', rolling k flat (List.replicate 6 8) (some 3) (some (2 * 2)) (some 0.3) (1 / 100) = .ok r ∧
    rolling k ⟨![2, 2, 6], fun x => if x 2 = 0 then 7 else 5⟩ (List.replicate 6 8) (some 3) (some (2 * 2)) (some 0.3)
      (1 / 100) = .ok r' ∧
    ∀ x y : ℤ, r.val ![x, y, (3 : ℕ)] = r'.val ![x, y, (3 : ℕ)] :=
  C124_local k flat _ 2 6 rfl rfl (by norm_num) _ (by simp) 3 2 le_rfl 0.3 (by norm_num) 3 (by
    intro x h1 _
    have : x 2 ≠ 0 := by
      push_cast at h1
      omega
    show (5 : ℝ) = if x 2 = 0 then 7 else 5
    rw [if_neg this])

example (k : Const) (ra : Arr (Fin 3) ℝ)
    (ha : rolling k flat (List.replicate 6 8) (some 3) (some (2 * 2)) (some 0.3) (1 / 100) = .ok ra) :
    ∃ r, rolling k ⟨![2, 2, 6], fun _ => 30⟩ (List.replicate 6 8) (some 3) (some (2 * 2)) (some 0.3) (1 / 100) = .ok r ∧
      r.shape = flat.shape ∧ ∀ x, r.val x = 2 * ra.val x + 4 * ra.val x :=
  C124_linear k flat flat ⟨![2, 2, 6], fun _ => 30⟩ rfl rfl 2 4 (fun _ => by show (30 : ℝ) = 2 * 5 + 4 * 5; norm_num) (List.replicate 6 8) (some 3)
    (some (2 * 2)) (some 0.3) (1 / 100) ha ha

example (k : Const) : ∃ e, rolling k flat (List.replicate 6 8) (some 3) (some 5) none (1 / 100) = .error e :=
  C124_raises k flat (fun j => match j with
    | 0 => by show 0 < 2; norm_num
    | 1 => by show 0 < 2; norm_num
    | 2 => by show 0 < 6; norm_num) (List.replicate 6 8) (some 3) none (1 / 100) 5 (Or.inl rfl)

end Verif.RollingWedge
