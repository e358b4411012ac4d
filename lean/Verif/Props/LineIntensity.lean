import Verif.Model.LineIntensity
import Verif.Props.HaloGrid
import Mathlib.Analysis.SpecialFunctions.Pow.Real
/-!
# C128 and C129: line intensities of haloes
-/

namespace Verif.LineIntensity

open Verif.HaloGrid (Pos Quantity Extent inside cells)

/-! ## Specification -/

/-- Circular velocity in km/s of a halo of 178 times the mean density, in a universe with the matter density `ω`, which is
`Ω_m h²`. -/
noncomputable def circular (ω z M : ℝ) : ℝ :=
  96.6 * (178 * ω / 24.4) ^ (1 / 6 : ℝ) * ((1 + z) / 3.3) ^ (1 / 2 : ℝ) * (M / 1e11) ^ (1 / 3 : ℝ)

/-- Mass of neutral hydrogen of a halo: a power law with the pivot `10^11 / h` solar masses, cut off at small circular
velocities. -/
noncomputable def hydrogen (p : HIParams) (f h ω z M : ℝ) : ℝ :=
  p.alpha * f * M * (M / (1e11 / h)) ^ p.beta * Real.exp (-(p.vc0 / circular ω z M) ^ 3)

/-- The fraction of the mass of a halo that is hydrogen. -/
noncomputable def fraction (p : HIParams) (k : Cosmology) : ℝ := (1 - p.Yp) * (k.Ob / k.Om)

/-- Star formation rate of a halo in solar masses per year. -/
noncomputable def silva (z M : ℝ) : ℝ :=
  2.25e-26 * (1 + 0.075 * (z - 7)) * M ^ (2.59 : ℝ) * (1 + M / 8e8) ^ (-0.62 : ℝ) * (1 + M / 7e9) ^ (0.4 : ℝ) *
    (1 + M / 1e11) ^ (-2.25 : ℝ)

/-- The recipes for the luminosity: slope and constant. -/
inductive Recipe : String → ℝ → ℝ → Prop
  | m1 : Recipe "silva2015m1" 0.8475 7.2203
  | m2 : Recipe "silva2015m2" 1 6.9647
  | m3 : Recipe "silva2015m3" 0.8727 6.725
  | m4 : Recipe "silva2015m4" 0.9231 6.5234

/-! ## The grid -/

theorem onGrid_extent {box : ℝ} (hb : 0 < box) {n : ℕ} (hn : 0 < n) {pos : List Pos} {values : List ℝ}
    (h : pos.length = values.length) {lo hi : Pos} (he : Extent pos lo hi) (hlt : ∀ j, lo j < hi j) :
    onGrid values pos box n = .ok (inside lo hi n pos values) := by
  have := HaloGrid.C126_extent hb hn h he hlt
  unfold HaloGrid.haloListToGrid at this
  simp only [Option.some.injEq] at this
  unfold onGrid
  rw [this]

theorem onGrid_total (box : ℝ) {n : ℕ} (hn : 0 < n) {pos : List Pos} {values : List ℝ}
    (h : pos.length = values.length) (hp : pos ≠ []) :
    ∃ g, onGrid values pos box n = .ok g ∧ ∑ c ∈ cells n, g c = values.sum := by
  obtain ⟨g, hg, hs⟩ := HaloGrid.C126_total box hn h hp
  unfold HaloGrid.haloListToGrid at hg
  simp only [Option.some.injEq] at hg
  refine ⟨g, ?_, hs⟩
  unfold onGrid
  rw [hg]

/-! ## C128: neutral hydrogen -/

/-- What is computed for a halo: the recipe with `1/h` for `h` in the pivot, and with `24.4/54.4` for `h²` in the circular
velocity. -/
theorem mHI_eq (p : HIParams) (k : Cosmology) (z M : ℝ) :
    mHI p k z M = hydrogen p (fraction p k) (1 / k.h) (k.Om * (24.4 / 54.4)) z M := by
  unfold mHI hydrogen fHc fraction vc circular
  have h1 : M / k.h / 1e11 = M / (1e11 / (1 / k.h)) := by rw [div_div_eq_mul_div]; ring
  have h2 : 178 * k.Om / 54.4 = 178 * (k.Om * (24.4 / 54.4)) / 24.4 := by ring
  have h3 : (1 - p.Yp) * k.Ob / k.Om = (1 - p.Yp) * (k.Ob / k.Om) := by ring
  rw [h1, h2, h3]

/-- **C128 (partial).** The map of neutral hydrogen: every halo contributes the mass of the recipe with `1/h` for `h` in
the pivot and `24.4/54.4` for `h²` in the velocity, in its cell of the least cuboid that contains the haloes. Missing: the
right pivot and velocity (`C128_false`, `C128_velocity_false`) and the cells of the box (`HaloGrid.C126_false`). -/
theorem C128_partial (p : HIParams) (k : Cosmology) (z : ℝ) {box : ℝ} (hb : 0 < box) {n : ℕ} (hn : 0 < n)
    {pos : List Pos} {mass : List ℝ} (h : pos.length = mass.length) {lo hi : Pos} (he : Extent pos lo hi)
    (hlt : ∀ j, lo j < hi j) :
    hiOnGrid p k "padmanabhan2017" z (.plain mass) (.plain pos) box n = some (.ok (inside lo hi n pos
      (mass.map fun M => hydrogen p (fraction p k) (1 / k.h) (k.Om * (24.4 / 54.4)) z M))) := by
  unfold hiOnGrid
  rw [if_neg (by simp)]
  simp only [readPosHI, readMass]
  rw [onGrid_extent hb hn (by rw [List.length_map, h]) he hlt]
  simp only [← mHI_eq]

/-- **C128, default.** By default the helium fraction is 0.249, nine tenths of the hydrogen is neutral, the slope is -0.58
and the cut-off velocity `10^1.56` km/s. -/
theorem C128_default (k : Cosmology) (z : ℝ) {box : ℝ} (hb : 0 < box) {n : ℕ} (hn : 0 < n)
    {pos : List Pos} {mass : List ℝ} (h : pos.length = mass.length) {lo hi : Pos} (he : Extent pos lo hi)
    (hlt : ∀ j, lo j < hi j) :
    hiOnGrid HIParams.default k "padmanabhan2017" z (.plain mass) (.plain pos) box n = some (.ok (inside lo hi n pos
      (mass.map fun M => 0.9 * ((1 - 0.249) * (k.Ob / k.Om)) * M * (M / (1e11 / (1 / k.h))) ^ (-0.58 : ℝ) *
        Real.exp (-((10 : ℝ) ^ (1.56 : ℝ) / circular (k.Om * (24.4 / 54.4)) z M) ^ 3)))) :=
  C128_partial HIParams.default k z hb hn h he hlt

/-- **C128, total.** The sum over the cells is the sum over the haloes. -/
theorem C128_total (p : HIParams) (k : Cosmology) (z box : ℝ) {n : ℕ} (hn : 0 < n) {pos : List Pos} {mass : List ℝ}
    (h : pos.length = mass.length) (hp : pos ≠ []) :
    ∃ g, hiOnGrid p k "padmanabhan2017" z (.plain mass) (.plain pos) box n = some (.ok g) ∧
      ∑ c ∈ cells n, g c =
        (mass.map fun M => hydrogen p (fraction p k) (1 / k.h) (k.Om * (24.4 / 54.4)) z M).sum := by
  obtain ⟨g, hg, hs⟩ := onGrid_total (values := mass.map (mHI p k z)) box hn (by rw [List.length_map, h]) hp
  refine ⟨g, ?_, ?_⟩
  · unfold hiOnGrid
    rw [if_neg (by simp)]
    simp only [readPosHI, readMass]
    rw [hg]
  · rw [hs]
    simp only [← mHI_eq]

/-- **C128 is false**: the pivot is `10^11 h` and not `10^11 / h`, so that every halo has `h^(-2 β)` times the hydrogen of
the recipe; with the default `β = -0.58` and `h = 0.68` this is less than two thirds. -/
theorem C128_false (p : HIParams) (k : Cosmology) (hh : 0 < k.h) (z : ℝ) {M : ℝ} (hM : 0 < M) :
    mHI p k z M = k.h ^ (-2 * p.beta) * hydrogen p (fraction p k) k.h (k.Om * (24.4 / 54.4)) z M := by
  rw [mHI_eq]
  unfold hydrogen
  have : (M / (1e11 / (1 / k.h))) ^ p.beta = k.h ^ (-2 * p.beta) * (M / (1e11 / k.h)) ^ p.beta := by
    have e : M / (1e11 / (1 / k.h)) = k.h ^ (-2 : ℝ) * (M / (1e11 / k.h)) := by
      rw [Real.rpow_neg hh.le, show (2 : ℝ) = ((2 : ℕ) : ℝ) by norm_num, Real.rpow_natCast]
      field_simp
    rw [e, Real.mul_rpow (Real.rpow_nonneg hh.le _) (by positivity), ← Real.rpow_mul hh.le]
  rw [this]
  ring

/-- The factor of `C128_false` for the default slope. -/
theorem C128_factor_false (k : Cosmology) (h1 : 0 < k.h) (h2 : k.h ≤ 0.69) :
    k.h ^ (-2 * HIParams.default.beta) < 2 / 3 := by
  have e : -2 * HIParams.default.beta = 1.16 := by
    unfold HIParams.default
    norm_num
  rw [e]
  have h3 : k.h ^ (1.16 : ℝ) ≤ (0.69 : ℝ) ^ (1.16 : ℝ) := Real.rpow_le_rpow h1.le h2 (by norm_num)
  refine lt_of_le_of_lt h3 ?_
  have h4 : ((0.69 : ℝ) ^ (1.16 : ℝ)) ^ (25 : ℕ) = (0.69 : ℝ) ^ (29 : ℕ) := by
    rw [← Real.rpow_natCast, ← Real.rpow_mul (by norm_num), ← Real.rpow_natCast]
    norm_num
  by_contra hc
  have h5 : (2 / 3 : ℝ) ^ 25 ≤ ((0.69 : ℝ) ^ (1.16 : ℝ)) ^ 25 := pow_le_pow_left₀ (by norm_num) (not_lt.1 hc) 25
  rw [h4] at h5
  norm_num at h5

theorem circular_pos {ω z M : ℝ} (hω : 0 < ω) (hz : -1 < z) (hM : 0 < M) : 0 < circular ω z M := by
  unfold circular
  have : 0 < 1 + z := by linarith
  positivity

theorem circular_inj {ω ω' z M : ℝ} (hω : 0 < ω) (hω' : 0 < ω') (hz : -1 < z) (hM : 0 < M)
    (h : circular ω z M = circular ω' z M) : ω = ω' := by
  unfold circular at h
  have hz' : 0 < 1 + z := by linarith
  have h1 : (M / 1e11 : ℝ) ^ (1 / 3 : ℝ) ≠ 0 := by positivity
  have h2 : ((1 + z) / 3.3) ^ (1 / 2 : ℝ) ≠ 0 := by positivity
  have h3 := mul_left_cancel₀ (by norm_num) (mul_right_cancel₀ h2 (mul_right_cancel₀ h1 h))
  have h4 := (Real.rpow_left_inj (by positivity) (by positivity) (by norm_num)).1 h3
  have h5 := (div_left_inj' (by norm_num : (24.4 : ℝ) ≠ 0)).1 h4
  exact mul_left_cancel₀ (by norm_num) h5

/-- **C128 is false**: the circular velocity does not depend on `h`. Already without the power law (`β = 0`) the result is
that of the recipe only if `h²` is `24.4/54.4`, that is if `h` is about `0.67`. -/
theorem C128_velocity_false (p : HIParams) (hp : p.beta = 0) (ha : 0 < p.alpha) (hv : 0 < p.vc0) (k : Cosmology)
    (hf : 0 < fraction p k) (hOm : 0 < k.Om) (hh : 0 < k.h) {z : ℝ} (hz : -1 < z) {M : ℝ} (hM : 0 < M) :
    mHI p k z M = hydrogen p (fraction p k) k.h (k.Om * k.h ^ 2) z M ↔ k.h ^ 2 = 24.4 / 54.4 := by
  rw [mHI_eq]
  unfold hydrogen
  rw [hp, Real.rpow_zero, Real.rpow_zero]
  have hc : p.alpha * fraction p k * M * 1 ≠ 0 := by positivity
  constructor
  · intro h
    have h1 := Real.exp_injective (mul_left_cancel₀ hc h)
    have h2 := neg_injective h1
    have p1 := circular_pos (ω := k.Om * (24.4 / 54.4)) (by positivity) hz hM
    have p2 := circular_pos (ω := k.Om * k.h ^ 2) (by positivity) hz hM
    have h3 : p.vc0 / circular (k.Om * (24.4 / 54.4)) z M = p.vc0 / circular (k.Om * k.h ^ 2) z M :=
      (pow_left_inj₀ (by positivity) (by positivity) (by norm_num)).1 h2
    rw [div_eq_div_iff p1.ne' p2.ne'] at h3
    have h4 := mul_left_cancel₀ hv.ne' h3
    have h5 := circular_inj (by positivity) (by positivity) hz hM h4
    exact mul_left_cancel₀ hOm.ne' h5
  · intro h
    rw [h]

theorem circular_cube {ω z M : ℝ} (hM : 0 < M) :
    circular ω z M ^ 3 = (96.6 * (178 * ω / 24.4) ^ (1 / 6 : ℝ) * ((1 + z) / 3.3) ^ (1 / 2 : ℝ)) ^ 3 * (M / 1e11) := by
  unfold circular
  rw [mul_pow, ← Real.rpow_natCast ((M / 1e11) ^ (1 / 3 : ℝ)) 3, ← Real.rpow_mul (by positivity)]
  norm_num

/-- **C128, order.** Heavier haloes have more hydrogen, provided that the slope is above `-1`. -/
theorem C128_monotone (p : HIParams) (hb : -1 < p.beta) (ha : 0 < p.alpha) (hv : 0 ≤ p.vc0) (k : Cosmology)
    (hf : 0 < fraction p k) (hOm : 0 < k.Om) (hh : 0 < k.h) {z : ℝ} (hz : -1 < z) {M M' : ℝ} (hM : 0 < M)
    (h : M < M') : mHI p k z M < mHI p k z M' := by
  have hM' : 0 < M' := hM.trans h
  have hz' : 0 < 1 + z := by linarith
  rw [mHI_eq, mHI_eq]
  unfold hydrogen
  have e : ∀ x : ℝ, 0 < x → x * (x / (1e11 / (1 / k.h))) ^ p.beta = (1e11 / (1 / k.h)) * (x / (1e11 / (1 / k.h))) ^ (1 + p.beta) := by
    intro x hx
    rw [Real.rpow_add (by positivity), Real.rpow_one]
    field_simp
  have g : ∀ x : ℝ, 0 < x → p.alpha * fraction p k * x * (x / (1e11 / (1 / k.h))) ^ p.beta =
      p.alpha * fraction p k * (1e11 / (1 / k.h)) * (x / (1e11 / (1 / k.h))) ^ (1 + p.beta) := by
    intro x hx
    rw [mul_assoc _ x, e x hx]
    ring
  rw [g M hM, g M' hM']
  have h1 : (M / (1e11 / (1 / k.h))) ^ (1 + p.beta) < (M' / (1e11 / (1 / k.h))) ^ (1 + p.beta) :=
    Real.rpow_lt_rpow (by positivity) (div_lt_div_of_pos_right h (by positivity)) (by linarith)
  refine mul_lt_mul (mul_lt_mul_of_pos_left h1 (by positivity)) ?_ (Real.exp_pos _) (by positivity)
  rw [Real.exp_le_exp, neg_le_neg_iff, div_pow, div_pow, circular_cube hM, circular_cube hM']
  refine div_le_div_of_nonneg_left (by positivity) (by positivity) ?_
  exact mul_le_mul_of_nonneg_left (div_le_div_of_nonneg_right h.le (by norm_num)) (by positivity)

/-- **C128, units.** Masses and positions with units are converted. -/
theorem C128_units (p : HIParams) (k : Cosmology) (r : String) (z u v box : ℝ) (n : ℕ) (pos : List Pos) (mass : List ℝ) :
    hiOnGrid p k r z (.quantity mass u) (.quantity pos v) box n =
      hiOnGrid p k r z (.plain (mass.map fun x => x * u)) (.plain (pos.map fun x j => x j * v)) box n := rfl

/-- **C128, exceptions.** Masses with a unit and positions without raise, and so does an unknown recipe. -/
theorem C128_raises (p : HIParams) (k : Cosmology) (z u box : ℝ) (n : ℕ) (pos : List Pos) (mass : List ℝ) :
    hiOnGrid p k "padmanabhan2017" z (.quantity mass u) (.plain pos) box n = some (.error .attribute) ∧
      ∀ r q m, r ≠ "padmanabhan2017" → hiOnGrid p k r z m q box n = some (.error .assertion) := by
  refine ⟨?_, fun r q m h => ?_⟩
  · unfold hiOnGrid
    rw [if_neg (by simp)]
    rfl
  · unfold hiOnGrid
    rw [if_pos h]

/-! ## C129: ionised carbon -/

theorem luminosity_eq {a b s : ℝ} (ha : 0 < a) (hs : 0 ≤ s) : luminosity a b s = 10 ^ b * s ^ a := by
  unfold luminosity
  split_ifs with h
  · rw [h, Real.zero_rpow ha.ne', mul_zero]
  · have hs' : 0 < s := lt_of_le_of_ne hs (Ne.symm h)
    rw [Real.rpow_add (by norm_num), mul_comm a, Real.rpow_mul (by norm_num), Real.rpow_logb (by norm_num) (by norm_num) hs']
    ring

theorem sfr_eq (M z : ℝ) : sfr SFRParams.default M z = silva z M := by
  unfold sfr SFRParams.default silva
  simp only []
  norm_num
  left; left; left; left
  ring

theorem silva_nonneg {z M : ℝ} (hz : -1 < z) (hM : 0 < M) : 0 < silva z M := by
  unfold silva
  have : 0 < 1 + 0.075 * (z - 7) := by nlinarith
  positivity

theorem coefficients_eq {r : String} {a b : ℝ} (h : Recipe r a b) :
    coefficients r none none = .ok (a, b) ∧ 0 < a := by
  cases h <;> refine ⟨?_, by norm_num⟩ <;> unfold coefficients <;> simp <;> norm_num

theorem map_luminosity {a b z : ℝ} (ha : 0 < a) {f : ℝ → ℝ → ℝ} {mass : List ℝ} (hf : ∀ M ∈ mass, 0 ≤ f M z) :
    mass.map (fun M => luminosity a b (f M z)) = mass.map fun M => 10 ^ b * f M z ^ a :=
  List.map_congr_left fun M hM => luminosity_eq ha (hf M hM)

/-- **C129 (partial).** The map of ionised carbon: every halo contributes the luminosity of the recipe, `10^b` times the
power `a` of the star formation rate, in its cell of the least cuboid that contains the haloes; the rate is the function
given. Missing: the cells of the box (`HaloGrid.C126_false`) and rates from a dictionary (`C129_false`). -/
theorem C129_partial (p : SFRParams) {r : String} {a b : ℝ} (hr : Recipe r a b) (f : ℝ → ℝ → ℝ) (z : ℝ) {box : ℝ}
    (hb : 0 < box) {n : ℕ} (hn : 0 < n) {pos : List Pos} {mass : List ℝ} (hf : ∀ M ∈ mass, 0 ≤ f M z)
    (h : pos.length = mass.length) {lo hi : Pos} (he : Extent pos lo hi) (hlt : ∀ j, lo j < hi j) :
    ciiOnGrid p r none none (.fn f) z (.plain mass) (.plain pos) box n =
      .ok (inside lo hi n pos (mass.map fun M => 10 ^ b * f M z ^ a)) := by
  obtain ⟨hc, ha⟩ := coefficients_eq hr
  unfold ciiOnGrid
  rw [hc]
  simp only [Rate.get, readMass, readPos]
  rw [map_luminosity ha hf, onGrid_extent hb hn (by rw [List.length_map, h]) he hlt]

/-- **C129, default rate.** Without a rate, or with one of its two names, the rate of Silva et al. is used. -/
theorem C129_default {r : String} {a b : ℝ} (hr : Recipe r a b) {rate : Rate}
    (hrate : rate = .default ∨ rate = .name "silva2013" ∨ rate = .name "silva2015") {z : ℝ} (hz : -1 < z) (box : ℝ)
    {n : ℕ} (hn : 0 < n) {pos : List Pos} {mass : List ℝ} (hm : ∀ M ∈ mass, 0 < M) (h : pos.length = mass.length)
    (hp : pos ≠ []) :
    ∃ g, ciiOnGrid SFRParams.default r none none rate z (.plain mass) (.plain pos) box n = .ok g ∧
      ciiOnGrid SFRParams.default r none none (.fn fun M z => silva z M) z (.plain mass) (.plain pos) box n = .ok g ∧
      ∑ c ∈ cells n, g c = (mass.map fun M => 10 ^ b * silva z M ^ a).sum := by
  obtain ⟨hc, ha⟩ := coefficients_eq hr
  have hg : rate.get SFRParams.default = .ok (fun M z => silva z M) := by
    have e : sfr SFRParams.default = fun M z => silva z M := by funext M z; exact sfr_eq M z
    rcases hrate with rfl | rfl | rfl
    · simp only [Rate.get, e]
    · simp only [Rate.get, e, true_or, if_true]
    · simp only [Rate.get, e, or_true, if_true]
  obtain ⟨g, h1, h2⟩ := onGrid_total (values := mass.map fun M => 10 ^ b * silva z M ^ a) box hn
    (by rw [List.length_map, h]) hp
  refine ⟨g, ?_, ?_, h2⟩
  · unfold ciiOnGrid
    rw [hc]
    simp only []
    rw [hg]
    simp only [readMass, readPos]
    rw [map_luminosity (f := fun M z => silva z M) ha fun M hM => (silva_nonneg hz (hm M hM)).le, h1]
  · unfold ciiOnGrid
    rw [hc]
    simp only [Rate.get, readMass, readPos]
    rw [map_luminosity (f := fun M z => silva z M) ha fun M hM => (silva_nonneg hz (hm M hM)).le, h1]

/-- **C129, order.** With the default rate heavier haloes are brighter in all recipes. -/
theorem C129_monotone {r : String} {a b : ℝ} (hr : Recipe r a b) {z : ℝ} (hz : -1 < z) {M M' : ℝ} (hM : 0 < M)
    (h : M < M') :
    luminosity a b (sfr SFRParams.default M z) < luminosity a b (sfr SFRParams.default M' z) := by
  obtain ⟨-, ha⟩ := coefficients_eq hr
  have hM' : 0 < M' := hM.trans h
  rw [sfr_eq, sfr_eq, luminosity_eq ha (silva_nonneg hz hM).le, luminosity_eq ha (silva_nonneg hz hM').le]
  refine mul_lt_mul_of_pos_left (Real.rpow_lt_rpow (silva_nonneg hz hM).le ?_ ha) (by positivity)
  have hz' : 0 < 1 + 0.075 * (z - 7) := by nlinarith
  have e : ∀ x : ℝ, 0 < x → silva z x = 2.25e-26 * (1 + 0.075 * (z - 7)) * (x ^ (0.12 : ℝ) *
      (x / (1 + x / 8e8)) ^ (0.62 : ℝ) * (x / (1 + x / 1e11)) ^ (1.85 : ℝ) *
      ((1 + x / 7e9) / (1 + x / 1e11)) ^ (0.4 : ℝ)) := by
    intro x hx
    unfold silva
    have p1 : 0 < 1 + x / 8e8 := by positivity
    have p2 : 0 < 1 + x / 7e9 := by positivity
    have p3 : 0 < 1 + x / 1e11 := by positivity
    rw [Real.div_rpow hx.le p1.le, Real.div_rpow hx.le p3.le, Real.div_rpow p2.le p3.le,
      show (2.59 : ℝ) = 0.12 + 0.62 + 1.85 by norm_num, Real.rpow_add hx, Real.rpow_add hx,
      show (-2.25 : ℝ) = -(1.85 + 0.4) by norm_num, Real.rpow_neg p3.le, Real.rpow_add p3, Real.rpow_neg p1.le]
    field_simp
  rw [e M hM, e M' hM']
  refine mul_lt_mul_of_pos_left ?_ (by positivity)
  have q : ∀ c : ℝ, 0 < c → M / (1 + M / c) ≤ M' / (1 + M' / c) := by
    intro c hc
    rw [div_le_div_iff₀ (by positivity) (by positivity)]
    have : M * (1 + M' / c) = M + M * M' / c := by ring
    have : M' * (1 + M / c) = M' + M * M' / c := by ring
    linarith
  have q2 : (1 + M / 7e9) / (1 + M / 1e11) ≤ (1 + M' / 7e9) / (1 + M' / 1e11) := by
    rw [div_le_div_iff₀ (by positivity) (by positivity)]
    norm_num
    nlinarith
  refine mul_lt_mul (mul_lt_mul (mul_lt_mul ?_ ?_ (by positivity) (by positivity)) ?_ (by positivity) (by positivity)) ?_
    (by positivity) (by positivity)
  · exact Real.rpow_lt_rpow hM.le h (by norm_num)
  · exact Real.rpow_le_rpow (by positivity) (q _ (by norm_num)) (by norm_num)
  · exact Real.rpow_le_rpow (by positivity) (q _ (by norm_num)) (by norm_num)
  · exact Real.rpow_le_rpow (by positivity) q2 (by norm_num)

/-- **C129, units.** Masses and positions may have units or not, independently. -/
theorem C129_units (p : SFRParams) (r : String) (a b : Option ℝ) (rate : Rate) (z u v box : ℝ) (n : ℕ) (pos : List Pos)
    (mass : List ℝ) (q : Quantity Pos) (m : Quantity ℝ) :
    ciiOnGrid p r a b rate z (.quantity mass u) q box n =
      ciiOnGrid p r a b rate z (.plain (mass.map fun x => x * u)) q box n ∧
    ciiOnGrid p r a b rate z m (.quantity pos v) box n =
      ciiOnGrid p r a b rate z m (.plain (pos.map fun x j => x j * v)) box n := ⟨rfl, rfl⟩

/-- **C129, coefficients.** Slope and constant given by the caller replace those of the recipe. -/
theorem C129_given (p : SFRParams) {r : String} {a' b' : ℝ} (hr : Recipe r a' b') {a : ℝ} (ha : 0 < a) (b : ℝ)
    (f : ℝ → ℝ → ℝ) (z box : ℝ) {n : ℕ} (hn : 0 < n) {pos : List Pos} {mass : List ℝ} (hf : ∀ M ∈ mass, 0 ≤ f M z)
    (h : pos.length = mass.length) (hp : pos ≠ []) :
    ∃ g, ciiOnGrid p r (some a) (some b) (.fn f) z (.plain mass) (.plain pos) box n = .ok g ∧
      ∑ c ∈ cells n, g c = (mass.map fun M => 10 ^ b * f M z ^ a).sum := by
  obtain ⟨g, h1, h2⟩ := onGrid_total (values := mass.map fun M => 10 ^ b * f M z ^ a) box hn
    (by rw [List.length_map, h]) hp
  refine ⟨g, ?_, h2⟩
  have hc : coefficients r (some a) (some b) = .ok (a, b) := by
    cases hr <;> (unfold coefficients; simp)
  unfold ciiOnGrid
  rw [hc]
  simp only [Rate.get, readMass, readPos]
  rw [map_luminosity ha hf, h1]

/-- **C129 is false for a dictionary**, which the documentation allows: it is called like a function. -/
theorem C129_false (p : SFRParams) {r : String} {a b : ℝ} (hr : Recipe r a b) (z box : ℝ) (n : ℕ) (mass : Quantity ℝ)
    (pos : Quantity Pos) : ciiOnGrid p r none none .dict z mass pos box n = .error .type := by
  unfold ciiOnGrid
  rw [(coefficients_eq hr).1]
  rfl

/-- **C129, exceptions.** Unknown recipes and unknown names of rates raise. -/
theorem C129_raises (p : SFRParams) (a b : Option ℝ) (z box : ℝ) (n : ℕ) (mass : Quantity ℝ) (pos : Quantity Pos) :
    (∀ r rate, (∀ x y, ¬ Recipe r x y) → ciiOnGrid p r a b rate z mass pos box n = .error .assertion) ∧
      ∀ r x y s, Recipe r x y → s ≠ "silva2013" → s ≠ "silva2015" →
        ciiOnGrid p r none none (.name s) z mass pos box n = .error .type := by
  constructor
  · intro r rate h
    have hc : coefficients r a b = .error .assertion := by
      unfold coefficients
      rw [if_neg, if_neg, if_neg, if_neg] <;> rintro rfl
      · exact h _ _ .m4
      · exact h _ _ .m3
      · exact h _ _ .m2
      · exact h _ _ .m1
    unfold ciiOnGrid
    rw [hc]
  · intro r x y s hr h1 h2
    unfold ciiOnGrid
    rw [(coefficients_eq hr).1]
    simp only [Rate.get, h1, h2, or_self, if_false]

/-! ## Examples -/

/-- Planck cosmology. -/
noncomputable def planck : Cosmology := ⟨0.0490, 0.3097, 0.6766⟩

theorem fraction_pos : 0 < fraction HIParams.default planck := by
  unfold fraction HIParams.default planck
  norm_num

example : mHI HIParams.default planck 6 1e9 < mHI HIParams.default planck 6 1e10 :=
  C128_monotone _ (by unfold HIParams.default; norm_num) (by unfold HIParams.default; norm_num)
    (by unfold HIParams.default; positivity) planck fraction_pos (by unfold planck; norm_num) (by unfold planck; norm_num)
    (by norm_num) (by norm_num) (by norm_num)

example : planck.h ^ (-2 * HIParams.default.beta) < 2 / 3 :=
  C128_factor_false planck (by unfold planck; norm_num) (by unfold planck; norm_num)

example : ∃ g, hiOnGrid HIParams.default planck "padmanabhan2017" 6 (.plain [1e9, 1e10])
      (.plain [fun _ => 1, fun _ => 5]) 10 4 = some (.ok g) ∧
    ∑ c ∈ cells 4, g c = ([1e9, 1e10].map fun M => hydrogen HIParams.default (fraction HIParams.default planck)
      (1 / planck.h) (planck.Om * (24.4 / 54.4)) 6 M).sum :=
  C128_total _ _ 6 10 (by norm_num) rfl (by simp)

example : luminosity 0.8475 7.2203 (sfr SFRParams.default 1e9 7) < luminosity 0.8475 7.2203 (sfr SFRParams.default 1e12 7) :=
  C129_monotone .m1 (by norm_num) (by norm_num) (by norm_num)

example : ∃ g, ciiOnGrid SFRParams.default "silva2015m3" none none .default 7 (.plain [1e9, 1e10])
      (.plain [fun _ => 1, fun _ => 5]) 10 4 = .ok g ∧
    ciiOnGrid SFRParams.default "silva2015m3" none none (.fn fun M z => silva z M) 7 (.plain [1e9, 1e10])
      (.plain [fun _ => 1, fun _ => 5]) 10 4 = .ok g ∧
    ∑ c ∈ cells 4, g c = ([1e9, 1e10].map fun M => (10 : ℝ) ^ (6.725 : ℝ) * silva 7 M ^ (0.8727 : ℝ)).sum :=
  C129_default .m3 (Or.inl rfl) (by norm_num) 10 (by norm_num)
    (by intro M hM; rcases List.mem_pair.1 hM with rfl | rfl <;> norm_num) rfl (by simp)

end Verif.LineIntensity
