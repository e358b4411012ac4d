import Verif.Lemmas.Spectrum
import Verif.Model.RandomField
import Mathlib.Probability.Distributions.Gaussian.Real
import Mathlib.Probability.Independence.Basic
import Mathlib.Probability.Independence.Integration
import Mathlib.Probability.HasLaw
import Mathlib.Tactic.Linarith
import Mathlib.Tactic.LinearCombination
/-!
# Lemmas on random fields

The Fourier transform of the real part of an inverse transform, and second moments of normal
numbers.
-/

namespace Verif.RandomField
open Verif.Convolve Verif.PowerSpectrum Complex MeasureTheory ProbabilityTheory

section dft
variable {ι : Type} [Fintype ι] [DecidableEq ι]

/-- Transforming back and forth. -/
theorem fftn_ifftn (f : ι → ℕ) (hf : ∀ i, 0 < f i) (A : (ι → ℤ) → ℂ) (m : ι → ℤ) :
    fftn f (ifftn f A) m = A (md f m) := by
  have hN : (∏ i, (f i : ℂ)) ≠ 0 := by
    rw [Finset.prod_ne_zero_iff]
    intro i _
    exact_mod_cast (hf i).ne'
  unfold fftn ifftn
  have h1 : ∀ x : ι → ℤ, (∑ k ∈ box f, A k * exp ((2 * Real.pi * I) * ∑ i, (k i : ℂ) * x i / f i)) /
      (∏ i, (f i : ℂ)) * exp (-(2 * Real.pi * I) * ∑ i, (m i : ℂ) * x i / f i) =
      ∑ k ∈ box f, A k / (∏ i, (f i : ℂ)) *
        exp ((2 * Real.pi * I) * ∑ i, (x i : ℂ) * ((k - m) i : ℤ) / f i) := by
    intro x
    rw [Finset.sum_div, Finset.sum_mul]
    refine Finset.sum_congr rfl fun k _ => ?_
    have : exp ((2 * Real.pi * I) * ∑ i, (x i : ℂ) * ((k - m) i : ℤ) / f i) =
        exp ((2 * Real.pi * I) * ∑ i, (k i : ℂ) * x i / f i) *
        exp (-(2 * Real.pi * I) * ∑ i, (m i : ℂ) * x i / f i) := by
      rw [← exp_add]
      congr 1
      rw [neg_mul, ← mul_neg, ← mul_add]
      congr 1
      rw [← Finset.sum_neg_distrib, ← Finset.sum_add_distrib]
      refine Finset.sum_congr rfl fun i _ => ?_
      simp only [Pi.sub_apply]
      push_cast
      ring
    rw [this]
    ring
  rw [Finset.sum_congr rfl fun x _ => h1 x, Finset.sum_comm]
  have h2 : ∀ k ∈ box f, ∑ x ∈ box f, A k / (∏ i, (f i : ℂ)) *
      exp ((2 * Real.pi * I) * ∑ i, (x i : ℂ) * ((k - m) i : ℤ) / f i) =
      if k = md f m then A k else 0 := by
    intro k hk
    rw [← Finset.mul_sum, sum_modes f hf]
    have := dvd_iff_md f m k hk
    have hsym : (∀ i, (f i : ℤ) ∣ (k - m) i) ↔ ∀ i, (f i : ℤ) ∣ (m - k) i := by
      refine forall_congr' fun i => ?_
      simp only [Pi.sub_apply]
      exact dvd_sub_comm
    by_cases hd : k = md f m
    · rw [if_pos (hsym.2 (this.2 hd)), if_pos hd, div_mul_cancel₀ _ hN]
    · rw [if_neg (fun h => hd (this.1 (hsym.1 h))), if_neg hd, mul_zero]
  rw [Finset.sum_congr rfl h2, Finset.sum_ite_eq' (box f) (md f m), if_pos (md_mem f hf _)]

/-- The transform of the real part takes the mean of opposite amplitudes. -/
theorem fftn_re (f : ι → ℕ) (a : (ι → ℤ) → ℂ) (m : ι → ℤ) :
    fftn f (fun x => ((a x).re : ℂ)) m = (fftn f a m + (starRingEnd ℂ) (fftn f a (-m))) / 2 := by
  unfold fftn
  rw [map_sum, ← Finset.sum_add_distrib, Finset.sum_div]
  refine Finset.sum_congr rfl fun x _ => ?_
  rw [map_mul, ← exp_conj]
  have : (starRingEnd ℂ) (-(2 * Real.pi * I) * ∑ i, ((-m) i : ℂ) * x i / f i) =
      -(2 * Real.pi * I) * ∑ i, (m i : ℂ) * x i / f i := by
    simp [map_sum, neg_div, show (starRingEnd ℂ) 2 = 2 from map_ofNat _ 2]
  have h2 : ((a x).re : ℂ) = (a x + (starRingEnd ℂ) (a x)) / 2 := by
    rw [Complex.re_eq_add_conj]
  simp only [h2]
  have h4 : exp ((starRingEnd ℂ) (-(2 * Real.pi * I) * ∑ i, (((-m) i : ℤ) : ℂ) * x i / f i)) =
      exp (-(2 * Real.pi * I) * ∑ i, (m i : ℂ) * x i / f i) := by
    congr 1
  rw [h4]
  ring

end dft

section moments
variable {Ω : Type} [MeasurableSpace Ω] {μ : Measure Ω} [IsProbabilityMeasure μ]

theorem normal_moments {X : Ω → ℝ} (h : HasLaw X (gaussianReal 0 1) μ) :
    ∫ ω, X ω ∂μ = 0 ∧ Integrable (fun ω => X ω ^ 2) μ ∧ ∫ ω, X ω ^ 2 ∂μ = 1 ∧ Integrable X μ := by
  have hm : MemLp X 2 μ := by
    have := memLp_id_gaussianReal (μ := 0) (v := 1) 2
    rw [← h.map_eq] at this
    exact (memLp_map_measure_iff aestronglyMeasurable_id h.aemeasurable).mp this
  have h1 : ∫ ω, X ω ∂μ = 0 := by
    rw [h.integral_eq]
    exact integral_id_gaussianReal
  refine ⟨h1, hm.integrable_sq, ?_, hm.integrable (by norm_num)⟩
  have h2 : Var[X; μ] = 1 := by
    rw [h.variance_eq]
    exact variance_id_gaussianReal
  rw [variance_of_integral_eq_zero h.aemeasurable h1] at h2
  exact h2

theorem indep_moments {X Y : Ω → ℝ} (hX : HasLaw X (gaussianReal 0 1) μ) (hY : HasLaw Y (gaussianReal 0 1) μ)
    (h : IndepFun X Y μ) : Integrable (fun ω => X ω * Y ω) μ ∧ ∫ ω, X ω * Y ω ∂μ = 0 := by
  have x := normal_moments hX
  have y := normal_moments hY
  refine ⟨h.integrable_mul x.2.2.2 y.2.2.2, ?_⟩
  have := h.integral_mul_eq_mul_integral hX.aemeasurable.aestronglyMeasurable hY.aemeasurable.aestronglyMeasurable
  rw [show (∫ ω, X ω * Y ω ∂μ) = ∫ ω, (X * Y) ω ∂μ from rfl, this, x.1, zero_mul]

end moments

end Verif.RandomField
