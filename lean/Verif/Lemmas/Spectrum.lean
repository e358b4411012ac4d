import Verif.Lemmas.DFT
import Mathlib.Analysis.Complex.Basic
/-!
# Periodicity, symmetry and Parseval's identity of the discrete Fourier transform
-/

namespace Verif.Convolve
open Complex

variable {ι : Type} [Fintype ι] [DecidableEq ι]

theorem exp_period (z w : ℂ) (n : ℤ) (h : w = z + n) :
    exp (-(2 * Real.pi * I) * w) = exp (-(2 * Real.pi * I) * z) := by
  rw [h, mul_add, exp_add]
  have : exp (-(2 * Real.pi * I) * n) = 1 := by
    rw [exp_eq_one_iff]
    exact ⟨-n, by push_cast; ring⟩
  rw [this, mul_one]

/-- The exponent only depends on the frequencies modulo the number of cells. -/
theorem exp_congr (f : ι → ℕ) (hf : ∀ i, 0 < f i) (k k' x : ι → ℤ)
    (h : ∀ i, (f i : ℤ) ∣ k i - k' i) :
    exp (-(2 * Real.pi * I) * ∑ i, (k i : ℂ) * x i / f i) =
      exp (-(2 * Real.pi * I) * ∑ i, (k' i : ℂ) * x i / f i) := by
  choose c hc using h
  refine exp_period _ _ (∑ i, c i * x i) ?_
  push_cast
  rw [← Finset.sum_add_distrib]
  refine Finset.sum_congr rfl fun i _ => ?_
  have hi : (f i : ℂ) ≠ 0 := by exact_mod_cast (hf i).ne'
  have : (k i : ℂ) = k' i + f i * c i := by
    have := hc i
    have h2 : k i = k' i + f i * c i := by omega
    rw [h2]
    push_cast
    ring
  rw [this]
  field_simp

theorem exp_congr' (f : ι → ℕ) (hf : ∀ i, 0 < f i) (k x x' : ι → ℤ)
    (h : ∀ i, (f i : ℤ) ∣ x i - x' i) :
    exp (-(2 * Real.pi * I) * ∑ i, (k i : ℂ) * x i / f i) =
      exp (-(2 * Real.pi * I) * ∑ i, (k i : ℂ) * x' i / f i) := by
  have := exp_congr f hf x x' k h
  simpa only [mul_comm] using this

theorem fftn_congr (f : ι → ℕ) (hf : ∀ i, 0 < f i) (a : (ι → ℤ) → ℂ) (k k' : ι → ℤ)
    (h : ∀ i, (f i : ℤ) ∣ k i - k' i) : fftn f a k = fftn f a k' :=
  Finset.sum_congr rfl fun x _ => by rw [exp_congr f hf k k' x h]

theorem fftn_md (f : ι → ℕ) (hf : ∀ i, 0 < f i) (a : (ι → ℤ) → ℂ) (k : ι → ℤ) :
    fftn f a (md f k) = fftn f a k :=
  fftn_congr f hf a _ _ fun i => by
    rw [show md f k i - k i = -(k i - k i % (f i : ℤ)) by simp [md]]
    exact (dvd_neg).2 Int.dvd_self_sub_emod

/-- Parseval's identity for two arrays. -/
theorem parseval (f : ι → ℕ) (hf : ∀ i, 0 < f i) (a b : (ι → ℤ) → ℂ) :
    ∑ k ∈ box f, fftn f a k * (starRingEnd ℂ) (fftn f b k) =
      (∏ i, (f i : ℂ)) * ∑ x ∈ box f, a x * (starRingEnd ℂ) (b x) := by
  have h1 : ∀ k : ι → ℤ, fftn f a k * (starRingEnd ℂ) (fftn f b k) =
      ∑ x ∈ box f, ∑ y ∈ box f, a x * (starRingEnd ℂ) (b y) *
        exp ((2 * Real.pi * I) * ∑ i, (k i : ℂ) * ((y - x) i : ℤ) / f i) := by
    intro k
    unfold fftn
    rw [map_sum, Finset.sum_mul_sum]
    refine Finset.sum_congr rfl fun x _ => Finset.sum_congr rfl fun y _ => ?_
    rw [map_mul, ← exp_conj]
    have : (starRingEnd ℂ) (-(2 * Real.pi * I) * ∑ i, (k i : ℂ) * y i / f i) =
        (2 * Real.pi * I) * ∑ i, (k i : ℂ) * y i / f i := by
      simp [map_sum, show (starRingEnd ℂ) 2 = 2 from map_ofNat _ 2]
    rw [this]
    have : exp ((2 * Real.pi * I) * ∑ i, (k i : ℂ) * ((y - x) i : ℤ) / f i) =
        exp (-(2 * Real.pi * I) * ∑ i, (k i : ℂ) * x i / f i) *
        exp ((2 * Real.pi * I) * ∑ i, (k i : ℂ) * y i / f i) := by
      rw [← exp_add]
      congr 1
      rw [neg_mul, ← mul_neg, ← mul_add]
      congr 1
      rw [← Finset.sum_neg_distrib, ← Finset.sum_add_distrib]
      refine Finset.sum_congr rfl fun i _ => ?_
      simp only [Pi.sub_apply]
      push_cast
      ring
    rw [this]
    ring
  rw [Finset.sum_congr rfl fun k _ => h1 k, Finset.sum_comm, Finset.mul_sum]
  refine Finset.sum_congr rfl fun x hx => ?_
  rw [Finset.sum_comm]
  have h2 : ∀ y ∈ box f, ∑ k ∈ box f, a x * (starRingEnd ℂ) (b y) *
      exp ((2 * Real.pi * I) * ∑ i, (k i : ℂ) * ((y - x) i : ℤ) / f i) =
      if y = x then (∏ i, (f i : ℂ)) * (a x * (starRingEnd ℂ) (b y)) else 0 := by
    intro y hy
    rw [← Finset.mul_sum, sum_modes f hf]
    have := dvd_iff_md f y x hx
    rw [md_of_mem hy] at this
    by_cases hd : x = y
    · rw [if_pos (this.2 hd), if_pos hd.symm]
      ring
    · rw [if_neg (fun h => hd (this.1 h)), if_neg (Ne.symm hd), mul_zero]
  rw [Finset.sum_congr rfl h2, Finset.sum_ite_eq' (box f) x, if_pos hx]

/-- Real arrays have conjugate amplitudes at opposite frequencies. -/
theorem fftn_neg (f : ι → ℕ) (a : (ι → ℤ) → ℝ) (k : ι → ℤ) :
    fftn f (fun x => (a x : ℂ)) (-k) = (starRingEnd ℂ) (fftn f (fun x => (a x : ℂ)) k) := by
  unfold fftn
  rw [map_sum]
  refine Finset.sum_congr rfl fun x _ => ?_
  rw [map_mul, ← exp_conj, conj_ofReal]
  congr 2
  simp [map_sum, neg_div, show (starRingEnd ℂ) 2 = 2 from map_ofNat _ 2]

/-- Translating an array multiplies its amplitudes by a phase. -/
theorem fftn_translate (f : ι → ℕ) (hf : ∀ i, 0 < f i) (a : (ι → ℤ) → ℂ) (t k : ι → ℤ) :
    fftn f (fun x => a (md f (x + t))) k =
      exp (-(2 * Real.pi * I) * ∑ i, (k i : ℂ) * ((-t) i : ℤ) / f i) * fftn f a k := by
  unfold fftn
  rw [Finset.mul_sum]
  have := sum_shift f t fun y => a y * exp (-(2 * Real.pi * I) * ∑ i, (k i : ℂ) * ((y - t) i : ℤ) / f i)
  rw [show ∑ x ∈ box f, a (md f (x + t)) * exp (-(2 * Real.pi * I) * ∑ i, (k i : ℂ) * x i / f i) =
      ∑ x ∈ box f, a (md f (x + t)) *
        exp (-(2 * Real.pi * I) * ∑ i, (k i : ℂ) * ((md f (x + t) - t) i : ℤ) / f i) from
    Finset.sum_congr rfl fun x _ => by
      rw [exp_congr' f hf k x (md f (x + t) - t)]
      intro i
      have : x i - (md f (x + t) - t) i = (x i + t i) - (x i + t i) % (f i : ℤ) := by
        simp only [md, Pi.sub_apply, Pi.add_apply]
        ring
      rw [this]
      exact Int.dvd_self_sub_emod]
  rw [this]
  refine Finset.sum_congr rfl fun y _ => ?_
  rw [show exp (-(2 * Real.pi * I) * ∑ i, (k i : ℂ) * ((y - t) i : ℤ) / f i) =
      exp (-(2 * Real.pi * I) * ∑ i, (k i : ℂ) * ((-t) i : ℤ) / f i) *
        exp (-(2 * Real.pi * I) * ∑ i, (k i : ℂ) * y i / f i) by
    rw [← exp_add, ← mul_add, ← Finset.sum_add_distrib]
    congr 2
    refine Finset.sum_congr rfl fun i _ => ?_
    simp only [Pi.sub_apply, Pi.neg_apply]
    push_cast
    ring]
  ring

end Verif.Convolve
