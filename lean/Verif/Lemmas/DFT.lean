import Verif.Lemmas.Convolve
import Mathlib.Analysis.SpecialFunctions.Complex.Log
import Mathlib.Algebra.Field.GeomSum
import Mathlib.Algebra.BigOperators.Field
import Mathlib.Tactic.FieldSimp
/-!
# The convolution theorem for the discrete Fourier transform

`numpy.fft.fftn`/`ifftn` by their defining sums, in any number of dimensions.
-/

namespace Verif.Convolve
open Complex

variable {ι : Type} [Fintype ι] [DecidableEq ι]

/-- `np.fft.fftn(a, s=f)[k]`: the sum that defines the transform. -/
noncomputable def fftn (f : ι → ℕ) (a : (ι → ℤ) → ℂ) (k : ι → ℤ) : ℂ :=
  ∑ x ∈ box f, a x * exp (-(2 * Real.pi * I) * ∑ i, (k i : ℂ) * x i / f i)

/-- `np.fft.ifftn(A, s=f)[x]`. -/
noncomputable def ifftn (f : ι → ℕ) (A : (ι → ℤ) → ℂ) (x : ι → ℤ) : ℂ :=
  (∑ k ∈ box f, A k * exp ((2 * Real.pi * I) * ∑ i, (k i : ℂ) * x i / f i)) / ∏ i, (f i : ℂ)

/-- Sum of the powers of a root of unity. -/
theorem sum_root (n : ℕ) (hn : 0 < n) (m : ℤ) :
    ∑ k ∈ Finset.Ico (0 : ℤ) n, exp ((2 * Real.pi * I) * ((k : ℂ) * m / n)) =
      if (n : ℤ) ∣ m then (n : ℂ) else 0 := by
  have hn' : (n : ℂ) ≠ 0 := by exact_mod_cast hn.ne'
  set w := exp ((2 * Real.pi * I) * ((m : ℂ) / n)) with hw
  have hterm : ∀ k : ℕ, exp ((2 * Real.pi * I) * (((k : ℤ) : ℂ) * m / n)) = w ^ k := by
    intro k
    rw [hw, ← exp_nat_mul]
    congr 1
    push_cast
    ring
  have hsum : ∑ k ∈ Finset.Ico (0 : ℤ) n, exp ((2 * Real.pi * I) * ((k : ℂ) * m / n)) =
      ∑ k ∈ Finset.range n, w ^ k := by
    symm
    refine Finset.sum_nbij' (fun k : ℕ => (k : ℤ)) Int.toNat ?_ ?_ ?_ ?_ ?_
    · intro k hk; simp at hk ⊢; exact hk
    · intro k hk; simp at hk ⊢; omega
    · intro k hk; simp
    · intro k hk; simp at hk ⊢; omega
    · intro k hk; rw [← hterm k]
  rw [hsum]
  have hwn : w ^ n = 1 := by
    rw [hw, ← exp_nat_mul, exp_eq_one_iff]
    refine ⟨m, ?_⟩
    field_simp
  split_ifs with hd
  · obtain ⟨c, hc⟩ := hd
    have : w = 1 := by
      rw [hw, exp_eq_one_iff]
      refine ⟨c, ?_⟩
      rw [hc]
      push_cast
      field_simp
    rw [this]; simp
  · have hw1 : w ≠ 1 := by
      intro h1
      apply hd
      rw [hw, exp_eq_one_iff] at h1
      obtain ⟨c, hc⟩ := h1
      refine ⟨c, ?_⟩
      have h2pi : (2 * Real.pi * I : ℂ) ≠ 0 := by
        simp [Real.pi_ne_zero]
      have : (m : ℂ) / n = c := by
        have : (2 * Real.pi * I : ℂ) * ((m : ℂ) / n) = (2 * Real.pi * I : ℂ) * c := by rw [hc]; ring
        exact mul_left_cancel₀ h2pi this
      rw [div_eq_iff hn'] at this
      have h3 : (m : ℂ) = ((n * c : ℤ) : ℂ) := by rw [this]; push_cast; ring
      exact_mod_cast h3
    rw [geom_sum_eq hw1, hwn, sub_self, zero_div]

/-- Orthogonality of the Fourier modes of the box. -/
theorem sum_modes (f : ι → ℕ) (hf : ∀ i, 0 < f i) (m : ι → ℤ) :
    ∑ k ∈ box f, exp ((2 * Real.pi * I) * ∑ i, (k i : ℂ) * m i / f i) =
      if ∀ i, (f i : ℤ) ∣ m i then ∏ i, (f i : ℂ) else 0 := by
  have h1 : ∀ k : ι → ℤ, exp ((2 * Real.pi * I) * ∑ i, (k i : ℂ) * m i / f i) =
      ∏ i, exp ((2 * Real.pi * I) * ((k i : ℂ) * m i / f i)) := by
    intro k
    rw [Finset.mul_sum, exp_sum]
  simp only [h1]
  unfold box
  rw [← Finset.prod_univ_sum (t := fun i => Finset.Ico (0 : ℤ) (f i))
    (f := fun i k => exp ((2 * Real.pi * I) * ((k : ℂ) * m i / f i)))]
  simp only [sum_root _ (hf _)]
  split_ifs with hd
  · apply Finset.prod_congr rfl
    intro i _
    rw [if_pos (hd i)]
  · push Not at hd
    obtain ⟨i, hi⟩ := hd
    exact Finset.prod_eq_zero (Finset.mem_univ i) (if_neg hi)

theorem dvd_iff_md (f : ι → ℕ) (u z : ι → ℤ) (hz : z ∈ box f) :
    (∀ i, (f i : ℤ) ∣ (u - z) i) ↔ z = md f u := by
  constructor
  · intro h
    funext i
    have h1 := (mem_box f z).1 hz i
    have h2 := h i
    simp only [Pi.sub_apply] at h2
    simp only [md]
    rw [← Int.emod_eq_of_lt h1.1 h1.2]
    apply (Int.emod_eq_emod_iff_emod_sub_eq_zero).2
    apply Int.emod_eq_zero_of_dvd
    rw [← neg_sub]
    exact (dvd_neg).2 h2
  · intro h i
    rw [h]
    simp only [Pi.sub_apply, md]
    exact Int.dvd_self_sub_emod

/-- The convolution theorem: multiplying the transforms and transforming back is the circular convolution. -/
theorem ifft_fft_mul (f : ι → ℕ) (hf : ∀ i, 0 < f i) (a b : (ι → ℤ) → ℂ) (x : ι → ℤ) :
    ifftn f (fun k => fftn f a k * fftn f b k) x = circ f a b x := by
  have hN : (∏ i, (f i : ℂ)) ≠ 0 := by
    rw [Finset.prod_ne_zero_iff]
    intro i _
    exact_mod_cast (hf i).ne'
  unfold ifftn
  rw [div_eq_iff hN]
  have h1 : ∀ k : ι → ℤ, fftn f a k * fftn f b k * exp ((2 * Real.pi * I) * ∑ i, (k i : ℂ) * x i / f i) =
      ∑ y ∈ box f, ∑ z ∈ box f, a y * b z *
        exp ((2 * Real.pi * I) * ∑ i, (k i : ℂ) * ((x - y - z) i : ℤ) / f i) := by
    intro k
    unfold fftn
    rw [Finset.sum_mul_sum, Finset.sum_mul]
    apply Finset.sum_congr rfl
    intro y _
    rw [Finset.sum_mul]
    apply Finset.sum_congr rfl
    intro z _
    have : exp ((2 * Real.pi * I) * ∑ i, (k i : ℂ) * ((x - y - z) i : ℤ) / f i) =
        exp (-(2 * Real.pi * I) * ∑ i, (k i : ℂ) * y i / f i) *
        exp (-(2 * Real.pi * I) * ∑ i, (k i : ℂ) * z i / f i) *
        exp ((2 * Real.pi * I) * ∑ i, (k i : ℂ) * x i / f i) := by
      rw [← exp_add, ← exp_add]
      congr 1
      rw [neg_mul, neg_mul, ← mul_neg, ← mul_neg, ← mul_add, ← mul_add]
      congr 1
      rw [← Finset.sum_neg_distrib, ← Finset.sum_neg_distrib, ← Finset.sum_add_distrib, ← Finset.sum_add_distrib]
      apply Finset.sum_congr rfl
      intro i _
      simp only [Pi.sub_apply]
      push_cast
      ring
    rw [this]
    ring
  rw [Finset.sum_congr rfl fun k _ => h1 k, Finset.sum_comm]
  unfold circ
  rw [Finset.sum_mul]
  apply Finset.sum_congr rfl
  intro y _
  rw [Finset.sum_comm]
  have h2 : ∀ z ∈ box f, ∑ k ∈ box f, a y * b z *
      exp ((2 * Real.pi * I) * ∑ i, (k i : ℂ) * ((x - y - z) i : ℤ) / f i) =
      if z = md f (x - y) then a y * b z * ∏ i, (f i : ℂ) else 0 := by
    intro z hz
    rw [← Finset.mul_sum, sum_modes f hf]
    have := dvd_iff_md f (x - y) z hz
    by_cases hd : z = md f (x - y)
    · rw [if_pos (this.2 hd), if_pos hd]
    · rw [if_neg (fun h => hd (this.1 h)), if_neg hd, mul_zero]
  rw [Finset.sum_congr rfl h2, Finset.sum_ite_eq' (box f) (md f (x - y)), if_pos (md_mem f hf _)]

end Verif.Convolve
