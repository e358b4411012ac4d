import Verif.Model.Bispectrum
import Verif.Lemmas.Spectrum
import Mathlib.Tactic.LinearCombination
/-!
# Products of three inverse transforms
-/

namespace Verif.Bispectrum
open Complex Verif.Convolve Verif.PowerSpectrum

variable {d : ℕ}

/-- The waves a grid of shape `s` resolves: whole numbers of periods along each axis, `-n/2 ≤ m < n/2` for even `n`. -/
noncomputable def waves (s : Fin d → ℕ) : Finset (Fin d → ℤ) :=
  Fintype.piFinset fun j => Finset.Ico (-((s j / 2 : ℕ) : ℤ)) (s j - ((s j / 2 : ℕ) : ℤ))

theorem mem_waves (s : Fin d → ℕ) (m : Fin d → ℤ) :
    m ∈ waves s ↔ ∀ j, -((s j / 2 : ℕ) : ℤ) ≤ m j ∧ m j < s j - ((s j / 2 : ℕ) : ℤ) := by
  simp only [waves, Fintype.mem_piFinset, Finset.mem_Ico]

/-- Half the shape. -/
def half (s : Fin d → ℕ) : Fin d → ℤ := fun j => ((s j / 2 : ℕ) : ℤ)

theorem sum_waves {R : Type} [AddCommMonoid R] (s : Fin d → ℕ) (f : (Fin d → ℤ) → R) :
    ∑ i ∈ box s, f i = ∑ m ∈ waves s, f (m + half s) := by
  refine Finset.sum_nbij' (fun i => i - half s) (fun m => m + half s) ?_ ?_ ?_ ?_ ?_
  · intro i hi
    refine (mem_waves s _).2 fun j => ?_
    have := (mem_box s i).1 hi j
    show -((s j / 2 : ℕ) : ℤ) ≤ i j - ((s j / 2 : ℕ) : ℤ) ∧ i j - ((s j / 2 : ℕ) : ℤ) < _
    omega
  · intro m hm
    refine (mem_box s _).2 fun j => ?_
    have := (mem_waves s m).1 hm j
    show 0 ≤ m j + ((s j / 2 : ℕ) : ℤ) ∧ m j + ((s j / 2 : ℕ) : ℤ) < _
    omega
  · intro i _; simp
  · intro m _; simp
  · intro i _; simp

/-- The phase of the wave `m` at `x`. -/
noncomputable def phase (s : Fin d → ℕ) (m x : Fin d → ℤ) : ℂ := exp ((2 * Real.pi * I) * ∑ j, (m j : ℂ) * x j / s j)

theorem phase_add (s : Fin d → ℕ) (p q x : Fin d → ℤ) : phase s p x * phase s q x = phase s (p + q) x := by
  unfold phase
  rw [← exp_add, ← mul_add, ← Finset.sum_add_distrib]
  congr 2
  refine Finset.sum_congr rfl fun j _ => ?_
  simp only [Pi.add_apply]
  push_cast
  ring

theorem phase_congr (s : Fin d → ℕ) (hs : ∀ j, 0 < s j) (p q x : Fin d → ℤ) (h : ∀ j, (s j : ℤ) ∣ p j - q j) :
    phase s p x = phase s q x := by
  have := exp_congr s hs p q (-x) h
  unfold phase
  have e : ∀ m : Fin d → ℤ, (2 * Real.pi * I) * ∑ j, (m j : ℂ) * x j / s j =
      -(2 * Real.pi * I) * ∑ j, (m j : ℂ) * ((-x) j : ℤ) / s j := by
    intro m
    rw [neg_mul, ← mul_neg, ← Finset.sum_neg_distrib]
    congr 1
    refine Finset.sum_congr rfl fun j _ => ?_
    simp only [Pi.neg_apply]
    push_cast
    ring
  rw [e p, e q, this]

/-- One inverse transform, by waves. -/
theorem back_eq (s : Fin d → ℕ) (hs : ∀ j, 0 < s j) (A : (Fin d → ℤ) → ℂ) (x : Fin d → ℤ) :
    back s A x = (∑ m ∈ waves s, A (m + half s) * phase s (m + 2 * half s) x) / ∏ j, (s j : ℂ) := by
  unfold back ifftn
  congr 1
  have h1 := sum_waves s fun i => A i * phase s (i + half s) x
  have h2 := sum_shift s (-half s) fun i => A i * phase s (i + half s) x
  have e : ∀ m : Fin d → ℤ, m + half s + half s = m + 2 * half s := fun m => by rw [two_mul, add_assoc]
  simp only [e] at h1
  rw [← h1, ← h2]
  refine Finset.sum_congr rfl fun k _ => ?_
  have h3 : phase s (md s (k + -half s) + half s) x = phase s k x := by
    refine phase_congr s hs _ _ x fun j => ?_
    obtain ⟨c, hc⟩ := Int.dvd_self_sub_emod (x := k j + -half s j) (m := (s j : ℤ))
    refine ⟨-c, ?_⟩
    simp only [Pi.add_apply, md, Pi.neg_apply]
    linear_combination -hc
  rw [h3]
  rfl

/-- The sum of a product of three inverse transforms runs over the triples of waves which close, up to the shift. -/
theorem sum_three (s : Fin d → ℕ) (hs : ∀ j, 0 < s j) (A B C : (Fin d → ℤ) → ℂ) :
    ∑ x ∈ box s, back s A x * back s B x * back s C x =
      (∑ t ∈ (waves s ×ˢ waves s ×ˢ waves s).filter (fun t => ∀ j, (s j : ℤ) ∣ (t.1 + t.2.1 + t.2.2 + 6 * half s) j),
        A (t.1 + half s) * B (t.2.1 + half s) * C (t.2.2 + half s)) / (∏ j, (s j : ℂ)) ^ 2 := by
  have hN : (∏ j, (s j : ℂ)) ≠ 0 := by
    rw [Finset.prod_ne_zero_iff]
    intro j _
    exact_mod_cast (hs j).ne'
  have h1 : ∀ x, back s A x * back s B x * back s C x =
      (∑ t ∈ waves s ×ˢ waves s ×ˢ waves s, A (t.1 + half s) * B (t.2.1 + half s) * C (t.2.2 + half s) *
        phase s (t.1 + t.2.1 + t.2.2 + 6 * half s) x) / (∏ j, (s j : ℂ)) ^ 3 := by
    intro x
    rw [back_eq s hs, back_eq s hs, back_eq s hs, div_mul_div_comm, div_mul_div_comm,
      show (∏ j, (s j : ℂ)) * (∏ j, (s j : ℂ)) * (∏ j, (s j : ℂ)) = (∏ j, (s j : ℂ)) ^ 3 by ring]
    congr 1
    rw [Finset.sum_product, Finset.sum_mul_sum, Finset.sum_mul]
    refine Finset.sum_congr rfl fun p _ => ?_
    rw [Finset.sum_product, Finset.sum_mul_sum]
    refine Finset.sum_congr rfl fun q _ => Finset.sum_congr rfl fun r _ => ?_
    have e : p + q + r + 6 * half s = (p + 2 * half s) + (q + 2 * half s) + (r + 2 * half s) := by ring
    simp only []
    rw [e, ← phase_add s (p + 2 * half s + (q + 2 * half s)), ← phase_add s (p + 2 * half s)]
    generalize p + 2 * half s = u, q + 2 * half s = v, r + 2 * half s = w
    ring
  simp only [h1]
  rw [← Finset.sum_div, Finset.sum_comm]
  simp only [← Finset.mul_sum]
  have h2 : ∀ m : Fin d → ℤ, ∑ x ∈ box s, phase s m x = if ∀ j, (s j : ℤ) ∣ m j then ∏ j, (s j : ℂ) else 0 := by
    intro m
    refine Eq.trans ?_ ((sum_modes s hs m).trans (by split_ifs <;> rfl))
    refine Finset.sum_congr rfl fun x _ => ?_
    unfold phase
    congr 2
    refine Finset.sum_congr rfl fun j _ => ?_
    rw [mul_comm]
  simp only [h2]
  rw [Finset.sum_filter, Finset.sum_div, Finset.sum_div]
  refine Finset.sum_congr rfl fun t _ => ?_
  split_ifs with h
  · field_simp
  · simp

end Verif.Bispectrum
