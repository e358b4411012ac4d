import Verif.Model.Convolve
import Mathlib.Algebra.BigOperators.Ring.Finset
import Mathlib.Tactic.Ring
import Mathlib.Tactic.Linarith
/-!
# Lemmas on circular convolution
-/

namespace Verif.Convolve

variable {ι : Type} [Fintype ι] [DecidableEq ι] {R : Type} [CommRing R]

theorem mem_box (s : ι → ℕ) (x : ι → ℤ) : x ∈ box s ↔ ∀ i, 0 ≤ x i ∧ x i < s i := by
  simp [box]

theorem md_mem (f : ι → ℕ) (hf : ∀ i, 0 < f i) (x : ι → ℤ) : md f x ∈ box f := by
  rw [mem_box]
  intro i
  have : (0 : ℤ) < f i := by exact_mod_cast hf i
  exact ⟨Int.emod_nonneg _ this.ne', Int.emod_lt_of_pos _ this⟩

theorem box_pos {f : ι → ℕ} {x : ι → ℤ} (h : x ∈ box f) (i : ι) : 0 < f i := by
  have := (mem_box f x).1 h i
  omega

theorem md_of_mem {f : ι → ℕ} {x : ι → ℤ} (h : x ∈ box f) : md f x = x := by
  funext i
  have := (mem_box f x).1 h i
  exact Int.emod_eq_of_lt this.1 this.2

theorem md_sub_md (f : ι → ℕ) (x y : ι → ℤ) : md f (x - md f y) = md f (x - y) := by
  funext i
  simp only [md, Pi.sub_apply]
  rw [Int.sub_emod, Int.emod_emod, ← Int.sub_emod]

theorem md_md_sub (f : ι → ℕ) (x y : ι → ℤ) : md f (md f x - y) = md f (x - y) := by
  funext i
  simp only [md, Pi.sub_apply]
  rw [Int.sub_emod, Int.emod_emod, ← Int.sub_emod]

theorem md_md_add (f : ι → ℕ) (x y : ι → ℤ) : md f (md f x + y) = md f (x + y) := by
  funext i
  simp only [md, Pi.add_apply]
  rw [Int.add_emod, Int.emod_emod, ← Int.add_emod]

theorem md_md (f : ι → ℕ) (x : ι → ℤ) : md f (md f x) = md f x := by
  funext i
  simp only [md]
  exact Int.emod_emod _ _

/-- Reflection `y ↦ x - y` permutes the periodic box. -/
theorem sum_reflect (f : ι → ℕ) (x : ι → ℤ) (g : (ι → ℤ) → R) :
    ∑ y ∈ box f, g (md f (x - y)) = ∑ y ∈ box f, g y := by
  refine Finset.sum_nbij' (fun y => md f (x - y)) (fun y => md f (x - y)) ?_ ?_ ?_ ?_ ?_
  · intro y hy; exact md_mem f (box_pos hy) _
  · intro y hy; exact md_mem f (box_pos hy) _
  · intro y hy
    change md f (x - md f (x - y)) = y
    rw [md_sub_md, sub_sub_cancel, md_of_mem hy]
  · intro y hy
    change md f (x - md f (x - y)) = y
    rw [md_sub_md, sub_sub_cancel, md_of_mem hy]
  · intro y _; rfl

/-- Translation permutes the periodic box. -/
theorem sum_shift (f : ι → ℕ) (d : ι → ℤ) (g : (ι → ℤ) → R) :
    ∑ y ∈ box f, g (md f (y + d)) = ∑ y ∈ box f, g y := by
  refine Finset.sum_nbij' (fun y => md f (y + d)) (fun y => md f (y - d)) ?_ ?_ ?_ ?_ ?_
  · intro y hy; exact md_mem f (box_pos hy) _
  · intro y hy; exact md_mem f (box_pos hy) _
  · intro y hy
    change md f (md f (y + d) - d) = y
    rw [md_md_sub, add_sub_cancel_right, md_of_mem hy]
  · intro y hy
    change md f (md f (y - d) + d) = y
    rw [md_md_add, sub_add_cancel, md_of_mem hy]
  · intro y _; rfl

/-- Convolution commutes. -/
theorem circ_comm (f : ι → ℕ) (a b : (ι → ℤ) → R) (x : ι → ℤ) :
    circ f a b x = ∑ j ∈ box f, b j * a (md f (x - j)) := by
  unfold circ
  rw [← sum_reflect f x]
  apply Finset.sum_congr rfl
  intro y hy
  rw [md_sub_md, sub_sub_cancel, md_of_mem hy, mul_comm]

theorem circ_md (f : ι → ℕ) (a b : (ι → ℤ) → R) (x : ι → ℤ) : circ f a b (md f x) = circ f a b x := by
  unfold circ
  apply Finset.sum_congr rfl
  intro y _
  rw [md_md_sub]

theorem ext_of_mem (a : Arr ι R) {x : ι → ℤ} (h : x ∈ box a.shape) : a.ext x = a.val x := if_pos h

theorem ext_of_not_mem (a : Arr ι R) {x : ι → ℤ} (h : x ∉ box a.shape) : a.ext x = 0 := if_neg h

theorem box_subset (s f : ι → ℕ) (h : ∀ i, s i ≤ f i) : box s ⊆ box f := by
  intro x hx
  rw [mem_box] at hx ⊢
  intro i
  have h1 := hx i
  have h2 : (s i : ℤ) ≤ f i := by exact_mod_cast h i
  exact ⟨h1.1, h1.2.trans_le h2⟩

/-- A circular convolution over the kernel only. -/
theorem circ_kernel (f : ι → ℕ) (a k : Arr ι R) (hk : ∀ i, k.shape i ≤ f i) (x : ι → ℤ) :
    circ f a.ext k.ext x = ∑ j ∈ box k.shape, k.val j * a.ext (md f (x - j)) := by
  rw [circ_comm]
  rw [← Finset.sum_subset (box_subset k.shape f hk)]
  · apply Finset.sum_congr rfl
    intro j hj
    rw [ext_of_mem k hj]
  · intro j _ hj
    rw [ext_of_not_mem k hj, zero_mul]

/-- With enough room, a circular convolution is the linear one. -/
theorem circ_linear (f : ι → ℕ) (a k : Arr ι R) (h : ∀ i, a.shape i + k.shape i ≤ f i + 1)
    (hk0 : ∀ i, 0 < k.shape i) (ha0 : ∀ i, 0 < a.shape i) (x : ι → ℤ) (hx : x ∈ box f) :
    circ f a.ext k.ext x = ∑ j ∈ box k.shape, k.val j * a.ext (x - j) := by
  rw [circ_kernel f a k fun i => by have := h i; have := ha0 i; omega]
  apply Finset.sum_congr rfl
  intro j hj
  congr 1
  rw [mem_box] at hx hj
  by_cases hpos : ∀ i, j i ≤ x i
  · rw [md_of_mem]
    rw [mem_box]
    intro i
    have h1 := hx i; have h2 := hj i; have h3 := hpos i
    simp only [Pi.sub_apply]
    omega
  · push Not at hpos
    obtain ⟨i, hi⟩ := hpos
    have h1 := hx i; have h2 := hj i; have h3 := h i; have h4 := hk0 i
    rw [ext_of_not_mem, ext_of_not_mem]
    · intro hm
      have := (mem_box _ _).1 hm i
      simp only [Pi.sub_apply] at this
      omega
    · intro hm
      have := (mem_box _ _).1 hm i
      simp only [md, Pi.sub_apply] at this
      have e : (x i - j i) % (f i : ℤ) = x i - j i + f i := by
        rw [Int.emod_eq_iff (by omega)]
        refine ⟨by omega, by omega, ⟨1, by ring⟩⟩
      rw [e] at this
      omega

end Verif.Convolve
