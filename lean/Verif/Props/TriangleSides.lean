import Verif.Props.Bispectrum
import Mathlib.Algebra.BigOperators.Fin
/-!
# The sides of a triangle have no order

C245: `bispectrum_fast` depends on the triangle, not on the order in which its sides are given with their widths, and not on the sense in which the axes
of the field run.
-/

namespace Verif.TriangleSides

open Complex Verif.Convolve Verif.PowerSpectrum Verif.Bispectrum

/-! ## Specification -/

/-- The value does not depend on the order of the sides, each taken along with its width. -/
def OrderFree (L k dk : Fin 3 → ℝ) (a : Arr (Fin 3) ℝ) : Prop :=
  ∀ σ : Equiv.Perm (Fin 3), call L (fun i => k (σ i)) (fun i => dk (σ i)) a = call L k dk a

/-- `b` is `a` with all axes running backwards from the first cell of the periodic box. -/
def Reversed (a b : Arr (Fin 3) ℝ) : Prop :=
  b.shape = a.shape ∧ ∀ x y, x ∈ box a.shape → y ∈ box a.shape → (∀ j, (a.shape j : ℤ) ∣ x j + y j) → b.val x = a.val y

/-! ## Theorems -/

theorem C245_partial (L k dk : Fin 3 → ℝ) (a : Arr (Fin 3) ℝ) (hk : ∀ i j, k i = k j → dk i = dk j) : OrderFree L k dk a := by
  intro σ
  unfold call fast
  simp only []
  rw [shells_eq _ k dk hk, shells_eq _ (fun i => k (σ i)) (fun i => dk (σ i)) fun i j h => hk _ _ h]
  have h3 : ∀ f : Fin 3 → ℂ, f (σ 0) * f (σ 1) * f (σ 2) = f 0 * f 1 * f 2 := by
    intro f
    have := Equiv.prod_comp σ f
    rwa [Fin.prod_univ_three, Fin.prod_univ_three] at this
  have e1 : ∀ x, back a.shape (fun i => fftNd a i * shell (kMag a.shape (List.ofFn L)) (k (σ 0)) (dk (σ 0)) i) x *
      back a.shape (fun i => fftNd a i * shell (kMag a.shape (List.ofFn L)) (k (σ 1)) (dk (σ 1)) i) x *
      back a.shape (fun i => fftNd a i * shell (kMag a.shape (List.ofFn L)) (k (σ 2)) (dk (σ 2)) i) x =
      back a.shape (fun i => fftNd a i * shell (kMag a.shape (List.ofFn L)) (k 0) (dk 0) i) x *
      back a.shape (fun i => fftNd a i * shell (kMag a.shape (List.ofFn L)) (k 1) (dk 1) i) x *
      back a.shape (fun i => fftNd a i * shell (kMag a.shape (List.ofFn L)) (k 2) (dk 2) i) x :=
    fun x => h3 fun j => back a.shape (fun i => fftNd a i * shell (kMag a.shape (List.ofFn L)) (k j) (dk j) i) x
  have e2 : ∀ x, back a.shape (shell (kMag a.shape (List.ofFn L)) (k (σ 0)) (dk (σ 0))) x *
      back a.shape (shell (kMag a.shape (List.ofFn L)) (k (σ 1)) (dk (σ 1))) x *
      back a.shape (shell (kMag a.shape (List.ofFn L)) (k (σ 2)) (dk (σ 2))) x =
      back a.shape (shell (kMag a.shape (List.ofFn L)) (k 0) (dk 0)) x *
      back a.shape (shell (kMag a.shape (List.ofFn L)) (k 1) (dk 1)) x *
      back a.shape (shell (kMag a.shape (List.ofFn L)) (k 2) (dk 2)) x :=
    fun x => h3 fun j => back a.shape (shell (kMag a.shape (List.ofFn L)) (k j) (dk j)) x
  simp only [e1, e2]

/-- Three different sides with three different widths. -/
example : ∀ i j, (![1, 2, 3] : Fin 3 → ℝ) i = (![1, 2, 3] : Fin 3 → ℝ) j → (![1 / 5, 1 / 4, 1 / 3] : Fin 3 → ℝ) i = (![1 / 5, 1 / 4, 1 / 3] : Fin 3 → ℝ) j := by
  intro i j h
  have : i = j := by
    fin_cases i <;> fin_cases j <;> first | rfl | (exfalso; simp at h)
  rw [this]

/-- What the code does instead: of equal sides the width of the first is taken for all, and the other widths are not looked at. -/
theorem C245_ignored (L k dk dk' : Fin 3 → ℝ) (a : Arr (Fin 3) ℝ) (h : ∀ j, (∀ i < j, k i ≠ k j) → dk j = dk' j) :
    call L k dk a = call L k dk' a := by
  have h0 := h 0 fun i hi => absurd hi (by simp)
  have e : ∀ km : (Fin 3 → ℤ) → ℝ, shells km (k 0) (k 1) (k 2) (dk 0) (dk 1) (dk 2) = shells km (k 0) (k 1) (k 2) (dk' 0) (dk' 1) (dk' 2) := by
    intro km
    unfold shells
    simp only [h0]
    have h1 : k 1 ≠ k 0 → dk 1 = dk' 1 := fun q => h 1 fun i hi => by
      obtain rfl : i = 0 := by omega
      exact q.symm
    have h2 : k 2 ≠ k 0 → k 2 ≠ k 1 → dk 2 = dk' 2 := fun q r => h 2 fun i hi => by
      have : i = 0 ∨ i = 1 := by omega
      rcases this with rfl | rfl
      · exact q.symm
      · exact r.symm
    by_cases a1 : k 1 = k 0
    · by_cases a2 : k 2 = k 0
      · simp [a1, a2]
      · have a3 : k 2 ≠ k 1 := fun q => a2 (q.trans a1)
        rw [h2 a2 a3]
        simp [a1]
    · rw [h1 a1]
      by_cases a2 : k 2 = k 0
      · simp [a2]
      · by_cases a3 : k 2 = k 1
        · simp [a3]
        · rw [h2 a2 a3]
  unfold call fast
  simp only [e]

/-- The second and the third side are equal: the third width may be anything. -/
example (w : ℝ) : ∀ j, (∀ i < j, (![1, 2, 2] : Fin 3 → ℝ) i ≠ (![1, 2, 2] : Fin 3 → ℝ) j) →
    (![1 / 5, 1 / 4, 0] : Fin 3 → ℝ) j = (![1 / 5, 1 / 4, w] : Fin 3 → ℝ) j := by
  intro j h
  match j with
  | 0 => rfl
  | 1 => rfl
  | 2 => exact absurd rfl (h 1 (by decide))

/-- **False for two equal sides with different widths**: in one order there is a value, in the other none. -/
theorem C245_false (a : Arr (Fin 3) ℝ) (h : a.shape = fun _ => 4) : ¬ OrderFree unitBox rightAngled ![1 / 5, 0, 1 / 5] a := by
  intro hf
  obtain ⟨b, hb⟩ := (C125_width_false a h).2
  have h1 := hf (Equiv.swap 0 1)
  rw [hb] at h1
  have e : call unitBox (fun i => rightAngled (Equiv.swap 0 1 i)) (fun i => (![1 / 5, 0, 1 / 5] : Fin 3 → ℝ) (Equiv.swap 0 1 i)) a =
      call unitBox rightAngled ![0, 0, 1 / 5] a := by
    have h0 : rightAngled 1 = rightAngled 0 := rfl
    have s2 : Equiv.swap (0 : Fin 3) 1 2 = 2 := by decide
    unfold call fast shells
    simp only [h0, Equiv.swap_apply_left, Equiv.swap_apply_right, s2]
    rfl
  rw [e] at h1
  have hk : ∀ i j, rightAngled i = rightAngled j → (![0, 0, 1 / 5] : Fin 3 → ℝ) i = (![0, 0, 1 / 5] : Fin 3 → ℝ) j := by
    have h2 : rightAngled 2 ≠ 1 := by
      show Real.sqrt 2 ≠ 1
      intro h
      have := Real.sq_sqrt (show (0 : ℝ) ≤ 2 by norm_num)
      rw [h] at this
      norm_num at this
    intro i j hij
    match i, j, hij with
    | 0, 0, _ => rfl
    | 0, 1, _ => rfl
    | 1, 0, _ => rfl
    | 1, 1, _ => rfl
    | 2, 2, _ => rfl
    | 0, 2, hij => exact absurd hij.symm h2
    | 1, 2, hij => exact absurd hij.symm h2
    | 2, 0, hij => exact absurd hij h2
    | 2, 1, hij => exact absurd hij h2
  obtain ⟨T, hT, h0, -⟩ := C125_any unitBox rightAngled ![0, 0, 1 / 5] a (by rw [h]; norm_num) hk
  have he : T = ∅ := by
    rw [hT, Finset.eq_empty_iff_forall_notMem]
    intro t ht
    rw [mem_triples] at ht
    have h1 := ht.2.1.1
    have h2 := abs_nonneg (waveNumber unitBox t.1 - rightAngled 0)
    have : (![0, 0, 1 / 5] : Fin 3 → ℝ) 0 = 0 := rfl
    rw [this] at h1
    linarith
  rw [h0 he] at h1
  cases Except.ok.inj h1

example : (⟨fun _ => 4, fun x => x 0⟩ : Arr (Fin 3) ℝ).shape = fun _ => 4 := rfl

theorem fftn_reversed (a b : Arr (Fin 3) ℝ) (hs : ∀ j, 0 < a.shape j) (h : Reversed a b) (m : Fin 3 → ℤ) :
    fftn b.shape (fun x => (b.val x : ℂ)) m = (starRingEnd ℂ) (fftn a.shape (fun x => (a.val x : ℂ)) m) := by
  rw [← fftn_neg, h.1]
  unfold fftn
  have hz : ∀ j, (0 : ℤ) < (a.shape j : ℤ) := fun j => by exact_mod_cast hs j
  have hin : ∀ x : Fin 3 → ℤ, (fun j => (-x j) % (a.shape j : ℤ)) ∈ box a.shape := by
    intro x
    rw [mem_box]
    exact fun j => ⟨Int.emod_nonneg _ (hz j).ne', Int.emod_lt_of_pos _ (hz j)⟩
  have hdv : ∀ (x : Fin 3 → ℤ) j, (a.shape j : ℤ) ∣ x j + (-x j) % (a.shape j : ℤ) := by
    intro x j
    have := Int.dvd_self_sub_emod (x := -x j) (m := (a.shape j : ℤ))
    rw [← dvd_neg] at this
    have e : -(-x j - -x j % (a.shape j : ℤ)) = x j + -x j % (a.shape j : ℤ) := by omega
    rwa [e] at this
  refine Finset.sum_bij' (fun x _ => fun j => (-x j) % (a.shape j : ℤ)) (fun x _ => fun j => (-x j) % (a.shape j : ℤ)) (fun x _ => hin x)
    (fun x _ => hin x) ?_ ?_ ?_
  · intro x hx
    rw [mem_box] at hx
    funext j
    have h1 : (-((-x j) % (a.shape j : ℤ))) % (a.shape j : ℤ) = x j % (a.shape j : ℤ) := by
      have := (Int.mod_modEq (-x j) (a.shape j : ℤ)).neg
      rwa [neg_neg] at this
    exact h1.trans (Int.emod_eq_of_lt (hx j).1 (hx j).2)
  · intro x hx
    rw [mem_box] at hx
    funext j
    have h1 : (-((-x j) % (a.shape j : ℤ))) % (a.shape j : ℤ) = x j % (a.shape j : ℤ) := by
      have := (Int.mod_modEq (-x j) (a.shape j : ℤ)).neg
      rwa [neg_neg] at this
    exact h1.trans (Int.emod_eq_of_lt (hx j).1 (hx j).2)
  · intro x hx
    simp only []
    rw [h.2 x _ hx (hin x) (hdv x), exp_congr' a.shape hs (-m) (fun j => (-x j) % (a.shape j : ℤ)) (-x) fun j => ?_]
    · congr 2
      congr 1
      refine Finset.sum_congr rfl fun j _ => ?_
      simp only [Pi.neg_apply]
      push_cast
      ring
    · have := hdv x j
      have e : (-x j) % (a.shape j : ℤ) - (-x) j = x j + (-x j) % (a.shape j : ℤ) := by
        rw [Pi.neg_apply]
        omega
      rwa [e]

/-- The field seen with all axes reversed has the same bispectrum. -/
theorem C245_reversed (L k dk : Fin 3 → ℝ) (a b : Arr (Fin 3) ℝ) (hs : ∀ j, 0 < a.shape j) (hk : ∀ i j, k i = k j → dk i = dk j)
    (h : Reversed a b) : call L k dk b = call L k dk a := by
  have hd : ∀ m, delta L b m = (starRingEnd ℂ) (delta L a m) := by
    intro m
    rw [delta_eq, delta_eq, fftn_reversed a b hs h, map_mul, conj_ofReal, h.1]
  obtain ⟨T, hT, h0, h1⟩ := C125_any L k dk a hs hk
  obtain ⟨T', hT', h0', h1'⟩ := C125_any L k dk b (by rw [h.1]; exact hs) hk
  rw [h.1, ← hT] at hT'
  subst hT'
  by_cases he : T' = ∅
  · rw [h0 he, h0' he]
  · rw [h1 he, h1' he]
    have e : estimate L b T' = (starRingEnd ℂ) (estimate L a T') := by
      unfold estimate
      rw [map_div₀, map_sum, map_mul, map_natCast, map_prod]
      simp only [hd, map_mul, conj_ofReal]
    rw [e, conj_re]

/-- A field and its mirror image. -/
example : Reversed ⟨fun _ => 4, fun x => (x 0 : ℝ) + 10 * x 1⟩ ⟨fun _ => 4, fun x => ((-x 0 % 4 : ℤ) : ℝ) + 10 * ((-x 1 % 4 : ℤ) : ℝ)⟩ := by
  refine ⟨rfl, fun x y _ hy hxy => ?_⟩
  rw [mem_box] at hy
  have h0 := hxy 0
  have h1 := hxy 1
  have g0 := hy 0
  have g1 := hy 1
  simp only [Nat.cast_ofNat] at h0 h1 g0 g1
  have e0 : -x 0 % 4 = y 0 := by omega
  have e1 : -x 1 % 4 = y 1 := by omega
  simp only [e0, e1]

end Verif.TriangleSides
