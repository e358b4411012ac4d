import Verif.Lemmas.RandomField
import Verif.Model.UVResponse
import Mathlib.Tactic.Ring
import Mathlib.Tactic.Linarith
/-!
# Lemmas on filtering in Fourier space
-/

namespace Verif.UVResponse
open Verif.Convolve Verif.PowerSpectrum Verif.RandomField Complex

variable {ι : Type} [Fintype ι] [DecidableEq ι]

/-- Multiplying the amplitudes and taking the real part multiplies every amplitude by the mean of the factors of the
mode and of the opposite mode. -/
theorem filtered (f : ι → ℕ) (hf : ∀ i, 0 < f i) (a : (ι → ℤ) → ℝ) (g : (ι → ℤ) → ℝ) (m : ι → ℤ) :
    fftn f (fun x => ((ifftn f (fun i => (g i : ℂ) * fftn f (fun y => (a y : ℂ)) i) x).re : ℂ)) m =
      fftn f (fun y => (a y : ℂ)) m * (((g (md f m) + g (md f (-m))) / 2 : ℝ) : ℂ) := by
  rw [fftn_re, fftn_ifftn f hf, fftn_ifftn f hf, fftn_md f hf, fftn_md f hf, fftn_neg]
  simp only [map_mul, conj_conj, conj_ofReal]
  push_cast
  ring

/-- An array is determined by its amplitudes. -/
theorem modes_injective (f : ι → ℕ) (hf : ∀ i, 0 < f i) (a b : (ι → ℤ) → ℂ)
    (h : ∀ m, fftn f a m = fftn f b m) {x : ι → ℤ} (hx : x ∈ box f) : a x = b x := by
  have hd : ∀ m, fftn f (fun y => a y - b y) m = 0 := by
    intro m
    have : fftn f (fun y => a y - b y) m = fftn f a m - fftn f b m := by
      unfold fftn
      rw [← Finset.sum_sub_distrib]
      exact Finset.sum_congr rfl fun y _ => by ring
    rw [this, h m, sub_self]
  have hp := parseval f hf (fun y => a y - b y) (fun y => a y - b y)
  simp only [hd, zero_mul, Finset.sum_const_zero] at hp
  have hN : (∏ i, (f i : ℂ)) ≠ 0 := by
    rw [Finset.prod_ne_zero_iff]
    intro i _
    exact_mod_cast (hf i).ne'
  have hs := (mul_eq_zero.mp hp.symm).resolve_left hN
  have hs' : ∑ y ∈ box f, normSq (a y - b y) = 0 := by
    have : ((∑ y ∈ box f, normSq (a y - b y) : ℝ) : ℂ) = 0 := by
      rw [← hs]
      push_cast
      exact Finset.sum_congr rfl fun y _ => (mul_conj _).symm
    exact_mod_cast this
  have := (Finset.sum_eq_zero_iff_of_nonneg fun y _ => normSq_nonneg _).mp hs' x hx
  exact sub_eq_zero.mp (normSq_eq_zero.mp this)

theorem mapM_err {α β ε : Type} (f : α → Except ε β) (e : ε) (l : List α) (hl : l ≠ []) (h : ∀ a ∈ l, f a = .error e) :
    l.mapM f = .error e := by
  cases l with
  | nil => exact absurd rfl hl
  | cons a l =>
    rw [List.mapM_cons, h a (by simp)]
    rfl

theorem mapM_ok' {α β ε : Type} (f : α → Except ε β) (g : α → β) (l : List α) (h : ∀ a ∈ l, f a = .ok (g a)) :
    l.mapM f = .ok (l.map g) := by
  induction l with
  | nil => rfl
  | cons a l ih =>
    rw [List.mapM_cons, h a (by simp), ih fun b hb => h b (by simp [hb])]
    rfl

end Verif.UVResponse
