import Verif.Model.Smoothing
import Verif.Props.Convolve
/-!
# C253: the order of two smoothings
-/

set_option linter.unusedSectionVars false
set_option linter.unusedDecidableInType false

namespace Verif.SmoothOrder

open Verif.Convolve Verif.Smoothing

variable {ι : Type} [Fintype ι] [DecidableEq ι] {R : Type} [CommRing R]

/-! ## Specification -/

/-- The same map, or failures of both. -/
def SameMap : Except String (Arr ι R) → Except String (Arr ι R) → Prop
  | .ok o, .ok o' => o.shape = o'.shape ∧ ∀ x ∈ box o.shape, o.val x = o'.val x
  | .error _, .error _ => True
  | _, _ => False

/-- The smoothings of maps: `smooth_tophat` and `smooth_gauss`. -/
inductive Filter
  | tophat (width : ℚ)
  | gauss (fwhm : ℝ)

/-- Smoothing a map. -/
noncomputable def Filter.apply (a : Arr (Fin 2) ℝ) : Filter → Except String (Arr (Fin 2) ℝ)
  | .tophat w => smoothTophat a w
  | .gauss f => smoothGauss a f

/-- One smoothing after the other. -/
noncomputable def Filter.both (s t : Filter) (a : Arr (Fin 2) ℝ) : Except String (Arr (Fin 2) ℝ) := (s.apply a).bind t.apply

/-! ## Theorems -/

/-- C253 for any two kernels that are not larger than the map, with periodic boundaries. -/
theorem C253_circular (a k k' : Arr ι R) (h : Fits a k) (h' : Fits a k') (be : Backend) (hb : be ≠ .other) :
    SameMap ((fftconvolve a k .same .circular be).bind fun o => fftconvolve o k' .same .circular be)
      ((fftconvolve a k' .same .circular be).bind fun o => fftconvolve o k .same .circular be) := by
  obtain ⟨o, e1, v1⟩ := circular_result a k h .same (by simp) be hb
  obtain ⟨o', e1', v1'⟩ := circular_result a k' h' .same (by simp) be hb
  obtain ⟨p, e2, v2⟩ := circular_result (⟨a.shape, o⟩ : Arr ι R) k' ⟨h'.kernel, h'.le⟩ .same (by simp) be hb
  obtain ⟨p', e2', v2'⟩ := circular_result (⟨a.shape, o'⟩ : Arr ι R) k ⟨h.kernel, h.le⟩ .same (by simp) be hb
  rw [e1, e1']
  simp only [Except.bind]
  rw [e2, e2']
  refine ⟨rfl, fun x _ => ?_⟩
  change p x = p' x
  rw [v2, v2']
  simp only [Periodic, v1, v1', Finset.mul_sum]
  rw [Finset.sum_comm]
  refine Finset.sum_congr rfl fun j _ => Finset.sum_congr rfl fun i _ => ?_
  rw [mul_left_comm]
  congr 3
  simp only [add_sub_assoc, md_md_add]
  congr 1
  abel

/-- A kernel that averages neighbours and one that moves the map, on a ring of five cells. -/
example : Fits (⟨fun _ => 5, fun x => x 0⟩ : Arr (Fin 1) ℤ) ⟨fun _ => 3, fun _ => 1⟩ ∧
    Fits (⟨fun _ => 5, fun x => x 0⟩ : Arr (Fin 1) ℤ) ⟨fun _ => 2, fun x => x 0⟩ :=
  ⟨⟨fun _ => by norm_num, fun _ => by norm_num⟩, ⟨fun _ => by norm_num, fun _ => by norm_num⟩⟩

/-- With a map that is zero outside its box the order matters: what leaves the map in the first step is lost. -/
theorem C253_constant_false : ∃ a k k' : Arr (Fin 1) ℤ, Fits a k ∧ (∀ i, 0 < k'.shape i) ∧
    ¬ SameMap ((fftconvolve a k .same .constant .numpy).bind fun o => fftconvolve o k' .same .constant .numpy)
      ((fftconvolve a k' .same .constant .numpy).bind fun o => fftconvolve o k .same .constant .numpy) := by
  refine ⟨⟨fun _ => 2, fun x => if x 0 = 0 then 1 else 2⟩, ⟨fun _ => 2, fun x => if x 0 = 0 then 1 else 0⟩,
    ⟨fun _ => 3, fun x => if x 0 = 2 then 1 else 0⟩, ⟨fun _ => by norm_num, fun _ => le_rfl⟩, fun _ => by norm_num, ?_⟩
  intro h
  have := h.2 (fun _ => 0) (by decide)
  revert this
  decide

/-- Every filter of an odd square map, and every Gaussian filter of any square map, convolves it periodically with a kernel of
the size of the map, which depends on nothing else. -/
theorem filter_kernel (n : ℕ) (hn : 0 < n) (s : Filter) (h : n % 2 = 1 ∨ ∃ f, s = .gauss f) :
    (∃ e, ∀ a : Arr (Fin 2) ℝ, (∀ i, a.shape i = n) → s.apply a = .error e) ∨
      ∃ k : Arr (Fin 2) ℝ, (∀ i, k.shape i = n) ∧
        ∀ a : Arr (Fin 2) ℝ, (∀ i, a.shape i = n) → s.apply a = fftconvolve a k .same .circular .numpy := by
  cases s with
  | tophat w =>
    have hn : n % 2 = 1 := by
      rcases h with h | ⟨f, h⟩
      · exact h
      · cases h
    by_cases hc : (cubeCells n w : Finset (Fin 2 → ℤ)).card = 0
    · refine Or.inl ⟨"nan", fun a ha => ?_⟩
      simp only [Filter.apply, smoothTophat, ha 0, hn, tophatKernel, normalised, if_pos hc]
      rfl
    · refine Or.inr ⟨⟨fun _ => n, fun (x : Fin 2 → ℤ) => if x ∈ cubeCells n w then 1 / ((cubeCells n w : Finset (Fin 2 → ℤ)).card : ℝ) else 0⟩, fun _ => rfl,
        fun a ha => ?_⟩
      simp only [Filter.apply, smoothTophat, ha 0, hn, tophatKernel, normalised, if_neg hc]
      rfl
  | gauss f =>
    by_cases hc : sigmaOfFwhm f = 0 ∧ n ≠ 0
    · refine Or.inl ⟨"nan", fun a ha => ?_⟩
      simp only [Filter.apply, smoothGauss, ha 0, gaussKernel, if_pos hc]
      rfl
    · refine Or.inr ⟨⟨fun _ => n, fun x => gaussVal n (sigmaOfFwhm f) x /
        ∑ y ∈ box (fun _ : Fin 2 => n), gaussVal n (sigmaOfFwhm f) y⟩, fun _ => rfl, fun a ha => ?_⟩
      simp only [Filter.apply, smoothGauss, ha 0, gaussKernel, if_neg hc]
      rfl

/-- C253 for odd square maps, and for two Gaussian filters of any square map. -/
theorem C253_partial (a : Arr (Fin 2) ℝ) (n : ℕ) (hn : 0 < n) (hs : ∀ i, a.shape i = n) (s t : Filter)
    (h : n % 2 = 1 ∨ (∃ f, s = .gauss f) ∧ ∃ f, t = .gauss f) : SameMap (s.both t a) (t.both s a) := by
  rcases filter_kernel n hn s (h.imp id And.left) with ⟨e, he⟩ | ⟨k, hk, ek⟩ <;>
    rcases filter_kernel n hn t (h.imp id And.right) with ⟨e', he'⟩ | ⟨k', hk', ek'⟩
  · simp only [Filter.both, he a hs, he' a hs, Except.bind, SameMap]
  · obtain ⟨o, e1, -⟩ := circular_result a k' ⟨fun i => by rw [hk']; exact hn, fun i => by rw [hk', hs]⟩ .same (by simp)
      .numpy (by simp)
    simp only [Filter.both, he a hs, ek' a hs, e1, Except.bind, he ⟨a.shape, o⟩ hs, SameMap]
  · obtain ⟨o, e1, -⟩ := circular_result a k ⟨fun i => by rw [hk]; exact hn, fun i => by rw [hk, hs]⟩ .same (by simp)
      .numpy (by simp)
    simp only [Filter.both, he' a hs, ek a hs, e1, Except.bind, he' ⟨a.shape, o⟩ hs, SameMap]
  · have f : Fits a k := ⟨fun i => by rw [hk]; exact hn, fun i => by rw [hk, hs]⟩
    have f' : Fits a k' := ⟨fun i => by rw [hk']; exact hn, fun i => by rw [hk', hs]⟩
    have key := C253_circular a k k' f f' .numpy (by simp)
    obtain ⟨o, e1, -⟩ := circular_result a k f .same (by simp) .numpy (by simp)
    obtain ⟨o', e1', -⟩ := circular_result a k' f' .same (by simp) .numpy (by simp)
    simp only [Filter.both, ek a hs, ek' a hs, e1, e1', Except.bind, ek ⟨a.shape, o'⟩ hs, ek' ⟨a.shape, o⟩ hs] at key ⊢
    exact key

/-- A top-hat and a Gaussian on a map of 3×3 cells. -/
example : SameMap (Filter.both (.tophat 2) (.gauss 1) ⟨fun _ => 3, fun x => x 0⟩)
    (Filter.both (.gauss 1) (.tophat 2) ⟨fun _ => 3, fun x => x 0⟩) :=
  C253_partial _ 3 (by norm_num) (fun _ => rfl) _ _ (Or.inl rfl)

/-- Two Gaussians on a map of 4×4 cells. -/
example : SameMap (Filter.both (.gauss 2) (.gauss 1) ⟨fun _ => 4, fun x => x 0⟩)
    (Filter.both (.gauss 1) (.gauss 2) ⟨fun _ => 4, fun x => x 0⟩) :=
  C253_partial _ 4 (by norm_num) (fun _ => rfl) _ _ (Or.inr ⟨⟨_, rfl⟩, ⟨_, rfl⟩⟩)

/-- The value of a result in a cell. -/
def valueAt (x : ι → ℤ) : Except String (Arr ι R) → Option R
  | .ok o => if x ∈ box o.shape then some (o.val x) else none
  | .error _ => none

theorem SameMap.value {p q : Except String (Arr ι R)} (h : SameMap p q) (x : ι → ℤ) : valueAt x p = valueAt x q := by
  rcases p with e | o <;> rcases q with e' | o'
  · rfl
  · exact h.elim
  · exact h.elim
  · obtain ⟨hs, hv⟩ := h
    simp only [valueAt, ← hs]
    by_cases hx : x ∈ box o.shape
    · rw [if_pos hx, if_pos hx, hv x hx]
    · rw [if_neg hx, if_neg hx]

/-- C253 fails for even maps: the top-hat pads them by a row and a column, which the first filter has already changed. -/
theorem C253_false : ∃ a : Arr (Fin 2) ℚ, (∀ i, a.shape i = 2) ∧
    ¬ SameMap ((smoothTophat a 2).bind fun o => smoothTophat o 1) ((smoothTophat a 1).bind fun o => smoothTophat o 2) := by
  refine ⟨⟨fun _ => 2, fun x => if x 0 = 0 ∧ x 1 = 0 then 1 else 0⟩, fun _ => rfl, fun h => ?_⟩
  have := h.value ![0, 0]
  revert this
  decide +kernel

end Verif.SmoothOrder
