import Verif.Props.UVSmooth
/-!
# C267: thresholds of UV cells one after the other
-/

namespace Verif.ThresholdTwice
open Verif.Convolve Verif.UVSmooth
open Verif.UVResponse (mode modes_injective)

/-! ## Specification -/

/-- The cones agree at every cell. -/
def SameCone (a b : Arr (Fin 3) ℝ) : Prop := a.shape = b.shape ∧ ∀ x y k : ℤ, 0 ≤ x → x < a.shape 0 → 0 ≤ y →
  y < a.shape 1 → a.val ![x, y, k] = b.val ![x, y, k]

/-- Opposite waves have the same UV value, as measured by the same baselines. -/
def Mirrored (s : Fin 3 → ℕ) (uv : UVBox) : Prop := ∀ k m, uvAt s k (-m) uv = uvAt s k m uv

/-! ## Lemmas -/

theorem same_of_amplitude {a b : Arr (Fin 3) ℝ} (hs : a.shape = b.shape) (h0 : 0 < a.shape 0) (h1 : 0 < a.shape 1)
    (h : ∀ k m, amplitude a k m = amplitude b k m) : SameCone a b := by
  refine ⟨hs, fun x y k hx hx' hy hy' => ?_⟩
  have := modes_injective ![a.shape 0, a.shape 1] (pos2 _ h0 h1) (fun x => (a.val ![x 0, x 1, k] : ℂ))
    (fun x => (b.val ![x 0, x 1, k] : ℂ)) (fun m => by
      have := h k m
      unfold amplitude at this
      rw [← hs] at this
      exact this) (x := ![x, y]) (by
      rw [mem_box, Fin.forall_fin_two]
      exact ⟨⟨hx, hx'⟩, hy, hy'⟩)
  exact_mod_cast this

/-! ## Properties -/

/-- **C267.** With a mirrored UV box, the threshold `t` followed by `u` is the larger of the two, so that the order does
not matter and the same threshold again changes nothing. Without mirrored cells it is false, see `C267_false`. -/
theorem C267_partial (a : Arr (Fin 3) ℝ) (uv : UVBox) (t u : ℝ) (ht : 0 ≤ t) (hu : 0 ≤ u) (h0 : 0 < a.shape 0)
    (h1 : 0 < a.shape 1) (hf : FitsBox a.shape uv) (hm : Mirrored a.shape uv) :
    ∃ r rr q, uvThreshold a uv (.float t) = .ok (.cone r) ∧ uvThreshold r uv (.float u) = .ok (.cone rr) ∧
      uvThreshold a uv (.float (max t u)) = .ok (.cone q) ∧ SameCone rr q := by
  obtain ⟨r, e1, s1, m1⟩ := C154_mirrored a uv t ht h0 h1 hf fun k m => by rw [hm]
  obtain ⟨rr, e2, s2, m2⟩ := C154_mirrored r uv u hu (by rw [s1]; exact h0) (by rw [s1]; exact h1) (by rw [s1]; exact hf)
    fun k m => by rw [s1, hm]
  obtain ⟨q, e3, s3, m3⟩ := C154_mirrored a uv (max t u) (le_max_of_le_left ht) h0 h1 hf fun k m => by rw [hm]
  rw [s1] at m2
  refine ⟨r, rr, q, e1, e2, e3, same_of_amplitude (s2.trans (s1.trans s3.symm)) (by rw [s2, s1]; exact h0)
    (by rw [s2, s1]; exact h1) fun k m => ?_⟩
  rcases le_or_gt u (uvAt a.shape k m uv) with h2 | h2
  · rw [(m2 k m).1 h2]
    rcases le_or_gt t (uvAt a.shape k m uv) with h3 | h3
    · rw [(m1 k m).1 h3, (m3 k m).1 (max_le h3 h2)]
    · rw [(m1 k m).2 h3, (m3 k m).2 (lt_max_of_lt_left h3)]
  · rw [(m2 k m).2 h2, (m3 k m).2 (lt_max_of_lt_right h2)]

example := C267_partial ⟨![4, 4, 2], fun x => x 0 + x 2⟩ (.plane ⟨![4, 4], fun x => if x 0 = 0 then 3 else 1⟩) 2 0.5
  (by norm_num) (by norm_num) (by decide) (by decide) rfl (fun k m => by
    show (if -m 0 % ((4 : ℕ) : ℤ) = 0 then (3 : ℝ) else 1) = if m 0 % ((4 : ℕ) : ℤ) = 0 then (3 : ℝ) else 1
    congr 1
    exact propext (by omega))

/-- **C267 is false without mirrored cells**: a wave whose cell is below the threshold, but not the opposite one, is halved
every time. -/
theorem C267_false (a : Arr (Fin 3) ℝ) (uv : UVBox) (t : ℝ) (ht : 0 ≤ t) (h0 : 0 < a.shape 0) (h1 : 0 < a.shape 1)
    (hf : FitsBox a.shape uv) (k : ℤ) (m : Fin 2 → ℤ) (hp : uvAt a.shape k m uv < t) (hq : t ≤ uvAt a.shape k (-m) uv)
    (ha : amplitude a k m ≠ 0) : ∃ r rr, uvThreshold a uv (.float t) = .ok (.cone r) ∧
      uvThreshold r uv (.float t) = .ok (.cone rr) ∧ amplitude rr k m = amplitude a k m / 4 ∧
      amplitude r k m = amplitude a k m / 2 ∧ ¬ SameCone rr r := by
  obtain ⟨r, e1, d1⟩ := C154_partial a uv t ht h0 h1 hf
  have s1 := d1.shape
  obtain ⟨rr, e2, d2⟩ := C154_partial r uv t ht (by rw [s1]; exact h0) (by rw [s1]; exact h1) (by rw [s1]; exact hf)
  have hi : ¬ (t ≤ uvAt a.shape k m uv ↔ t ≤ uvAt a.shape k (-m) uv) := fun h' => not_le.2 hp (h'.2 hq)
  have a1 := d1.one k m hi
  have a2 := d2.one k m (by rw [s1]; exact hi)
  have a3 : amplitude rr k m = amplitude a k m / 4 := by rw [a2, a1]; ring
  refine ⟨r, rr, e1, e2, a3, a1, fun h => ?_⟩
  have : amplitude rr k m = amplitude r k m := by
    unfold amplitude mode
    rw [h.1]
    refine Finset.sum_congr rfl fun x hx => ?_
    have hx' := (mem_box _ x).mp hx
    have p0 := hx' 0
    have p1 := hx' 1
    rw [← h.1] at p0 p1
    beta_reduce
    rw [h.2 (x 0) (x 1) k p0.1 p0.2 p1.1 p1.2]
  rw [a1, a3] at this
  refine ha ?_
  linear_combination (-4) * this

example := C267_false ⟨![3, 1, 2], fun x => if x 0 = 0 then 1 else 0⟩
  (.plane ⟨![3, 1], fun i => if i 0 = 1 then 2 else 0⟩) 1 zero_le_one (by decide) (by decide) rfl 0 ![-1, 0]
  (by norm_num [uvAt]) (by norm_num [uvAt]) (by
    have : amplitude ⟨![3, 1, 2], fun x => if x 0 = 0 then 1 else 0⟩ 0 ![-1, 0] = 1 := by
      unfold amplitude
      show mode ![3, 1] _ _ = 1
      rw [Verif.UVResponse.mode_eq]
      unfold fftn
      rw [sum_box2]
      simp [Finset.sum_range_succ]
    rw [this]
    exact one_ne_zero)

end Verif.ThresholdTwice
