import Verif.Props.Wedge
import Verif.Lemmas.Spectrum
/-!
# C265: removing the foreground wedge again
-/

namespace Verif.WedgeAgain
open Verif.Convolve Verif.UVResponse Verif.Constants Complex

/-! ## Specification -/

/-- Two cubes of the same shape agree at every cell. -/
def SameCells (s : Fin 3 → ℕ) (a b : (Fin 3 → ℤ) → ℝ) : Prop := ∀ x : Fin 3 → ℤ, (∀ j, 0 ≤ x j ∧ x j < s j) → a x = b x

/-- The filter has only zeros and ones, and the same entry for every wave and the opposite one. -/
structure Cut (s : Fin 3 → ℕ) (filt : (Fin 3 → ℤ) → ℝ) : Prop where
  value : ∀ x, filt x = 0 ∨ filt x = 1
  opposite : ∀ m, atWave s filt (-m) = atWave s filt m

/-! ## Lemmas -/

/-- Cubes with the same waves agree. -/
theorem same_of_mode {s : Fin 3 → ℕ} (hs : ∀ j, 0 < s j) {a b : (Fin 3 → ℤ) → ℝ} (h : ∀ m, mode s a m = mode s b m) :
    SameCells s a b := by
  intro x hx
  have hd : ∀ m, fftn s (fun y => ((a y - b y : ℝ) : ℂ)) m = 0 := by
    intro m
    have e : mode s (fun y => a y - b y) m = mode s a m - mode s b m := by
      unfold mode
      rw [← Finset.sum_sub_distrib]
      refine Finset.sum_congr rfl fun y _ => ?_
      push_cast
      ring
    rw [← mode_eq s (fun y => a y - b y) m, e, h, sub_self]
  have hp := parseval s hs (fun y => ((a y - b y : ℝ) : ℂ)) (fun y => ((a y - b y : ℝ) : ℂ))
  simp only [hd, zero_mul, Finset.sum_const_zero, Complex.conj_ofReal] at hp
  have hN : (∏ i, (s i : ℂ)) ≠ 0 := Finset.prod_ne_zero_iff.mpr fun i _ => Nat.cast_ne_zero.mpr (hs i).ne'
  have h0 := (mul_eq_zero.mp hp.symm).resolve_left hN
  have h1 : ∑ y ∈ box s, (a y - b y) * (a y - b y) = 0 := by exact_mod_cast h0
  have h2 := (Finset.sum_eq_zero_iff_of_nonneg fun y _ => mul_self_nonneg (a y - b y)).mp h1 x ((mem_box s x).mpr hx)
  linarith [mul_self_eq_zero.mp h2]

/-! ## Properties -/

/-- **C265, sums.** The wedge of a sum of cubes is removed by removing it from each of them. -/
theorem C265_sum (k : Const) (z mu : ℝ) (f : Funct) (L : ℝ) (a b g : Arr (Fin 3) ℝ) (hb : b.shape = a.shape)
    (hg : g.shape = a.shape) (hs : ∀ j, 0 < a.shape j) (he : ∀ j, a.shape j % 2 = 0) (u v : ℝ) :
    ∃ ra rb r, removeWedge k a z mu f L (some g) = .ok ra ∧ removeWedge k b z mu f L (some g) = .ok rb ∧
      removeWedge k ⟨a.shape, fun x => u * a.val x + v * b.val x⟩ z mu f L (some g) = .ok r ∧
      SameCells a.shape r.val fun x => u * ra.val x + v * rb.val x := by
  obtain ⟨ra, h1, _, m1⟩ := C120_given k z mu f L a g hg.symm hs he
  obtain ⟨rb, h2, _, m2⟩ := C120_given k z mu f L b g (hb.trans hg.symm) (fun j => by rw [hb]; exact hs j)
    (fun j => by rw [hb]; exact he j)
  obtain ⟨r, h3, _, m3⟩ := C120_given k z mu f L ⟨a.shape, fun x => u * a.val x + v * b.val x⟩ g hg.symm hs he
  refine ⟨ra, rb, r, h1, h2, h3, same_of_mode hs fun m => ?_⟩
  have lin : ∀ p q : (Fin 3 → ℤ) → ℝ, mode a.shape (fun x => u * p x + v * q x) m =
      u * mode a.shape p m + v * mode a.shape q m := by
    intro p q
    unfold mode
    rw [Finset.mul_sum, Finset.mul_sum, ← Finset.sum_add_distrib]
    refine Finset.sum_congr rfl fun y _ => ?_
    push_cast
    ring
  rw [hb] at m2
  refine (m3 m).trans ?_
  rw [lin, lin, m1, m2]
  ring

example (k : Const) := C265_sum k 7 0.5 .step 100 ⟨fun _ => 4, fun x => x 0 + x 2⟩ ⟨fun _ => 4, fun x => x 1 * x 2⟩
  ⟨fun _ => 4, fun x => if x 2 = 2 then 0 else 1⟩ rfl rfl (by simp) (by simp) 2 (-1)

/-- **C265, order.** Two filters may be applied in either order. -/
theorem C265_order (k : Const) (z mu : ℝ) (f : Funct) (L : ℝ) (a g h : Arr (Fin 3) ℝ) (hg : g.shape = a.shape)
    (hh : h.shape = a.shape) (hs : ∀ j, 0 < a.shape j) (he : ∀ j, a.shape j % 2 = 0) :
    ∃ rg rh rgh rhg, removeWedge k a z mu f L (some g) = .ok rg ∧ removeWedge k rg z mu f L (some h) = .ok rgh ∧
      removeWedge k a z mu f L (some h) = .ok rh ∧ removeWedge k rh z mu f L (some g) = .ok rhg ∧
      SameCells a.shape rgh.val rhg.val := by
  obtain ⟨rg, h1, s1, m1⟩ := C120_given k z mu f L a g hg.symm hs he
  obtain ⟨rh, h2, s2, m2⟩ := C120_given k z mu f L a h hh.symm hs he
  obtain ⟨rgh, h3, _, m3⟩ := C120_given k z mu f L rg h (s1.trans hh.symm) (fun j => by rw [s1]; exact hs j)
    (fun j => by rw [s1]; exact he j)
  obtain ⟨rhg, h4, _, m4⟩ := C120_given k z mu f L rh g (s2.trans hg.symm) (fun j => by rw [s2]; exact hs j)
    (fun j => by rw [s2]; exact he j)
  rw [s1] at m3
  rw [s2] at m4
  refine ⟨rg, rh, rgh, rhg, h1, h3, h2, h4, same_of_mode hs fun m => ?_⟩
  rw [m3, m4, m1, m2]
  ring

example (k : Const) := C265_order k 7 0.5 .step 100 ⟨fun _ => 4, fun x => x 0 + x 2⟩ ⟨fun _ => 4, fun x => x 1 * x 2⟩
  ⟨fun _ => 4, fun x => if x 2 = 2 then 0 else 1⟩ rfl rfl (by simp) (by simp)

/-- **C265, power.** With entries between zero and one no wave gains power. -/
theorem C265_power (k : Const) (z mu : ℝ) (f : Funct) (L : ℝ) (a g : Arr (Fin 3) ℝ) (hg : g.shape = a.shape)
    (hs : ∀ j, 0 < a.shape j) (he : ∀ j, a.shape j % 2 = 0) (h01 : ∀ x, 0 ≤ g.val x ∧ g.val x ≤ 1) :
    ∃ r, removeWedge k a z mu f L (some g) = .ok r ∧ ∀ m, ‖mode a.shape r.val m‖ ≤ ‖mode a.shape a.val m‖ := by
  obtain ⟨r, h1, _, m1⟩ := C120_given k z mu f L a g hg.symm hs he
  refine ⟨r, h1, fun m => ?_⟩
  rw [m1, norm_mul, Complex.norm_real]
  refine mul_le_of_le_one_right (norm_nonneg _) ?_
  rw [Real.norm_eq_abs, abs_le]
  have p : ∀ n, 0 ≤ atWave a.shape g.val n ∧ atWave a.shape g.val n ≤ 1 := fun n => h01 _
  constructor <;> linarith [(p m).1, (p m).2, (p (-m)).1, (p (-m)).2]

example (k : Const) := C265_power k 7 0.5 .step 100 ⟨fun _ => 4, fun x => x 0 + x 2⟩
  ⟨fun _ => 4, fun x => if x 2 = 2 then 0 else 1⟩ rfl (by simp) (by simp)
  (fun x => by show 0 ≤ (if x 2 = 2 then (0 : ℝ) else 1) ∧ (if x 2 = 2 then (0 : ℝ) else 1) ≤ 1; split <;> norm_num)

/-- **C265, twice.** What has been removed once is not there to be removed again, if the filter treats opposite waves
alike. Without that it is false, see `C265_false`. -/
theorem C265_partial (k : Const) (z mu : ℝ) (f : Funct) (L : ℝ) (a g : Arr (Fin 3) ℝ) (hg : g.shape = a.shape)
    (hs : ∀ j, 0 < a.shape j) (he : ∀ j, a.shape j % 2 = 0) (hc : Cut a.shape g.val) :
    ∃ r rr, removeWedge k a z mu f L (some g) = .ok r ∧ removeWedge k r z mu f L (some g) = .ok rr ∧
      SameCells a.shape rr.val r.val := by
  obtain ⟨r, h1, s1, m1⟩ := C120_given k z mu f L a g hg.symm hs he
  obtain ⟨rr, h2, _, m2⟩ := C120_given k z mu f L r g (s1.trans hg.symm) (fun j => by rw [s1]; exact hs j)
    (fun j => by rw [s1]; exact he j)
  rw [s1] at m2
  refine ⟨r, rr, h1, h2, same_of_mode hs fun m => ?_⟩
  rw [m2, m1, hc.opposite]
  have := hc.value (fun j => (m j + (a.shape j / 2 : ℕ)) % (a.shape j : ℤ))
  rcases this with e | e
  · have : atWave a.shape g.val m = 0 := e
    rw [this]; simp
  · have : atWave a.shape g.val m = 1 := e
    rw [this]; simp

example (k : Const) := C265_partial k 7 0.5 .step 100 ⟨fun _ => 4, fun x => x 0 + x 2⟩
  ⟨fun _ => 4, fun x => if x 2 = 2 then 0 else 1⟩ rfl (by simp) (by simp)
  ⟨fun x => by show (if x 2 = 2 then (0 : ℝ) else 1) = 0 ∨ (if x 2 = 2 then (0 : ℝ) else 1) = 1; split <;> simp,
   fun m => by
    show (if (-m 2 + ((4 / 2 : ℕ) : ℤ)) % ((4 : ℕ) : ℤ) = 2 then (0 : ℝ) else 1) =
      if (m 2 + ((4 / 2 : ℕ) : ℤ)) % ((4 : ℕ) : ℤ) = 2 then (0 : ℝ) else 1
    congr 1
    exact propext (by omega)⟩

/-- A cube which is one in the first cell has all waves. -/
theorem mode_first {s : Fin 3 → ℕ} (hs : ∀ j, 0 < s j) (m : Fin 3 → ℤ) :
    mode s (fun x => if x = 0 then 1 else 0) m = 1 := by
  unfold mode
  rw [Finset.sum_eq_single (0 : Fin 3 → ℤ)]
  · simp
  · intro x _ hx
    simp [hx]
  · intro h
    exact absurd ((mem_box s 0).mpr fun j => ⟨le_refl _, by have := hs j; show (0 : ℤ) < s j; exact_mod_cast this⟩) h

/-- **C265 is false of filters which treat opposite waves differently**: such a wave is halved every time, so that
removing it again changes the cube, as seen with the cube which is one in a single cell. -/
theorem C265_false (k : Const) (z mu : ℝ) (f : Funct) (L : ℝ) (g : Arr (Fin 3) ℝ)
    (hs : ∀ j, 0 < g.shape j) (he : ∀ j, g.shape j % 2 = 0) (m : Fin 3 → ℤ) (h1 : atWave g.shape g.val m = 1)
    (h0 : atWave g.shape g.val (-m) = 0) :
    ∃ r rr, removeWedge k ⟨g.shape, fun x => if x = 0 then 1 else 0⟩ z mu f L (some g) = .ok r ∧
      removeWedge k r z mu f L (some g) = .ok rr ∧
      mode g.shape r.val m = 1 / 2 ∧ mode g.shape rr.val m = 1 / 4 ∧ ¬ SameCells g.shape rr.val r.val := by
  obtain ⟨r, e1, s1, m1⟩ := C120_given k z mu f L ⟨g.shape, fun x => if x = 0 then 1 else 0⟩ g rfl hs he
  obtain ⟨rr, e2, _, m2⟩ := C120_given k z mu f L r g s1 (fun j => by rw [s1]; exact hs j)
    (fun j => by rw [s1]; exact he j)
  rw [s1] at m2
  dsimp only at m1 m2
  have a1 : mode g.shape r.val m = 1 / 2 := by rw [m1, mode_first hs, h1, h0]; push_cast; ring
  have a2 : mode g.shape rr.val m = 1 / 4 := by rw [m2, a1, h1, h0]; push_cast; ring
  refine ⟨r, rr, e1, e2, a1, a2, fun h => ?_⟩
  have : mode g.shape rr.val m = mode g.shape r.val m := by
    unfold mode
    refine Finset.sum_congr rfl fun x hx => ?_
    rw [h x ((mem_box g.shape x).mp hx)]
  rw [a1, a2] at this
  norm_num at this

example (k : Const) := C265_false k 7 0.5 .step 100 ⟨fun _ => 4, fun x => if x 2 = 3 then 1 else 0⟩ (by simp) (by simp)
  ![0, 0, 1] (by
    show (if ((1 : ℤ) + ((4 / 2 : ℕ) : ℤ)) % ((4 : ℕ) : ℤ) = 3 then (1 : ℝ) else 0) = 1
    exact if_pos (by decide))
  (by
    show (if (-(1 : ℤ) + ((4 / 2 : ℕ) : ℤ)) % ((4 : ℕ) : ℤ) = 3 then (1 : ℝ) else 0) = 0
    exact if_neg (by decide))

end Verif.WedgeAgain
