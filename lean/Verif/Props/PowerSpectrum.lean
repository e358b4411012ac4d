import Verif.Model.PowerSpectrum
import Verif.Lemmas.Spectrum
import Mathlib.Data.List.GetD
import Mathlib.Tactic.Linarith
import Mathlib.Tactic.FieldSimp
import Mathlib.Tactic.NormNum
import Mathlib.Tactic.Ring
import Mathlib.Tactic.Positivity
import Mathlib.Algebra.BigOperators.Fin
/-!
# Properties of the power spectra (C50, C92, C93, C95)
-/

namespace Verif.PowerSpectrum
open Verif.Convolve Complex

/-! ## Specification -/

/-- The amplitude of the array `a` at the wave vector `k` (one component per axis), the cells being
at `x_j L_j / n_j`: `sum_x a(x) exp(-i k . r(x))`. -/
noncomputable def amplitude {d : ℕ} (s : Fin d → ℕ) (L : List ℝ) (a : (Fin d → ℤ) → ℝ) (k : Fin d → ℝ) : ℂ :=
  ∑ x ∈ box s, (a x : ℂ) * exp (-I * ((∑ j, k j * ((x j : ℝ) * L.getD j 0 / s j) : ℝ) : ℂ))

/-- Volume of the box. -/
noncomputable def volume (L : List ℝ) : ℝ := L.prod

/-- Number of cells. -/
noncomputable def cells {d : ℕ} (s : Fin d → ℕ) : ℝ := ((box s).card : ℝ)

/-! ## Basics -/

theorem cells_eq {d : ℕ} (s : Fin d → ℕ) : cells s = ∏ j, (s j : ℝ) := by
  unfold cells box
  rw [Fintype.card_piFinset]
  push_cast
  refine Finset.prod_congr rfl fun j _ => ?_
  simp

theorem shift_fftn {d : ℕ} (s : Fin d → ℕ) (hs : ∀ j, 0 < s j) (a : (Fin d → ℤ) → ℂ) (i : Fin d → ℤ) :
    shift s (fftn s a) i = fftn s a fun j => i j - (s j / 2 : ℕ) := by
  unfold shift
  rw [fftn_md s hs]

/-- The shifted transform runs over the same frequencies. -/
theorem sum_box_shift {d : ℕ} {R : Type} [CommRing R] (s : Fin d → ℕ) (g : (Fin d → ℤ) → R) :
    ∑ i ∈ box s, shift s g i = ∑ k ∈ box s, g k := by
  have := sum_shift s (fun j => -((s j / 2 : ℕ) : ℤ)) g
  rw [← this]
  refine Finset.sum_congr rfl fun i _ => ?_
  unfold shift
  congr 2

/-! ## C92 -/

theorem crossNd_eq {d : ℕ} (L : List ℝ) (a b : Arr (Fin d) ℝ) (h : a.shape = b.shape) :
    ∃ c, crossNd L a b = .ok c ∧ c.shape = a.shape ∧ ∀ i, c.val i =
      (shift a.shape (fun k => (fftn a.shape (fun x => (a.val x : ℂ)) k *
        (starRingEnd ℂ) (fftn a.shape (fun x => (b.val x : ℂ)) k)).re) i) * scale a.shape L := by
  unfold crossNd
  rw [if_pos h]
  refine ⟨_, rfl, rfl, fun i => ?_⟩
  simp only [shift, ← h]
  congr 1
  simp [mul_re]

/-- Summed over all modes and divided by the volume, the cross power spectrum is the mean of the
product of the two arrays. -/
theorem C92_cross {d : ℕ} (L : List ℝ) (hL : volume L ≠ 0) (a b : Arr (Fin d) ℝ)
    (hs : ∀ j, 0 < a.shape j) (h : a.shape = b.shape) :
    ∃ c, crossNd L a b = .ok c ∧ c.shape = a.shape ∧
      (∑ i ∈ box c.shape, c.val i) / volume L = (∑ x ∈ box a.shape, a.val x * b.val x) / cells a.shape := by
  obtain ⟨c, h1, h2, h3⟩ := crossNd_eq L a b h
  refine ⟨c, h1, h2, ?_⟩
  rw [h2, Finset.sum_congr rfl fun i _ => h3 i, ← Finset.sum_mul, sum_box_shift, ← Complex.re_sum,
    parseval a.shape hs, cells_eq]
  have hN : (∏ j, (a.shape j : ℝ)) ≠ 0 := Finset.prod_ne_zero_iff.mpr fun j _ => by
    exact_mod_cast (hs j).ne'
  have e : ((∏ i, (a.shape i : ℂ)) * ∑ x ∈ box a.shape, (a.val x : ℂ) * (starRingEnd ℂ) (b.val x : ℂ)).re =
      (∏ j, (a.shape j : ℝ)) * ∑ x ∈ box a.shape, a.val x * b.val x := by
    rw [← Complex.ofReal_re ((∏ j, (a.shape j : ℝ)) * ∑ x ∈ box a.shape, a.val x * b.val x)]
    congr 1
    push_cast
    simp
  rw [e]
  unfold scale volume at *
  generalize L.prod = V at *
  field_simp

theorem power_eq_cross {d : ℕ} (L : List ℝ) (a : Arr (Fin d) ℝ) : crossNd L a a = .ok (powerNd L a) := by
  unfold crossNd
  rw [if_pos rfl]
  congr 1
  unfold powerNd
  congr 1
  funext i
  simp only
  rw [← Complex.normSq_eq_norm_sq, Complex.normSq_apply]

/-- Summed over all modes and divided by the volume, the power spectrum is the mean square of the
array. -/
theorem C92_power {d : ℕ} (L : List ℝ) (hL : volume L ≠ 0) (a : Arr (Fin d) ℝ)
    (hs : ∀ j, 0 < a.shape j) :
    (∑ i ∈ box a.shape, (powerNd L a).val i) / volume L =
      (∑ x ∈ box a.shape, a.val x ^ 2) / cells a.shape := by
  obtain ⟨c, h1, _, h3⟩ := C92_cross L hL a a hs rfl
  rw [power_eq_cross] at h1
  cases h1
  simp only [sq]
  exact h3

example : volume [100, 200, 50] ≠ 0 ∧ ∀ j, 0 < (![4, 8, 3] : Fin 3 → ℕ) j := by
  refine ⟨by norm_num [volume], fun j => ?_⟩
  match j with
  | 0 => decide
  | 1 => decide
  | 2 => decide

/-- Arrays of different shapes are refused. -/
theorem C92_raises {d : ℕ} (L : List ℝ) (a b : Arr (Fin d) ℝ) (h : a.shape ≠ b.shape) :
    crossNd L a b = .error .assertion := by
  unfold crossNd
  rw [if_neg h]

example : (![4, 8] : Fin 2 → ℕ) ≠ ![8, 4] := by decide

/-! ## C93 -/

theorem norm_phase (x : ℝ) : ‖exp (-(2 * Real.pi * I) * (x : ℂ))‖ = 1 := by
  rw [Complex.norm_exp]
  simp

/-- Translating the array periodically leaves its power spectrum as it is. -/
theorem C93_translation {d : ℕ} (L : List ℝ) (a : Arr (Fin d) ℝ) (hs : ∀ j, 0 < a.shape j)
    (t : Fin d → ℤ) :
    ∀ i, (powerNd L ⟨a.shape, fun x => a.val fun j => (x j + t j) % (a.shape j : ℤ)⟩).val i =
      (powerNd L a).val i := by
  intro i
  unfold powerNd
  simp only
  congr 2
  rw [shift_fftn _ hs, shift_fftn _ hs]
  have := fftn_translate a.shape hs (fun x => (a.val x : ℂ)) t fun j => i j - (a.shape j / 2 : ℕ)
  rw [show (fun x => ((a.val fun j => (x j + t j) % (a.shape j : ℤ) : ℝ) : ℂ)) =
    fun x => ((a.val (md a.shape (x + t)) : ℝ) : ℂ) from rfl]
  rw [this, norm_mul]
  have e := norm_phase (∑ j, (((i j - (a.shape j / 2 : ℕ) : ℤ) : ℝ)) * ((-t) j : ℤ) / a.shape j)
  push_cast at e ⊢
  rw [e, one_mul]

/-- Opposite wave vectors have the same power: indices `i` and `i'` whose sum is twice the centre,
modulo the number of cells. -/
theorem C93_even {d : ℕ} (L : List ℝ) (a : Arr (Fin d) ℝ) (hs : ∀ j, 0 < a.shape j)
    (i i' : Fin d → ℤ) (h : ∀ j, (a.shape j : ℤ) ∣ i j + i' j - 2 * (a.shape j / 2 : ℕ)) :
    (powerNd L a).val i = (powerNd L a).val i' := by
  unfold powerNd
  simp only
  congr 2
  rw [shift_fftn _ hs, shift_fftn _ hs,
    fftn_congr a.shape hs _ (fun j => i j - (a.shape j / 2 : ℕ)) (-fun j => i' j - (a.shape j / 2 : ℕ))
      (fun j => by
        have := h j
        rwa [show i j - (a.shape j / 2 : ℕ) - (-fun j => i' j - (a.shape j / 2 : ℕ)) j =
          i j + i' j - 2 * (a.shape j / 2 : ℕ) by simp only [Pi.neg_apply]; ring]),
    fftn_neg, RCLike.norm_conj]

example : ((8 : ℕ) : ℤ) ∣ 1 + 7 - 2 * ((8 / 2 : ℕ) : ℤ) ∧ ((8 : ℕ) : ℤ) ∣ 0 + 0 - 2 * ((8 / 2 : ℕ) : ℤ) ∧
    ((5 : ℕ) : ℤ) ∣ 0 + 4 - 2 * ((5 / 2 : ℕ) : ℤ) := by decide

/-- The power spectrum is not negative if the volume is positive, and that of a multiple is the
square multiple. -/
theorem C93_nonneg {d : ℕ} (L : List ℝ) (hL : 0 < volume L) (a : Arr (Fin d) ℝ) (i : Fin d → ℤ) :
    0 ≤ (powerNd L a).val i := by
  unfold powerNd scale
  unfold volume at hL
  simp only
  positivity

theorem C93_homogeneous {d : ℕ} (L : List ℝ) (a : Arr (Fin d) ℝ) (c : ℝ) (i : Fin d → ℤ) :
    (powerNd L ⟨a.shape, fun x => c * a.val x⟩).val i = c ^ 2 * (powerNd L a).val i := by
  unfold powerNd
  simp only
  have : fftn a.shape (fun x => ((c * a.val x : ℝ) : ℂ)) = fun k => (c : ℂ) * fftn a.shape (fun x => (a.val x : ℂ)) k := by
    funext k
    unfold fftn
    rw [Finset.mul_sum]
    refine Finset.sum_congr rfl fun x _ => ?_
    push_cast
    ring
  rw [this]
  unfold shift
  rw [norm_mul, mul_pow, Complex.norm_real, Real.norm_eq_abs, sq_abs, mul_assoc]

/-- The cross power spectrum of an array with itself is its power spectrum, and the order of the
arrays does not matter. -/
theorem C93_cross {d : ℕ} (L : List ℝ) (a b : Arr (Fin d) ℝ) :
    crossNd L a a = .ok (powerNd L a) ∧ crossNd L a b = crossNd L b a := by
  refine ⟨power_eq_cross L a, ?_⟩
  unfold crossNd
  by_cases h : a.shape = b.shape
  · rw [if_pos h, if_pos h.symm]
    congr 2
    funext i
    simp only [h]
    ring
  · rw [if_neg h, if_neg (Ne.symm h)]

example : 0 < volume [100, 200, 50] := by norm_num [volume]

/-! ## C50: alignment with the Fourier transform -/

theorem center_eq (d n : ℕ) (h : d = 3 ∨ n % 2 = 1) : center d n = ((n / 2 : ℕ) : ℝ) := by
  have key : ∀ m : ℕ, (m % 2 = 0 → (m : ℝ) / 2 = ((m / 2 : ℕ) : ℝ)) ∧
      (m % 2 = 1 → ((m : ℝ) - 1) / 2 = ((m / 2 : ℕ) : ℝ)) := by
    intro m
    constructor
    · intro hm
      have : (m : ℝ) = 2 * ((m / 2 : ℕ) : ℝ) := by exact_mod_cast (by omega : m = 2 * (m / 2))
      linarith
    · intro hm
      have : (m : ℝ) = 2 * ((m / 2 : ℕ) : ℝ) + 1 := by exact_mod_cast (by omega : m = 2 * (m / 2) + 1)
      linarith
  unfold center
  rcases h with h | h
  · rw [if_pos h]
    by_cases hm : n % 2 = 0
    · rw [if_pos hm, (key n).1 hm]
    · rw [if_neg hm, (key n).2 (by omega)]
  · by_cases h3 : d = 3
    · rw [if_pos h3, if_neg (by omega), (key n).2 h]
    · rw [if_neg h3, (key n).2 h]

/-- In three dimensions, and for odd numbers of cells, the value of the power spectrum at an index
belongs to the wave vector that `_get_k` gives for that index. -/
theorem C50_aligned {d : ℕ} (L : List ℝ) (a : Arr (Fin d) ℝ) (hs : ∀ j, 0 < a.shape j)
    (hL : ∀ j : Fin d, L.getD j 0 ≠ 0) (hV : volume L ≠ 0)
    (hodd : d = 3 ∨ ∀ j, a.shape j % 2 = 1) (i : Fin d → ℤ) :
    (powerNd L a).val i = volume L / cells a.shape ^ 2 *
      ‖amplitude a.shape L a.val fun j => kComp a.shape L j i‖ ^ 2 := by
  have e : amplitude a.shape L a.val (fun j => kComp a.shape L j i) =
      fftn a.shape (fun x => (a.val x : ℂ)) fun j => i j - (a.shape j / 2 : ℕ) := by
    unfold amplitude fftn
    refine Finset.sum_congr rfl fun x _ => ?_
    congr 2
    rw [Complex.ofReal_sum, Finset.mul_sum, Finset.mul_sum]
    refine Finset.sum_congr rfl fun j _ => ?_
    have hc : center d (a.shape j) = ((a.shape j / 2 : ℕ) : ℝ) :=
      center_eq d _ (hodd.imp id fun h => h j)
    have h1 : (L.getD j 0 : ℂ) ≠ 0 := by exact_mod_cast hL j
    have h2 : (a.shape j : ℂ) ≠ 0 := by exact_mod_cast (hs j).ne'
    unfold kComp
    simp only [hc]
    generalize a.shape j / 2 = c
    push_cast
    generalize (L.getD j 0 : ℂ) = l at *
    field_simp
  unfold powerNd scale
  simp only
  rw [shift_fftn _ hs, e, cells_eq]
  unfold volume at *
  have hN : (∏ j, (a.shape j : ℝ)) ≠ 0 := Finset.prod_ne_zero_iff.mpr fun j _ => by
    exact_mod_cast (hs j).ne'
  generalize L.prod = V at *
  field_simp

example : (∀ j : Fin 3, [100, 200, (50 : ℝ)].getD j 0 ≠ 0) ∧ volume [100, 200, 50] ≠ 0 := by
  refine ⟨fun j => ?_, by norm_num [volume]⟩
  match j with
  | 0 => norm_num
  | 1 => norm_num
  | 2 => norm_num

/-- In one and two dimensions with an even number of cells the wave vectors are half a step off:
none is zero along that axis, and the power of a uniform array is found at `pi / L` instead of
zero. -/
theorem C50_aligned_false {d : ℕ} (hd : d ≠ 3) (L : List ℝ) (s : Fin d → ℕ) (hs : ∀ j, 0 < s j)
    (hV : volume L ≠ 0) (j : Fin d) (hj : s j % 2 = 0) (hL : L.getD j 0 ≠ 0) :
    (∀ i : Fin d → ℤ, kComp s L j i ≠ 0) ∧
    (powerNd L ⟨s, fun _ => 1⟩).val (fun j => (s j / 2 : ℕ)) = volume L ∧
    kComp s L j (fun j => (s j / 2 : ℕ)) = Real.pi / L.getD j 0 := by
  have hc : center d (s j) = ((s j / 2 : ℕ) : ℝ) - 1 / 2 := by
    unfold center
    rw [if_neg hd]
    have : (s j : ℝ) = 2 * ((s j / 2 : ℕ) : ℝ) := by exact_mod_cast (by omega : s j = 2 * (s j / 2))
    linarith
  refine ⟨fun i h => ?_, ?_, ?_⟩
  · unfold kComp at h
    rw [div_eq_zero_iff, mul_eq_zero, hc] at h
    rcases h with (h | h) | h
    · exact absurd h (by positivity)
    · have h2 : (2 * (i j - (s j / 2 : ℕ)) + 1 : ℤ) = 0 := by
        have : ((2 * (i j - (s j / 2 : ℕ)) + 1 : ℤ) : ℝ) = 0 := by
          clear hc
          generalize s j / 2 = c at *
          push_cast
          linarith
        exact_mod_cast this
      omega
    · exact hL h
  · unfold powerNd scale
    simp only
    rw [shift_fftn _ hs]
    have : fftn s (fun _ => ((1 : ℝ) : ℂ)) (fun j => ((s j / 2 : ℕ) : ℤ) - (s j / 2 : ℕ)) = ((cells s : ℝ) : ℂ) := by
      unfold fftn cells
      simp
    rw [this, Complex.norm_real, Real.norm_eq_abs, sq_abs, cells_eq]
    have hN : (∏ j, (s j : ℝ)) ≠ 0 := Finset.prod_ne_zero_iff.mpr fun j _ => by
      exact_mod_cast (hs j).ne'
    unfold volume at *
    generalize L.prod = V at *
    field_simp
  · unfold kComp
    rw [hc, Int.cast_natCast]
    ring

example : (1 : ℕ) ≠ 3 ∧ ((![8] : Fin 1 → ℕ) 0) % 2 = 0 ∧ [(100 : ℝ)].getD 0 0 ≠ 0 := by
  refine ⟨by decide, by decide, by norm_num⟩

/-- The wave number of the mode that the shifted Fourier transform has at the index `i`. -/
noncomputable def waveNumber {d : ℕ} (s : Fin d → ℕ) (L : List ℝ) (i : Fin d → ℤ) : ℝ :=
  Real.sqrt (∑ j, (2 * Real.pi * ((i j : ℝ) - (s j / 2 : ℕ)) / L.getD j 0) ^ 2)

/-- The `k` of `_get_k` is the wave number of the mode, in three dimensions and in two for odd
numbers of cells; in one dimension, odd, it has a sign. -/
theorem C50_wavenumber {d : ℕ} (s : Fin d → ℕ) (L : List ℝ) (hodd : d = 3 ∨ ∀ j, s j % 2 = 1) (i : Fin d → ℤ) :
    (d ≠ 1 → kMag s L i = waveNumber s L i) ∧ (d = 1 → |kMag s L i| = waveNumber s L i) := by
  have hk : ∀ j, kComp s L j i = 2 * Real.pi * ((i j : ℝ) - (s j / 2 : ℕ)) / L.getD j 0 := by
    intro j
    unfold kComp
    rw [center_eq d _ (hodd.imp id fun h => h j)]
  unfold kMag waveNumber
  simp only [← hk]
  constructor
  · intro h
    rw [if_neg h]
  · rintro rfl
    rw [if_pos rfl, Fin.sum_univ_one, Fin.sum_univ_one, Real.sqrt_sq_eq_abs]

example : (2 : ℕ) ≠ 1 ∧ ∀ j : Fin 2, (![5, 7] : Fin 2 → ℕ) j % 2 = 1 := by decide

/-! ## C50: binning -/

/-- The `b`-th edge. -/
def edge (e : List ℝ) (b : ℕ) : ℝ := e.getD b 0

/-- Between the first and the last edge. -/
def InRange (e : List ℝ) (x : ℝ) : Prop := edge e 0 ≤ x ∧ x ≤ edge e (e.length - 1)

theorem edge_mono {e : List ℝ} (h : e.Pairwise (· ≤ ·)) {b c : ℕ} (hbc : b ≤ c) (hc : c < e.length) :
    edge e b ≤ edge e c := by
  unfold edge
  rcases hbc.eq_or_lt with rfl | hlt
  · exact le_rfl
  · rw [List.getD_eq_getElem _ _ hc, List.getD_eq_getElem _ _ (by omega)]
    exact List.pairwise_iff_getElem.mp h b c (by omega) hc hlt

theorem inBin_range {e : List ℝ} (h : e.Pairwise (· ≤ ·)) {b : ℕ} (hb : b + 1 < e.length) {x : ℝ}
    (hx : inBin e b x) : InRange e x ∧ edge e b ≤ x ∧ x ≤ edge e (b + 1) := by
  have h1 : x ≤ edge e (b + 1) := by
    rcases hx.2 with h | h
    · exact h.le
    · exact h.2.le
  exact ⟨⟨(edge_mono h (Nat.zero_le b) (by omega)).trans hx.1,
    h1.trans (edge_mono h (by omega) (by omega))⟩, hx.1, h1⟩

theorem inBin_unique {e : List ℝ} (h : e.Pairwise (· ≤ ·)) {b c : ℕ} (hb : b + 1 < e.length)
    (hc : c + 1 < e.length) {x : ℝ} (h1 : inBin e b x) (h2 : inBin e c x) : b = c := by
  have key : ∀ b c : ℕ, c + 1 < e.length → inBin e b x → inBin e c x → ¬ b < c := by
    intro b c hc h1 h2 hlt
    rcases h1.2 with h3 | h3
    · have := edge_mono h (b := b + 1) (c := c) hlt (by omega)
      exact absurd (lt_of_lt_of_le h3 (this.trans h2.1)) (lt_irrefl _)
    · omega
  have := key b c hc h1 h2
  have := key c b hb h2 h1
  omega

theorem inBin_exists {e : List ℝ} (hl : 2 ≤ e.length) {x : ℝ}
    (hx : InRange e x) : ∃ b, b + 1 < e.length ∧ inBin e b x := by
  classical
  set P : ℕ → Prop := fun b => edge e b ≤ x with hP
  set b := Nat.findGreatest P (e.length - 2) with hb
  have h0 : P b := Nat.findGreatest_spec (P := P) (Nat.zero_le _) hx.1
  have hle : b ≤ e.length - 2 := Nat.findGreatest_le _
  refine ⟨b, by omega, h0, ?_⟩
  by_cases hc : b + 2 = e.length
  · have h2 : x ≤ edge e (b + 1) := by
      have := hx.2
      rwa [show e.length - 1 = b + 1 by omega] at this
    rcases h2.lt_or_eq with h3 | h3
    · exact Or.inl h3
    · exact Or.inr ⟨hc, h3⟩
  · left
    have := Nat.findGreatest_is_greatest (P := P) (n := e.length - 2) (k := b + 1) (by omega) (by omega)
    exact not_le.mp this

open Classical in
/-- Every mode between the first and the last edge is assigned to exactly one bin around it; the
mode counts are those of this assignment, and the values returned are the means over the modes
assigned (not a number without any), the bins returned the middles. -/
theorem C50_partial {d : ℕ} (hd : d = 1 ∨ d = 2 ∨ d = 3) (a : Arr (Fin d) ℝ) (L e : List ℝ)
    (hL : d ≤ L.length) (hl : 2 ≤ e.length) (he : e.Pairwise (· ≤ ·)) (binning : Binning) (bp : ℝ) :
    ∃ r, radialAverage a (.list L) (.array e) binning bp = .ok r ∧
      r.data.length = e.length - 1 ∧ r.modes.length = e.length - 1 ∧
      ∃ f : (Fin d → ℤ) → ℕ,
        (∀ i, InRange e (kMag a.shape L i) → f i + 1 < e.length ∧
          edge e (f i) ≤ kMag a.shape L i ∧ kMag a.shape L i ≤ edge e (f i + 1)) ∧
        ∀ b, b + 1 < e.length →
          let S := (box a.shape).filter fun i => InRange e (kMag a.shape L i) ∧ f i = b
          r.modes[b]? = some S.card ∧
          r.data[b]? = some (if S.card = 0 then none else some ((∑ i ∈ S, a.val i) / S.card)) ∧
          r.bins[b]? = some ((edge e b + edge e (b + 1)) / 2) := by
  have hex : ∀ i : Fin d → ℤ, ∃ b, InRange e (kMag a.shape L i) →
      b + 1 < e.length ∧ inBin e b (kMag a.shape L i) := by
    intro i
    by_cases h : InRange e (kMag a.shape L i)
    · obtain ⟨b, h1, h2⟩ := inBin_exists hl h
      exact ⟨b, fun _ => ⟨h1, h2⟩⟩
    · exact ⟨0, fun h' => absurd h' h⟩
  choose f hf using hex
  unfold radialAverage
  simp only [getK, if_pos hd, boxOf, if_pos hL, getKbins, if_pos he]
  refine ⟨_, rfl, by simp, by simp, f, fun i hi => ?_, fun b hb => ?_⟩
  · obtain ⟨h1, h2⟩ := hf i hi
    exact ⟨h1, (inBin_range he h1 h2).2⟩
  · have hS : (box a.shape).filter (fun i => inBin e b (kMag a.shape L i)) =
        (box a.shape).filter fun i => InRange e (kMag a.shape L i) ∧ f i = b := by
      refine Finset.filter_congr fun i _ => ?_
      constructor
      · intro h
        have hr := (inBin_range he hb h).1
        obtain ⟨h1, h2⟩ := hf i hr
        exact ⟨hr, inBin_unique he h1 hb h2 h⟩
      · rintro ⟨hr, rfl⟩
        exact (hf i hr).2
    have hb' : b < e.length - 1 := by omega
    simp only [List.getElem?_map, List.getElem?_range hb', Option.map_some, average, nModes, hS]
    refine ⟨trivial, trivial, ?_⟩
    simp only [centres, List.getElem?_map, List.getElem?_range hb', Option.map_some, edge]
    congr 1
    ring

open Classical in
/-- The mode counts add up to the number of modes between the first and the last edge, and the
values weighted by them to the sum over these modes. -/
theorem C50_total {d : ℕ} (hd : d = 1 ∨ d = 2 ∨ d = 3) (a : Arr (Fin d) ℝ) (L e : List ℝ)
    (hL : d ≤ L.length) (hl : 2 ≤ e.length) (he : e.Pairwise (· ≤ ·)) (binning : Binning) (bp : ℝ) :
    ∃ r, radialAverage a (.list L) (.array e) binning bp = .ok r ∧
      r.modes.sum = ((box a.shape).filter fun i => InRange e (kMag a.shape L i)).card ∧
      ((List.range (e.length - 1)).map fun (b : ℕ) => ((r.data.getD b none).getD 0) * (r.modes.getD b 0 : ℝ)).sum =
        ∑ i ∈ (box a.shape).filter fun i => InRange e (kMag a.shape L i), a.val i := by
  obtain ⟨r, h1, h2, h3, f, h4, h5⟩ := C50_partial hd a L e hL hl he binning bp
  have hmaps : ∀ i ∈ (box a.shape).filter (fun i => InRange e (kMag a.shape L i)),
      f i ∈ Finset.range (e.length - 1) := by
    intro i hi
    have := (h4 i (Finset.mem_filter.mp hi).2).1
    rw [Finset.mem_range]
    omega
  refine ⟨r, h1, ?_, ?_⟩
  · have : r.modes = (List.range (e.length - 1)).map fun (b : ℕ) =>
        (((box a.shape).filter fun i => InRange e (kMag a.shape L i)).filter fun i => f i = b).card := by
      refine List.ext_getElem? fun b => ?_
      by_cases hb : b < e.length - 1
      · rw [List.getElem?_map, List.getElem?_range hb, (h5 b (by omega)).1]
        simp only [Option.map_some, Finset.filter_filter]
      · rw [List.getElem?_eq_none (by omega), List.getElem?_eq_none (by simp; omega)]
    rw [this, ← List.sum_toFinset _ List.nodup_range, List.toFinset_range,
      Finset.card_eq_sum_card_fiberwise hmaps]
  · rw [← List.sum_toFinset _ List.nodup_range, List.toFinset_range,
      ← Finset.sum_fiberwise_of_maps_to hmaps]
    refine Finset.sum_congr rfl fun b hb => ?_
    rw [Finset.mem_range] at hb
    obtain ⟨m1, m2, _⟩ := h5 b (by omega)
    rw [List.getD_eq_getElem?_getD, m2, List.getD_eq_getElem?_getD, m1, Finset.filter_filter]
    simp only [Option.getD_some]
    split
    · next h => rw [Finset.card_eq_zero] at h; rw [h]; simp
    · next h =>
      have h' : (((box a.shape).filter fun i => InRange e (kMag a.shape L i) ∧ f i = b).card : ℝ) ≠ 0 := by
        exact_mod_cast h
      rw [Option.getD_some, div_mul_cancel₀ _ h']

example : (3 : ℕ) = 1 ∨ 3 = 2 ∨ 3 = 3 := by decide
example : [(1 : ℝ) / 10, 1 / 5, 1 / 2, 1].Pairwise (· ≤ ·) := by norm_num

/-! ## C50: bins made from a number -/

theorem linspace_length (a b : ℝ) (n : ℕ) : (linspace a b n).length = n + 1 := by simp [linspace]

theorem linspace_get (a b : ℝ) (n i : ℕ) (hi : i < n + 1) :
    (linspace a b n)[i]? = some (a + (i : ℝ) * ((b - a) / n)) := by
  unfold linspace
  rw [List.getElem?_map, List.getElem?_range hi]
  rfl

theorem linspace_sorted {a b : ℝ} (h : a ≤ b) (n : ℕ) : (linspace a b n).Pairwise (· ≤ ·) := by
  unfold linspace
  rw [List.pairwise_map]
  refine List.pairwise_lt_range.imp fun {i j} hij => ?_
  have h1 : (i : ℝ) ≤ j := by exact_mod_cast hij.le
  have h2 : 0 ≤ (b - a) / n := div_nonneg (by linarith) (by positivity)
  nlinarith

theorem linspace_unsorted {a b : ℝ} (h : b < a) {n : ℕ} (hn : 1 ≤ n) :
    ¬ (linspace a b n).Pairwise (· ≤ ·) := by
  intro hp
  have h2 := List.pairwise_iff_getElem.mp hp 0 1 (by rw [linspace_length]; omega)
    (by rw [linspace_length]; omega) (by omega)
  have g0 := linspace_get a b n 0 (by omega)
  have g1 := linspace_get a b n 1 (by omega)
  rw [List.getElem?_eq_getElem (by rw [linspace_length]; omega)] at g0 g1
  rw [Option.some.inj g0, Option.some.inj g1] at h2
  have hn' : (0 : ℝ) < n := by exact_mod_cast hn
  have : (b - a) / n < 0 := div_neg_of_neg_of_pos (by linarith) hn'
  push_cast at h2
  linarith

theorem linspace_first (a b : ℝ) (n : ℕ) : edge (linspace a b n) 0 = a := by
  unfold edge
  rw [List.getD_eq_getElem?_getD, linspace_get a b n 0 (by omega)]
  simp

theorem linspace_last (a b : ℝ) {n : ℕ} (hn : 1 ≤ n) : edge (linspace a b n) n = b := by
  unfold edge
  rw [List.getD_eq_getElem?_getD, linspace_get a b n n (by omega)]
  have hn' : (n : ℝ) ≠ 0 := by positivity
  simp only [Option.getD_some]
  field_simp
  ring

theorem logspace_length (a b : ℝ) (n : ℕ) : (logspace a b n).length = n + 1 := by
  simp [logspace, linspace]

theorem logspace_sorted {a b : ℝ} (h0 : 0 < a) (h : a ≤ b) (n : ℕ) : (logspace a b n).Pairwise (· ≤ ·) := by
  unfold logspace
  rw [List.pairwise_map]
  refine (linspace_sorted (Real.logb_le_logb_of_le (by norm_num) h0 h) n).imp fun {x y} hxy => ?_
  exact Real.rpow_le_rpow_of_exponent_le (by norm_num) hxy

theorem logspace_unsorted {a b : ℝ} (h0 : 0 < b) (h : b < a) {n : ℕ} (hn : 1 ≤ n) :
    ¬ (logspace a b n).Pairwise (· ≤ ·) := by
  unfold logspace
  rw [List.pairwise_map]
  intro hp
  refine linspace_unsorted (Real.logb_lt_logb (by norm_num) h0 h) hn (hp.imp fun {x y} hxy => ?_)
  exact (Real.rpow_le_rpow_left_iff (by norm_num)).mp hxy

theorem logspace_edge (a b : ℝ) (n i : ℕ) (hi : i < n + 1) :
    edge (logspace a b n) i = (10 : ℝ) ^ edge (linspace (Real.logb 10 a) (Real.logb 10 b) n) i := by
  unfold edge logspace
  rw [List.getD_eq_getElem?_getD, List.getElem?_map, linspace_get _ _ n i hi,
    List.getD_eq_getElem?_getD, linspace_get _ _ n i hi]
  rfl

theorem logspace_first {a : ℝ} (b : ℝ) (h : 0 < a) (n : ℕ) : edge (logspace a b n) 0 = a := by
  rw [logspace_edge a b n 0 (by omega), linspace_first, Real.rpow_logb (by norm_num) (by norm_num) h]

theorem logspace_last (a : ℝ) {b : ℝ} (h : 0 < b) {n : ℕ} (hn : 1 ≤ n) : edge (logspace a b n) n = b := by
  rw [logspace_edge a b n n (by omega), linspace_last _ _ hn, Real.rpow_logb (by norm_num) (by norm_num) h]

/-- The list of the three kinds of edges: sorted, from `kmin` to `kmax`. -/
theorem edges_ok {kmin kmax : ℝ} (h0 : 0 < kmin) (h : kmin ≤ kmax) {n : ℕ} (hn : 1 ≤ n)
    (binning : Binning) (bp : ℝ) (hbp : binning = .other → kmin < bp ∧ bp < kmax) :
    let e := edges kmin kmax n binning bp
    2 ≤ e.length ∧ e.Pairwise (· ≤ ·) ∧ edge e 0 = kmin ∧ edge e (e.length - 1) = kmax := by
  have hk : 0 < kmax := by linarith
  cases binning with
  | linear =>
    simp only [edges, linspace_length, Nat.add_sub_cancel]
    exact ⟨by omega, linspace_sorted h n, linspace_first _ _ _, linspace_last _ _ hn⟩
  | log =>
    simp only [edges, logspace_length, Nat.add_sub_cancel]
    exact ⟨by omega, logspace_sorted h0 h n, logspace_first _ h0 _, logspace_last _ hk hn⟩
  | other =>
    classical
    obtain ⟨b1, b2⟩ := hbp rfl
    simp only [edges]
    -- the first part begins with `kmin`
    obtain ⟨l1, e1⟩ : ∃ l, (linspace kmin kmax n).filter (fun x => decide (x < bp)) = kmin :: l := by
      have : linspace kmin kmax n = kmin :: (linspace kmin kmax n).tail := by
        unfold linspace
        rw [List.range_succ_eq_map]
        simp
      rw [this, List.filter_cons_of_pos (by simpa using b1)]
      exact ⟨_, rfl⟩
    obtain ⟨l2, e2⟩ : ∃ l, (logspace kmin kmax n).filter (fun x => decide (bp < x)) = l ++ [kmax] := by
      have : logspace kmin kmax n = (logspace kmin kmax n).take n ++ [kmax] := by
        have h1 := logspace_last kmin hk hn
        unfold edge at h1
        rw [List.getD_eq_getElem _ _ (by rw [logspace_length]; omega)] at h1
        conv_lhs => rw [← List.take_append_drop n (logspace kmin kmax n)]
        congr 1
        rw [List.drop_eq_getElem_cons (by rw [logspace_length]; omega), h1,
          List.drop_eq_nil_of_le (by rw [logspace_length])]
      rw [this, List.filter_append, List.filter_cons_of_pos (by simpa using b2)]
      exact ⟨_, rfl⟩
    refine ⟨by rw [e1, e2]; simp; omega, ?_, ?_, ?_⟩
    · rw [List.pairwise_append]
      refine ⟨(linspace_sorted h n).filter _, (logspace_sorted h0 h n).filter _, fun x hx y hy => ?_⟩
      have h1 := (List.mem_filter.mp hx).2
      have h2 := (List.mem_filter.mp hy).2
      simp only [decide_eq_true_eq] at h1 h2
      linarith
    · rw [e1]; rfl
    · rw [e2, ← List.append_assoc]
      unfold edge
      rw [List.getD_eq_getElem?_getD]
      simp

/-- The smallest wave number of the automatic bins. -/
noncomputable def fundamental (L : List ℝ) : ℝ := 2 * Real.pi / (L.min?.getD 0)

theorem fundamental_pos {L : List ℝ} (hne : L ≠ []) (hL : ∀ x ∈ L, 0 < x) : 0 < fundamental L := by
  unfold fundamental
  cases e : L.min? with
  | none => rw [List.min?_eq_none_iff] at e; exact absurd e hne
  | some m =>
    have := hL m (List.min?_mem e)
    simp only [Option.getD_some]
    positivity

theorem kMax_ok {d : ℕ} (s : Fin d → ℕ) (L : List ℝ) (hs : ∀ j, 0 < s j) :
    ∃ m, kMax s L = .ok m ∧ (∃ i ∈ box s, kMag s L i = m) ∧ ∀ i ∈ box s, kMag s L i ≤ m := by
  have hz : (fun _ => 0) ∈ box s := (mem_box s _).mpr fun j => ⟨le_rfl, by exact_mod_cast hs j⟩
  obtain ⟨m, hm⟩ := Finset.max_of_mem (Finset.mem_image_of_mem (kMag s L) hz)
  refine ⟨m, ?_, ?_, fun i hi => Finset.le_max_of_eq (Finset.mem_image_of_mem _ hi) hm⟩
  · unfold kMax
    rw [hm]
  · obtain ⟨i, hi, e⟩ := Finset.mem_image.mp (Finset.mem_of_max hm)
    exact ⟨i, hi, e⟩

open Classical in
/-- With a number of bins instead of edges, every mode from the fundamental wave number of the
shortest side on is counted exactly once, whatever the spacing (for the mixed spacing if the
breakpoint lies inside). -/
theorem C50_int {d : ℕ} (hd : d = 1 ∨ d = 2 ∨ d = 3) (a : Arr (Fin d) ℝ) (hs : ∀ j, 0 < a.shape j)
    (L : List ℝ) (hL : d ≤ L.length) (hpos : ∀ x ∈ L, 0 < x) (n : ℕ) (hn : 1 ≤ n)
    (binning : Binning) (bp : ℝ) (i₀ : Fin d → ℤ) (h₀ : i₀ ∈ box a.shape)
    (hk : fundamental L ≤ kMag a.shape L i₀)
    (hbp : binning = .other → fundamental L < bp ∧ ∃ i ∈ box a.shape, bp < kMag a.shape L i) :
    ∃ r, radialAverage a (.list L) (.int n) binning bp = .ok r ∧
      r.modes.sum = ((box a.shape).filter fun i => fundamental L ≤ kMag a.shape L i).card := by
  obtain ⟨m, h1, _, h3⟩ := kMax_ok a.shape L hs
  have hne : L ≠ [] := by
    rintro rfl
    rcases hd with rfl | rfl | rfl <;> simp at hL
  obtain ⟨g1, g2, g3, g4⟩ := edges_ok (fundamental_pos hne hpos) (hk.trans (h3 _ h₀)) hn binning bp
    (fun h => ⟨(hbp h).1, by obtain ⟨i, hi, h'⟩ := (hbp h).2; exact lt_of_lt_of_le h' (h3 i hi)⟩)
  obtain ⟨r, r1, r2, _⟩ := C50_total hd a L _ hL g1 g2 binning bp
  refine ⟨r, ?_, ?_⟩
  · rw [← r1]
    unfold radialAverage
    simp only [getK, if_pos hd, boxOf, if_pos hL, getKbins, h1]
    rfl
  · rw [r2]
    congr 1
    refine Finset.filter_congr fun i hi => ?_
    unfold InRange
    rw [g3, g4]
    exact ⟨fun h => h.1, fun h => ⟨h, h3 i hi⟩⟩

/-- The edges made from a number `n`: `n + 1` of them, from the fundamental wave number of the
shortest side to the largest wave number there is, at equal distances or in equal ratios. -/
theorem C50_edges {d : ℕ} (a : Arr (Fin d) ℝ) (hs : ∀ j, 0 < a.shape j)
    (L : List ℝ) (hpos : ∀ x ∈ L, 0 < x) (hne : L ≠ []) (n : ℕ) (hn : 1 ≤ n) (boxDims : Dims) (bp : ℝ)
    (hd : boxDims = .list L ∨ boxDims = .array L)
    (i₀ : Fin d → ℤ) (h₀ : i₀ ∈ box a.shape) (hk : 0 < kMag a.shape L i₀) :
    ∃ m, (∃ i ∈ box a.shape, kMag a.shape L i = m) ∧ (∀ i ∈ box a.shape, kMag a.shape L i ≤ m) ∧
      (∃ e, e.length = n + 1 ∧ edge e 0 = fundamental L ∧ edge e n = m ∧
        (∀ b, b < n → edge e (b + 1) - edge e b = (m - fundamental L) / n) ∧
        radialAverage a boxDims (.int n) .linear bp = radialAverage a boxDims (.array e) .linear bp) ∧
      (∃ e, e.length = n + 1 ∧ edge e 0 = fundamental L ∧ edge e n = m ∧
        (∃ q, ∀ b, b < n → edge e (b + 1) = q * edge e b) ∧
        radialAverage a boxDims (.int n) .log bp = radialAverage a boxDims (.array e) .log bp) := by
  obtain ⟨m, h1, h2, h3⟩ := kMax_ok a.shape L hs
  have hm : 0 < m := lt_of_lt_of_le hk (h3 _ h₀)
  have hf := fundamental_pos hne hpos
  refine ⟨m, h2, h3, ⟨linspace (fundamental L) m n, linspace_length _ _ _, linspace_first _ _ _,
    linspace_last _ _ hn, fun b hb => ?_, ?_⟩, ⟨logspace (fundamental L) m n, logspace_length _ _ _,
    logspace_first _ hf _, logspace_last _ hm hn, ⟨(10 : ℝ) ^ ((Real.logb 10 m - Real.logb 10 (fundamental L)) / n),
    fun b hb => ?_⟩, ?_⟩⟩
  · unfold edge
    rw [List.getD_eq_getElem?_getD, List.getD_eq_getElem?_getD, linspace_get _ _ _ _ (by omega),
      linspace_get _ _ _ _ (by omega)]
    simp only [Option.getD_some]
    push_cast
    ring
  · rcases hd with rfl | rfl <;>
    · unfold radialAverage
      by_cases hg : d = 1 ∨ d = 2 ∨ d = 3
      · by_cases hL : d ≤ L.length
        · simp only [getK, if_pos hg, boxOf, if_pos hL, getKbins, h1, edges]
          rfl
        · simp only [getK, if_pos hg, boxOf, if_neg hL]
      · simp only [getK, if_neg hg]
  · rw [logspace_edge _ _ _ _ (by omega), logspace_edge _ _ _ _ (by omega), ← Real.rpow_add (by norm_num)]
    congr 1
    unfold edge
    rw [List.getD_eq_getElem?_getD, List.getD_eq_getElem?_getD, linspace_get _ _ _ _ (by omega),
      linspace_get _ _ _ _ (by omega)]
    simp only [Option.getD_some]
    push_cast
    ring
  · rcases hd with rfl | rfl <;>
    · unfold radialAverage
      by_cases hg : d = 1 ∨ d = 2 ∨ d = 3
      · by_cases hL : d ≤ L.length
        · simp only [getK, if_pos hg, boxOf, if_pos hL, getKbins, h1, edges]
          rfl
        · simp only [getK, if_pos hg, boxOf, if_neg hL]
      · simp only [getK, if_neg hg]

/-- In one dimension the modes below zero are never counted, whatever the (positive) edges:
one half of the modes that belong to a bin. -/
theorem C50_false_line (a : Arr (Fin 1) ℝ) (L e : List ℝ) (hL : 1 ≤ L.length) (hpos : 0 < L.getD 0 0)
    (hl : 2 ≤ e.length) (he : e.Pairwise (· ≤ ·)) (h0 : 0 ≤ edge e 0) (binning : Binning) (bp : ℝ) :
    open Classical in
    ∃ r, radialAverage a (.list L) (.array e) binning bp = .ok r ∧
      r.modes.sum ≤ ((box a.shape).filter fun i => ((a.shape 0 : ℝ) - 1) / 2 ≤ i 0).card := by
  classical
  obtain ⟨r, h1, h2, _⟩ := C50_total (Or.inl rfl) a L e hL hl he binning bp
  refine ⟨r, h1, ?_⟩
  rw [h2]
  refine Finset.card_le_card fun i hi => ?_
  rw [Finset.mem_filter] at hi ⊢
  refine ⟨hi.1, ?_⟩
  have h3 := h0.trans hi.2.1
  unfold kMag at h3
  rw [if_pos rfl, Fin.sum_univ_one] at h3
  unfold kComp center at h3
  rw [if_neg (by decide), show ((0 : Fin 1) : ℕ) = 0 from rfl, div_nonneg_iff] at h3
  have hp := Real.pi_pos
  rcases h3 with h3 | h3
  · have := h3.1
    rw [mul_nonneg_iff] at this
    rcases this with h | h
    · linarith [h.2]
    · linarith [h.1]
  · linarith [h3.2]

/-- Of five modes at most three are counted. -/
example : ((box (![5] : Fin 1 → ℕ)).filter fun i => ((5 : ℚ) - 1) / 2 ≤ i 0).card = 3 := by decide +kernel

/-- If no mode reaches the fundamental wave number of the shortest side, the edges decrease and
`np.histogram` raises. -/
theorem C50_raises {d : ℕ} (hd : d = 1 ∨ d = 2 ∨ d = 3) (a : Arr (Fin d) ℝ) (hs : ∀ j, 0 < a.shape j)
    (L : List ℝ) (hL : d ≤ L.length) (n : ℕ) (hn : 1 ≤ n) (bp : ℝ)
    (hk : ∀ i ∈ box a.shape, kMag a.shape L i < fundamental L) :
    radialAverage a (.list L) (.int n) .linear bp = .error .value := by
  obtain ⟨m, h1, ⟨i, hi, h2⟩, h3⟩ := kMax_ok a.shape L hs
  unfold radialAverage
  simp only [getK, if_pos hd, boxOf, if_pos hL, getKbins, h1, edges]
  rw [if_neg]
  exact linspace_unsorted (by rw [← h2]; exact hk i hi) hn

/-- A one-dimensional array of two cells in a box of any length is such a case. -/
example (l : ℝ) (hl : 0 < l) : ∀ i ∈ box (![2] : Fin 1 → ℕ), kMag ![2] [l] i < fundamental [l] := by
  intro i hi
  have h := (mem_box _ _).mp hi 0
  have h2 : (i 0 : ℝ) ≤ 1 := by
    have : i 0 < 2 := by simpa using h.2
    exact_mod_cast (by omega : i 0 ≤ 1)
  unfold kMag fundamental
  simp only [if_true, Fin.sum_univ_one, kComp, center, List.min?_singleton, Option.getD_some]
  norm_num
  rw [div_lt_div_iff_of_pos_right hl]
  have := Real.pi_pos
  nlinarith

/-- A cube of four cells a side. -/
example : fundamental [1, 1, 1] ≤ kMag (![4, 4, 4] : Fin 3 → ℕ) [1, 1, 1] ![3, 2, 2] ∧
    (![3, 2, 2] : Fin 3 → ℤ) ∈ box (![4, 4, 4] : Fin 3 → ℕ) := by
  constructor
  · unfold kMag fundamental
    rw [if_neg (by decide)]
    refine Real.le_sqrt_of_sq_le ?_
    rw [Fin.sum_univ_three]
    simp only [kComp, center]
    norm_num
    positivity
  · rw [mem_box]
    intro j
    match j with
    | 0 => decide
    | 1 => decide
    | 2 => decide

/-! ## C95 -/

/-- The full statement of C95: `box_dims` may be left out, a number, or array-like with one length
per axis; `kbins` may be an integer or array-like edges; equal values give equal results.  Proved:
leaving `box_dims` out or giving a number is the same as giving the list. -/
theorem C95_partial {d : ℕ} (LB : ℝ) (a : Arr (Fin d) ℝ) (x : ℝ) (kbins : KBins) (binning : Binning)
    (bp : ℝ) :
    power1d LB a .none kbins binning bp = power1d LB a (.list (List.replicate d LB)) kbins binning bp ∧
    power1d LB a (.number x) kbins binning bp = power1d LB a (.list (List.replicate d x)) kbins binning bp :=
  ⟨rfl, rfl⟩

/-- An array of side lengths raises in two and three dimensions, whatever the rest. -/
theorem C95_false_array {d : ℕ} (hd : 2 ≤ d) (LB : ℝ) (a : Arr (Fin d) ℝ) (l : List ℝ) (hl : l.length = d)
    (kbins : KBins) (binning : Binning) (bp : ℝ) :
    power1d LB a (.array l) kbins binning bp = .error .value := by
  simp only [power1d, getDims, if_neg (show ¬ l.length = 1 by omega)]

/-- A list of edges raises although the same edges in an array give a result. -/
theorem C95_false_edges {d : ℕ} (hd : d = 1 ∨ d = 2 ∨ d = 3) (LB : ℝ) (a : Arr (Fin d) ℝ) (L e : List ℝ)
    (hL : d ≤ L.length) (hl : 2 ≤ e.length) (he : e.Pairwise (· ≤ ·)) (binning : Binning) (bp : ℝ) :
    power1d LB a (.list L) (.list e) binning bp = .error .type ∧
    ∃ r, power1d LB a (.list L) (.array e) binning bp = .ok r := by
  constructor
  · unfold power1d getDims radialAverage
    simp only [getK, if_pos hd, boxOf, if_pos hL, getKbins]
  · obtain ⟨r, h, _⟩ := C50_partial hd (powerNd L a) L e hL hl he binning bp
    exact ⟨r, h⟩

/-- `radial_average` itself only takes side lengths one by one, contrary to its description. -/
theorem C95_raises {d : ℕ} (a : Arr (Fin d) ℝ) (x : ℝ) (kbins : KBins) (binning : Binning) (bp : ℝ) :
    radialAverage a .none kbins binning bp = .error .type ∧
    radialAverage a (.number x) kbins binning bp = .error .type := by
  unfold radialAverage getK
  constructor <;> by_cases h : d = 1 ∨ d = 2 ∨ d = 3
  · rw [if_pos h]; rfl
  · rw [if_neg h]
  · rw [if_pos h]; rfl
  · rw [if_neg h]

/-- The one-dimensional power spectrum of a cube, from the number of bins: every mode from the
fundamental one on is counted, for a side length given as a number. -/
theorem C95_modes (LB : ℝ) (a : Arr (Fin 3) ℝ) (hs : ∀ j, 0 < a.shape j) (x : ℝ) (hx : 0 < x) (n : ℕ)
    (hn : 1 ≤ n) (i₀ : Fin 3 → ℤ) (h₀ : i₀ ∈ box a.shape)
    (hk : 2 * Real.pi / x ≤ kMag a.shape [x, x, x] i₀) (bp : ℝ) :
    open Classical in
    ∃ r, power1d LB a (.number x) (.int n) .log bp = .ok r ∧
      r.modes.sum = ((box a.shape).filter fun i => 2 * Real.pi / x ≤ kMag a.shape [x, x, x] i).card := by
  have hf : fundamental [x, x, x] = 2 * Real.pi / x := by
    unfold fundamental
    simp [List.min?]
  have := C50_int (Or.inr (Or.inr rfl)) (powerNd [x, x, x] a) hs [x, x, x] (by simp) (by simpa using hx) n hn
    .log bp i₀ h₀ (by rw [hf]; exact hk) (by simp)
  rw [hf] at this
  exact this

end Verif.PowerSpectrum
