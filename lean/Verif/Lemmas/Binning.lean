import Verif.Model.Binning
import Verif.Props.FindIdx
import Verif.Props.SmoothLine
import Verif.Props.Distances
import Mathlib.Algebra.Order.Floor.Ring
import Mathlib.Algebra.Order.Floor.Semiring
import Mathlib.Algebra.BigOperators.Ring.Finset
import Mathlib.Algebra.BigOperators.Field
/-!
# Lemmas about table lookup, `np.arange`, rounding and tophat smoothing
-/

namespace Verif.Binning

open Verif.Conversions Verif.Constants Verif.Helpers

theorem lookup_floor (fs : List ℝ) (v t : ℝ) (hl : LinAt fs t v) :
    ∃ i : ℕ, ⌊t⌋₊ = i ∧ i < fs.length ∧
      (v = fs.getD i 0 ∨ (i + 1 < fs.length ∧ ∃ s, 0 < s ∧ s < 1 ∧
        v = fs.getD i 0 + s * (fs.getD (i + 1) 0 - fs.getD i 0))) := by
  obtain ⟨i, a, b, ha, hb, h1, h2, h3⟩ := hl
  obtain ⟨hia, rfl⟩ := List.getElem?_eq_some_iff.1 ha
  obtain ⟨hib, rfl⟩ := List.getElem?_eq_some_iff.1 hb
  rcases h2.eq_or_lt with rfl | hlt
  · refine ⟨i + 1, ?_, hib, Or.inl ?_⟩
    · have : (i : ℝ) + 1 = ((i + 1 : ℕ) : ℝ) := by push_cast; ring
      rw [this, Nat.floor_natCast]
    · rw [List.getD_eq_getElem _ _ hib, h3]; ring
  · refine ⟨i, ?_, hia, ?_⟩
    · rw [Nat.floor_eq_iff ((Nat.cast_nonneg i).trans h1)]
      exact ⟨h1, hlt⟩
    · rw [List.getD_eq_getElem _ _ hia, List.getD_eq_getElem _ _ hib]
      rcases h1.eq_or_lt with rfl | hlt'
      · left; rw [h3]; ring
      · right
        exact ⟨hib, t - i, by linarith, by linarith, h3⟩

theorem pick_desc (fs : List ℝ) (h : fs.Pairwise (· > ·)) (hlen : 2 ≤ fs.length) (v : ℝ)
    (h0 : v ≤ fs.getD 0 0) (h1 : fs.getD (fs.length - 1) 0 ≤ v) :
    ∃ j, pick fs v = .ok j ∧ j < fs.length ∧ v ≤ fs.getD j 0 ∧
      ∀ i, j < i → i < fs.length → fs.getD i 0 < v := by
  have hlt : ∀ i j (hi : i < j) (hj : j < fs.length), fs.getD j 0 < fs.getD i 0 := by
    intro i j hi hj
    rw [List.getD_eq_getElem _ _ hj, List.getD_eq_getElem _ _ (hi.trans hj)]
    exact List.pairwise_iff_getElem.1 h i j _ _ hi
  have hmem : ∀ i, i < fs.length → fs.getD i 0 ∈ fs := by
    intro i hi
    rw [List.getD_eq_getElem _ _ hi]
    exact List.getElem_mem _
  obtain ⟨t, ht, hin, -, -⟩ := findIdx_spec fs (Or.inr (h.imp fun h => le_of_lt h)) _ _ (hmem 0 (by omega))
    (hmem 1 (by omega)) (hlt 0 1 (by omega) (by omega)).ne' v
  have hl := hin ⟨_, hmem (fs.length - 1) (by omega), h1⟩ ⟨_, hmem 0 (by omega), h0⟩
  obtain ⟨i, hi, hil, hv⟩ := lookup_floor fs v t hl
  refine ⟨i, by unfold pick; rw [ht, ← hi], hil, ?_, ?_⟩
  · rcases hv with hv | ⟨hi1, s, hs0, hs1, hv⟩
    · exact hv.le
    · have := hlt i (i + 1) (by omega) hi1
      nlinarith
  · intro j hij hj
    rcases hv with hv | ⟨hi1, s, hs0, hs1, hv⟩
    · rw [hv]; exact hlt i j hij hj
    · have h2 := hlt i (i + 1) (by omega) hi1
      have h3 : fs.getD j 0 ≤ fs.getD (i + 1) 0 := by
        rcases Nat.eq_or_lt_of_le hij with rfl | h'
        · exact le_refl _
        · exact (hlt (i + 1) j h' hj).le
      nlinarith

theorem pick_asc (fs : List ℝ) (h : fs.Pairwise (· < ·)) (hlen : 2 ≤ fs.length) (v : ℝ)
    (h0 : fs.getD 0 0 ≤ v) (h1 : v ≤ fs.getD (fs.length - 1) 0) :
    ∃ j, pick fs v = .ok j ∧ j < fs.length ∧ fs.getD j 0 ≤ v ∧
      ∀ i, j < i → i < fs.length → v < fs.getD i 0 := by
  have hlt : ∀ i j (hi : i < j) (hj : j < fs.length), fs.getD i 0 < fs.getD j 0 := by
    intro i j hi hj
    rw [List.getD_eq_getElem _ _ hj, List.getD_eq_getElem _ _ (hi.trans hj)]
    exact List.pairwise_iff_getElem.1 h i j _ _ hi
  have hmem : ∀ i, i < fs.length → fs.getD i 0 ∈ fs := by
    intro i hi
    rw [List.getD_eq_getElem _ _ hi]
    exact List.getElem_mem _
  obtain ⟨t, ht, hin, -, -⟩ := findIdx_spec fs (Or.inl (h.imp fun h => le_of_lt h)) _ _ (hmem 0 (by omega))
    (hmem 1 (by omega)) (hlt 0 1 (by omega) (by omega)).ne v
  have hl := hin ⟨_, hmem 0 (by omega), h0⟩ ⟨_, hmem (fs.length - 1) (by omega), h1⟩
  obtain ⟨i, hi, hil, hv⟩ := lookup_floor fs v t hl
  refine ⟨i, by unfold pick; rw [ht, ← hi], hil, ?_, ?_⟩
  · rcases hv with hv | ⟨hi1, s, hs0, hs1, hv⟩
    · exact hv.ge
    · have := hlt i (i + 1) (by omega) hi1
      nlinarith
  · intro j hij hj
    rcases hv with hv | ⟨hi1, s, hs0, hs1, hv⟩
    · rw [hv]; exact hlt i j hij hj
    · have h2 := hlt i (i + 1) (by omega) hi1
      have h3 : fs.getD (i + 1) 0 ≤ fs.getD j 0 := by
        rcases Nat.eq_or_lt_of_le hij with rfl | h'
        · exact le_refl _
        · exact (hlt (i + 1) j h' hj).le
      nlinarith

theorem arange_length (a b s : ℝ) : (arange a b s).length = ⌈(b - a) / s⌉₊ := by simp [arange]

theorem arange_getD (a b s : ℝ) (i : ℕ) (hi : i < (arange a b s).length) :
    (arange a b s).getD i 0 = a + i * s := by
  rw [List.getD_eq_getElem _ _ hi]
  simp [arange]

theorem arange_lt (a b s : ℝ) (i : ℕ) (hi : i < (arange a b s).length) :
    (i : ℝ) < (b - a) / s := by
  rw [arange_length] at hi
  exact Nat.lt_ceil.1 hi

theorem roundEven_near (x : ℝ) : |(roundEven x : ℝ) - x| ≤ 1 / 2 := by
  have h0 := Int.floor_le x
  have h1 := Int.lt_floor_add_one x
  unfold roundEven
  rw [abs_le]
  split_ifs <;> push_cast <;> constructor <;> linarith

theorem smoothScale_pos (a b : ℝ) : 1 ≤ smoothScale a b := by
  unfold smoothScale
  split_ifs <;> omega

/-- The tophat has the width of the cell, to the nearest whole number, and at least one. -/
theorem smoothScale_near (a b : ℝ) :
    |(smoothScale a b : ℝ) - a / b| ≤ 1 / 2 ∨ (smoothScale a b = 1 ∧ a / b ≤ 1 / 2) := by
  have h := roundEven_near (a / b)
  unfold smoothScale
  split_ifs with h1
  · right
    refine ⟨rfl, ?_⟩
    have : (roundEven (a / b) : ℝ) ≤ 0 := by exact_mod_cast Int.lt_add_one_iff.1 h1
    rw [abs_le] at h
    linarith
  · left
    have : (((roundEven (a / b)).toNat : ℕ) : ℝ) = (roundEven (a / b) : ℝ) := by
      have : (((roundEven (a / b)).toNat : ℕ) : ℤ) = roundEven (a / b) := Int.toNat_of_nonneg (by omega)
      exact_mod_cast this
    rw [this]
    exact h

/-- The full convolution is the sum of the entries `j-w+1 … j` that exist, over `w`. -/
theorem full_eq (w n : ℕ) (f : ℕ → ℝ) (j : ℕ) (hj : j < n) :
    full w n f j = (∑ t ∈ Finset.range (min w (j + 1)), f (j - t)) / w := by
  unfold full
  rw [Finset.sum_div, ← Finset.sum_subset (s₁ := Finset.range (min w (j + 1))) (s₂ := Finset.range w)]
  · refine Finset.sum_congr rfl fun t ht => ?_
    rw [Finset.mem_range] at ht
    rw [if_pos (by omega)]
    ring
  · intro t ht
    rw [Finset.mem_range] at ht ⊢
    omega
  · intro t ht hnt
    rw [Finset.mem_range] at ht hnt
    rw [if_neg (by omega)]

theorem pick_getD (fs out : List ℝ) (P : ℝ → ℕ → Prop) (h : ∀ v ∈ out, ∃ j, pick fs v = .ok j ∧ P v j) :
    ∃ idx, out.mapM (pick fs) = .ok idx ∧ idx.length = out.length ∧ (∀ j ∈ idx, ∃ v ∈ out, P v j) ∧
      ∀ i < out.length, P (out.getD i 0) (idx.getD i 0) := by
  classical
  choose! g hg using h
  refine ⟨out.map g, Smoothing.mapM_ok _ g out fun v hv => (hg v hv).1, by simp, ?_, ?_⟩
  · intro j hj
    obtain ⟨v, hv, rfl⟩ := List.mem_map.1 hj
    exact ⟨v, hv, (hg v hv).2⟩
  · intro i hi
    rw [List.getD_eq_getElem out _ hi, List.getD_eq_getElem (out.map g) _ (by simpa using hi), List.getElem_map]
    exact (hg _ (List.getElem_mem _)).2

end Verif.Binning
