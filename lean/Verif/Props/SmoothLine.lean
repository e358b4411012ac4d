import Verif.Model.Smoothing
import Verif.Props.FindIdx
import Mathlib.Algebra.Order.Floor.Ring
import Mathlib.Data.List.GetD
import Mathlib.Tactic.NormNum
import Mathlib.Tactic.FieldSimp
import Mathlib.Tactic.Positivity
/-!
# Smoothing along one axis (C61, C62)
-/

set_option linter.unusedSectionVars false
set_option linter.unusedDecidableInType false

namespace Verif.Smoothing

open Verif.Helpers

/-! ## C61: `smooth_lightcone_tophat` -/

section Tophat

variable {K : Type} [Field K] [LinearOrder K] [IsStrictOrderedRing K] [FloorRing K]

/-- Specification: `c` is the first entry of the table that is at least `v`, or the last entry if there is none. -/
def First (zs : List K) (v : K) (c : ℕ) : Prop :=
  c < zs.length ∧ (∀ j < c, zs.getD j 0 < v) ∧ (v ≤ zs.getD c 0 ∨ c + 1 = zs.length)

theorem getD_lt (zs : List K) (h : zs.Pairwise (· < ·)) (i j : ℕ) (hij : i < j) (hj : j < zs.length) :
    zs.getD i 0 < zs.getD j 0 := by
  rw [List.getD_eq_getElem _ _ (hij.trans hj), List.getD_eq_getElem _ _ hj]
  exact List.pairwise_iff_getElem.1 h i j _ _ hij

theorem ceil_first (zs : List K) (h : zs.Pairwise (· < ·)) (t v : K) (hl : LinAt zs t v) :
    ∃ c : ℕ, ⌈t⌉ = c ∧ c < zs.length ∧ (∀ j < c, zs.getD j 0 < v) ∧ v ≤ zs.getD c 0 := by
  obtain ⟨i, a, b, ha, hb, h1, h2, rfl⟩ := hl
  obtain ⟨hia, rfl⟩ := List.getElem?_eq_some_iff.1 ha
  obtain ⟨hib, rfl⟩ := List.getElem?_eq_some_iff.1 hb
  have hab : zs[i] < zs[i + 1] := List.pairwise_iff_getElem.1 h i (i + 1) hia hib (by omega)
  rcases h1.eq_or_lt with rfl | hlt
  · refine ⟨i, by simp, hia, fun j hj => ?_, ?_⟩
    · have := getD_lt zs h j i hj hia
      rw [List.getD_eq_getElem _ _ hia] at this
      simpa using this
    · rw [List.getD_eq_getElem _ _ hia]; simp
  · refine ⟨i + 1, ?_, hib, fun j hj => ?_, ?_⟩
    · rw [Int.ceil_eq_iff]
      push_cast
      exact ⟨by linarith, h2⟩
    · have h3 : zs.getD j 0 ≤ zs[i] := by
        rcases Nat.lt_succ_iff_lt_or_eq.1 hj with h4 | rfl
        · have := getD_lt zs h j i h4 hia
          rw [List.getD_eq_getElem _ _ hia] at this
          exact this.le
        · rw [List.getD_eq_getElem _ _ hia]
      have : 0 < (t - i) * (zs[i + 1] - zs[i]) := mul_pos (by linarith) (by linarith)
      linarith
    · rw [List.getD_eq_getElem _ _ hib]
      have : (t - i) * (zs[i + 1] - zs[i]) ≤ 1 * (zs[i + 1] - zs[i]) :=
        mul_le_mul_of_nonneg_right (by linarith) (by linarith)
      linarith

theorem findIdx_first (zs : List K) (h : zs.Pairwise (· < ·)) (hlen : 2 ≤ zs.length) (v : K) :
    ∃ (t : K) (c : ℕ), findIdx zs v = .ok (some t) ∧ ⌈t⌉ = c ∧ First zs v c := by
  have h01 : zs[0] < zs[1] := List.pairwise_iff_getElem.1 h 0 1 _ _ (by omega)
  obtain ⟨t, ht, hin, hhigh, hlow⟩ := findIdx_spec zs (Or.inl (h.imp le_of_lt)) zs[0] zs[1] (List.getElem_mem _)
    (List.getElem_mem _) h01.ne v
  by_cases hA : ∃ a ∈ zs, a ≤ v
  · by_cases hB : ∃ b ∈ zs, v ≤ b
    · obtain ⟨c, h1, h2, h3, h4⟩ := ceil_first zs h t v (hin hA hB)
      exact ⟨t, c, ht, h1, h2, h3, Or.inl h4⟩
    · push Not at hB
      obtain ⟨m, hm, hmax, hlin⟩ := hhigh fun a ha => (hB a ha).le
      obtain ⟨c, h1, h2, h3, h4⟩ := ceil_first zs h t m hlin
      refine ⟨t, c, ht, h1, h2, fun j hj => (h3 j hj).trans (hB m hm), Or.inr ?_⟩
      by_contra hc
      have h5 := getD_lt zs h c (c + 1) (by omega) (by omega)
      have h6 : zs.getD (c + 1) 0 ≤ m := by
        rw [List.getD_eq_getElem _ _ (show c + 1 < zs.length by omega)]
        exact hmax _ (List.getElem_mem _)
      linarith
  · push Not at hA
    obtain ⟨m, hm, hmin, hlin⟩ := hlow fun a ha => (hA a ha).le
    obtain ⟨c, h1, h2, h3, h4⟩ := ceil_first zs h t m hlin
    have hc : c = 0 := by
      by_contra hc
      have h5 := h3 0 (by omega)
      rw [List.getD_eq_getElem _ _ (show 0 < zs.length by omega)] at h5
      have := hmin zs[0] (List.getElem_mem _)
      linarith
    subst hc
    refine ⟨t, 0, ht, h1, h2, fun j hj => absurd hj (by omega), Or.inl ?_⟩
    rw [List.getD_eq_getElem _ _ h2]
    exact (hA _ (List.getElem_mem _)).le

theorem mapM_ok {α β : Type} (f : α → Except String β) (g : α → β) (l : List α) (h : ∀ a ∈ l, f a = .ok (g a)) :
    l.mapM f = .ok (l.map g) := by
  induction l with
  | nil => rfl
  | cons a l ih =>
    rw [List.mapM_cons, h a (by simp), ih fun b hb => h b (by simp [hb])]
    rfl

theorem part_sum (l : List K) (a m : ℕ) (h : a + m ≤ l.length) :
    ((l.drop a).take m).sum = ∑ j ∈ Finset.range m, l.getD (a + j) 0 := by
  induction m with
  | zero => simp
  | succ m ih =>
    rw [Finset.sum_range_succ, ← ih (by omega)]
    have hm : m < (l.drop a).length := by rw [List.length_drop]; omega
    rw [List.take_succ_eq_append_getElem hm, List.sum_append, List.getD_eq_getElem _ _ (by omega)]
    simp

/-- The mean of the values `lo … hi` of a line. -/
def rangeMean (line : List K) (lo hi : ℕ) : K := (∑ j ∈ Finset.Icc lo hi, line.getD j 0) / ((hi : K) - lo + 1)

/-- What `smooth_lightcone_tophat` computes on increasing redshifts: the mean of the slices from the first one at
or above the lower end of the window up to *and including* the first one at or above its upper end. -/
theorem tophat_lightcone (zs dz line : List K) (hz : zs.Pairwise (· < ·)) (hlen : 2 ≤ zs.length)
    (hd : dz.length = zs.length) (hl : line.length = zs.length) (hpos : ∀ d ∈ dz, 0 ≤ d) :
    ∃ out, lightconeTophat zs dz line = .ok out ∧ out.length = line.length ∧
      ∀ i < line.length, ∃ lo hi, lo ≤ i ∧ i ≤ hi ∧ First zs (zs.getD i 0 - dz.getD i 0 / 2) lo ∧
        First zs (zs.getD i 0 + dz.getD i 0 / 2) hi ∧ out.getD i 0 = rangeMean line lo hi := by
  choose t c ht hc hfirst using findIdx_first zs hz hlen
  set lo : ℕ → ℕ := fun i => c (zs.getD i 0 - dz.getD i 0 / 2) with hlo
  set hi : ℕ → ℕ := fun i => c (zs.getD i 0 + dz.getD i 0 / 2) with hhi
  have hd0 : ∀ i < line.length, 0 ≤ dz.getD i 0 := by
    intro i hi
    rw [List.getD_eq_getElem _ _ (by omega)]
    exact hpos _ (List.getElem_mem _)
  have hloi : ∀ i < line.length, lo i ≤ i := by
    intro i hi'
    by_contra hcon
    have := (hfirst (zs.getD i 0 - dz.getD i 0 / 2)).2.1 i (not_le.1 hcon)
    have := hd0 i hi'
    linarith
  have hhii : ∀ i < line.length, i ≤ hi i := by
    intro i hi'
    by_contra hcon
    obtain ⟨h1, h2, h3⟩ := hfirst (zs.getD i 0 + dz.getD i 0 / 2)
    have h0 := hd0 i hi'
    rcases h3 with h3 | h3
    · have := getD_lt zs hz (hi i) i (by omega) (by omega)
      simp only [hhi] at this
      linarith
    · simp only [hhi] at hcon
      omega
  refine ⟨(List.range line.length).map fun i => rangeMean line (lo i) (hi i), ?_, by simp, ?_⟩
  · unfold lightconeTophat
    apply mapM_ok
    intro i hi'
    rw [List.mem_range] at hi'
    have hzi : zs[i]? = some (zs.getD i 0) := by
      rw [List.getD_eq_getElem _ _ (by omega), List.getElem?_eq_getElem]
    have hdi : dz[i]? = some (dz.getD i 0) := by
      rw [List.getD_eq_getElem _ _ (by omega), List.getElem?_eq_getElem]
    simp only [hzi, hdi]
    rw [ht, ht]
    simp only [bind, Except.bind]
    rw [hc, hc]
    have h1 : lo i ≤ i := hloi i hi'
    have h2 : i ≤ hi i := hhii i hi'
    have h3 : hi i < zs.length := (hfirst _).1
    have e1 : bound line.length ((c (zs.getD i 0 - dz.getD i 0 / 2) : ℕ) : ℤ) = (lo i : ℤ) := by
      unfold bound
      rw [if_neg (by omega)]
      simp only [hlo] at h1 ⊢
      omega
    have e2 : bound line.length (((c (zs.getD i 0 + dz.getD i 0 / 2) : ℕ) : ℤ) + 1) = (hi i : ℤ) + 1 := by
      unfold bound
      rw [if_neg (by omega)]
      simp only [hhi] at h3 ⊢
      omega
    rw [e1, e2]
    have e3 : ((hi i : ℤ) + 1 - lo i).toNat = hi i + 1 - lo i := by omega
    rw [e3, Int.toNat_natCast]
    have hl2 : (List.take (hi i + 1 - lo i) (List.drop (lo i) line)).length = hi i + 1 - lo i := by
      rw [List.length_take, List.length_drop]; omega
    rw [if_neg (by intro h; rw [h, List.length_nil] at hl2; omega), hl2, part_sum _ _ _ (by omega)]
    unfold rangeMean
    congr 2
    · rw [← Finset.Ico_succ_right_eq_Icc, Finset.sum_Ico_eq_sum_range]
      rfl
    · rw [Nat.cast_sub (by omega)]; push_cast; ring
  · intro i hi'
    refine ⟨lo i, hi i, hloi i hi', hhii i hi', hfirst _, hfirst _, ?_⟩
    rw [List.getD_eq_getElem _ _ (by simpa using hi')]
    simp

/-- C61, proved part: every slice of the window enters the mean, and apart from the last one all slices that enter
lie in the window.  Missing: the last slice need not lie in the window (`C61_false`). -/
theorem C61_partial (zs dz line : List K) (hz : zs.Pairwise (· < ·)) (hlen : 2 ≤ zs.length)
    (hd : dz.length = zs.length) (hl : line.length = zs.length) (hpos : ∀ d ∈ dz, 0 ≤ d) :
    ∃ out, lightconeTophat zs dz line = .ok out ∧ out.length = line.length ∧
      ∀ i < line.length, ∃ lo hi, out.getD i 0 = rangeMean line lo hi ∧ lo ≤ i ∧ i ≤ hi ∧ hi < line.length ∧
        (∀ j < line.length, zs.getD i 0 - dz.getD i 0 / 2 ≤ zs.getD j 0 → zs.getD j 0 ≤ zs.getD i 0 + dz.getD i 0 / 2 →
          lo ≤ j ∧ j ≤ hi) ∧
        (∀ j, lo ≤ j → j < hi →
          zs.getD i 0 - dz.getD i 0 / 2 ≤ zs.getD j 0 ∧ zs.getD j 0 ≤ zs.getD i 0 + dz.getD i 0 / 2) := by
  obtain ⟨out, h1, h2, h3⟩ := tophat_lightcone zs dz line hz hlen hd hl hpos
  refine ⟨out, h1, h2, fun i hi => ?_⟩
  obtain ⟨lo, hi', ha, hb, ⟨hlo1, hlo2, hlo3⟩, ⟨hhi1, hhi2, hhi3⟩, he⟩ := h3 i hi
  refine ⟨lo, hi', he, ha, hb, by omega, ?_, ?_⟩
  · intro j hj hj1 hj2
    constructor
    · by_contra hc
      have := hlo2 j (by omega)
      linarith
    · by_contra hc
      rcases hhi3 with hhi3 | hhi3
      · have := getD_lt zs hz hi' j (by omega) (by omega)
        linarith
      · omega
  · intro j hj1 hj2
    refine ⟨?_, (hhi2 j hj2).le⟩
    rcases hlo3 with hlo3 | hlo3
    · rcases hj1.eq_or_lt with rfl | h
      · exact hlo3
      · have := getD_lt zs hz lo j h (by omega)
        linarith
    · omega

example : lightconeTophat [(6 : ℚ), 7, 8, 9] [2, 2, 2, 2] [1, 4, 7, 1] = .ok [5 / 2, 4, 4, 4] := by decide +kernel

/-- C61 fails: wherever the window is narrower than the spacing of the slices, so that it contains slice `i` only, the
result is nevertheless the mean of slices `i` and `i+1`. -/
theorem C61_false (zs dz line : List K) (hz : zs.Pairwise (· < ·)) (hlen : 2 ≤ zs.length)
    (hd : dz.length = zs.length) (hl : line.length = zs.length) (hpos : ∀ d ∈ dz, 0 ≤ d) (i : ℕ)
    (hi : i + 1 < line.length) (hd0 : 0 < dz.getD i 0) (hup : zs.getD i 0 + dz.getD i 0 / 2 < zs.getD (i + 1) 0)
    (hdown : i = 0 ∨ zs.getD (i - 1) 0 < zs.getD i 0 - dz.getD i 0 / 2) :
    ∃ out, lightconeTophat zs dz line = .ok out ∧
      out.getD i 0 = (line.getD i 0 + line.getD (i + 1) 0) / 2 := by
  obtain ⟨out, h1, h2, h3⟩ := tophat_lightcone zs dz line hz hlen hd hl hpos
  refine ⟨out, h1, ?_⟩
  obtain ⟨lo, hi', ha, hb, ⟨hlo1, hlo2, hlo3⟩, ⟨hhi1, hhi2, hhi3⟩, he⟩ := h3 i (by omega)
  have e1 : lo = i := by
    by_contra hne
    have hlt : lo < i := by omega
    have h4 : zs.getD lo 0 < zs.getD i 0 - dz.getD i 0 / 2 := by
      rcases hdown with rfl | hdown
      · omega
      · rcases (show lo ≤ i - 1 by omega).eq_or_lt with h | h
        · rw [h]; exact hdown
        · exact (getD_lt zs hz lo (i - 1) h (by omega)).trans hdown
    rcases hlo3 with hlo3 | hlo3
    · linarith
    · omega
  have e2 : hi' = i + 1 := by
    have h4 : ¬ i + 1 < hi' := by
      intro h
      have := hhi2 (i + 1) h
      linarith
    have h5 : hi' ≠ i := by
      rintro rfl
      rcases hhi3 with hhi3 | hhi3
      · linarith
      · omega
    omega
  rw [he, e1, e2]
  unfold rangeMean
  rw [Finset.sum_Icc_succ_top (by omega), Finset.Icc_self, Finset.sum_singleton]
  congr 1
  push_cast
  ring

example : lightconeTophat [(6 : ℚ), 7, 8] [1 / 100, 1 / 100, 1 / 100] [0, 0, 10] = .ok [0, 5, 10] := by decide +kernel

end Tophat

/-! ## C62: `smooth_line` -/

variable {K : Type} [Field K]

/-- The value of a line at an integer position, 0 outside. -/
def atPos (y : List K) (t : ℤ) : K := if 0 ≤ t then y.getD t.toNat 0 else 0

/-- What `smooth_line` computes with a window not longer than the line: a result of the length of the line, the sum of
the window times the line, centred on window cell `(m-1)/2`, the line being 0 beyond its ends. -/
theorem smoothLine_spec (y w : List K) (hw : w ≠ []) (h : w.length ≤ y.length) :
    ∃ out, convolveSame y w = .ok out ∧ out.length = y.length ∧
      ∀ i < y.length, out.getD i 0 =
        ∑ j ∈ Finset.range w.length, w.getD j 0 * atPos y (i + ((w.length - 1) / 2 : ℕ) - j) := by
  have hy : y ≠ [] := by
    rintro rfl
    exact hw (List.length_eq_zero_iff.1 (by simpa using h))
  refine ⟨_, by simp only [convolveSame, hy, hw, or_self, if_false]; rfl, by simp [h], fun i hi => ?_⟩
  rw [List.getD_eq_getElem _ _ (by simpa using Or.inl hi)]
  simp only [List.getElem_map, List.getElem_range]
  apply Finset.sum_congr rfl
  intro j _
  congr 1
  rw [min_eq_right h]
  unfold atPos
  by_cases hj : j ≤ i + (w.length - 1) / 2
  · rw [if_pos hj, if_pos (by omega)]
    congr 1
    omega
  · rw [if_neg hj, if_neg (by omega)]

/-- C62, proved part: a window with sum 1 leaves a constant stretch of the line unchanged wherever the window does not
reach beyond it.  Missing: the ends of the line (`C62_false_ends`), windows that do not sum to 1
(`C62_false_hamming`), windows longer than the line (`C62_false_long`). -/
theorem C62_partial (y w : List K) (hw : w ≠ []) (h : w.length ≤ y.length)
    (h1 : ∑ j ∈ Finset.range w.length, w.getD j 0 = 1) (v : K) (i : ℕ) (hi : w.length ≤ i + 1 + (w.length - 1) / 2)
    (hi2 : i + (w.length - 1) / 2 < y.length)
    (hv : ∀ j < w.length, y.getD (i + (w.length - 1) / 2 - j) 0 = v) :
    ∃ out, convolveSame y w = .ok out ∧ out.length = y.length ∧ out.getD i 0 = v := by
  obtain ⟨out, h2, h3, h4⟩ := smoothLine_spec y w hw h
  refine ⟨out, h2, h3, ?_⟩
  rw [h4 i (by omega)]
  have : ∀ j ∈ Finset.range w.length, w.getD j 0 * atPos y (i + ((w.length - 1) / 2 : ℕ) - j) = w.getD j 0 * v := by
    intro j hj
    rw [Finset.mem_range] at hj
    rw [← hv j hj]
    unfold atPos
    rw [if_pos (by omega)]
    congr 2
    omega
  rw [Finset.sum_congr rfl this, ← Finset.sum_mul, h1, one_mul]

example : convolveSame [(2 : ℚ), 2, 2, 2, 5] (boxWindow 3) = .ok [4 / 3, 2, 2, 3, 7 / 3] := by decide +kernel

/-- The box window sums to 1. -/
theorem boxWindow_sum [CharZero K] (n : ℕ) (hn : 0 < n) :
    ∑ j ∈ Finset.range (boxWindow n : List K).length, (boxWindow n : List K).getD j 0 = 1 := by
  have hl : (boxWindow n : List K).length = n := by simp [boxWindow]
  have he : ∀ j ∈ Finset.range n, (boxWindow n : List K).getD j 0 = 1 / (n : K) := by
    intro j hj
    rw [List.getD_eq_getElem _ _ (by rw [hl]; exact Finset.mem_range.1 hj)]
    simp [boxWindow]
  rw [hl, Finset.sum_congr rfl he, Finset.sum_const, Finset.card_range, nsmul_eq_mul]
  have : (n : K) ≠ 0 := by exact_mod_cast hn.ne'
  field_simp

example := boxWindow_sum (K := ℚ) 4 (by norm_num)

/-- C62 fails at the ends: a constant line of value 3 comes back with 2 in its first cell. -/
theorem C62_false_ends : convolveSame [(3 : ℚ), 3, 3, 3] (boxWindow 3) = .ok [2, 3, 3, 2] := by decide +kernel

/-- C62 fails for windows longer than the line: the result has the length of the window. -/
theorem C62_false_long (y w : List K) (hy : y ≠ []) (h : y.length < w.length) :
    ∃ out, convolveSame y w = .ok out ∧ out.length = w.length := by
  have hw : w ≠ [] := by rintro rfl; simp at h
  exact ⟨_, by simp only [convolveSame, hy, hw, or_self, if_false]; rfl, by simp [h.le]⟩

/-- C62 fails for the Hamming window, which is not normalised: with a window of three cells the level rises by 16 %. -/
theorem C62_false_hamming : (hammingWindow 3).sum = 1.16 := by
  have e : hammingWindow 3 = [0.08, 1, 0.08] := by
    have h1 : Real.cos (Real.pi * (1 - (3 : ℕ) + 2 * (0 : ℕ) : ℝ) / (((3 : ℕ) : ℝ) - 1)) = -1 := by
      have : Real.pi * (1 - (3 : ℕ) + 2 * (0 : ℕ) : ℝ) / (((3 : ℕ) : ℝ) - 1) = -Real.pi := by push_cast; ring
      rw [this, Real.cos_neg, Real.cos_pi]
    have h2 : Real.cos (Real.pi * (1 - (3 : ℕ) + 2 * (1 : ℕ) : ℝ) / (((3 : ℕ) : ℝ) - 1)) = 1 := by
      have : Real.pi * (1 - (3 : ℕ) + 2 * (1 : ℕ) : ℝ) / (((3 : ℕ) : ℝ) - 1) = 0 := by push_cast; ring
      rw [this, Real.cos_zero]
    have h3 : Real.cos (Real.pi * (1 - (3 : ℕ) + 2 * (2 : ℕ) : ℝ) / (((3 : ℕ) : ℝ) - 1)) = -1 := by
      have : Real.pi * (1 - (3 : ℕ) + 2 * (2 : ℕ) : ℝ) / (((3 : ℕ) : ℝ) - 1) = Real.pi := by push_cast; ring
      rw [this, Real.cos_pi]
    have hr : List.range 3 = [0, 1, 2] := rfl
    simp only [hammingWindow, hr, List.map_cons, List.map_nil, h1, h2, h3]
    norm_num
  rw [e]
  norm_num

/-- C62: a window given as a list of integers is refused with numpy's casting error instead of being normalised; any
other list with a sum different from 0 is normalised. -/
theorem customWindow_spec [DecidableEq K] (w : List K) :
    customWindow w true = .error "UFuncTypeError" ∧
      (w.sum ≠ 0 → ∃ w', customWindow w false = .ok w' ∧ w'.length = w.length ∧ w'.sum = 1) := by
  refine ⟨rfl, fun h => ⟨_, by simp [customWindow, h]; rfl, by simp, ?_⟩⟩
  have : ∀ (l : List K) (c : K), (l.map (· / c)).sum = l.sum / c := by
    intro l c
    induction l with
    | nil => simp
    | cons a l ih => rw [List.map_cons, List.sum_cons, List.sum_cons, ih, add_div]
  rw [this, div_self h]

/-- C62: the triangular window is normalised. -/
theorem triangular_sum [CharZero K] (n : ℕ) (hn : 0 < n) : (triangularWindow n : List K).sum = 1 := by
  have hmap : ∀ (l : List K) (c : K), (l.map (· / c)).sum = l.sum / c := by
    intro l c
    induction l with
    | nil => simp
    | cons a l ih => rw [List.map_cons, List.sum_cons, List.sum_cons, ih, add_div]
  unfold triangularWindow
  simp only
  rw [hmap]
  apply div_self
  -- all entries are positive integers
  have h1 : ∀ n : ℕ, ∃ l : List ℕ, ((List.range n).map fun (i : ℕ) => (i : K) + 1) = l.map (fun (m : ℕ) => (m : K)) ∧
      l.length = n ∧ ∀ m ∈ l, 0 < m := by
    intro n
    refine ⟨(List.range n).map (· + 1), ?_, by simp, by simp⟩
    rw [List.map_map]
    apply List.map_congr_left
    intro i _
    simp
  obtain ⟨l, hl1, hl2, hl3⟩ := h1 n
  rw [hl1, ← List.map_reverse, ← List.map_drop, ← List.map_append]
  have h2 : ∀ l : List ℕ, (l.map fun (m : ℕ) => (m : K)).sum = ((l.sum : ℕ) : K) := by
    intro l
    induction l with
    | nil => simp
    | cons a l ih => rw [List.map_cons, List.sum_cons, List.sum_cons, ih]; push_cast; ring
  rw [h2]
  have h3 : 0 < l.sum := by
    match l, hl2, hl3 with
    | [], hl2, _ => simp at hl2; omega
    | a :: l, _, hl3 =>
      have := hl3 a (by simp)
      rw [List.sum_cons]
      omega
  rw [List.sum_append]
  have : l.sum + (l.reverse.drop 1).sum ≠ 0 := by omega
  exact_mod_cast this

example : (triangularWindow 2 : List ℚ) = [1 / 4, 2 / 4, 1 / 4] := by decide +kernel

end Verif.Smoothing
