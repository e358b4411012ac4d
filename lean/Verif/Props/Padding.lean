import Verif.Model.Padding
import Mathlib.Tactic.Linarith
import Mathlib.Tactic.Ring
/-!
# Periodic padding

C42: cell `(i, j)` of the padded slice is cell `(i mod n, j mod n)` of the original.
-/

namespace Verif.Padding

/-- `b` continues the square slice `s` of side `n` periodically to the side `N`. -/
def Continues {R : Type*} (n : ℕ) (s : Mat R) (N : ℕ) (b : Mat R) : Prop :=
  b.rows = N ∧ b.cols = N ∧ ∀ i < N, ∀ j < N, b.val i j = s.val (i % n) (j % n)

theorem stopOf_nonneg (n k : ℕ) : stopOf n (k : ℤ) = min n k := by
  unfold stopOf
  rw [if_neg (by omega)]
  simp

theorem spread_same (n i : ℕ) : (spread n n i).getD 0 = i := by simp [spread]

theorem mod_of_ge {n i : ℕ} (h1 : n ≤ i) (h2 : i < 2 * n) : i % n = i - n := by
  rw [Nat.mod_eq_sub_mod h1, Nat.mod_eq_of_lt (by omega)]

/-- Up to twice the size the padding is periodic. -/
theorem C42_partial {R : Type*} [Zero R] (s : Mat R) (n N : ℕ) (hr : s.rows = n) (hc : s.cols = n)
    (h1 : n ≤ N) (h2 : N ≤ 2 * n) : ∃ b, getPaddedSlice s N = .ok b ∧ Continues n s N b := by
  obtain ⟨sr, sc, val⟩ := s
  simp only at hr hc
  subst hr hc
  have hd : (N : ℤ) - sc = ((N - sc : ℕ) : ℤ) := by omega
  have hmin : min sc N = sc := by omega
  have hs : min sc (N - sc) = N - sc := by omega
  unfold getPaddedSlice
  simp only [hd, hmin, Mat.head, stopOf_nonneg, hs, min_self, Mat.put, Nat.sub_zero, true_or,
      and_self, if_true, bind, Except.bind]
  refine ⟨_, rfl, ?_⟩
  · refine ⟨rfl, rfl, fun i hi j hj => ?_⟩
    simp only [spread_same, Nat.sub_zero]
    rcases lt_or_ge i sc with hi1 | hi1 <;> rcases lt_or_ge j sc with hj1 | hj1
    · rw [if_neg (by omega), if_neg (by omega), if_neg (by omega), if_pos (by omega),
        Nat.mod_eq_of_lt hi1, Nat.mod_eq_of_lt hj1]
    · rw [if_neg (by omega), if_pos (by omega), Nat.mod_eq_of_lt hi1,
        mod_of_ge hj1 (by omega)]
    · rw [if_neg (by omega), if_neg (by omega), if_pos (by omega), Nat.mod_eq_of_lt hj1,
        mod_of_ge hi1 (by omega)]
    · rw [if_pos (by omega), mod_of_ge hi1 (by omega), mod_of_ge hj1 (by omega)]

example : (3 : ℕ) ≤ 5 ∧ (5 : ℕ) ≤ 2 * 3 := by decide

/-- A single cell is spread over any size. -/
theorem C42_single {R : Type*} [Zero R] (s : Mat R) (N : ℕ) (hr : s.rows = 1) (hc : s.cols = 1)
    (h1 : 1 ≤ N) : ∃ b, getPaddedSlice s N = .ok b ∧ Continues 1 s N b := by
  rcases h1.eq_or_lt with rfl | h2
  · exact C42_partial s 1 1 hr hc le_rfl (by norm_num)
  · obtain ⟨sr, sc, val⟩ := s
    simp only at hr hc
    subst hr hc
    have hd : (N : ℤ) - (1 : ℕ) = ((N - 1 : ℕ) : ℤ) := by omega
    have hmin : min 1 N = 1 := by omega
    have hs : min 1 (N - 1) = 1 := by omega
    unfold getPaddedSlice
    simp only [hd, hmin, Mat.head, stopOf_nonneg, hs, min_self, Mat.put, Nat.sub_zero, or_true,
        and_self, if_true, bind, Except.bind]
    refine ⟨_, rfl, ?_⟩
    · refine ⟨rfl, rfl, fun i hi j hj => ?_⟩
      have hsp : ∀ i d : ℕ, i < d → (spread 1 d i).getD 0 = 0 := by
        intro i d h
        unfold spread
        split
        · simp only [Option.getD_some]; omega
        · simp
      simp only [Nat.mod_one]
      rcases lt_or_ge i 1 with hi1 | hi1 <;> rcases lt_or_ge j 1 with hj1 | hj1
      · rw [if_neg (by omega), if_neg (by omega), if_neg (by omega), if_pos (by omega),
          hsp _ _ (by omega), hsp _ _ (by omega)]
      · rw [if_neg (by omega), if_pos (by omega), hsp _ _ (by omega), hsp _ _ (by omega)]
      · rw [if_neg (by omega), if_neg (by omega), if_pos (by omega), hsp _ _ (by omega),
          hsp _ _ (by omega)]
      · rw [if_pos (by omega), hsp _ _ (by omega), hsp _ _ (by omega)]

example : (1 : ℕ) ≤ 7 := by decide

/-- Beyond twice the size it raises, for every slice of at least two cells. -/
theorem C42_raises {R : Type*} [Zero R] (s : Mat R) (n N : ℕ) (hr : s.rows = n) (hc : s.cols = n)
    (hn : 2 ≤ n) (h : N < n ∨ 2 * n < N) : ∃ e, getPaddedSlice s N = .error e := by
  obtain ⟨sr, sc, val⟩ := s
  simp only at hr hc
  subst hr hc
  refine ⟨"could not broadcast input array", ?_⟩
  rcases h with h | h
  · unfold getPaddedSlice
    have hmin : min sc N = N := by omega
    simp only [hmin]
    simp only [Mat.put]
    rw [if_neg (by omega)]
    rfl
  · unfold getPaddedSlice
    have hd : (N : ℤ) - sc = ((N - sc : ℕ) : ℤ) := by omega
    have hmin : min sc N = sc := by omega
    have hs : min sc (N - sc) = sc := by omega
    simp only [hd, hmin, Mat.head, stopOf_nonneg, hs, min_self]
    simp only [Mat.put, Nat.sub_zero, true_or, and_self, if_true, bind, Except.bind]
    rw [if_neg (by omega)]

example : (2 : ℕ) ≤ 3 ∧ 2 * 3 < 7 := by decide

/-- Claim of C42: every slice can be continued to every larger size.  False. -/
theorem C42_false : ¬ ∀ (s : Mat ℤ) (n N : ℕ), s.rows = n → s.cols = n → 1 ≤ n → n ≤ N →
    ∃ b, getPaddedSlice s N = .ok b ∧ Continues n s N b := by
  intro h
  obtain ⟨b, hb, _⟩ := h ⟨2, 2, fun i j => i + 2 * j⟩ 2 5 rfl rfl (by norm_num) (by norm_num)
  obtain ⟨e, he⟩ := C42_raises (⟨2, 2, fun i j => i + 2 * j⟩ : Mat ℤ) 2 5 rfl rfl le_rfl
    (Or.inr (by norm_num))
  rw [hb] at he
  exact absurd he (by simp)

/-- Slices that are not square raise unless padded to the number of rows and a single column
or broadcastable: in particular whenever rows and columns differ and there is more than one column. -/
theorem C42_square {R : Type*} [Zero R] (s : Mat R) (N : ℕ) (h : s.cols ≠ s.rows) (h1 : s.cols ≠ 1)
    (hN : s.rows ≤ N) : ∃ e, getPaddedSlice s N = .error e := by
  refine ⟨"could not broadcast input array", ?_⟩
  unfold getPaddedSlice
  have hmin : min s.rows N = s.rows := by omega
  simp only [hmin]
  simp only [Mat.put, Nat.sub_zero]
  rw [if_neg (by omega)]
  rfl

example : (4 : ℕ) ≠ 3 ∧ (4 : ℕ) ≠ 1 ∧ 3 ≤ 6 := by decide

/-- The size asked for by `physical_slice_to_angular` is never smaller than the slice, and is
the field of view whenever that is large enough. -/
theorem C42_size (n fov : ℕ) : n ≤ paddedSize n fov ∧ (n ≤ fov → paddedSize n fov = fov) := by
  unfold paddedSize
  split <;> omega

/-- `padding_lightcone`: every cell is the periodic continuation about the original, which
sits in the middle; any padding width. -/
theorem C42_lightcone {R : Type*} (s : Mat R) (p : ℕ) :
    (padWrap s p).rows = s.rows + 2 * p ∧ (padWrap s p).cols = s.cols + 2 * p ∧
    (∀ i < s.rows, ∀ j < s.cols, (padWrap s p).val (i + p) (j + p) = s.val i j) ∧
    (∀ i j, (padWrap s p).val (i + s.rows) j = (padWrap s p).val i j) ∧
    (∀ i j, (padWrap s p).val i (j + s.cols) = (padWrap s p).val i j) := by
  refine ⟨rfl, rfl, fun i hi j hj => ?_, fun i j => ?_, fun i j => ?_⟩
  · simp only [padWrap]
    have e1 : (((i + p : ℕ) : ℤ) - p) % s.rows = i := by
      rw [show ((i + p : ℕ) : ℤ) - p = i by omega]
      exact Int.emod_eq_of_lt (by omega) (by omega)
    have e2 : (((j + p : ℕ) : ℤ) - p) % s.cols = j := by
      rw [show ((j + p : ℕ) : ℤ) - p = j by omega]
      exact Int.emod_eq_of_lt (by omega) (by omega)
    rw [e1, e2]
    simp
  · simp only [padWrap]
    have : ((i + s.rows : ℕ) : ℤ) - p = (i - p) + s.rows := by omega
    rw [this, Int.add_emod_right]
  · simp only [padWrap]
    have : ((j + s.cols : ℕ) : ℤ) - p = (j - p) + s.cols := by omega
    rw [this, Int.add_emod_right]

/-- The default padding doubles an axis with an even number of cells. -/
theorem C42_default {R : Type*} (s : Mat R) (h : s.cols % 2 = 0) :
    (padWrap s (defaultPad s)).cols = 2 * s.cols := by
  simp only [padWrap, defaultPad]; omega

example : (8 : ℕ) % 2 = 0 := by decide

end Verif.Padding
