import Verif.Model.UVGrid
import Mathlib.LinearAlgebra.Matrix.Determinant.Basic
import Mathlib.LinearAlgebra.Matrix.Notation
import Mathlib.LinearAlgebra.CrossProduct
import Mathlib.Data.Int.Interval
import Mathlib.Algebra.BigOperators.Intervals
import Mathlib.Tactic.Ring
import Mathlib.Tactic.Linarith
import Mathlib.Tactic.LinearCombination
import Mathlib.Tactic.NormNum
import Mathlib.Tactic.FieldSimp
/-!
# Gridding of baselines (C29, C65) and rotations (C30)
-/

namespace Verif.UVGrid

/-! ## C29 -/

/-- Specification: number of baselines inside the grid `[-n/2, n/2)²` whose FFT cell is `(i, j)`. -/
def cellCount (n : ℕ) (bs : List (ℤ × ℤ)) (i j : ℤ) : ℕ :=
  bs.countP fun (b : ℤ × ℤ) => decide (-(n : ℤ) ≤ 2 * b.1 ∧ 2 * b.1 < (n : ℤ) ∧ -(n : ℤ) ≤ 2 * b.2 ∧ 2 * b.2 < (n : ℤ) ∧
    b.1 % n = i ∧ b.2 % n = j)

/-- Specification: number of baselines inside the grid. -/
def insideCount (n : ℕ) (bs : List (ℤ × ℤ)) : ℕ :=
  bs.countP fun (b : ℤ × ℤ) => decide (-(n : ℤ) ≤ 2 * b.1 ∧ 2 * b.1 < (n : ℤ) ∧ -(n : ℤ) ≤ 2 * b.2 ∧ 2 * b.2 < (n : ℤ))

theorem inGrid_iff (n : ℕ) (b : ℤ × ℤ) :
    inGrid n b = true ↔ -(n : ℤ) ≤ 2 * b.1 ∧ 2 * b.1 < n ∧ -(n : ℤ) ≤ 2 * b.2 ∧ 2 * b.2 < n := by
  simp only [inGrid, Bool.and_eq_true, decide_eq_true_eq]
  tauto

/-- The flat index separates the cells. -/
theorem flat_index (n i j p q : ℤ) (hj0 : 0 ≤ j) (hj : j < n) (hq0 : 0 ≤ q) (hq : q < n) :
    i * n + j = p * n + q ↔ i = p ∧ j = q := by
  constructor
  · intro h
    have hn : 0 < n := by omega
    have h1 : (i * n + j) / n = (p * n + q) / n := by rw [h]
    rw [Int.add_comm, Int.add_mul_ediv_right _ _ hn.ne', Int.ediv_eq_zero_of_lt hj0 hj, Int.add_comm (p * n),
      Int.add_mul_ediv_right _ _ hn.ne', Int.ediv_eq_zero_of_lt hq0 hq] at h1
    have h2 : i = p := by omega
    subst h2
    exact ⟨rfl, by omega⟩
  · rintro ⟨rfl, rfl⟩; rfl

/-- What `grid_uv_tracks` computes: the baselines are counted in the cell `(u + 2⌊n/2⌋) mod n`. -/
theorem gridUV_eq (n : ℕ) (hn : 0 < n) (bs : List (ℤ × ℤ)) (i j : ℤ) (hi0 : 0 ≤ i) (hi : i < n) (hj0 : 0 ≤ j)
    (hj : j < n) :
    gridUV n bs i j = cellCount n bs ((i - 2 * (n / 2 : ℕ)) % n) ((j - 2 * (n / 2 : ℕ)) % n) := by
  unfold gridUV fftshift flat cellCount
  beta_reduce
  rw [List.countP_filter]
  apply List.countP_congr
  intro b _
  have hn' : (0 : ℤ) < n := by exact_mod_cast hn
  rw [Bool.and_eq_true, inGrid_iff, decide_eq_true_eq, decide_eq_true_eq]
  have h1 := Int.emod_nonneg (j - n / 2) hn'.ne'
  have h2 := Int.emod_lt_of_pos (j - n / 2) hn'
  have h3 := Int.emod_nonneg (i - n / 2) hn'.ne'
  have h4 := Int.emod_lt_of_pos (i - n / 2) hn'
  -- one axis
  have key : ∀ (b i : ℤ), -(n : ℤ) ≤ 2 * b → 2 * b < n →
      (b + n / 2 = (i - n / 2) % n ↔ b % n = (i - 2 * (n / 2 : ℕ)) % n) := by
    intro b i hb1 hb2
    have e1 : b + n / 2 = (b + n / 2) % n := by
      rw [Int.emod_eq_of_lt] <;> omega
    rw [e1, Int.emod_eq_emod_iff_emod_sub_eq_zero, Int.emod_eq_emod_iff_emod_sub_eq_zero]
    have : b + (n : ℤ) / 2 - (i - n / 2) = b - (i - 2 * (n / 2 : ℕ)) := by push_cast; ring
    rw [this]
  constructor
  · rintro ⟨h, hb⟩
    have hq : (0 : ℤ) ≤ b.2 + n / 2 ∧ b.2 + n / 2 < n := by omega
    rw [flat_index _ _ _ _ _ hq.1 hq.2 h1 h2, key _ _ hb.1 hb.2.1, key _ _ hb.2.2.1 hb.2.2.2] at h
    exact ⟨hb.1, hb.2.1, hb.2.2.1, hb.2.2.2, h.1, h.2⟩
  · rintro ⟨ha, hb, hc, hd, h⟩
    have hq : (0 : ℤ) ≤ b.2 + n / 2 ∧ b.2 + n / 2 < n := by omega
    refine ⟨?_, ha, hb, hc, hd⟩
    rw [flat_index _ _ _ _ _ hq.1 hq.2 h1 h2, key _ _ ha hb, key _ _ hc hd]
    exact h

/-- **C29, even grids.** Every baseline inside the grid is counted once, in the cell of the Fourier layout with index
`(u mod n, v mod n)`; nothing else is counted. Missing: odd grids, where it is false (`C29_false`). -/
theorem C29_partial (n : ℕ) (hn : 0 < n) (he : n % 2 = 0) (bs : List (ℤ × ℤ)) (i j : ℤ) (hi0 : 0 ≤ i) (hi : i < n)
    (hj0 : 0 ≤ j) (hj : j < n) : gridUV n bs i j = cellCount n bs i j := by
  rw [gridUV_eq n hn bs i j hi0 hi hj0 hj]
  have e : (2 * ((n / 2 : ℕ) : ℤ)) = n := by exact_mod_cast (by omega : 2 * (n / 2) = n)
  rw [e, Int.sub_emod_right, Int.sub_emod_right, Int.emod_eq_of_lt hi0 hi, Int.emod_eq_of_lt hj0 hj]

example : gridUV 4 [(-1, 0), (1, 1), (2, 0), (-2, -2), (-1, 0)] 3 0 = 2 ∧
    gridUV 4 [(-1, 0), (1, 1), (2, 0), (-2, -2), (-1, 0)] 2 2 = 1 := by decide +kernel

/-- On an odd grid the map is off by one cell in both directions. -/
theorem gridUV_odd (n : ℕ) (he : n % 2 = 1) (bs : List (ℤ × ℤ)) (i j : ℤ) (hi0 : 0 ≤ i) (hi : i < n)
    (hj0 : 0 ≤ j) (hj : j < n) : gridUV n bs i j = cellCount n bs ((i + 1) % n) ((j + 1) % n) := by
  rw [gridUV_eq n (by omega) bs i j hi0 hi hj0 hj]
  have e : (2 * ((n / 2 : ℕ) : ℤ)) = n - 1 := by
    have : 2 * (n / 2) + 1 = n := by omega
    have : 2 * ((n / 2 : ℕ) : ℤ) + 1 = n := by exact_mod_cast this
    omega
  rw [e, show i - ((n : ℤ) - 1) = i + 1 - n by ring, show j - ((n : ℤ) - 1) = j + 1 - n by ring, Int.sub_emod_right,
    Int.sub_emod_right]

example : gridUV 5 [(1, -2), (0, 0)] 0 2 = 1 ∧ gridUV 5 [(1, -2), (0, 0)] 4 4 = 1 := by decide +kernel

/-- **C29 is false on odd grids**: on every odd grid with more than one cell the zero baseline is counted in the last
cell instead of cell `(0, 0)`. -/
theorem C29_false (n : ℕ) (he : n % 2 = 1) (hn : 1 < n) :
    gridUV n [(0, 0)] 0 0 = 0 ∧ cellCount n [(0, 0)] 0 0 = 1 ∧ gridUV n [(0, 0)] (n - 1) (n - 1) = 1 := by
  have h1 : (1 : ℤ) % n = 1 := Int.emod_eq_of_lt (by norm_num) (by omega)
  refine ⟨?_, ?_, ?_⟩
  · rw [gridUV_odd n he _ 0 0 (le_refl _) (by omega) (le_refl _) (by omega)]
    simp [cellCount, h1]
  · simp [cellCount]; omega
  · rw [gridUV_odd n he _ (n - 1) (n - 1) (by omega) (by omega) (by omega) (by omega)]
    simp [cellCount]; omega

theorem sum_ite_ico (n : ℕ) (f : ℤ → ℤ → ℕ) (a b : ℤ) (ha0 : 0 ≤ a) (ha : a < n) (hb0 : 0 ≤ b) (hb : b < n)
    (hf : ∀ i ∈ Finset.Ico 0 (n : ℤ), ∀ j ∈ Finset.Ico 0 (n : ℤ), f i j = if a = i ∧ b = j then 1 else 0) :
    ∑ i ∈ Finset.Ico 0 (n : ℤ), ∑ j ∈ Finset.Ico 0 (n : ℤ), f i j = 1 := by
  rw [Finset.sum_eq_single a]
  · rw [Finset.sum_eq_single b]
    · rw [hf a (Finset.mem_Ico.2 ⟨ha0, ha⟩) b (Finset.mem_Ico.2 ⟨hb0, hb⟩), if_pos ⟨rfl, rfl⟩]
    · intro j hj hjb
      rw [hf a (Finset.mem_Ico.2 ⟨ha0, ha⟩) j hj, if_neg (fun h => hjb h.2.symm)]
    · intro h; exact absurd (Finset.mem_Ico.2 ⟨hb0, hb⟩) h
  · intro i hi hia
    apply Finset.sum_eq_zero
    intro j hj
    rw [hf i hi j hj, if_neg (fun h => hia h.1.symm)]
  · intro h; exact absurd (Finset.mem_Ico.2 ⟨ha0, ha⟩) h

theorem sum_cellCount (n : ℕ) (hn : 0 < n) (bs : List (ℤ × ℤ)) :
    ∑ i ∈ Finset.Ico 0 (n : ℤ), ∑ j ∈ Finset.Ico 0 (n : ℤ), cellCount n bs i j = insideCount n bs := by
  have hn' : (0 : ℤ) < n := by exact_mod_cast hn
  induction bs with
  | nil => simp [cellCount, insideCount]
  | cons b bs ih =>
    simp only [cellCount, insideCount, List.countP_cons] at ih ⊢
    simp only [Finset.sum_add_distrib]
    rw [ih]
    congr 1
    by_cases h : -(n : ℤ) ≤ 2 * b.1 ∧ 2 * b.1 < n ∧ -(n : ℤ) ≤ 2 * b.2 ∧ 2 * b.2 < n
    · simp only [h, decide_true, if_true, true_and]
      apply sum_ite_ico n _ (b.1 % n) (b.2 % n) (Int.emod_nonneg _ hn'.ne') (Int.emod_lt_of_pos _ hn')
        (Int.emod_nonneg _ hn'.ne') (Int.emod_lt_of_pos _ hn')
      intro i _ j _
      simp only [decide_eq_true_eq]
    · rw [if_neg (by simpa using h)]
      apply Finset.sum_eq_zero; intro i _
      apply Finset.sum_eq_zero; intro j _
      rw [if_neg]
      simp only [decide_eq_true_eq]
      intro h'
      exact h ⟨h'.1, h'.2.1, h'.2.2.1, h'.2.2.2.1⟩

theorem sum_shift_emod (n : ℕ) (hn : 0 < n) (s : ℤ) (f : ℤ → ℕ) :
    ∑ i ∈ Finset.Ico 0 (n : ℤ), f ((i + s) % n) = ∑ i ∈ Finset.Ico 0 (n : ℤ), f i := by
  have hn' : (0 : ℤ) < n := by exact_mod_cast hn
  apply Finset.sum_nbij' (fun i => (i + s) % n) (fun i => (i - s) % n)
  · intro i _; exact Finset.mem_Ico.2 ⟨Int.emod_nonneg _ hn'.ne', Int.emod_lt_of_pos _ hn'⟩
  · intro i _; exact Finset.mem_Ico.2 ⟨Int.emod_nonneg _ hn'.ne', Int.emod_lt_of_pos _ hn'⟩
  · intro i hi
    rw [Finset.mem_Ico] at hi
    beta_reduce
    rw [Int.sub_emod, Int.emod_emod, ← Int.sub_emod, show i + s - s = i by ring, Int.emod_eq_of_lt hi.1 hi.2]
  · intro i hi
    rw [Finset.mem_Ico] at hi
    beta_reduce
    rw [Int.add_emod, Int.emod_emod, ← Int.add_emod, show i - s + s = i by ring, Int.emod_eq_of_lt hi.1 hi.2]
  · intro i _; rfl

/-- **C29, total** (all grids): the map sums to the number of baselines inside the grid. -/
theorem C29_total (n : ℕ) (hn : 0 < n) (bs : List (ℤ × ℤ)) :
    ∑ i ∈ Finset.Ico 0 (n : ℤ), ∑ j ∈ Finset.Ico 0 (n : ℤ), gridUV n bs i j = insideCount n bs := by
  rw [← sum_cellCount n hn bs]
  have hn' : (0 : ℤ) < n := by exact_mod_cast hn
  rw [← sum_shift_emod n hn (-(2 * (n / 2 : ℕ))) (fun i => ∑ j ∈ Finset.Ico 0 (n : ℤ), cellCount n bs i j)]
  apply Finset.sum_congr rfl
  intro i hi
  rw [← sum_shift_emod n hn (-(2 * (n / 2 : ℕ))) (fun j => cellCount n bs ((i + -(2 * (n / 2 : ℕ))) % n) j)]
  apply Finset.sum_congr rfl
  intro j hj
  rw [Finset.mem_Ico] at hi hj
  rw [gridUV_eq n hn bs i j hi.1 hi.2 hj.1 hj.2]
  rfl

example : insideCount 5 [(1, -2), (0, 0), (3, 0)] = 2 := by decide +kernel

/-! ## C65: mirrored baselines -/

theorem cellCount_append (n : ℕ) (a b : List (ℤ × ℤ)) (i j : ℤ) :
    cellCount n (a ++ b) i j = cellCount n a i j + cellCount n b i j := List.countP_append ..

/-- **C65, mirrored map, even grids.** The mirrored map is the mean of the map and the map of the negated baselines, and
away from the Nyquist row and column it has the point symmetry of the transform of a real image. Missing: odd grids and the
Nyquist cells, where the symmetry fails (`C65_false_nyquist`, `C65_false_odd`). -/
theorem C65_partial (n : ℕ) (hn : 0 < n) (he : n % 2 = 0) (bs : List (ℤ × ℤ)) (i j : ℤ) (hi0 : 0 ≤ i) (hi : i < n)
    (hj0 : 0 ≤ j) (hj : j < n) (hi2 : 2 * i ≠ n) (hj2 : 2 * j ≠ n) :
    gridUVMirror n bs i j = gridUVMirror n bs ((-i) % n) ((-j) % n) ∧
    gridUVMirror n bs i j = ((cellCount n bs i j : ℚ) + cellCount n bs ((-i) % n) ((-j) % n)) / 2 := by
  have hn' : (0 : ℤ) < n := by exact_mod_cast hn
  have neg : ∀ i j : ℤ, 0 ≤ i → i < n → 0 ≤ j → j < n → 2 * i ≠ n → 2 * j ≠ n →
      cellCount n (bs.map fun b => (-b.1, -b.2)) i j = cellCount n bs ((-i) % n) ((-j) % n) := by
    intro i j hi0 hi hj0 hj hi2 hj2
    unfold cellCount
    rw [List.countP_map]
    apply List.countP_congr
    intro b _
    simp only [Function.comp_apply, decide_eq_true_eq]
    have ax : ∀ b i : ℤ, 0 ≤ i → i < n → 2 * i ≠ n →
        ((-(n : ℤ) ≤ 2 * -b ∧ 2 * -b < n ∧ -b % n = i) ↔ (-(n : ℤ) ≤ 2 * b ∧ 2 * b < n ∧ b % n = (-i) % n)) := by
      intro b i hi0 hi hi2
      have hm : -b % n = i ↔ b % n = (-i) % n := by
        constructor
        · intro h
          rw [Int.emod_eq_emod_iff_emod_sub_eq_zero]
          have : (-b) % (n : ℤ) = i % n := by rw [h, Int.emod_eq_of_lt hi0 hi]
          rw [Int.emod_eq_emod_iff_emod_sub_eq_zero] at this
          rw [show b - -i = -(-b - i) by ring, ← Int.dvd_iff_emod_eq_zero, Int.dvd_neg, Int.dvd_iff_emod_eq_zero]
          exact this
        · intro h
          rw [Int.emod_eq_emod_iff_emod_sub_eq_zero] at h
          have : (-b) % (n : ℤ) = i % n := by
            rw [Int.emod_eq_emod_iff_emod_sub_eq_zero]
            rw [show -b - i = -(b - -i) by ring, ← Int.dvd_iff_emod_eq_zero, Int.dvd_neg, Int.dvd_iff_emod_eq_zero]
            exact h
          rw [this, Int.emod_eq_of_lt hi0 hi]
      rw [hm]
      constructor
      · rintro ⟨h1, h2, h3⟩
        refine ⟨by omega, ?_, h3⟩
        rcases lt_or_eq_of_le (show 2 * b ≤ n by omega) with h | h
        · exact h
        · exfalso
          rw [Int.emod_eq_of_lt (by omega) (by omega)] at h3
          have h4 := hm.2 (by rw [← h3]; exact Int.emod_eq_of_lt (by omega) (by omega))
          have : -b % (n : ℤ) = n - b := by
            rw [show -b = n - b - n by ring, Int.sub_emod_right, Int.emod_eq_of_lt] <;> omega
          omega
      · rintro ⟨h1, h2, h3⟩
        refine ⟨by omega, ?_, h3⟩
        rcases lt_or_eq_of_le (show 2 * -b ≤ n by omega) with h | h
        · exact h
        · exfalso
          have h4 := hm.2 h3
          rw [Int.emod_eq_of_lt (by omega) (by omega)] at h4
          omega
    have a1 := ax b.1 i hi0 hi hi2
    have a2 := ax b.2 j hj0 hj hj2
    constructor
    · rintro ⟨h1, h2, h3, h4, h5, h6⟩
      obtain ⟨p1, p2, p3⟩ := a1.1 ⟨h1, h2, h5⟩
      obtain ⟨q1, q2, q3⟩ := a2.1 ⟨h3, h4, h6⟩
      exact ⟨p1, p2, q1, q2, p3, q3⟩
    · rintro ⟨h1, h2, h3, h4, h5, h6⟩
      obtain ⟨p1, p2, p3⟩ := a1.2 ⟨h1, h2, h5⟩
      obtain ⟨q1, q2, q3⟩ := a2.2 ⟨h3, h4, h6⟩
      exact ⟨p1, p2, q1, q2, p3, q3⟩
  have val : ∀ i j : ℤ, 0 ≤ i → i < n → 0 ≤ j → j < n → 2 * i ≠ n → 2 * j ≠ n →
      gridUVMirror n bs i j = ((cellCount n bs i j : ℚ) + cellCount n bs ((-i) % n) ((-j) % n)) / 2 := by
    intro i j hi0 hi hj0 hj hi2 hj2
    rw [gridUVMirror, C29_partial n hn he _ i j hi0 hi hj0 hj, cellCount_append, neg i j hi0 hi hj0 hj hi2 hj2,
      Nat.cast_add]
  have emn : ∀ i : ℤ, 0 ≤ i → i < n → (0 ≤ (-i) % n ∧ (-i) % n < n ∧ (2 * i ≠ n → 2 * ((-i) % n) ≠ n) ∧
      (-((-i) % n)) % n = i) := by
    intro i hi0 hi
    have h1 := Int.emod_nonneg (-i) hn'.ne'
    have h2 := Int.emod_lt_of_pos (-i) hn'
    rcases eq_or_lt_of_le hi0 with h | h
    · subst h; simp; omega
    · have : (-i) % (n : ℤ) = n - i := by
        rw [show -i = n - i - n by ring, Int.sub_emod_right, Int.emod_eq_of_lt] <;> omega
      refine ⟨h1, h2, by omega, ?_⟩
      rw [this, show -((n : ℤ) - i) = i - n by ring, Int.sub_emod_right, Int.emod_eq_of_lt hi0 hi]
  obtain ⟨x1, x2, x3, x4⟩ := emn i hi0 hi
  obtain ⟨y1, y2, y3, y4⟩ := emn j hj0 hj
  refine ⟨?_, val i j hi0 hi hj0 hj hi2 hj2⟩
  rw [val i j hi0 hi hj0 hj hi2 hj2, val _ _ x1 x2 y1 y2 (x3 hi2) (y3 hj2), x4, y4]
  ring

example : gridUVMirror 4 [(1, 0)] 3 0 = 1 / 2 ∧ gridUVMirror 4 [(1, 0)] 1 0 = 1 / 2 := by decide +kernel

/-- **C65 is false in the Nyquist row of even grids**: the mirror image of a baseline on the boundary is dropped. -/
theorem C65_false_nyquist : gridUVMirror 4 [(-2, 1)] 2 1 = 1 / 2 ∧ gridUVMirror 4 [(-2, 1)] ((-2) % 4) ((-1) % 4) = 0 := by
  decide +kernel

/-- **C65 is false on odd grids** because of the shift by one cell. -/
theorem C65_false_odd : gridUVMirror 5 [(1, 0)] 0 4 = 1 / 2 ∧ gridUVMirror 5 [(1, 0)] ((-0) % 5) ((-4) % 5) = 0 := by
  decide +kernel

/-! ## C66: the daily observation -/

/-- **C66, average.** With at least three antennas and one time slice, each cell of the daily map is the mean over the time
slices of the number of baselines in the cell, and the map sums to the mean number of baselines inside the grid (even
grids; `C66_false_two_antennas` is the missing case of two antennas). -/
theorem C66_partial (n : ℕ) (hn : 0 < n) (he : n % 2 = 0) (nBase T : ℕ) (hT : 0 < T) (hb : 2 ≤ nBase)
    (coords : ℕ → List (ℤ × ℤ)) :
    ∃ m, dailyUV n nBase T coords = .ok m ∧
      (∀ i j : ℤ, 0 ≤ i → i < n → 0 ≤ j → j < n →
        T * m i j = ∑ s ∈ Finset.Icc 1 T, (cellCount n (coords s) i j : ℚ)) ∧
      T * ∑ i ∈ Finset.Ico 0 (n : ℤ), ∑ j ∈ Finset.Ico 0 (n : ℤ), m i j
        = ∑ s ∈ Finset.Icc 1 T, (insideCount n (coords s) : ℚ) := by
  refine ⟨_, by rw [dailyUV, if_neg (by omega), if_neg (by omega)], ?_⟩
  have hT' : (T : ℚ) ≠ 0 := by exact_mod_cast hT.ne'
  have conv : ∀ f : ℕ → ℚ, ((List.range T).map fun t => f (t + 1)).sum = ∑ s ∈ Finset.Icc 1 T, f s := by
    intro f
    have : Finset.Icc 1 T = Finset.Ico 1 (T + 1) := rfl
    rw [this, Finset.sum_Ico_eq_sum_range, Finset.sum_range, ← List.sum_ofFn]
    congr 1
    apply List.ext_getElem <;> simp [Nat.add_comm]
  have cell : ∀ i j : ℤ, 0 ≤ i → i < n → 0 ≤ j → j < n →
      (T : ℚ) * (((List.range T).map fun t => (gridUV n (coords (t + 1)) i j : ℚ)).sum / T)
        = ∑ s ∈ Finset.Icc 1 T, (cellCount n (coords s) i j : ℚ) := by
    intro i j hi0 hi hj0 hj
    rw [mul_div_cancel₀ _ hT', conv fun s => (gridUV n (coords s) i j : ℚ)]
    exact Finset.sum_congr rfl fun s _ => by rw [C29_partial n hn he _ i j hi0 hi hj0 hj]
  refine ⟨cell, ?_⟩
  rw [Finset.mul_sum]
  simp only [Finset.mul_sum]
  rw [Finset.sum_congr rfl fun i hi => Finset.sum_congr rfl fun j hj =>
    cell i j (Finset.mem_Ico.1 hi).1 (Finset.mem_Ico.1 hi).2 (Finset.mem_Ico.1 hj).1 (Finset.mem_Ico.1 hj).2]
  rw [Finset.sum_congr rfl fun i _ => Finset.sum_comm, Finset.sum_comm]
  apply Finset.sum_congr rfl
  intro s _
  rw [← sum_cellCount n hn]
  push_cast
  rfl

example : ∃ m, dailyUV 4 3 2 (fun s => [(s, 0), (0, 0), (0, -1)]) = .ok m ∧ m 1 0 = 1 / 2 ∧ m 0 0 = 1 ∧ m 0 3 = 1 :=
  ⟨_, rfl, by decide +kernel⟩

/-- **C66 is false for two antennas**: whatever the coordinates, the single baseline is squeezed away and the gridding
raises. -/
theorem C66_false_two_antennas (n T : ℕ) (hT : 0 < T) (a b : V3) (coords : ℕ → List (ℤ × ℤ)) :
    dailyUV n (pairs [a, b]).length T coords = .error "IndexError" := by
  simp [dailyUV, pairs, hT.ne']

example : (pairs [0, 1, 2]).length = 3 := rfl

/-- **C66, hour angles**: the code comment says that the hour angle runs from `-ΔHA` to `+ΔHA`. False: the
slices are numbered from 1, so with `T` slices covering the observation the mean hour angle is half a step instead of 0. -/
theorem C66_false_centred (T : ℕ) (hT : 0 < T) (dt : ℝ) :
    ∑ s ∈ Finset.Icc 1 T, hourAngle s dt (T * dt / 3600) = 15 * T * dt / 7200 := by
  have hsum : ∀ m : ℕ, ∑ s ∈ Finset.Icc 1 m, (s : ℝ) = m * (m + 1) / 2 := by
    intro m
    induction m with
    | zero => simp
    | succ k ih =>
      rw [Finset.sum_Icc_succ_top (by omega), ih]
      push_cast; ring
  have : ∀ s ∈ Finset.Icc 1 T, hourAngle s dt (T * dt / 3600) = 15 / 3600 * dt * s - 15 / 7200 * T * dt := by
    intro s _
    rw [hourAngle]; ring
  rw [Finset.sum_congr rfl this, Finset.sum_sub_distrib, ← Finset.mul_sum, hsum, Finset.sum_const, Nat.card_Icc]
  simp only [Nat.add_sub_cancel, nsmul_eq_mul]
  ring

example : (15 : ℝ) * (2 : ℕ) * 10 / 7200 ≠ 0 := by norm_num

/-! ## C67: baselines of an antenna configuration -/

theorem pairs_length {α : Type} (l : List α) : 2 * (pairs l).length = l.length * (l.length - 1) := by
  induction l with
  | nil => rfl
  | cons a l ih =>
    simp only [pairs, List.length_append, List.length_map, List.length_cons, Nat.add_sub_cancel, Nat.mul_add, ih]
    cases l.length with
    | zero => rfl
    | succ k => simp only [Nat.add_sub_cancel]; ring

/-- The pair of entries number `p` and `q`. -/
def Entry {α : Type} (l : List α) (p q : ℕ) (x : α × α) : Prop := l[p]? = some x.1 ∧ l[q]? = some x.2

theorem mem_pairs {α : Type} (l : List α) (x : α × α) : x ∈ pairs l ↔ ∃ p q, p < q ∧ Entry l p q x := by
  induction l with
  | nil => simp [pairs, Entry]
  | cons a l ih =>
    simp only [pairs, List.mem_append, List.mem_map, ih]
    constructor
    · rintro (⟨b, hb, rfl⟩ | ⟨p, q, h, h1, h2⟩)
      · obtain ⟨q, hq⟩ := List.mem_iff_getElem?.1 hb
        exact ⟨0, q + 1, by omega, by simp, by simpa using hq⟩
      · exact ⟨p + 1, q + 1, by omega, by simpa using h1, by simpa using h2⟩
    · rintro ⟨p, q, h, h1, h2⟩
      obtain ⟨q, rfl⟩ : ∃ r, q = r + 1 := ⟨q - 1, by omega⟩
      cases p with
      | zero =>
        left
        refine ⟨x.2, List.mem_iff_getElem?.2 ⟨q, by simpa using h2⟩, ?_⟩
        simp at h1
        rw [h1]
      | succ p => exact Or.inr ⟨p, q, by omega, by simpa using h1, by simpa using h2⟩

/-- **C67.** `from_antenna_config` produces `N(N-1)/2` baselines: exactly the pairs of different antennas, each once
(as a list of pairs of antenna numbers it has no duplicates, and it contains each pair in one of the two
orders). -/
theorem C67_pairs (N : ℕ) :
    2 * (pairs (List.range N)).length = N * (N - 1) ∧ (pairs (List.range N)).Nodup ∧
    ∀ i j, i < N → j < N → i ≠ j → ((i, j) ∈ pairs (List.range N) ↔ (j, i) ∉ pairs (List.range N)) := by
  have hm : ∀ i j, (i, j) ∈ pairs (List.range N) ↔ i < j ∧ j < N := by
    intro i j
    rw [mem_pairs]
    constructor
    · rintro ⟨p, q, h, h1, h2⟩
      simp only [List.getElem?_eq_some_iff, List.length_range, List.getElem_range] at h1 h2
      obtain ⟨_, rfl⟩ := h1
      obtain ⟨h3, rfl⟩ := h2
      exact ⟨h, h3⟩
    · rintro ⟨h1, h2⟩
      refine ⟨i, j, h1, ?_, ?_⟩
      · rw [List.getElem?_range (by omega)]
      · rw [List.getElem?_range h2]
  refine ⟨by rw [pairs_length, List.length_range], ?_, ?_⟩
  · have : ∀ l : List ℕ, l.Nodup → (pairs l).Nodup := by
      intro l
      induction l with
      | nil => intro _; exact List.nodup_nil
      | cons a l ih =>
        intro h
        rw [List.nodup_cons] at h
        rw [pairs, List.nodup_append]
        refine ⟨h.2.map (fun x y hxy => (Prod.mk.inj hxy).2), ih h.2, ?_⟩
        rintro x hx y hy rfl
        rw [List.mem_map] at hx
        obtain ⟨b, _, rfl⟩ := hx
        rw [mem_pairs] at hy
        obtain ⟨p, q, _, hp, _⟩ := hy
        exact h.1 (List.mem_iff_getElem?.2 ⟨p, hp⟩)
    exact this _ List.nodup_range
  · intro i j hi hj hij
    rw [hm, hm]
    omega

example : pairs (List.range 3) = [(0, 1), (0, 2), (1, 2)] := rfl

theorem mem_perms {α : Type} (l : List α) (x : α × α) : x ∈ perms l ↔ ∃ p q, p ≠ q ∧ Entry l p q x := by
  simp only [perms, List.mem_flatMap, List.mem_range, List.mem_filterMap]
  constructor
  · rintro ⟨p, hp, q, hq, h⟩
    split at h
    · cases h
    · rename_i hpq
      rw [List.getElem?_eq_getElem hp, List.getElem?_eq_getElem hq] at h
      simp only [Option.some.injEq] at h
      subst h
      exact ⟨p, q, hpq, List.getElem?_eq_getElem hp, List.getElem?_eq_getElem hq⟩
  · rintro ⟨p, q, hpq, h1, h2⟩
    obtain ⟨hp, _⟩ := List.getElem?_eq_some_iff.1 h1
    obtain ⟨hq, _⟩ := List.getElem?_eq_some_iff.1 h2
    refine ⟨p, hp, q, hq, ?_⟩
    rw [if_neg hpq, h1, h2]

theorem filterMap_all_length {α : Type} (f : ℕ → Option α) (n i : ℕ) (hi : i < n)
    (h : ∀ j < n, (f j).isSome = decide (i ≠ j)) : ((List.range n).filterMap f).length = n - 1 := by
  rw [List.length_filterMap_eq_countP]
  have : (List.range n).countP (fun a => (f a).isSome) = (List.range n).countP fun j => !decide (j = i) := by
    apply List.countP_congr
    intro j hj
    rw [h j (List.mem_range.1 hj)]
    by_cases e : i = j
    · simp [e]
    · simp [e, Ne.symm e]
  rw [this]
  have h1 : (List.range n).countP (fun j => decide (j = i)) = 1 := by
    have := List.count_eq_one_of_mem (List.nodup_range (n := n)) (List.mem_range.2 hi)
    rw [List.count] at this
    rw [← this]
    apply List.countP_congr
    intro j _; simp
  have h2 := List.length_eq_countP_add_countP (fun j => decide (j = i)) (l := List.range n)
  rw [h1, List.length_range] at h2
  have h3 : (List.range n).countP (fun a => decide ¬decide (a = i) = true)
      = (List.range n).countP (fun j => !decide (j = i)) := by
    apply List.countP_congr
    intro j _; simp
  omega

/-- **C67, `antenna_positions_to_baselines`.** The list has the documented `N(N-1)` entries, the pairs of all different
antennas, and with each pair the swapped one: the set of baselines is symmetric. -/
theorem C67_perms {α : Type} (l : List α) :
    (perms l).length = l.length * (l.length - 1) ∧
    (∀ x, x ∈ perms l ↔ ∃ p q : ℕ, p ≠ q ∧ l[p]? = some x.1 ∧ l[q]? = some x.2) ∧
    ∀ a b, (a, b) ∈ perms l → (b, a) ∈ perms l := by
  refine ⟨?_, fun x => mem_perms l x, ?_⟩
  · rw [perms, List.length_flatMap]
    refine (congrArg List.sum (List.eq_replicate_iff (n := l.length) (a := l.length - 1) |>.2 ⟨by simp, ?_⟩)).trans
      (by simp)
    intro k hk
    rw [List.mem_map] at hk
    obtain ⟨i, hi, rfl⟩ := hk
    rw [List.mem_range] at hi
    apply filterMap_all_length _ _ i hi
    intro j hj
    rw [List.getElem?_eq_getElem hi, List.getElem?_eq_getElem hj]
    by_cases h : i = j <;> simp [h]
  · intro a b h
    rw [mem_perms] at h ⊢
    obtain ⟨p, q, h, h1, h2⟩ := h
    exact ⟨q, p, fun e => h e.symm, h2, h1⟩

example : perms ['a', 'b', 'c'] = [('a', 'b'), ('a', 'c'), ('b', 'a'), ('b', 'c'), ('c', 'a'), ('c', 'b')] := rfl

/-! ## C30: rotations -/

/-- The scalar product of two vectors, written out. -/
def dot (a b : V3) : ℝ := a 0 * b 0 + a 1 * b 1 + a 2 * b 2

/-- The signed volume spanned by three vectors. -/
def vol (a b c : V3) : ℝ :=
  a 0 * (b 1 * c 2 - b 2 * c 1) - a 1 * (b 0 * c 2 - b 2 * c 0) + a 2 * (b 0 * c 1 - b 1 * c 0)

/-- **C30, Earth rotation.** For all hour angles and declinations the rotated baselines have the lengths, mutual angles
and orientation of the original ones. -/
theorem C30_earth (H d : ℝ) (a b c : V3) :
    dot (earthRotation H d a) (earthRotation H d b) = dot a b ∧
    vol (earthRotation H d a) (earthRotation H d b) (earthRotation H d c) = vol a b c := by
  have h1 := Real.sin_sq_add_cos_sq H
  have h2 := Real.sin_sq_add_cos_sq d
  constructor
  · simp only [dot, earthRotation, Matrix.cons_val_zero, Matrix.cons_val_one, Matrix.cons_val]
    linear_combination ((Real.cos H * a 0 - Real.sin H * a 1) * (Real.cos H * b 0 - Real.sin H * b 1) + a 2 * b 2) * h2
      + (a 0 * b 0 + a 1 * b 1) * h1
  · simp only [vol, earthRotation, Matrix.cons_val_zero, Matrix.cons_val_one, Matrix.cons_val]
    linear_combination (a 0 * (b 1 * c 2 - b 2 * c 1) - a 1 * (b 0 * c 2 - b 2 * c 0) + a 2 * (b 0 * c 1 - b 1 * c 0)) *
      ((Real.sin d ^ 2 + Real.cos d ^ 2) * h1 + h2)

example : dot ![1, 2, 2] ![1, 2, 2] = 9 ∧ vol ![1, 0, 0] ![0, 1, 0] ![0, 0, 1] = 1 := by
  constructor
  · simp [dot]; norm_num
  · simp [vol]

theorem enu_apply (lat lon : ℝ) (o e : V3) :
    enuToEcef lat lon o e = ![-Real.sin lon * e 0 - Real.sin lat * Real.cos lon * e 1 + Real.cos lat * Real.cos lon * e 2 + o 0,
      Real.cos lon * e 0 - Real.sin lat * Real.sin lon * e 1 + Real.cos lat * Real.sin lon * e 2 + o 1,
      Real.cos lat * e 1 + Real.sin lat * e 2 + o 2] := by
  funext i
  match i with
  | 0 => simp [enuToEcef, Matrix.vecMul, dotProduct, Fin.sum_univ_three, enuMatrix]; ring
  | 1 => simp [enuToEcef, Matrix.vecMul, dotProduct, Fin.sum_univ_three, enuMatrix]; ring
  | 2 => simp [enuToEcef, Matrix.vecMul, dotProduct, Fin.sum_univ_three, enuMatrix]; ring

theorem xyz_apply (lon : ℝ) (o e : V3) :
    ecefToXyz lon o e = ![Real.cos lon * (e 0 - o 0) + Real.sin lon * (e 1 - o 1) + o 0,
      -Real.sin lon * (e 0 - o 0) + Real.cos lon * (e 1 - o 1) + o 1, e 2] := by
  funext i
  match i with
  | 0 => simp [ecefToXyz, Matrix.vecMul, dotProduct, Fin.sum_univ_three, xyzMatrix]; ring
  | 1 => simp [ecefToXyz, Matrix.vecMul, dotProduct, Fin.sum_univ_three, xyzMatrix]; ring
  | 2 => simp [ecefToXyz, Matrix.vecMul, dotProduct, Fin.sum_univ_three, xyzMatrix]

/-- **C30, `enu_to_ecef`.** Distances, angles and orientation of the antenna positions are preserved: all
scalar products and signed volumes of position differences are those of the input. The origin goes to the origin. -/
theorem C30_enu (lat lon : ℝ) (o p a b c : V3) :
    dot (enuToEcef lat lon o a - enuToEcef lat lon o p) (enuToEcef lat lon o b - enuToEcef lat lon o p)
      = dot (a - p) (b - p) ∧
    vol (enuToEcef lat lon o a - enuToEcef lat lon o p) (enuToEcef lat lon o b - enuToEcef lat lon o p)
      (enuToEcef lat lon o c - enuToEcef lat lon o p) = vol (a - p) (b - p) (c - p) ∧
    enuToEcef lat lon o 0 = o := by
  have h1 := Real.sin_sq_add_cos_sq lat
  have h2 := Real.sin_sq_add_cos_sq lon
  refine ⟨?_, ?_, ?_⟩
  · simp only [dot, enu_apply, Pi.sub_apply, Matrix.cons_val_zero, Matrix.cons_val_one, Matrix.cons_val]
    generalize hx : a 0 - p 0 = x
    generalize hy : a 1 - p 1 = y
    generalize hz : a 2 - p 2 = z
    generalize hx' : b 0 - p 0 = x'
    generalize hy' : b 1 - p 1 = y'
    generalize hz' : b 2 - p 2 = z'
    rw [show a 0 = p 0 + x by linarith, show a 1 = p 1 + y by linarith, show a 2 = p 2 + z by linarith,
      show b 0 = p 0 + x' by linarith, show b 1 = p 1 + y' by linarith, show b 2 = p 2 + z' by linarith]
    linear_combination (x * x' + (-Real.sin lat * y + Real.cos lat * z) * (-Real.sin lat * y' + Real.cos lat * z')) * h2
      + (y * y' + z * z') * h1
  · simp only [vol, enu_apply, Pi.sub_apply, Matrix.cons_val_zero, Matrix.cons_val_one, Matrix.cons_val]
    generalize hx : a 0 - p 0 = x
    generalize hy : a 1 - p 1 = y
    generalize hz : a 2 - p 2 = z
    generalize hx' : b 0 - p 0 = x'
    generalize hy' : b 1 - p 1 = y'
    generalize hz' : b 2 - p 2 = z'
    generalize hx'' : c 0 - p 0 = x''
    generalize hy'' : c 1 - p 1 = y''
    generalize hz'' : c 2 - p 2 = z''
    rw [show a 0 = p 0 + x by linarith, show a 1 = p 1 + y by linarith, show a 2 = p 2 + z by linarith,
      show b 0 = p 0 + x' by linarith, show b 1 = p 1 + y' by linarith, show b 2 = p 2 + z' by linarith,
      show c 0 = p 0 + x'' by linarith, show c 1 = p 1 + y'' by linarith, show c 2 = p 2 + z'' by linarith]
    linear_combination (x * (y' * z'' - z' * y'') - y * (x' * z'' - z' * x'') + z * (x' * y'' - y' * x'')) *
      ((Real.sin lon ^ 2 + Real.cos lon ^ 2) * h1 + h2)
  · rw [enu_apply]
    funext i
    match i with
    | 0 => simp
    | 1 => simp
    | 2 => simp

example : dot (![1, 2, 3] - ![1, 0, 3]) (![1, 2, 3] - ![1, 0, 3]) = 4 := by simp [dot]; norm_num

/-- **C30, `ecef_to_xyz`.** Distances, angles and orientation are preserved, the array centre stays in place and the
Earth's axis is unchanged. -/
theorem C30_xyz (lon : ℝ) (o p a b c : V3) :
    dot (ecefToXyz lon o a - ecefToXyz lon o p) (ecefToXyz lon o b - ecefToXyz lon o p) = dot (a - p) (b - p) ∧
    vol (ecefToXyz lon o a - ecefToXyz lon o p) (ecefToXyz lon o b - ecefToXyz lon o p)
      (ecefToXyz lon o c - ecefToXyz lon o p) = vol (a - p) (b - p) (c - p) ∧
    ecefToXyz lon o o = o ∧ ecefToXyz lon o a 2 = a 2 := by
  have h2 := Real.sin_sq_add_cos_sq lon
  refine ⟨?_, ?_, ?_, ?_⟩
  · simp only [dot, xyz_apply, Pi.sub_apply, Matrix.cons_val_zero, Matrix.cons_val_one, Matrix.cons_val]
    linear_combination ((a 0 - p 0) * (b 0 - p 0) + (a 1 - p 1) * (b 1 - p 1)) * h2
  · simp only [vol, xyz_apply, Pi.sub_apply, Matrix.cons_val_zero, Matrix.cons_val_one, Matrix.cons_val]
    generalize hx : a 0 - p 0 = x
    generalize hy : a 1 - p 1 = y
    generalize hz : a 2 - p 2 = z
    generalize hx' : b 0 - p 0 = x'
    generalize hy' : b 1 - p 1 = y'
    generalize hz' : b 2 - p 2 = z'
    generalize hx'' : c 0 - p 0 = x''
    generalize hy'' : c 1 - p 1 = y''
    generalize hz'' : c 2 - p 2 = z''
    rw [show a 0 = p 0 + x by linarith, show a 1 = p 1 + y by linarith,
      show b 0 = p 0 + x' by linarith, show b 1 = p 1 + y' by linarith,
      show c 0 = p 0 + x'' by linarith, show c 1 = p 1 + y'' by linarith]
    linear_combination (x * (y' * z'' - z' * y'') - y * (x' * z'' - z' * x'') + z * (x' * y'' - y' * x'')) * h2
  · rw [xyz_apply]
    funext i
    match i with
    | 0 => simp
    | 1 => simp
    | 2 => simp
  · rw [xyz_apply]; rfl

example : dot (![1, 2, 3] - ![1, 0, 3]) (![4, 2, 3] - ![1, 0, 3]) = 4 := by simp [dot]; norm_num

/-! ## C68: documented directions of the axes -/

/-- Unit vector towards the zenith at geographic latitude and longitude (Earth-centred frame: `z` the rotation axis, `x`
towards longitude 0 on the equator). -/
noncomputable def zenith (lat lon : ℝ) : V3 :=
  ![Real.cos lat * Real.cos lon, Real.cos lat * Real.sin lon, Real.sin lat]

/-- East: the direction in which the zenith moves when the longitude grows. -/
noncomputable def east (lon : ℝ) : V3 := ![-Real.sin lon, Real.cos lon, 0]

/-- **C68, `enu_to_ecef`.** The third ENU axis points to the zenith, the first one east, and the second one completes
the triple and points to the side of the north pole. -/
theorem C68_enu (lat lon : ℝ) (o : V3) :
    enuToEcef lat lon o ![0, 0, 1] - o = zenith lat lon ∧
    enuToEcef lat lon o ![1, 0, 0] - o = east lon ∧
    dot (enuToEcef lat lon o ![0, 1, 0] - o) (zenith lat lon) = 0 ∧
    dot (enuToEcef lat lon o ![0, 1, 0] - o) (east lon) = 0 ∧
    (enuToEcef lat lon o ![0, 1, 0] - o) 2 = Real.cos lat := by
  have h2 := Real.sin_sq_add_cos_sq lon
  refine ⟨?_, ?_, ?_, ?_, ?_⟩
  · funext i
    rw [enu_apply]
    match i with
    | 0 => simp [zenith]
    | 1 => simp [zenith]
    | 2 => simp [zenith]
  · funext i
    rw [enu_apply]
    match i with
    | 0 => simp [east]
    | 1 => simp [east]
    | 2 => simp [east]
  · simp only [dot, enu_apply, zenith, Pi.sub_apply, Matrix.cons_val_zero, Matrix.cons_val_one, Matrix.cons_val]
    linear_combination (-Real.sin lat * Real.cos lat) * h2
  · simp only [dot, enu_apply, east, Pi.sub_apply, Matrix.cons_val_zero, Matrix.cons_val_one, Matrix.cons_val]
    ring
  · simp [enu_apply]

example : zenith 0 0 = ![1, 0, 0] ∧ east 0 = ![0, 1, 0] := by simp [zenith, east]

/-- **C68 is false for `ecef_to_xyz`**, whose documentation says that `X` points to the local east: east is the `Y` axis, for
every array centre and longitude; `X` points from the Earth's axis towards the meridian. -/
theorem C68_false_xyz (lon : ℝ) (o : V3) :
    ecefToXyz lon o (o + east lon) - o = ![0, 1, 0] ∧
    ecefToXyz lon o (o + ![Real.cos lon, Real.sin lon, 0]) - o = ![1, 0, 0] := by
  have h2 := Real.sin_sq_add_cos_sq lon
  constructor
  · funext i
    rw [xyz_apply]
    match i with
    | 0 => simp [east]; ring
    | 1 => simp [east]; linear_combination h2
    | 2 => simp [east]
  · funext i
    rw [xyz_apply]
    match i with
    | 0 => simp; linear_combination h2
    | 1 => simp; ring
    | 2 => simp

/-- **C68, Earth rotation at the meridian**: at hour angle 0 the first rotated coordinate is the `Y` (east) component,
and a source at declination `d` sees the direction `(cos d, 0, sin d)` as the third axis. -/
theorem C68_meridian (d : ℝ) (b : V3) :
    earthRotation 0 d b 0 = b 1 ∧ earthRotation 0 d ![Real.cos d, 0, Real.sin d] = ![0, 0, 1] := by
  have h2 := Real.sin_sq_add_cos_sq d
  constructor
  · simp [earthRotation]
  · funext i
    match i with
    | 0 => simp [earthRotation]
    | 1 => simp [earthRotation]; ring
    | 2 => simp [earthRotation]; linear_combination h2

example : earthRotation 0 0 ![1, 2, 3] 0 = 2 := by simp [earthRotation]

end Verif.UVGrid
