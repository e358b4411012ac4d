import Verif.Lemmas.FastSpectrum
import Mathlib.Tactic.IntervalCases
/-!
# Spectra in bins of the wave number from `power_spect_fast.py` (C176)
-/

namespace Verif.FastSpectrum
open Verif.Convolve Verif.PowerSpectrum

/-! ## Specification -/

/-- The wave number of the mode that the shifted Fourier transform has at the index `i`. -/
noncomputable def wave (s : Fin 3 → ℕ) (L : Fin 3 → ℝ) (i : Ix) : ℝ := waveNumber s [L 0, L 1, L 2] i

/-- The value of the power spectrum at the index `i`. -/
noncomputable def value (L : Fin 3 → ℝ) (a : Arr (Fin 3) ℝ) (i : Ix) : ℝ := (powerNd [L 0, L 1, L 2] a).val i

/-- Edge `i` of `n` bins from `lo` to `hi` with equal widths or ratios. -/
noncomputable def edgeAt (log : Bool) (lo hi : ℝ) (n i : ℕ) : ℝ :=
  if log then lo * (hi / lo) ^ ((i : ℝ) / n) else lo + (i : ℝ) / n * (hi - lo)

/-- The middle of two edges. -/
noncomputable def middle (log : Bool) (x y : ℝ) : ℝ := if log then Real.sqrt (x * y) else (x + y) / 2

open Classical in
/-- The modes with a quantity from `x` to `y`. -/
noncomputable def between (s : Fin 3 → ℕ) (q : Ix → ℝ) (x y : ℝ) : Finset Ix := (box s).filter fun i => x ≤ q i ∧ q i ≤ y

/-- The average over modes, if there are any. -/
noncomputable def average (S : Finset Ix) (v : Ix → ℝ) : Option ℝ := if S = ∅ then none else some (S.sum v / S.card)

/-- `K` is the largest wave number. -/
def Largest (s : Fin 3 → ℕ) (q : Ix → ℝ) (K : ℝ) : Prop := (∃ i ∈ box s, q i = K) ∧ ∀ i ∈ box s, q i ≤ K

/-- The smallest wave number of the longest side. -/
noncomputable def start (L : Fin 3 → ℝ) : ℝ := 2 * Real.pi / max (L 0) (max (L 1) (L 2))

/-! ## C176 -/

theorem mean_eq (S : Finset Ix) (v : Ix → ℝ) : mean S v = average S v := by
  unfold mean average
  by_cases h : S = ∅
  · rw [if_pos h, if_pos (by rw [h]; rfl)]
  · rw [if_neg h, if_neg (fun e => h (Finset.card_eq_zero.1 e))]

theorem odd_half {n : ℕ} (h : n % 2 = 1) : ((n : ℝ) - 1) / 2 = ((n / 2 : ℕ) : ℝ) := by
  have : (n : ℝ) = 2 * ((n / 2 : ℕ) : ℝ) + 1 := by exact_mod_cast (by omega : n = 2 * (n / 2) + 1)
  linarith

/-- With odd numbers of cells the wave numbers are those of the modes. -/
theorem kMag_odd {s : Fin 3 → ℕ} (hs : ∀ j, s j % 2 = 1) (L : Fin 3 → ℝ) : kMag s L = wave s L := by
  funext i
  unfold kMag wave waveNumber kComp
  rw [Fin.sum_univ_three, odd_half (hs 0), odd_half (hs 1), odd_half (hs 2)]
  rfl

theorem start_pos {L : Fin 3 → ℝ} (hL : ∀ j, 0 < L j) : 0 < start L :=
  div_pos (by positivity) (lt_max_of_lt_left (hL 0))

theorem edge_linear (lo hi : ℝ) (n i : ℕ) : lo + (i : ℝ) * ((hi - lo) / n) = edgeAt false lo hi n i := by
  unfold edgeAt
  rw [if_neg (by decide)]
  ring

theorem edge_log {lo hi : ℝ} (h0 : 0 < lo) (h1 : 0 < hi) (n i : ℕ) :
    Real.logb 10 lo + (i : ℝ) * ((Real.logb 10 hi - Real.logb 10 lo) / n) = Real.logb 10 (edgeAt true lo hi n i) ∧ 0 < edgeAt true lo hi n i := by
  have hr : 0 < hi / lo := div_pos h1 h0
  unfold edgeAt
  rw [if_pos rfl]
  refine ⟨?_, mul_pos h0 (Real.rpow_pos_of_pos hr _)⟩
  rw [Real.logb_mul h0.ne' (Real.rpow_pos_of_pos hr _).ne', Real.logb_rpow_eq_mul_logb_of_pos hr, Real.logb_div h1.ne' h0.ne']
  ring

theorem largest_pos {s : Fin 3 → ℕ} (hs : ∀ j, s j % 2 = 1) {L : Fin 3 → ℝ} (hL : ∀ j, 0 < L j) (hm : ∃ j, 1 < s j) :
    0 < most s (wave s L) := by
  obtain ⟨j, hj⟩ := hm
  have hp : ∀ j, 0 < s j := fun j => by have := hs j; omega
  have h0 : (0 : Ix) ∈ box s := (mem_box s 0).2 fun j => ⟨le_rfl, Int.natCast_pos.2 (hp j)⟩
  refine lt_of_lt_of_le ?_ ((most_spec hp (wave s L)).2 0 h0)
  rw [← kMag_odd hs]
  unfold kMag
  apply Real.sqrt_pos.2
  have hk : ∀ l, 1 < s l → 0 < kComp s L l 0 ^ 2 := by
    intro l hl
    have h1 : (1 : ℝ) < s l := by exact_mod_cast hl
    have : kComp s L l 0 ≠ 0 := by
      unfold kComp
      refine div_ne_zero (mul_ne_zero (by positivity) ?_) (hL l).ne'
      have : ((0 : Ix) l : ℝ) = 0 := by simp
      rw [this]
      intro h
      linarith
    positivity
  have q0 := sq_nonneg (kComp s L 0 0)
  have q1 := sq_nonneg (kComp s L 1 0)
  have q2 := sq_nonneg (kComp s L 2 0)
  match j, hj with
  | 0, hj => have := hk 0 hj; linarith
  | 1, hj => have := hk 1 hj; linarith
  | 2, hj => have := hk 2 hj; linarith

theorem not_empty {s : Fin 3 → ℕ} (hs : ∀ j, s j % 2 = 1) : ¬ ∃ j, s j = 0 := by
  rintro ⟨j, hj⟩
  have := hs j
  omega

/-- **C176** (partial).  For odd numbers of cells every bin after the first has the average of the power over all modes from one edge to the
next, among equal steps or ratios from the fundamental mode to the largest wave number.  Missing: the first bin (`C176_first`, `C176_log_false`)
and even numbers of cells (`C176_even_false`). -/
theorem C176_partial (a : Arr (Fin 3) ℝ) (hs : ∀ j, a.shape j % 2 = 1) (hm : ∃ j, 1 < a.shape j) (B : Box) (hB : ∀ j, 0 < B.sides j) (n : ℕ)
    (log : Bool) : ∃ r K, spect1d a B n (if log then .log else .linear) none none = .ok r ∧ Largest a.shape (wave a.shape B.sides) K ∧
      r.ps.length = n ∧ r.ks.length = n ∧ r.modes.length = n ∧
      (∀ i, i < n → r.ks[i]? = some (middle log (edgeAt log (start B.sides) K n i) (edgeAt log (start B.sides) K n (i + 1)))) ∧
      ∀ i, 0 < i → i < n →
        let S := between a.shape (wave a.shape B.sides) (edgeAt log (start B.sides) K n i) (edgeAt log (start B.sides) K n (i + 1))
        r.ps[i]? = some (average S (value B.sides a)) ∧ r.modes[i]? = some S.card := by
  have hp : ∀ j, 0 < a.shape j := fun j => by have := hs j; omega
  have hst := start_pos hB
  have hKpos := largest_pos hs hB hm
  have hk : kMag a.shape B.sides = wave a.shape B.sides := kMag_odd hs _
  have hlo : 2 * Real.pi / longest B.sides = start B.sides := rfl
  have hv : power B.sides a = value B.sides a := rfl
  unfold spect1d
  dsimp only
  rw [if_neg (not_empty hs), hk, Option.getD_none, Option.getD_none, hlo, hv]
  cases log with
  | false =>
    refine ⟨_, most a.shape (wave a.shape B.sides), rfl, most_spec hp _, by simp [collect], by simp [collect], by simp [collect], ?_, ?_⟩
    · intro i hi
      show ((List.range n).map _)[i]? = _
      rw [List.getElem?_map, List.getElem?_range hi]
      simp only [Option.map_some, id]
      rw [centre_eq _ _ _ _ hi]
      unfold middle
      rw [if_neg (by decide), ← edge_linear, ← edge_linear]
      push_cast
      congr 1
      ring
    · intro i h0 hi
      have hS : members a.shape n (centre (start B.sides) (most a.shape (wave a.shape B.sides)) n) ((least a.shape (wave a.shape B.sides) : ℝ) : WithBot ℝ)
          (most a.shape (wave a.shape B.sides)) (fun x => ((wave a.shape B.sides x : ℝ) : WithBot ℝ)) i =
          between a.shape (wave a.shape B.sides) (edgeAt false (start B.sides) (most a.shape (wave a.shape B.sides)) n i)
            (edgeAt false (start B.sides) (most a.shape (wave a.shape B.sides)) n (i + 1)) := by
        ext x
        simp only [members, between, Finset.mem_filter]
        refine and_congr_right fun _ => ?_
        rw [near_bin _ _ _ _ _ h0 hi, ← edge_linear, ← edge_linear]
        push_cast
        rfl
      rw [← hS]
      constructor
      · show ((List.range n).map _)[i]? = _
        rw [List.getElem?_map, List.getElem?_range hi, ← mean_eq]
        rfl
      · show ((List.range n).map _)[i]? = _
        rw [List.getElem?_map, List.getElem?_range hi]
        rfl
  | true =>
    generalize hK : most a.shape (wave a.shape B.sides) = K at *
    refine ⟨_, K, rfl, hK ▸ most_spec hp _, by simp [collect], by simp [collect], by simp [collect], ?_, ?_⟩
    · intro i hi
      show ((List.range n).map _)[i]? = _
      rw [List.getElem?_map, List.getElem?_range hi]
      simp only [Option.map_some]
      rw [centre_eq _ _ _ _ hi]
      unfold middle
      rw [if_pos rfl]
      congr 1
      have e1 := edge_log hst hKpos n i
      have e2 := edge_log hst hKpos n (i + 1)
      have hprod := mul_pos e1.2 e2.2
      have : Real.logb 10 (start B.sides) + ((i : ℝ) + 1 / 2) * ((Real.logb 10 K - Real.logb 10 (start B.sides)) / n) =
          Real.logb 10 (Real.sqrt (edgeAt true (start B.sides) K n i * edgeAt true (start B.sides) K n (i + 1))) := by
        rw [Real.sqrt_eq_rpow, Real.logb_rpow_eq_mul_logb_of_pos hprod, Real.logb_mul e1.2.ne' e2.2.ne', ← e1.1, ← e2.1]
        push_cast
        ring
      rw [this]
      exact Real.rpow_logb (by norm_num) (by norm_num) (Real.sqrt_pos.2 hprod)
    · intro i h0 hi
      have hS : members a.shape n (centre (Real.logb 10 (start B.sides)) (Real.logb 10 K) n) (log10 (least a.shape (wave a.shape B.sides)))
          (Real.logb 10 K) (fun x => log10 (wave a.shape B.sides x)) i =
          between a.shape (wave a.shape B.sides) (edgeAt true (start B.sides) K n i) (edgeAt true (start B.sides) K n (i + 1)) := by
        ext x
        simp only [members, between, Finset.mem_filter]
        refine and_congr_right fun _ => ?_
        have e1 := edge_log hst hKpos n i
        have e2 := edge_log hst hKpos n (i + 1)
        have hx : 0 ≤ wave a.shape B.sides x := Real.sqrt_nonneg _
        rcases hx.eq_or_lt with hx | hx
        · rw [← hx, log10_zero]
          exact iff_of_false (near_bot _ _ _ _ _ h0 hi) fun h => absurd e1.2 (not_lt.2 h.1)
        · rw [log10_pos hx, near_bin _ _ _ _ _ h0 hi]
          have c : ((i : ℝ) + 1) = ((i + 1 : ℕ) : ℝ) := by push_cast; ring
          rw [c, e1.1, e2.1, Real.logb_le_logb (by norm_num) e1.2 hx, Real.logb_le_logb (by norm_num) hx e2.2]
      rw [← hS]
      constructor
      · show ((List.range n).map _)[i]? = _
        rw [List.getElem?_map, List.getElem?_range hi, ← mean_eq]
        rfl
      · show ((List.range n).map _)[i]? = _
        rw [List.getElem?_map, List.getElem?_range hi]
        rfl

example : (∀ j, (![5, 7, 9] : Fin 3 → ℕ) j % 2 = 1) ∧ ∃ j, 1 < (![5, 7, 9] : Fin 3 → ℕ) j := by decide

theorem wave_middle (s : Fin 3 → ℕ) (L : Fin 3 → ℝ) : wave s L (fun j => ((s j / 2 : ℕ) : ℤ)) = 0 := by
  unfold wave waveNumber
  rw [Finset.sum_eq_zero, Real.sqrt_zero]
  intro j _
  dsimp only
  generalize s j / 2 = m
  rw [Int.cast_natCast, sub_self, mul_zero, zero_div, zero_pow (by decide)]

theorem least_zero {s : Fin 3 → ℕ} (hs : ∀ j, 0 < s j) (L : Fin 3 → ℝ) : least s (wave s L) = 0 := by
  obtain ⟨⟨i, _, he⟩, h2⟩ := least_spec hs (wave s L)
  refine le_antisymm ?_ (he ▸ Real.sqrt_nonneg _)
  rw [← wave_middle s L]
  refine h2 _ ((mem_box s _).2 fun j => ⟨Int.natCast_nonneg _, ?_⟩)
  exact_mod_cast Nat.div_lt_self (hs j) (by decide)

/-- The first of at least two bins of equal steps: from half the fundamental mode to half of it above the second edge, so that it overlaps with
the second bin. -/
theorem C176_first (a : Arr (Fin 3) ℝ) (hs : ∀ j, a.shape j % 2 = 1) (B : Box) (n : ℕ) (hn : 2 ≤ n) :
    ∃ r K, spect1d a B n .linear none none = .ok r ∧ Largest a.shape (wave a.shape B.sides) K ∧
      let S := between a.shape (wave a.shape B.sides) (start B.sides / 2) (edgeAt false (start B.sides) K n 1 + start B.sides / 2)
      r.ps[0]? = some (average S (value B.sides a)) ∧ r.modes[0]? = some S.card := by
  have hp : ∀ j, 0 < a.shape j := fun j => by have := hs j; omega
  have hk : kMag a.shape B.sides = wave a.shape B.sides := kMag_odd hs _
  have hlo : 2 * Real.pi / longest B.sides = start B.sides := rfl
  have hv : power B.sides a = value B.sides a := rfl
  unfold spect1d
  dsimp only
  rw [if_neg (not_empty hs), hk, Option.getD_none, Option.getD_none, hlo, hv, least_zero hp]
  generalize hK : most a.shape (wave a.shape B.sides) = K
  refine ⟨_, K, rfl, hK ▸ most_spec hp _, ?_⟩
  have hS : members a.shape n (centre (start B.sides) K n) ((0 : ℝ) : WithBot ℝ) K (fun x => ((wave a.shape B.sides x : ℝ) : WithBot ℝ)) 0 =
      between a.shape (wave a.shape B.sides) (start B.sides / 2) (edgeAt false (start B.sides) K n 1 + start B.sides / 2) := by
    ext x
    simp only [members, between, Finset.mem_filter]
    refine and_congr_right fun _ => ?_
    rw [upper_eq _ _ _ _ (by omega), centre_eq _ _ _ _ (by omega), ← edge_linear]
    show |wave a.shape B.sides x - _| ≤ (_ - 0) / 2 ↔ _
    rw [abs_le]
    push_cast
    generalize (K - start B.sides) / (n : ℝ) = w
    constructor
    · rintro ⟨h1, h2⟩
      constructor <;> linarith
    · rintro ⟨h1, h2⟩
      constructor <;> linarith
  rw [← hS]
  constructor
  · show ((List.range n).map _)[0]? = _
    rw [List.getElem?_map, List.getElem?_range (by omega), ← mean_eq]
    rfl
  · show ((List.range n).map _)[0]? = _
    rw [List.getElem?_map, List.getElem?_range (by omega)]
    rfl

/-- With equal ratios and odd numbers of cells the first bin has all the modes, that of the mean included: its width is infinite. -/
theorem C176_log_false (a : Arr (Fin 3) ℝ) (hs : ∀ j, a.shape j % 2 = 1) (B : Box) (n : ℕ) (hn : 1 ≤ n) :
    ∃ r, spect1d a B n .log none none = .ok r ∧ r.ps[0]? = some (average (box a.shape) (value B.sides a)) ∧
      r.modes[0]? = some (box a.shape).card := by
  have hp : ∀ j, 0 < a.shape j := fun j => by have := hs j; omega
  have hk : kMag a.shape B.sides = wave a.shape B.sides := kMag_odd hs _
  have hv : power B.sides a = value B.sides a := rfl
  unfold spect1d
  dsimp only
  rw [if_neg (not_empty hs), hk, hv, least_zero hp, log10_zero]
  refine ⟨_, rfl, ?_⟩
  have hS : ∀ c (hi : ℝ) (k : Ix → WithBot ℝ), members a.shape n c ⊥ hi k 0 = box a.shape := by
    intro c hi k
    ext x
    simp only [members, Finset.mem_filter, and_iff_left_iff_imp]
    intro _
    rw [show lower c ⊥ 0 = ⊥ from if_pos rfl]
    trivial
  constructor
  · show ((List.range n).map _)[0]? = _
    rw [List.getElem?_map, List.getElem?_range (by omega)]
    simp only [Option.map_some]
    rw [hS, mean_eq]
  · show ((List.range n).map _)[0]? = _
    rw [List.getElem?_map, List.getElem?_range (by omega)]
    simp only [Option.map_some]
    rw [hS]

/-- If a number of cells is even no mode is given its wave number zero, not even the mean: the wave numbers are those of points between the modes. -/
theorem C176_even_false (a : Arr (Fin 3) ℝ) (L : Fin 3 → ℝ) (hL : ∀ j, 0 < L j) (j : Fin 3) (hj : a.shape j % 2 = 0) (i : Ix) :
    Real.pi / L j ≤ kMag a.shape L i ∧ wave a.shape L (fun j => ((a.shape j / 2 : ℕ) : ℤ)) = 0 := by
  refine ⟨?_, wave_middle _ _⟩
  have h1 : Real.pi / L j ≤ |kComp a.shape L j i| := by
    obtain ⟨m, hm⟩ : ∃ m : ℕ, a.shape j = 2 * m := ⟨a.shape j / 2, by omega⟩
    unfold kComp
    rw [hm, abs_div, abs_mul, abs_of_pos (hL j), abs_of_pos (by positivity : (0 : ℝ) < 2 * Real.pi)]
    refine div_le_div_of_nonneg_right ?_ (hL j).le
    have h2 : (1 : ℝ) / 2 ≤ |(i j : ℝ) - (((2 * m : ℕ) : ℝ) - 1) / 2| := by
      push_cast
      rcases le_or_gt (m : ℤ) (i j) with h | h
      · have : (m : ℝ) ≤ i j := by exact_mod_cast h
        exact le_trans (by linarith) (le_abs_self _)
      · have : (i j : ℝ) + 1 ≤ m := by exact_mod_cast h
        exact le_trans (by linarith) (neg_le_abs _)
    have := mul_le_mul_of_nonneg_left h2 (by positivity : (0 : ℝ) ≤ 2 * Real.pi)
    linarith
  refine h1.trans ?_
  unfold kMag
  apply Real.abs_le_sqrt
  have q0 := sq_nonneg (kComp a.shape L 0 i)
  have q1 := sq_nonneg (kComp a.shape L 1 i)
  have q2 := sq_nonneg (kComp a.shape L 2 i)
  match j with
  | 0 => linarith
  | 1 => linarith
  | 2 => linarith

example : (![4, 4, 4] : Fin 3 → ℕ) 0 % 2 = 0 := by decide

/-- Five modes along a line. -/
noncomputable def line : Arr (Fin 3) ℝ := ⟨![5, 1, 1], fun x => x 0⟩

theorem line_wave {i : Ix} (hi : i ∈ box line.shape) : wave line.shape (Box.number (2 * Real.pi)).sides i = |(i 0 : ℝ) - 2| := by
  rw [mem_box] at hi
  have h1 : i 1 = 0 := by have := hi 1; simp [line] at this; omega
  have h2 : i 2 = 0 := by have := hi 2; simp [line] at this; omega
  unfold wave waveNumber
  rw [Fin.sum_univ_three, h1, h2]
  have hpi : (2 * Real.pi) ≠ 0 := by positivity
  have e0 : ((line.shape 0 / 2 : ℕ) : ℝ) = 2 := by simp [line]
  have e1 : ((line.shape 1 / 2 : ℕ) : ℝ) = 0 := by simp [line]
  have e2 : ((line.shape 2 / 2 : ℕ) : ℝ) = 0 := by simp [line]
  rw [e0, e1, e2]
  simp only [Box.sides, Fin.val_zero, List.getD_cons_zero]
  rw [mul_div_cancel_left₀ _ hpi]
  simp [Real.sqrt_sq_eq_abs]

/-- Of five modes six are counted. -/
theorem C176_false : ∃ r, spect1d line (.number (2 * Real.pi)) 2 .linear none none = .ok r ∧ r.modes[0]? = some 4 ∧ r.modes[1]? = some 2 ∧
    (box line.shape).card = 5 := by
  have hs : ∀ j, line.shape j % 2 = 1 := by intro j; match j with | 0 | 1 | 2 => rfl
  have hm : ∃ j, 1 < line.shape j := ⟨0, by decide⟩
  have hpi : (2 * Real.pi) ≠ 0 := by positivity
  have hB : ∀ j, 0 < (Box.number (2 * Real.pi)).sides j := fun _ => by show 0 < 2 * Real.pi; positivity
  obtain ⟨r, K, hr, hK, -, -, -, -, h1⟩ := C176_partial line hs hm _ hB 2 false
  obtain ⟨r', K', hr', hK', h0⟩ := C176_first line hs (.number (2 * Real.pi)) 2 le_rfl
  have e : r' = r := by
    have : Except.ok r' = Except.ok r := hr'.symm.trans hr
    exact Except.ok.inj this
  subst e
  have hst : start (Box.number (2 * Real.pi)).sides = 1 := by
    unfold start
    simp [Box.sides, hpi]
  have big : ∀ K, Largest line.shape (wave line.shape (Box.number (2 * Real.pi)).sides) K → K = 2 := by
    rintro K ⟨⟨i, hi, he⟩, h⟩
    have hz : (0 : Ix) ∈ box line.shape := (mem_box _ _).2 (by intro j; match j with | 0 | 1 | 2 => simp [line])
    have h2 := h 0 hz
    rw [line_wave hz] at h2
    rw [line_wave hi] at he
    have hi0 := (mem_box _ _).1 hi 0
    have u : (i 0 : ℝ) ≤ 4 := by
      have : i 0 ≤ 4 := by have := hi0.2; simp [line] at this; omega
      exact_mod_cast this
    have l : (0 : ℝ) ≤ i 0 := by exact_mod_cast hi0.1
    have : |(i 0 : ℝ) - 2| ≤ 2 := abs_le.2 ⟨by linarith, by linarith⟩
    have h3 : |((0 : Ix) 0 : ℝ) - 2| = 2 := by simp
    rw [h3] at h2
    linarith
  obtain rfl := big K hK
  obtain rfl := big K' hK'
  have ee1 : edgeAt false (1 : ℝ) 2 2 1 = 3 / 2 := by norm_num [edgeAt]
  have ee2 : edgeAt false (1 : ℝ) 2 2 (1 + 1) = 2 := by norm_num [edgeAt]
  have hh := (h1 1 (by decide) (by decide)).2
  have hh0 := h0.2
  rw [hst, ee1] at hh hh0
  rw [ee2] at hh
  refine ⟨r', hr, ?_, ?_, by decide +kernel⟩
  · rw [hh0]
    congr 1
    have : between line.shape (wave line.shape (Box.number (2 * Real.pi)).sides) (1 / 2) (3 / 2 + 1 / 2) =
        (box line.shape).filter fun i => i 0 ≠ 2 := by
      ext i
      simp only [between, Finset.mem_filter]
      refine and_congr_right fun hi => ?_
      rw [line_wave hi]
      have hi0 := (mem_box _ _).1 hi 0
      have u : i 0 ≤ 4 := by have := hi0.2; simp [line] at this; omega
      have l := hi0.1
      generalize i 0 = x at u l
      interval_cases x <;> norm_num
    rw [this]
    decide +kernel
  · rw [hh]
    congr 1
    have : between line.shape (wave line.shape (Box.number (2 * Real.pi)).sides) (3 / 2) 2 =
        (box line.shape).filter fun i => i 0 = 0 ∨ i 0 = 4 := by
      ext i
      simp only [between, Finset.mem_filter]
      refine and_congr_right fun hi => ?_
      rw [line_wave hi]
      have hi0 := (mem_box _ _).1 hi 0
      have u : i 0 ≤ 4 := by have := hi0.2; simp [line] at this; omega
      have l := hi0.1
      generalize i 0 = x at u l
      interval_cases x <;> norm_num
    rw [this]
    decide +kernel

/-- `dimensional_power` is `k^3 P / (2 pi^2)` in each bin. -/
theorem C176_dimensional (a : Arr (Fin 3) ℝ) (B : Box) (n : ℕ) (b : Scale) {r : One} (hr : spect1d a B n b none none = .ok r) :
    ∃ d, dimensional a B n b = .ok d ∧ d.ks = r.ks ∧ d.modes = r.modes ∧ ∀ (i : ℕ) (p k : ℝ), r.ps[i]? = some (some p) → r.ks[i]? = some k →
      d.ps[i]? = some (some (k ^ 3 * p / (2 * Real.pi ^ 2))) := by
  unfold dimensional
  rw [hr]
  refine ⟨_, rfl, rfl, rfl, ?_⟩
  intro i p k hp hk
  show (List.zipWith _ r.ps r.ks)[i]? = _
  rw [List.getElem?_zipWith, hp, hk]
  simp only [Option.map_some]
  congr 2
  ring

end Verif.FastSpectrum
