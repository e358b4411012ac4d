import Verif.Model.SubBoxes
import Mathlib.Algebra.BigOperators.Ring.Finset
import Mathlib.Algebra.BigOperators.Fin
import Mathlib.Algebra.Order.Floor.Semiring
import Mathlib.Tactic.Linarith
import Mathlib.Tactic.Ring
import Mathlib.Tactic.FieldSimp
import Mathlib.Tactic.NormNum
import Mathlib.Tactic.Positivity
/-!
# Sub-boxes of the position-dependent power spectrum

C43: the windows cover every cell of the box exactly once, each with the same number of cells.
-/

namespace Verif.SubBoxes

theorem sum_flatMap_range {β : Type*} (f : β → ℚ) (g : ℕ → List β) (n : ℕ) :
    (((List.range n).flatMap g).map f).sum = ∑ i ∈ Finset.range n, ((g i).map f).sum := by
  rw [List.map_flatMap, List.flatMap_def, List.sum_flatten, List.map_map]
  rfl

theorem sum_centres (shape : Fin 3 → ℕ) (N : ℕ) (f : (Fin 3 → ℚ) → ℚ) :
    ((centres shape N).map f).sum = ∑ i ∈ Finset.range N, ∑ j ∈ Finset.range N,
      ∑ k ∈ Finset.range N, f ![side shape N 0 / 2 + i * side shape N 0,
        side shape N 1 / 2 + j * side shape N 1, side shape N 2 / 2 + k * side shape N 2] := by
  simp only [centres]
  rw [sum_flatMap_range]
  refine Finset.sum_congr rfl fun i _ => ?_
  rw [sum_flatMap_range]
  refine Finset.sum_congr rfl fun j _ => ?_
  rw [List.map_map]
  rfl

theorem toInt_nat (n : ℕ) : toInt (n : ℚ) = n := by simp [toInt]

/-- One axis: sub-box `i` consists of the `m` cells with `c / m = i`. -/
theorem axis_iff {n m N i c : ℕ} (hn : n = m * N) (hN : 0 < N) (hi : i < N) (hc : c < n) :
    (bound n (toInt ((n : ℚ) / N / 2 + i * ((n : ℚ) / N) - (n : ℚ) / N / 2)) ≤ c ∧
      (c : ℤ) < bound n (toInt ((n : ℚ) / N / 2 + i * ((n : ℚ) / N) + (n : ℚ) / N / 2))) ↔
    c / m = i := by
  have hN' : (N : ℚ) ≠ 0 := by exact_mod_cast hN.ne'
  have hL : (n : ℚ) / N = m := by rw [hn]; push_cast; field_simp
  have hm : 0 < m := by
    rcases Nat.eq_zero_or_pos m with h | h
    · rw [h, zero_mul] at hn; omega
    · exact h
  rw [hL, show (m : ℚ) / 2 + i * m - m / 2 = ((i * m : ℕ) : ℚ) by push_cast; ring,
    show (m : ℚ) / 2 + i * m + m / 2 = (((i + 1) * m : ℕ) : ℚ) by push_cast; ring,
    toInt_nat, toInt_nat]
  have h1 : (i + 1) * m ≤ n := by
    rw [hn, mul_comm m N]; exact Nat.mul_le_mul_right _ hi
  have h2 : i * m ≤ n := le_trans (Nat.mul_le_mul_right _ (Nat.le_succ i)) h1
  unfold bound
  rw [if_neg (by omega), if_neg (by omega), min_eq_right (by exact_mod_cast h2),
    min_eq_right (by exact_mod_cast h1), Nat.div_eq_iff hm]
  have e : (i + 1) * m = i * m + m := by ring
  rw [e]
  omega

/-- Edge length in cells of the sub-boxes along axis `d`. -/
def edge (shape : Fin 3 → ℕ) (N : ℕ) (d : Fin 3) : ℕ := shape d / N

theorem window_eq {shape : Fin 3 → ℕ} {N : ℕ} (hN : 0 < N) (hd : ∀ d, shape d % N = 0)
    {i j k : ℕ} (hi : i < N) (hj : j < N) (hk : k < N) {c : Fin 3 → ℕ} (hc : ∀ d, c d < shape d) :
    window shape ![side shape N 0 / 2 + i * side shape N 0, side shape N 1 / 2 + j * side shape N 1,
      side shape N 2 / 2 + k * side shape N 2] (side shape N) c =
    if c 0 / edge shape N 0 = i ∧ c 1 / edge shape N 1 = j ∧ c 2 / edge shape N 2 = k then 1
    else 0 := by
  have hs : ∀ d, shape d = edge shape N d * N := fun d =>
    (Nat.div_mul_cancel (Nat.dvd_of_mod_eq_zero (hd d))).symm
  unfold window
  refine if_congr ?_ rfl rfl
  constructor
  · intro h
    exact ⟨(axis_iff (hs 0) hN hi (hc 0)).mp (h 0), (axis_iff (hs 1) hN hj (hc 1)).mp (h 1),
      (axis_iff (hs 2) hN hk (hc 2)).mp (h 2)⟩
  · rintro ⟨h0, h1, h2⟩ d
    match d with
    | 0 => exact (axis_iff (hs 0) hN hi (hc 0)).mpr h0
    | 1 => exact (axis_iff (hs 1) hN hj (hc 1)).mpr h1
    | 2 => exact (axis_iff (hs 2) hN hk (hc 2)).mpr h2

theorem mem_cells {shape : Fin 3 → ℕ} {c : Fin 3 → ℕ} : c ∈ cells shape ↔ ∀ d, c d < shape d := by
  simp [cells]

/-- Every cell lies in exactly one of the `N^3` windows. -/
theorem C43_partition (shape : Fin 3 → ℕ) (N : ℕ) (hN : 0 < N) (hd : ∀ d, shape d % N = 0) :
    (centres shape N).length = N ^ 3 ∧
    ∀ c : Fin 3 → ℕ, (∀ d, c d < shape d) →
      ((centres shape N).map fun r => window shape r (side shape N) c).sum = 1 ∧
      ∀ r, window shape r (side shape N) c = 0 ∨ window shape r (side shape N) c = 1 := by
  constructor
  · simp only [centres, List.length_flatMap, List.length_map, List.length_range,
      List.map_const', List.sum_replicate, smul_eq_mul]
    ring
  · intro c hc
    refine ⟨?_, fun r => by unfold window; split <;> simp⟩
    rw [sum_centres]
    have hs : ∀ d, shape d = edge shape N d * N := fun d =>
      (Nat.div_mul_cancel (Nat.dvd_of_mod_eq_zero (hd d))).symm
    have hq : ∀ d, c d / edge shape N d < N := fun d => by
      refine Nat.div_lt_of_lt_mul ?_
      rw [← hs]; exact hc d
    have step : ∀ i ∈ Finset.range N, ∀ j ∈ Finset.range N, ∀ k ∈ Finset.range N,
        window shape ![side shape N 0 / 2 + (i : ℚ) * side shape N 0,
          side shape N 1 / 2 + (j : ℚ) * side shape N 1,
          side shape N 2 / 2 + (k : ℚ) * side shape N 2] (side shape N) c =
        (if c 0 / edge shape N 0 = i then 1 else 0) * ((if c 1 / edge shape N 1 = j then 1 else 0) *
          (if c 2 / edge shape N 2 = k then (1 : ℚ) else 0)) := by
      intro i hi j hj k hk
      rw [window_eq hN hd (Finset.mem_range.mp hi) (Finset.mem_range.mp hj)
        (Finset.mem_range.mp hk) hc]
      split_ifs <;> simp_all
    rw [Finset.sum_congr rfl fun i hi => Finset.sum_congr rfl fun j hj =>
      Finset.sum_congr rfl fun k hk => step i hi j hj k hk]
    simp only [← Finset.mul_sum, ← Finset.sum_mul]
    simp [hq]

example : 0 < 2 ∧ ∀ d, (![4, 6, 2] : Fin 3 → ℕ) d % 2 = 0 := by decide

/-- Every window holds the same number of cells, `V_L`. -/
theorem C43_volume (shape : Fin 3 → ℕ) (N : ℕ) (hN : 0 < N) (hd : ∀ d, shape d % N = 0)
    (r : Fin 3 → ℚ) (hr : r ∈ centres shape N) :
    ∑ c ∈ cells shape, window shape r (side shape N) c = volume shape N ∧
    volume shape N = ((shape 0 / N) * (shape 1 / N) * (shape 2 / N) : ℕ) := by
  have hs : ∀ d, shape d = edge shape N d * N := fun d =>
    (Nat.div_mul_cancel (Nat.dvd_of_mod_eq_zero (hd d))).symm
  have hN' : (N : ℚ) ≠ 0 := by exact_mod_cast hN.ne'
  have hside : ∀ d, side shape N d = edge shape N d := fun d => by
    have h : (shape d : ℚ) = edge shape N d * N := by exact_mod_cast hs d
    unfold side
    rw [h]
    field_simp
  have hvol : volume shape N = ((shape 0 / N) * (shape 1 / N) * (shape 2 / N) : ℕ) := by
    simp only [volume, hside, edge]; push_cast; ring
  refine ⟨?_, hvol⟩
  rw [hvol]
  simp only [centres, List.mem_flatMap, List.mem_map, List.mem_range] at hr
  obtain ⟨i, hi, j, hj, k, hk, rfl⟩ := hr
  rw [Finset.sum_congr rfl fun c hc => window_eq hN hd hi hj hk (mem_cells.mp hc)]
  rw [Finset.sum_boole]
  congr 1
  have hax : ∀ d q, q < N → ((Finset.range (shape d)).filter fun x => x / edge shape N d = q).card
      = edge shape N d := by
    intro d q hq
    rcases Nat.eq_zero_or_pos (edge shape N d) with h0 | h0
    · have : shape d = 0 := by rw [hs d, h0, zero_mul]
      simp [this, h0]
    · have : (Finset.range (shape d)).filter (fun x => x / edge shape N d = q) =
          Finset.Ico (q * edge shape N d) (q * edge shape N d + edge shape N d) := by
        ext x
        simp only [Finset.mem_filter, Finset.mem_range, Finset.mem_Ico, Nat.div_eq_iff h0]
        have h1 : (q + 1) * edge shape N d ≤ shape d := by
          have := Nat.mul_le_mul_right (edge shape N d) hq
          rw [hs d, mul_comm (edge shape N d) N]; exact this
        have e : (q + 1) * edge shape N d = q * edge shape N d + edge shape N d := by ring
        omega
      rw [this, Nat.card_Ico]; omega
  have : (cells shape).filter (fun c => c 0 / edge shape N 0 = i ∧ c 1 / edge shape N 1 = j ∧
      c 2 / edge shape N 2 = k) = Fintype.piFinset fun d => (Finset.range (shape d)).filter
        fun x => x / edge shape N d = (![i, j, k] : Fin 3 → ℕ) d := by
    ext c
    simp only [Finset.mem_filter, mem_cells, Fintype.mem_piFinset, Finset.mem_range,
      Fin.forall_fin_succ]
    simp
    tauto
  have hlt : ∀ d, (![i, j, k] : Fin 3 → ℕ) d < N := fun d =>
    match d with
    | 0 => hi
    | 1 => hj
    | 2 => hk
  rw [this, Fintype.card_piFinset, Finset.prod_congr rfl fun d _ => hax d _ (hlt d),
    Fin.prod_univ_three]
  rfl

example : (![1, 3 / 2, 1 / 2] : Fin 3 → ℚ) ∈ centres ![4, 6, 2] 2 := by decide +kernel

/-- Sums over the windows of anything weighted with them are sums over the box. -/
theorem sum_windows (shape : Fin 3 → ℕ) (N : ℕ) (hN : 0 < N) (hd : ∀ d, shape d % N = 0)
    (f : (Fin 3 → ℕ) → ℚ) :
    ((centres shape N).map fun r => ∑ c ∈ cells shape, f c * window shape r (side shape N) c).sum =
      ∑ c ∈ cells shape, f c := by
  rw [sum_centres]
  have : ∀ c ∈ cells shape, f c = f c * ((centres shape N).map fun r =>
      window shape r (side shape N) c).sum := fun c hc => by
    rw [((C43_partition shape N hN hd).2 c (mem_cells.mp hc)).1, mul_one]
  conv_rhs => rw [Finset.sum_congr rfl this]
  simp only [sum_centres, Finset.mul_sum]
  rw [Finset.sum_congr rfl fun i _ => Finset.sum_congr rfl fun j _ => Finset.sum_comm]
  rw [Finset.sum_congr rfl fun i _ => Finset.sum_comm]
  rw [Finset.sum_comm]

/-- The mean of the sub-box means is the mean of the box. -/
theorem C43_mean (cube : Cube) (N : ℕ) (hN : 0 < N) (hd : ∀ d, cube.shape d % N = 0) :
    ((centres cube.shape N).map (dMean cube N)).sum / (N : ℚ) ^ 3 =
      (∑ c ∈ cells cube.shape, cube.val c) /
        ((cube.shape 0 : ℚ) * cube.shape 1 * cube.shape 2) := by
  have hN' : (N : ℚ) ≠ 0 := by exact_mod_cast hN.ne'
  have h := sum_windows cube.shape N hN hd cube.val
  have e : ((centres cube.shape N).map (dMean cube N)).sum =
      (∑ c ∈ cells cube.shape, cube.val c) / volume cube.shape N := by
    rw [← h, div_eq_mul_inv, ← List.sum_map_mul_right]
    rfl
  rw [e, div_div]
  congr 1
  simp only [volume, side]
  field_simp

example : 0 < 3 ∧ ∀ d, (![3, 3, 6] : Fin 3 → ℕ) d % 3 = 0 := by decide

/-- Cubes that cannot be divided evenly, unequal shapes and zero cuts raise; all others give a
result. -/
theorem C43_raises {κ : Type*} (pk : Cube → κ → ℚ) (a b : Cube) (N : ℕ) (norm : Bool) :
    (∃ e, integratedBispectrumCross pk a b N norm = .error e) ↔
      a.shape ≠ b.shape ∨ N = 0 ∨ ∃ d, ¬ N ∣ a.shape d := by
  unfold integratedBispectrumCross
  have hdvd : (∃ d, ¬ N ∣ a.shape d) ↔ ¬ ∀ d, a.shape d % N = 0 := by
    simp [Nat.dvd_iff_mod_eq_zero]
  rw [hdvd]
  split_ifs with h1 h2 h3 <;> simp_all

/-- A homogeneous second field of value `v` has mean `v` in every sub-box: the result is `v`
times the mean power spectrum of the sub-boxes, and the normalised response is `1/v`. -/
theorem C43_homogeneous {κ : Type*} (pk : Cube → κ → ℚ) (a b : Cube) (N : ℕ) (v : ℚ)
    (hab : a.shape = b.shape) (hN : 0 < N) (hd : ∀ d, a.shape d % N = 0) (hpos : ∀ d, 0 < a.shape d)
    (hv : ∀ c, b.val c = v) (q : κ) :
    (∃ r, integratedBispectrumCross pk a b N false = .ok r ∧
      r q = v * (((centres a.shape N).map fun c => pk (masked a N c) q).sum / (N : ℚ) ^ 3)) ∧
    (v ≠ 0 → ((centres a.shape N).map fun c => pk (masked a N c) q).sum ≠ 0 →
      ∃ r, integratedBispectrumCross pk a b N true = .ok r ∧ r q = 1 / v) := by
  have hN' : (N : ℚ) ≠ 0 := by exact_mod_cast hN.ne'
  have hvol : volume b.shape N ≠ 0 := by
    have h : ∀ d, (b.shape d : ℚ) ≠ 0 := fun d => by
      have := hpos d
      rw [hab] at this
      exact_mod_cast this.ne'
    have h0 := h 0
    have h1 := h 1
    have h2 := h 2
    simp only [volume, side]
    positivity
  have hmean : ∀ r ∈ centres a.shape N, dMean b N r = v := by
    intro r hr
    rw [hab] at hr
    have := (C43_volume b.shape N hN (hab ▸ hd) r hr).1
    unfold dMean
    simp only [hv, ← Finset.mul_sum, this]
    field_simp
  have hB : ((centres a.shape N).map fun r => pk (masked a N r) q * dMean b N r).sum =
      ((centres a.shape N).map fun r => pk (masked a N r) q).sum * v := by
    rw [← List.sum_map_mul_right]
    refine congrArg List.sum (List.map_congr_left fun r hr => ?_)
    rw [hmean r hr]
  have hS : ((centres a.shape N).map fun r => dMean b N r ^ 2).sum = (N : ℚ) ^ 3 * v ^ 2 := by
    rw [List.map_congr_left fun r hr => by rw [hmean r hr]]
    rw [List.map_const', List.sum_replicate, (C43_partition a.shape N hN hd).1]
    simp
  have hok : ∀ norm, integratedBispectrumCross pk a b N norm = .ok _ := fun norm => by
    unfold integratedBispectrumCross
    rw [if_neg (not_not.mpr hab), if_neg hN.ne', if_neg (not_not.mpr hd)]
  refine ⟨⟨_, hok false, ?_⟩, fun hv0 hp => ⟨_, hok true, ?_⟩⟩
  · simp only [Bool.false_eq_true, if_false]
    rw [hB]; ring
  · simp only [if_true]
    rw [hB, hS]
    field_simp

example : 0 < 2 ∧ (∀ d, (![4, 4, 2] : Fin 3 → ℕ) d % 2 = 0) ∧
    ∀ d, 0 < (![4, 4, 2] : Fin 3 → ℕ) d := by decide

end Verif.SubBoxes
