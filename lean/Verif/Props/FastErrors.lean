import Verif.Props.FastCosine
import Verif.Props.Thresholds
/-!
# Bins with equal numbers of modes, and the arguments refused, in `power_spect_fast.py` (C176, C178, C179)
-/

namespace Verif.FastSpectrum
open Verif.Convolve Verif.PowerSpectrum

open Classical in
/-- `v` is the quantile `p / q` of a quantity over the modes. -/
def Quantile (s : Fin 3 → ℕ) (f : Ix → ℝ) (p q : ℕ) (v : ℝ) : Prop :=
  (∃ i ∈ box s, f i = v) ∧ q * ((box s).filter fun i => f i < v).card ≤ (box s).card * p ∧
    (box s).card * p < q * ((box s).filter fun i => f i ≤ v).card

theorem count_sorted (s : Fin 3 → ℕ) (f : Ix → ℝ) (P : ℝ → Prop) [DecidablePred P] :
    ((sorted s f).countP fun x => decide (P x)) = ((box s).filter fun i => P (f i)).card := by
  have h : (sorted s f : Multiset ℝ) = (box s).val.map f := Multiset.sort_eq _ _
  rw [← Multiset.coe_countP, h, Multiset.countP_map]
  rfl

/-- **C176**, equal numbers of modes.  The centres of the bins are the quantiles `(2 i + 1) / (2 n)` of the wave numbers of the modes. -/
theorem C176_auto (a : Arr (Fin 3) ℝ) (hs : ∀ j, a.shape j % 2 = 1) (B : Box) (n : ℕ) :
    ∃ r, spect1d a B n .auto none none = .ok r ∧ r.ks.length = n ∧ r.ps.length = n ∧ r.modes.length = n ∧
      ∀ i, i < n → ∃ v, r.ks[i]? = some v ∧ Quantile a.shape (wave a.shape B.sides) (2 * i + 1) (2 * n) v := by
  have hp : ∀ j, 0 < a.shape j := fun j => by have := hs j; omega
  have hk : kMag a.shape B.sides = wave a.shape B.sides := kMag_odd hs _
  have hc : 0 < (box a.shape).card := Finset.card_pos.2 ⟨0, (mem_box _ 0).2 fun j => ⟨le_rfl, Int.natCast_pos.2 (hp j)⟩⟩
  have he : spect1d a B n .auto none none = .ok (collect a.shape n
      (fun i => (sorted a.shape (wave a.shape B.sides)).getD ((box a.shape).card * (2 * i + 1) / (2 * n)) 0)
      (least a.shape (wave a.shape B.sides) : ℝ) (most a.shape (wave a.shape B.sides)) (fun x => (wave a.shape B.sides x : ℝ))
      (power B.sides a) id) := by
    unfold spect1d
    dsimp only
    rw [if_neg (not_empty hs), hk]
  refine ⟨_, he, by simp [collect], by simp [collect], by simp [collect], ?_⟩
  intro i hi
  refine ⟨(sorted a.shape (wave a.shape B.sides)).getD ((box a.shape).card * (2 * i + 1) / (2 * n)) 0, by simp [collect, hi], ?_⟩
  have hl : (sorted a.shape (wave a.shape B.sides)).length = (box a.shape).card := by
    unfold sorted
    rw [Multiset.length_sort, Multiset.card_map]
    rfl
  have hr : (box a.shape).card * (2 * i + 1) / (2 * n) < (sorted a.shape (wave a.shape B.sides)).length := by
    rw [hl, Nat.div_lt_iff_lt_mul (by omega)]
    exact Nat.mul_lt_mul_of_pos_left (by omega) hc
  obtain ⟨hm, h1, h2⟩ := Verif.Thresholds.isOrder_sorted _ _ (List.Perm.refl (sorted a.shape (wave a.shape B.sides)))
    (Multiset.pairwise_sort _ _) _ hr
  rw [count_sorted a.shape (wave a.shape B.sides) (fun x => x < _)] at h1
  rw [count_sorted a.shape (wave a.shape B.sides) (fun x => x ≤ _)] at h2
  generalize (sorted a.shape (wave a.shape B.sides)).getD ((box a.shape).card * (2 * i + 1) / (2 * n)) 0 = v at *
  refine ⟨?_, ?_, ?_⟩
  · have h : v ∈ (box a.shape).val.map (wave a.shape B.sides) := by
      have := (Multiset.mem_sort (r := (· ≤ ·)) (s := (box a.shape).val.map (wave a.shape B.sides))).1 hm
      exact this
    obtain ⟨j, hj, he⟩ := Multiset.mem_map.1 h
    exact ⟨j, hj, he⟩
  · have := (Nat.le_div_iff_mul_le (by omega : 0 < 2 * n)).1 h1
    rw [Nat.mul_comm]
    exact le_trans (by convert this) le_rfl
  · have := (Nat.div_lt_iff_lt_mul (by omega : 0 < 2 * n)).1 h2
    rw [Nat.mul_comm (2 * n)]
    exact lt_of_lt_of_le this (le_of_eq (by congr))

/-- Seven modes along one axis in three bins: the centres are quantiles one sixth, one half and five sixths. -/
example : ∀ j, (⟨![1, 1, 7], fun i => (i 2 : ℝ)⟩ : Arr (Fin 3) ℝ).shape j % 2 = 1 := by
  intro j
  match j with
  | 0 => rfl
  | 1 => rfl
  | 2 => rfl

/-- **C176**, arguments refused: an unknown scale, and arrays without cells. -/
theorem C176_raises (a : Arr (Fin 3) ℝ) (B : Box) (n : ℕ) (kmin kmax : Option ℝ) :
    (∀ r, spect1d a B n .other kmin kmax ≠ .ok r) ∧ (∀ b r, (∃ j, a.shape j = 0) → spect1d a B n b kmin kmax ≠ .ok r) ∧
      ((∀ j, a.shape j ≠ 0) → ∀ b, b ≠ .other → ∃ r, spect1d a B n b kmin kmax = .ok r) := by
  refine ⟨fun r => ?_, fun b r h => ?_, fun h b hb => ?_⟩
  · unfold spect1d
    dsimp only
    split_ifs <;> simp
  · unfold spect1d
    dsimp only
    rw [if_pos h]
    simp
  · unfold spect1d
    dsimp only
    rw [if_neg (by rintro ⟨j, hj⟩; exact h j hj)]
    cases b with
    | log => exact ⟨_, rfl⟩
    | linear => exact ⟨_, rfl⟩
    | auto => exact ⟨_, rfl⟩
    | other => exact absurd rfl hb

/-- **C178**, a name that is neither of the two windows is refused. -/
theorem C178_raises (bh tk : ℕ → ℤ → ℝ) (a : Arr (Fin 3) ℝ) (B : Box) (K : Bins) (b : Scale) (axis : ℤ) (r : Two × Arr (Fin 3) ℝ) :
    spect2d bh tk a B K b axis .name ≠ .ok r := by
  unfold spect2d
  simp

/-- **C179**, arguments refused: fewer than two bins of either kind, an axis that does not exist, arrays without cells. -/
theorem C179_raises (a : Arr (Fin 3) ℝ) (B : Box) (n m : ℕ) (logk logmu : Bool) (axis : ℤ)
    (h : n < 2 ∨ m < 2 ∨ (axis < 0 ∨ 2 < axis) ∨ ∃ j, a.shape j = 0) (r : Two) : spectMu a B n m logk logmu axis ≠ .ok r := by
  unfold spectMu
  dsimp only
  intro hr
  split at hr
  · cases hr
  rename_i h1
  split at hr
  · cases hr
  rename_i los hl
  have ha : 0 ≤ axis ∧ axis ≤ 2 := by
    split_ifs at hl <;> omega
  split at hr
  · cases hr
  split at hr
  · cases hr
  rename_i h2
  split at hr
  · cases hr
  split at hr
  · cases hr
  rename_i h3
  rcases h with h | h | h | h
  · exact h2 h
  · exact h3 h
  · omega
  · exact h1 h

/-- A single bin of the cosine. -/
example (a : Arr (Fin 3) ℝ) (r : Two) : spectMu a (.number 1) 10 1 true false 2 ≠ .ok r :=
  C179_raises a _ 10 1 true false 2 (Or.inr (Or.inl (by decide))) r

end Verif.FastSpectrum
