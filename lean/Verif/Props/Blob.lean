import Verif.Model.Blob
import Verif.Lemmas.UVResponse
import Mathlib.Tactic.Ring
import Mathlib.Tactic.Linarith
import Mathlib.Tactic.NormNum
import Mathlib.Tactic.Positivity
import Mathlib.Tactic.FieldSimp

/-!
# C225: the Gaussian blob of `halo3d`

Full statement (C225): `halo3d(x, a, sigma, array_size)` is an array of the given size whose cell `(i, j, k)` has the value `a exp(-d²/(2 sigma²))`, `d` being the distance
of the cell from `x`; a zero deviation raises.

False of the code: `dx` is already the square of the distance and `gaussian` squares it again, so the value is `a exp(-d⁴/(2 sigma²))`.  It is right at the distances 0 and 1
and nowhere else.
-/

namespace Verif.Blob

/-- The square of the distance of a cell from a point. -/
noncomputable def distSq (x : ℝ × ℝ × ℝ) (i j k : ℕ) : ℝ := (i - x.1) ^ 2 + (j - x.2.1) ^ 2 + (k - x.2.2) ^ 2

/-- A Gaussian of the distance. -/
noncomputable def bell (a sigma dSq : ℝ) : ℝ := a * Real.exp (-(dSq / (2 * sigma ^ 2)))

/-- The array has the given size, and its cells have the values of a function of the indices. -/
def Tabulates (out : List (List (List ℝ))) (size : ℕ × ℕ × ℕ) (f : ℕ → ℕ → ℕ → ℝ) : Prop :=
  out.length = size.1 ∧ (∀ p ∈ out, p.length = size.2.1 ∧ ∀ r ∈ p, r.length = size.2.2) ∧
    ∀ i j k, i < size.1 → j < size.2.1 → k < size.2.2 → ((out[i]?.bind (·[j]?)).bind (·[k]?)) = some (f i j k)

theorem tabulates_map (size : ℕ × ℕ × ℕ) (f : ℕ → ℕ → ℕ → ℝ) :
    Tabulates ((List.range size.1).map fun i => (List.range size.2.1).map fun j => (List.range size.2.2).map fun k => f i j k) size f := by
  refine ⟨by simp, ?_, ?_⟩
  · intro p hp
    obtain ⟨i, _, rfl⟩ := List.mem_map.mp hp
    refine ⟨by simp, fun r hr => ?_⟩
    obtain ⟨j, _, rfl⟩ := List.mem_map.mp hr
    simp
  · intro i j k hi hj hk
    simp [hi, hj, hk]

theorem reduceSquares_eq (x : ℝ × ℝ × ℝ) (i j k : ℕ) : reduceSquares [0, i - x.1, j - x.2.1, k - x.2.2] = distSq x i j k := by
  simp [reduceSquares, distSq]

theorem cell_ok (x : ℝ × ℝ × ℝ) (a : ℝ) {sigma : ℝ} (hs : sigma ≠ 0) (i j k : ℕ) :
    cell x a sigma i j k = .ok (bell a sigma (distSq x i j k ^ 2)) := by
  have h : ¬2 * sigma ^ 2 = 0 := by positivity
  unfold cell gaussian
  rw [if_neg h, reduceSquares_eq, bell, neg_div]
  rfl

theorem halo3d_ok (x : ℝ × ℝ × ℝ) (a : ℝ) {sigma : ℝ} (hs : sigma ≠ 0) (size : ℕ × ℕ × ℕ) :
    halo3d x a sigma size = .ok ((List.range size.1).map fun i => (List.range size.2.1).map fun j => (List.range size.2.2).map fun k =>
      bell a sigma (distSq x i j k ^ 2)) := by
  unfold halo3d
  exact UVResponse.mapM_ok' _ _ _ fun i _ => UVResponse.mapM_ok' _ _ _ fun j _ => UVResponse.mapM_ok' _ _ _ fun k _ => cell_ok x a hs i j k

theorem bell_inj {a sigma : ℝ} (ha : a ≠ 0) (hs : sigma ≠ 0) {u v : ℝ} : bell a sigma u = bell a sigma v ↔ u = v := by
  have h : 2 * sigma ^ 2 ≠ 0 := by positivity
  constructor
  · intro e
    have e1 := Real.exp_injective (mul_left_cancel₀ ha e)
    have e2 := neg_injective e1
    exact (div_left_inj' h).mp e2
  · rintro rfl; rfl

theorem distSq_nonneg (x : ℝ × ℝ × ℝ) (i j k : ℕ) : 0 ≤ distSq x i j k := by unfold distSq; positivity

/-- **C225** (partial: the right size, the right values at the distances 0 and 1 and the wrong ones at all others; the values fall with the distance, from the amplitude on). -/
theorem C225_partial (x : ℝ × ℝ × ℝ) (a sigma : ℝ) (hs : sigma ≠ 0) (ha : 0 < a) (size : ℕ × ℕ × ℕ) :
    ∃ out f, halo3d x a sigma size = .ok out ∧ Tabulates out size f ∧
      (∀ i j k, f i j k = bell a sigma (distSq x i j k) ↔ distSq x i j k = 0 ∨ distSq x i j k = 1) ∧
      (∀ i j k i' j' k', distSq x i j k < distSq x i' j' k' ↔ f i' j' k' < f i j k) ∧
      ∀ i j k, 0 < f i j k ∧ f i j k ≤ a := by
  refine ⟨_, fun i j k => bell a sigma (distSq x i j k ^ 2), halo3d_ok x a hs size, tabulates_map size _, ?_, ?_, ?_⟩
  · intro i j k
    rw [bell_inj ha.ne' hs]
    constructor
    · intro h
      have h' : distSq x i j k * (distSq x i j k - 1) = 0 := by ring_nf; linarith
      rcases mul_eq_zero.mp h' with h' | h'
      · exact .inl h'
      · exact .inr (by linarith)
    · rintro (h | h) <;> rw [h] <;> norm_num
  · intro i j k i' j' k'
    have hp : 0 < 2 * sigma ^ 2 := by positivity
    have h0 := distSq_nonneg x i j k
    have h1 := distSq_nonneg x i' j' k'
    unfold bell
    rw [mul_lt_mul_iff_right₀ ha, Real.exp_lt_exp, neg_lt_neg_iff, div_lt_div_iff_of_pos_right hp]
    exact (sq_lt_sq₀ h0 h1).symm
  · intro i j k
    have hp : 0 ≤ distSq x i j k ^ 2 / (2 * sigma ^ 2) := by positivity
    refine ⟨mul_pos ha (Real.exp_pos _), ?_⟩
    have := Real.exp_le_one_iff.mpr (neg_nonpos.mpr hp)
    calc a * Real.exp _ ≤ a * 1 := mul_le_mul_of_nonneg_left this ha.le
      _ = a := mul_one a

/-- **C225** is false of the code: two cells from the centre, and whatever the amplitude and the deviation, the value is not that of the Gaussian. -/
theorem C225_false (a sigma : ℝ) (ha : a ≠ 0) (hs : sigma ≠ 0) :
    ∃ out v, halo3d (0, 0, 0) a sigma (3, 1, 1) = .ok out ∧ ((out[2]?.bind (·[0]?)).bind (·[0]?)) = some v ∧ v ≠ bell a sigma (2 ^ 2) := by
  refine ⟨_, bell a sigma (distSq (0, 0, 0) 2 0 0 ^ 2), halo3d_ok _ a hs _, ?_, ?_⟩
  · exact (tabulates_map (3, 1, 1) fun i j k => bell a sigma (distSq (0, 0, 0) i j k ^ 2)).2.2 2 0 0 (by norm_num) (by norm_num) (by norm_num)
  · rw [Ne, bell_inj ha hs]
    norm_num [distSq]

/-- **C225**, errors: a zero deviation raises if the array has any cells, and gives an empty array otherwise. -/
theorem C225_raises (x : ℝ × ℝ × ℝ) (a : ℝ) (size : ℕ × ℕ × ℕ) :
    (0 < size.1 → 0 < size.2.1 → 0 < size.2.2 → halo3d x a 0 size = .error .zeroDivision) ∧
      (size.2.2 = 0 → ∃ out, halo3d x a 0 size = .ok out ∧ Tabulates out size fun _ _ _ => 0) := by
  have hc : ∀ i j k, cell x a 0 i j k = .error .zeroDivision := by
    intro i j k
    unfold cell gaussian
    rw [if_pos (by norm_num)]
    rfl
  constructor
  · intro h0 h1 h2
    unfold halo3d
    exact UVResponse.mapM_err _ _ _ (by simpa using h0.ne') fun i _ => UVResponse.mapM_err _ _ _ (by simpa using h1.ne') fun j _ =>
      UVResponse.mapM_err _ _ _ (by simpa using h2.ne') fun k _ => hc i j k
  · intro h2
    refine ⟨_, ?_, tabulates_map size _⟩
    unfold halo3d
    refine UVResponse.mapM_ok' _ _ _ fun i _ => UVResponse.mapM_ok' _ _ _ fun j _ => UVResponse.mapM_ok' _ _ _ fun k hk => ?_
    rw [h2] at hk
    simp at hk

/-- The hypotheses of `C225_partial`: a blob between the cells. -/
example : ∃ out f, halo3d (3 / 2, 2, 2) 5 2 (4, 4, 4) = .ok out ∧ Tabulates out (4, 4, 4) f ∧ f 1 2 2 = 5 * Real.exp (-(1 / 128)) := by
  have hs : (2 : ℝ) ≠ 0 := by norm_num
  refine ⟨_, _, halo3d_ok _ 5 hs _, tabulates_map _ _, ?_⟩
  norm_num [bell, distSq]

/-- The hypotheses of `C225_false`. -/
example : (5 : ℝ) ≠ 0 ∧ (2 : ℝ) ≠ 0 := by norm_num

/-- The hypotheses of `C225_raises`. -/
example : halo3d (0, 0, 0) 1 0 (2, 3, 4) = .error .zeroDivision := (C225_raises _ _ _).1 (by norm_num) (by norm_num) (by norm_num)

end Verif.Blob
