import Verif.Props.Metrics
/-!
# C268: scores of rearranged maps and of maps in other units
-/

namespace Verif.ScoreCells
open Verif.Metrics

variable {ι : Type} [Fintype ι] [DecidableEq ι] {κ : Type} [Fintype κ]

/-! ## Lemmas -/

theorem mean_cells (σ : Equiv.Perm ι) (x : ι → ℝ) : mean (fun i => x (σ i)) = mean x := by
  unfold mean
  rw [Equiv.sum_comp σ x]

/-! ## Properties -/

/-- **C268, order.** Rearranging the cells of both maps in the same way, as by turning or mirroring both, changes no
score. -/
theorem C268_cells (e : ℝ) (σ : Equiv.Perm ι) (t p : ι → ℝ) :
    iou (fun i => t (σ i)) (fun i => p (σ i)) = iou t p ∧
    precision e (fun i => t (σ i)) (fun i => p (σ i)) = precision e t p ∧
    recall e (fun i => t (σ i)) (fun i => p (σ i)) = recall e t p ∧
    r2score e (fun i => t (σ i)) (fun i => p (σ i)) = r2score e t p ∧
    crossEntropy e (fun i => t (σ i)) (fun i => p (σ i)) = crossEntropy e t p := by
  refine ⟨?_, ?_, ?_, ?_, ?_⟩
  · unfold iou
    dsimp only
    rw [Equiv.sum_comp σ fun i => |t i * p i|, Equiv.sum_comp σ t, Equiv.sum_comp σ p]
  · unfold precision
    dsimp only
    rw [Equiv.sum_comp σ fun i => clip (p i) e (1 - e) * clip (t i) e (1 - e),
      Equiv.sum_comp σ fun i => clip (p i) e (1 - e) * (1 - clip (t i) e (1 - e))]
  · unfold recall
    dsimp only
    rw [Equiv.sum_comp σ fun i => clip (p i) e (1 - e) * clip (t i) e (1 - e),
      Equiv.sum_comp σ fun i => (1 - clip (p i) e (1 - e)) * clip (t i) e (1 - e)]
  · unfold r2score
    dsimp only
    rw [mean_cells, Equiv.sum_comp σ fun i => (t i - p i) ^ 2, Equiv.sum_comp σ fun i => (t i - mean t) ^ 2]
  · unfold crossEntropy
    dsimp only
    rw [mean_cells σ fun i => 1 - t i]
    exact mean_cells σ fun i => cellLoss _ (t i) (Real.log (clip (p i) e (1 - e) / (1 - clip (p i) e (1 - e))))

example := C268_cells 1e-7 (Equiv.swap (0 : Fin 3) 2) ![1, 0, 1] ![0.2, 0.9, 0.4]

/-- **C268, rows.** The Dice coefficients of rearranged rows are the rearranged coefficients, and each of them stays the
same if the cells of its row are rearranged. -/
theorem C268_rows {κ' : Type} [Fintype κ'] (s : ℝ) (σ : Equiv.Perm ι) (τ : κ' ≃ κ) (t p : ι → κ → ℝ) (i : ι) :
    dice s (fun i j => t (σ i) (τ j)) (fun i j => p (σ i) (τ j)) i = dice s t p (σ i) := by
  unfold dice
  dsimp only
  rw [Equiv.sum_comp τ fun j => |t (σ i) j * p (σ i) j|, Equiv.sum_comp τ fun j => t (σ i) j ^ 2,
    Equiv.sum_comp τ fun j => p (σ i) j ^ 2]

example := C268_rows 1 (Equiv.swap (0 : Fin 2) 1) (Equiv.swap (0 : Fin 3) 2) (fun i j => i + j) (fun i j => i * j) 0

/-- **C268, units.** In a unit in which the values are larger the `r2score` is lower, by no more than the fraction
`e / scatter t` of its distance from one. Equality is false, see `C268_false`. -/
theorem C268_partial {e : ℝ} (h0 : 0 < e) (t p : ι → ℝ) (hs : 0 < scatter t) {c : ℝ} (hc : 1 ≤ c) :
    r2score e (fun i => c * t i) (fun i => c * p i) ≤ r2score e t p ∧
      r2score e t p - r2score e (fun i => c * t i) (fun i => c * p i) ≤
        (1 - r2score e t p) * (e / scatter t) := by
  have hc0 : 0 < c := by linarith
  have ea : average (fun i => c * t i) = c * average t := by
    unfold average
    rw [← Finset.mul_sum, mul_div_assoc]
  have e1 : scatter (fun i => c * t i) = c ^ 2 * scatter t := by
    unfold scatter
    rw [Finset.mul_sum]
    refine Finset.sum_congr rfl fun i _ => ?_
    rw [ea]; ring
  have e2 : errors (fun i => c * t i) (fun i => c * p i) = c ^ 2 * errors t p := by
    unfold errors
    rw [Finset.mul_sum]
    refine Finset.sum_congr rfl fun i _ => ?_
    ring
  have hE := errors_nonneg t p
  rw [r2_eq, r2_eq, e1, e2]
  set S := scatter t
  set E := errors t p
  have hS : 0 < S + e := by linarith
  have hS' : 0 < c ^ 2 * S + e := by positivity
  have h1 : 1 ≤ c ^ 2 := one_le_pow₀ hc
  have k1 : E / (S + e) ≤ c ^ 2 * E / (c ^ 2 * S + e) := by
    rw [div_le_div_iff₀ hS hS']
    nlinarith [mul_nonneg (mul_nonneg hE h0.le) (sub_nonneg.mpr h1)]
  have k2 : c ^ 2 * E / (c ^ 2 * S + e) ≤ E / S := by
    rw [div_le_div_iff₀ hS' hs]
    nlinarith [mul_nonneg hE h0.le]
  have k3 : E / S = E / (S + e) + E / (S + e) * (e / S) := by
    field_simp
  refine ⟨by linarith, ?_⟩
  have : 1 - (1 - E / (S + e)) = E / (S + e) := by ring
  rw [this]
  linarith

/-- **C268 is false of units**: maps in units in which their values are small have an `r2score` near one, whatever the
prediction. -/
theorem C268_false : r2score 1e-7 (ι := Fin 2) ![0, 1] ![1, 0] < -2 ∧
    9 / 10 < r2score 1e-7 (ι := Fin 2) (fun i => 1e-5 * ![0, 1] i) (fun i => 1e-5 * ![1, 0] i) := by
  unfold r2score mean
  simp only [Fin.sum_univ_two, Fintype.card_fin]
  norm_num

example := C268_partial (e := 1e-7) (by norm_num) (ι := Fin 2) ![0, 1] ![0.2, 0.9] (by
  unfold scatter average
  simp only [Fin.sum_univ_two, Fintype.card_fin]
  norm_num) (c := 1000) (by norm_num)

end Verif.ScoreCells
