import Verif.Props.Tau
/-!
# C260: the optical depth grows with the ionised fraction
-/

namespace Verif.TauGrowth
open Verif.Tau Verif.Constants Verif.Conversions

/-! ## Specification -/

/-- Entry by entry at most as large. -/
def Below (a b : List ℝ) : Prop := a.length = b.length ∧ ∀ i, a.getD i 0 ≤ b.getD i 0

/-- Entry by entry the mean of two lists with weights `w` and `1 - w`. -/
def Mixed (w : ℝ) (a b c : List ℝ) : Prop :=
  a.length = c.length ∧ b.length = c.length ∧ ∀ i, c.getD i 0 = w * a.getD i 0 + (1 - w) * b.getD i 0

/-! ## Proofs -/

theorem take_getD (o : List ℕ) (a : List ℝ) (j : ℕ) : (take o a).getD j 0 = if h : j < o.length then a.getD o[j] 0 else 0 := by
  unfold take
  by_cases h : j < o.length
  · simp [List.getD_eq_getElem?_getD, h]
  · simp [List.getD_eq_getElem?_getD, h]

/-- The redshifts do not depend on the fractions, and the depths are sums with fixed weights. -/
theorem depth (f : List ℝ → List ℕ) (hf : Argsort f) (k : Const) (zs : List ℝ) (N : ℕ) (hN : 1 ≤ N) (h0 : zs ≠ []) :
    ∃ (tz : List ℝ) (A : ℕ → ℝ), ∀ ion : List ℝ, ion.length = zs.length → ∃ t, tau f k ion zs N = .ok (t, tz) ∧
      t.length = N + zs.length ∧ (∀ i < N, t.getD i 0 = A i) ∧ ∀ j < zs.length, t.getD (N + j) 0 = A N +
        trapezoid (fun m => (take (f zs) zs).getD m 0) (fun m => rateOf k ((take (f zs) ion).getD m 0) ((take (f zs) zs).getD m 0)) j := by
  refine ⟨tauZ N ((take (f zs) zs).getD 0 0) (take (f zs) zs), fun i =>
    if i < N then coeff k * (rate k ((tauZ N ((take (f zs) zs).getD 0 0) (take (f zs) zs)).getD i 0) - 1)
    else coeff k * (Real.sqrt (k.omega0 * (1 + (take (f zs) zs).getD 0 0) ^ 3 + k.lam) - 1), fun ion h => ?_⟩
  obtain ⟨z0, hz0, _, e⟩ := tau_eq hf k ion zs N h h0
  have hl := take_length hf zs zs
  subst hz0
  refine ⟨_, e, ?_, fun i hi => ?_, fun j hj => ?_⟩
  · rw [length_fill _ _ _ _ _ (length_start _ _ _ _)]
  · beta_reduce
    rw [fill_low _ _ _ _ _ (length_start _ _ _ _) i hi, if_pos hi]
  · have h1 := fill_trapezoid k (take (f zs) ion) (take (f zs) zs) N hN _ rfl j (by omega)
    rw [hl] at h1
    beta_reduce
    rw [h1, if_neg (lt_irrefl N)]

theorem cases_index {P : ℕ → Prop} {N n : ℕ} (h1 : ∀ i < N, P i) (h2 : ∀ j < n, P (N + j)) (h3 : ∀ i, N + n ≤ i → P i)
    (i : ℕ) : P i := by
  by_cases hi : i < N
  · exact h1 i hi
  · by_cases hj : i < N + n
    · have := h2 (i - N) (by omega)
      rwa [show N + (i - N) = i by omega] at this
    · exact h3 i (by omega)

/-! ## Theorems -/

/-- C260: in a universe that is more ionised at every redshift the optical depth is larger at every redshift. -/
theorem C260_monotone (f : List ℝ → List ℕ) (hf : Argsort f) (k : Const) (p : Physical k) (b : Baryons k) (ion ion' zs : List ℝ) (N : ℕ)
    (hN : 1 ≤ N) (h : ion.length = zs.length) (h0 : zs ≠ []) (hi : Below ion ion') :
    ∃ t t' tz, tau f k ion zs N = .ok (t, tz) ∧ tau f k ion' zs N = .ok (t', tz) ∧ Below t t' := by
  obtain ⟨tz, A, H⟩ := depth f hf k zs N hN h0
  obtain ⟨t, e, l, v, w⟩ := H ion h
  obtain ⟨t', e', l', v', w'⟩ := H ion' (by rw [← hi.1, h])
  refine ⟨t, t', tz, e, e', by rw [l, l'], ?_⟩
  refine cases_index (N := N) (n := zs.length) (fun i hiN => by rw [v i hiN, v' i hiN]) (fun j hj => ?_) fun i hi' => ?_
  · rw [w j hj, w' j hj]
    refine add_le_add_right (Finset.sum_le_sum fun m hm => ?_) _
    have hm' := Finset.mem_range.1 hm
    have hsort := take_sorted hf zs
    rw [List.pairwise_iff_getElem] at hsort
    have hl := take_length hf zs zs
    have hz : (take (f zs) zs).getD m 0 ≤ (take (f zs) zs).getD (m + 1) 0 := by
      have h1 : m < (take (f zs) zs).length := by omega
      have h2 : m + 1 < (take (f zs) zs).length := by omega
      have := hsort m (m + 1) h1 h2 (by omega)
      simpa [List.getD_eq_getElem?_getD, h1, h2] using this
    have hr : ∀ m, rateOf k ((take (f zs) ion).getD m 0) ((take (f zs) zs).getD m 0) ≤
        rateOf k ((take (f zs) ion').getD m 0) ((take (f zs) zs).getD m 0) := by
      intro m
      have hx : (take (f zs) ion).getD m 0 ≤ (take (f zs) ion').getD m 0 := by
        rw [take_getD, take_getD]
        split_ifs
        · exact hi.2 _
        · exact le_refl _
      have h1 := p.matter'
      have h2 := coeff_nonneg p b
      unfold rateOf
      gcongr
    have := hr m
    have := hr (m + 1)
    exact mul_le_mul_of_nonneg_right (by linarith) (by linarith)
  · rw [List.getD_eq_default _ _ (by omega), List.getD_eq_default _ _ (by omega)]

/-- C260: the optical depth of mixed ionisation histories is the mixture of their optical depths. -/
theorem C260_mixed (f : List ℝ → List ℕ) (hf : Argsort f) (k : Const) (w : ℝ) (ion ion' mix zs : List ℝ) (N : ℕ)
    (hN : 1 ≤ N) (h : mix.length = zs.length) (h0 : zs ≠ []) (hm : Mixed w ion ion' mix) :
    ∃ t t' s tz, tau f k ion zs N = .ok (t, tz) ∧ tau f k ion' zs N = .ok (t', tz) ∧ tau f k mix zs N = .ok (s, tz) ∧ Mixed w t t' s := by
  obtain ⟨tz, A, H⟩ := depth f hf k zs N hN h0
  obtain ⟨t, e, l, v, q⟩ := H ion (by rw [hm.1, h])
  obtain ⟨t', e', l', v', q'⟩ := H ion' (by rw [hm.2.1, h])
  obtain ⟨s, e'', l'', v'', q''⟩ := H mix h
  refine ⟨t, t', s, tz, e, e', e'', by rw [l, l''], by rw [l', l''], ?_⟩
  refine cases_index (N := N) (n := zs.length) (fun i hiN => ?_) (fun j hj => ?_) fun i hi' => ?_
  · rw [v i hiN, v' i hiN, v'' i hiN]
    ring
  · rw [q j hj, q' j hj, q'' j hj]
    have hr : ∀ m, rateOf k ((take (f zs) mix).getD m 0) ((take (f zs) zs).getD m 0) =
        w * rateOf k ((take (f zs) ion).getD m 0) ((take (f zs) zs).getD m 0) +
          (1 - w) * rateOf k ((take (f zs) ion').getD m 0) ((take (f zs) zs).getD m 0) := by
      intro m
      have hx : (take (f zs) mix).getD m 0 = w * (take (f zs) ion).getD m 0 + (1 - w) * (take (f zs) ion').getD m 0 := by
        rw [take_getD, take_getD, take_getD]
        split_ifs
        · exact hm.2.2 _
        · ring
      rw [hx]
      unfold rateOf
      ring
    have ht : trapezoid (fun m => (take (f zs) zs).getD m 0) (fun m => rateOf k ((take (f zs) mix).getD m 0) ((take (f zs) zs).getD m 0)) j =
        w * trapezoid (fun m => (take (f zs) zs).getD m 0) (fun m => rateOf k ((take (f zs) ion).getD m 0) ((take (f zs) zs).getD m 0)) j +
        (1 - w) * trapezoid (fun m => (take (f zs) zs).getD m 0)
          (fun m => rateOf k ((take (f zs) ion').getD m 0) ((take (f zs) zs).getD m 0)) j := by
      unfold trapezoid
      rw [Finset.mul_sum, Finset.mul_sum, ← Finset.sum_add_distrib]
      refine Finset.sum_congr rfl fun m _ => ?_
      beta_reduce
      rw [hr, hr]
      ring
    rw [ht]
    ring
  · rw [List.getD_eq_default _ _ (by omega), List.getD_eq_default _ _ (by omega), List.getD_eq_default _ _ (by omega)]
    ring

/-- An early and a late history, and their mean. -/
example : Below [1, 1 / 2, 0] [1, 3 / 4, 1 / 4] ∧ Mixed (1 / 2) [1, 1 / 2, 0] [1, 3 / 4, 1 / 4] [1, 5 / 8, 1 / 8] ∧
    ([1, 5 / 8, 1 / 8] : List ℝ).length = ([6, 7, 8] : List ℝ).length ∧ ([6, 7, 8] : List ℝ) ≠ [] := by
  refine ⟨⟨rfl, fun i => ?_⟩, ⟨rfl, rfl, fun i => ?_⟩, rfl, by simp⟩
  · match i with
    | 0 => norm_num
    | 1 => norm_num
    | 2 => norm_num
    | (n + 3) => simp
  · match i with
    | 0 => norm_num
    | 1 => norm_num
    | 2 => norm_num
    | (n + 3) => simp

end Verif.TauGrowth
