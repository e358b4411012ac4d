import Verif.Model.Diagnostics
import Mathlib.Algebra.Order.BigOperators.Group.List
import Mathlib.Algebra.BigOperators.Group.List.Basic
import Mathlib.Data.List.GetD
import Mathlib.Tactic.FieldSimp
import Mathlib.Tactic.Ring
import Mathlib.Tactic.NormNum
import Mathlib.Tactic.Linarith
import Mathlib.Tactic.Positivity
import Mathlib.Tactic.LinearCombination

/-!
# The summary of weighted samples (C147)
-/

namespace Verif.Diagnostics

/-! ## Lemmas -/

theorem sum_div (l : List ℝ) (c : ℝ) : (l.map (· / c)).sum = l.sum / c := by
  induction l with
  | nil => simp
  | cons a l ih => simp [ih, add_div]

theorem sum_div_one {l : List ℝ} (h : l.sum ≠ 0) : (l.map (· / l.sum)).sum = 1 := by
  rw [sum_div, div_self h]

theorem zip_map_div {d : ℕ} (pts : List (Fin d → ℝ)) (w : List ℝ) (c : ℝ) (f : (Fin d → ℝ) → ℝ) :
    ((pts.zip (w.map (· / c))).map fun s => s.2 * f s.1).sum = ((pts.zip w).map fun s => s.2 * f s.1).sum / c := by
  induction pts generalizing w with
  | nil => simp
  | cons a pts ih =>
    cases w with
    | nil => simp
    | cons b w =>
      simp only [List.map_cons, List.zip_cons_cons, List.sum_cons, ih]
      ring

theorem metrics_ok {d : ℕ} (hd : d ≠ 1) (srt : List ℝ → List ℕ) {pts : List (Fin d → ℝ)} {w : List ℝ}
    (hlen : pts.length = w.length) (hne : pts ≠ []) (hw : ∀ x ∈ w, 0 ≤ x) (hpos : 0 < w.sum) :
    metrics srt none pts w = .ok
      { means := average pts (w.map (· / w.sum)),
        sigmas := (cov pts (w.map (· / w.sum))).map fun c p => Real.sqrt (c p p),
        cov := cov pts (w.map (· / w.sum)),
        cis := fun p : Fin d => credible srt (pts.map fun r => r p) (w.map (· / w.sum)),
        truth := none } := by
  unfold metrics
  simp only []
  rw [if_neg (not_not.2 hlen), if_neg hne, if_neg hpos.ne', if_neg, if_neg hd]
  rintro ⟨x, hx, hx0⟩
  obtain ⟨y, hy, rfl⟩ := List.mem_map.1 hx
  exact absurd hx0 (not_lt.2 (div_nonneg (hw y hy) hpos.le))

theorem metrics_inv {d : ℕ} {srt : List ℝ → List ℕ} {tv : Option (List ℝ)} {pts : List (Fin d → ℝ)} {w : List ℝ}
    {m : Metrics d} (h : metrics srt tv pts w = .ok m) :
    pts.length = w.length ∧ pts ≠ [] ∧ w.sum ≠ 0 ∧ (∀ x ∈ w, 0 ≤ x / w.sum) ∧ d ≠ 1 ∧
      m.means = average pts (w.map (· / w.sum)) ∧
      m.sigmas = (cov pts (w.map (· / w.sum))).map (fun c p => Real.sqrt (c p p)) ∧
      m.cov = cov pts (w.map (· / w.sum)) ∧
      (m.cis = fun p : Fin d => credible srt (pts.map fun r => r p) (w.map (· / w.sum))) := by
  classical
  unfold metrics at h
  simp only [] at h
  split_ifs at h with h1 h2 h3 h4 h5 h6 <;> try exact absurd h (by simp)
  refine ⟨not_not.1 h1, h2, h3, ?_, h6, ?_⟩
  · intro x hx
    by_contra hlt
    exact h5 ⟨_, List.mem_map.2 ⟨x, hx, rfl⟩, not_le.1 hlt⟩
  · cases tv with
    | none =>
      simp only [Except.ok.injEq] at h
      subst h
      exact ⟨rfl, rfl, rfl, rfl⟩
    | some tv =>
      simp only [] at h
      split at h
      · exact absurd h (by simp)
      · simp only [Except.ok.injEq] at h
        subst h
        exact ⟨rfl, rfl, rfl, rfl⟩

/-! ## Specification -/

/-- The weighted sum of a function of the samples. -/
def wsum {d : ℕ} (pts : List (Fin d → ℝ)) (w : List ℝ) (f : (Fin d → ℝ) → ℝ) : ℝ :=
  ((pts.zip w).map fun s => s.2 * f s.1).sum

theorem average_spec {d : ℕ} {pts : List (Fin d → ℝ)} {w : List ℝ} (h : w.sum ≠ 0) (p : Fin d) :
    average pts (w.map (· / w.sum)) p = wsum pts w (fun r => r p) / w.sum := by
  unfold average wsum
  rw [sum_div_one h, div_one]
  exact zip_map_div pts w w.sum (fun r => r p)

theorem squares (w : List ℝ) (c : ℝ) :
    ((w.map (· / c)).map fun x => x * x).sum = (w.map fun x => x ^ 2).sum / c ^ 2 := by
  induction w with
  | nil => simp
  | cons a w ih =>
    simp only [List.map_cons, List.sum_cons, ih]
    ring

theorem wsum_bounds {d : ℕ} {pts : List (Fin d → ℝ)} {w : List ℝ} (hlen : pts.length = w.length) (hw : ∀ x ∈ w, 0 ≤ x)
    {f : (Fin d → ℝ) → ℝ} {lo hi : ℝ} (h : ∀ r ∈ pts, lo ≤ f r ∧ f r ≤ hi) :
    lo * w.sum ≤ wsum pts w f ∧ wsum pts w f ≤ hi * w.sum := by
  unfold wsum
  induction pts generalizing w with
  | nil =>
    have : w = [] := List.length_eq_zero_iff.1 (by simpa using hlen.symm)
    subst this
    simp
  | cons a pts ih =>
    cases w with
    | nil => simp at hlen
    | cons b w =>
      have h1 := ih (w := w) (by simpa using hlen) (fun x hx => hw x (List.mem_cons_of_mem _ hx))
        (fun r hr => h r (List.mem_cons_of_mem _ hr))
      have h2 := h a (List.mem_cons_self)
      have h3 := hw b (List.mem_cons_self)
      simp only [List.zip_cons_cons, List.map_cons, List.sum_cons]
      constructor
      · nlinarith [h1.1, mul_le_mul_of_nonneg_left h2.1 h3]
      · nlinarith [h1.2, mul_le_mul_of_nonneg_left h2.2 h3]

/-- Sum of squares of non-negative numbers: not more than the square of the sum, and equal only for one number. -/
theorem squares_le {w : List ℝ} (hw : ∀ x ∈ w, 0 ≤ x) : (w.map fun x => x ^ 2).sum ≤ w.sum ^ 2 := by
  induction w with
  | nil => simp
  | cons a w ih =>
    have h1 := ih (fun x hx => hw x (List.mem_cons_of_mem _ hx))
    have h2 := hw a List.mem_cons_self
    have h3 : 0 ≤ w.sum := List.sum_nonneg (fun x hx => hw x (List.mem_cons_of_mem _ hx))
    simp only [List.map_cons, List.sum_cons]
    nlinarith [mul_nonneg h2 h3]

/-- Only one sample has a weight other than zero. -/
def Alone (w : List ℝ) : Prop := ∃ A a B, w = A ++ a :: B ∧ (∀ x ∈ A, x = 0) ∧ (∀ x ∈ B, x = 0)

theorem sum_zero {l : List ℝ} (h : ∀ x ∈ l, x = 0) : l.sum = 0 := List.sum_eq_zero h

theorem squares_eq_iff {w : List ℝ} (hw : ∀ x ∈ w, 0 ≤ x) (hne : w ≠ []) :
    w.sum ^ 2 ≤ (w.map fun x => x ^ 2).sum ↔ Alone w := by
  constructor
  · intro h
    induction w with
    | nil => exact absurd rfl hne
    | cons a w ih =>
      have hw' : ∀ x ∈ w, 0 ≤ x := fun x hx => hw x (List.mem_cons_of_mem _ hx)
      have h1 := squares_le hw'
      have h2 := hw a List.mem_cons_self
      have h3 : 0 ≤ w.sum := List.sum_nonneg hw'
      simp only [List.map_cons, List.sum_cons] at h
      have h4 : a * w.sum = 0 := by nlinarith [mul_nonneg h2 h3]
      rcases mul_eq_zero.1 h4 with h5 | h5
      · by_cases hw0 : w = []
        · subst hw0
          exact ⟨[], a, [], rfl, by simp, by simp⟩
        · subst h5
          obtain ⟨A, b, B, rfl, hA, hB⟩ := ih hw' hw0 (by nlinarith)
          refine ⟨0 :: A, b, B, rfl, ?_, hB⟩
          intro x hx
          rcases List.mem_cons.1 hx with h | h
          · exact h
          · exact hA x h
      · refine ⟨[], a, w, rfl, by simp, ?_⟩
        intro x hx
        have := List.single_le_sum hw' x hx
        exact le_antisymm (h5 ▸ this) (hw' x hx)
  · rintro ⟨A, a, B, rfl, hA, hB⟩
    have e1 : (A.map fun x => x ^ 2).sum = 0 := sum_zero (by
      intro x hx
      obtain ⟨y, hy, rfl⟩ := List.mem_map.1 hx
      rw [hA y hy]; norm_num)
    have e2 : (B.map fun x => x ^ 2).sum = 0 := sum_zero (by
      intro x hx
      obtain ⟨y, hy, rfl⟩ := List.mem_map.1 hx
      rw [hB y hy]; norm_num)
    simp only [List.map_append, List.map_cons, List.sum_append, List.sum_cons, sum_zero hA, sum_zero hB, e1, e2]
    simp

theorem cov_sum {d : ℕ} (pts : List (Fin d → ℝ)) (w : List ℝ) (f g : (Fin d → ℝ) → ℝ) (c : ℝ) :
    ((pts.zip (w.map (· / c))).map fun s => f s.1 * (g s.1 * s.2)).sum = wsum pts w (fun r => f r * g r) / c := by
  rw [wsum, ← zip_map_div pts w c (fun r => f r * g r)]
  congr 1
  refine List.map_congr_left fun s _ => ?_
  ring

theorem cov_spec {d : ℕ} {pts : List (Fin d → ℝ)} {w : List ℝ} (h : w.sum ≠ 0) :
    cov pts (w.map (· / w.sum)) =
      if w.sum ^ 2 ≤ (w.map fun x => x ^ 2).sum then none
      else some (Matrix.of fun p q => wsum pts w (fun r => (r p - wsum pts w (fun r => r p) / w.sum) *
        (r q - wsum pts w (fun r => r q) / w.sum)) * w.sum / (w.sum ^ 2 - (w.map fun x => x ^ 2).sum)) := by
  have h2 : 0 < w.sum ^ 2 := by positivity
  have hf : (w.map (· / w.sum)).sum - ((w.map (· / w.sum)).map fun x => x * x).sum / (w.map (· / w.sum)).sum =
      (w.sum ^ 2 - (w.map fun x => x ^ 2).sum) / w.sum ^ 2 := by
    rw [sum_div_one h, squares, div_one, sub_div, div_self h2.ne']
  unfold cov
  simp only []
  rw [hf]
  have hiff : (w.sum ^ 2 - (w.map fun x => x ^ 2).sum) / w.sum ^ 2 ≤ 0 ↔ w.sum ^ 2 ≤ (w.map fun x => x ^ 2).sum := by
    rw [div_le_iff₀ h2, zero_mul, sub_nonpos]
  by_cases hc : w.sum ^ 2 ≤ (w.map fun x => x ^ 2).sum
  · rw [if_pos (hiff.2 hc), if_pos hc]
  · rw [if_neg (fun hh => hc (hiff.1 hh)), if_neg hc]
    congr 1
    ext p q
    simp only [Matrix.of_apply]
    rw [cov_sum pts w (fun r => r p - average pts (w.map (· / w.sum)) p)
      (fun r => r q - average pts (w.map (· / w.sum)) q), average_spec h, average_spec h]
    have h3 : w.sum ^ 2 - (w.map fun x => x ^ 2).sum ≠ 0 := by
      intro h0; exact hc (by linarith)
    rw [one_div_div]
    generalize wsum pts w (fun r => (r p - wsum pts w (fun r => r p) / w.sum) *
        (r q - wsum pts w (fun r => r q) / w.sum)) = S
    field_simp

/-! ## C147 -/

/-- For at least two parameters (or none) and weights that are not negative and not all zero the summary exists; the mean
is the weighted mean and lies between the smallest and the largest sample; the covariance is the weighted covariance
divided by one minus the sum of the squares of the normalised weights, and is not finite exactly if one sample has all
the weight; the sigmas are the roots of its diagonal. -/
theorem C147_partial {d : ℕ} (hd : d ≠ 1) (srt : List ℝ → List ℕ) {pts : List (Fin d → ℝ)} {w : List ℝ}
    (hlen : pts.length = w.length) (hw : ∀ x ∈ w, 0 ≤ x) (hpos : 0 < w.sum) :
    ∃ m, metrics srt none pts w = .ok m ∧
      (∀ p, m.means p = wsum pts w (fun r => r p) / w.sum) ∧
      (∀ p lo hi, (∀ r ∈ pts, lo ≤ r p ∧ r p ≤ hi) → lo ≤ m.means p ∧ m.means p ≤ hi) ∧
      (m.cov = none ↔ Alone w) ∧
      (m.sigmas = none ↔ Alone w) ∧
      ∀ c, m.cov = some c → ∃ s, m.sigmas = some s ∧ ∀ p, 0 ≤ s p ∧ s p ^ 2 = c p p ∧
        ∀ q, c p q * (w.sum ^ 2 - (w.map fun x => x ^ 2).sum) =
          w.sum * wsum pts w (fun r => (r p - m.means p) * (r q - m.means q)) := by
  have hw0 : w ≠ [] := by rintro rfl; simp at hpos
  have hne : pts ≠ [] := by
    rintro rfl
    exact hw0 (List.length_eq_zero_iff.1 (by simpa using hlen.symm))
  refine ⟨_, metrics_ok hd srt hlen hne hw hpos, fun p => average_spec hpos.ne' p, ?_, ?_, ?_, ?_⟩
  · intro p lo hi h
    show lo ≤ average pts _ p ∧ average pts _ p ≤ hi
    rw [average_spec hpos.ne' p, le_div_iff₀ hpos, div_le_iff₀ hpos]
    exact wsum_bounds hlen hw h
  · show cov pts _ = none ↔ _
    rw [cov_spec hpos.ne', ← squares_eq_iff hw hw0]
    split_ifs with h <;> simp [h]
  · show (cov pts _).map _ = none ↔ _
    rw [Option.map_eq_none_iff, cov_spec hpos.ne', ← squares_eq_iff hw hw0]
    split_ifs with h <;> simp [h]
  · intro c hc
    have hc' : cov pts (w.map (· / w.sum)) = some c := hc
    refine ⟨fun p => Real.sqrt (c p p), ?_, fun p => ⟨Real.sqrt_nonneg _, ?_, fun q => ?_⟩⟩
    · show (cov pts _).map _ = _
      rw [hc']; rfl
    · apply Real.sq_sqrt
      rw [cov_spec hpos.ne'] at hc'
      split_ifs at hc' with h
      have hc2 := Option.some.inj hc'
      subst hc2
      refine div_nonneg (mul_nonneg ?_ hpos.le) (by linarith [not_le.1 h])
      refine List.sum_nonneg ?_
      intro x hx
      obtain ⟨s, hs, rfl⟩ := List.mem_map.1 hx
      exact mul_nonneg (hw _ (List.of_mem_zip hs).2) (mul_self_nonneg _)
    · show _ = w.sum * wsum pts w (fun r => (r p - average pts _ p) * (r q - average pts _ q))
      rw [average_spec hpos.ne', average_spec hpos.ne']
      rw [cov_spec hpos.ne'] at hc'
      split_ifs at hc' with h
      have hc2 := Option.some.inj hc'
      subst hc2
      have h3 : w.sum ^ 2 - (w.map fun x => x ^ 2).sum ≠ 0 := by
        intro h0; exact h (by linarith)
      rw [Matrix.of_apply]
      rw [div_mul_cancel₀ _ h3, mul_comm]

theorem sum_replicate_sq (n : ℕ) (c : ℝ) : ((List.replicate n c).map fun x => x ^ 2).sum = n * c ^ 2 := by
  simp

theorem wsum_replicate {d : ℕ} (pts : List (Fin d → ℝ)) (c : ℝ) (f : (Fin d → ℝ) → ℝ) :
    wsum pts (List.replicate pts.length c) f = c * (pts.map f).sum := by
  unfold wsum
  induction pts with
  | nil => simp
  | cons a pts ih =>
    simp only [List.length_cons, List.replicate_succ, List.zip_cons_cons, List.map_cons, List.sum_cons, ih]
    ring

/-- With equal weights the covariance is the usual one, with the number of samples less one. -/
theorem C147_equal {d : ℕ} (hd : d ≠ 1) (srt : List ℝ → List ℕ) {pts : List (Fin d → ℝ)} (hn : 2 ≤ pts.length) {c : ℝ}
    (hc : 0 < c) :
    ∃ m C, metrics srt none pts (List.replicate pts.length c) = .ok m ∧ m.cov = some C ∧
      (∀ p, m.means p = (pts.map fun r => r p).sum / pts.length) ∧
      ∀ p q, C p q = (pts.map fun r => (r p - m.means p) * (r q - m.means q)).sum / (pts.length - 1) := by
  have hn' : (2 : ℝ) ≤ pts.length := by exact_mod_cast hn
  have hs : (List.replicate pts.length c).sum = pts.length * c := by simp
  have hpos : 0 < (List.replicate pts.length c).sum := by rw [hs]; positivity
  obtain ⟨m, hm, h1, -, h3, -, h5⟩ := C147_partial hd srt (pts := pts) (w := List.replicate pts.length c) (by simp)
    (by intro x hx; rw [List.eq_of_mem_replicate hx]; exact hc.le) hpos
  have hnot : m.cov ≠ none := by
    intro h0
    have ha := (squares_eq_iff (w := List.replicate pts.length c)
      (by intro x hx; rw [List.eq_of_mem_replicate hx]; exact hc.le)
      (by intro h; rw [h] at hpos; simp at hpos)).2 (h3.1 h0)
    rw [hs, sum_replicate_sq] at ha
    have : (pts.length : ℝ) * c ^ 2 * (pts.length - 1) ≤ 0 := by nlinarith
    have h7 : 0 < (pts.length : ℝ) * c ^ 2 * (pts.length - 1) := by
      have : (0 : ℝ) < pts.length - 1 := by linarith
      positivity
    linarith
  obtain ⟨C, hC⟩ := Option.ne_none_iff_exists'.1 hnot
  obtain ⟨s, -, hs2⟩ := h5 C hC
  refine ⟨m, C, hm, hC, fun p => ?_, fun p q => ?_⟩
  · rw [h1 p, wsum_replicate, hs]
    field_simp
  · have h8 := (hs2 p).2.2 q
    rw [wsum_replicate, hs, sum_replicate_sq] at h8
    have h9 : (pts.length : ℝ) - 1 ≠ 0 := by intro h; linarith
    have h10 : (pts.length : ℝ) ≠ 0 := by intro h; linarith
    rw [eq_div_iff h9]
    have h11 : (pts.length : ℝ) * c ^ 2 ≠ 0 := mul_ne_zero h10 (by positivity)
    apply mul_left_cancel₀ h11
    linear_combination h8

/-- Multiplying all weights by the same number other than zero changes nothing, with or without true values. -/
theorem C147_scale {d : ℕ} (srt : List ℝ → List ℕ) (tv : Option (List ℝ)) (pts : List (Fin d → ℝ)) (w : List ℝ) {c : ℝ}
    (hc : c ≠ 0) : metrics srt tv pts (w.map (c * ·)) = metrics srt tv pts w := by
  have hs : (w.map (c * ·)).sum = c * w.sum := by
    simpa using List.sum_map_mul_left w id c
  have hw : (w.map (c * ·)).map (· / (w.map (c * ·)).sum) = w.map (· / w.sum) := by
    rw [hs, List.map_map]
    refine List.map_congr_left fun x _ => ?_
    exact mul_div_mul_left x w.sum hc
  have hz : (∀ x ∈ w.map (c * ·), x = 0) ↔ ∀ x ∈ w, x = 0 := by
    constructor
    · intro h x hx
      exact (mul_eq_zero.1 (h _ (List.mem_map.2 ⟨x, hx, rfl⟩))).resolve_left hc
    · intro h x hx
      obtain ⟨y, hy, rfl⟩ := List.mem_map.1 hx
      rw [h y hy]; simp
  have ht : (w.map (c * ·)).sum = 0 ↔ w.sum = 0 := by rw [hs]; simp [hc]
  unfold metrics
  simp only []
  rw [hw, List.length_map]
  simp only [hz, ht]

/-- The errors: weights of another number than the samples, no samples, weights that are all zero, weights of different
signs. -/
theorem C147_raises {d : ℕ} (srt : List ℝ → List ℕ) (tv : Option (List ℝ)) (pts : List (Fin d → ℝ)) (w : List ℝ) :
    (pts.length ≠ w.length → metrics srt tv pts w = .error .value) ∧
    (pts = [] → w = [] → metrics srt tv pts w = .error .zeroDivision) ∧
    (pts.length = w.length → pts ≠ [] → (∀ x ∈ w, x = 0) → metrics srt tv pts w = .error .nan) ∧
    (pts.length = w.length → (∃ x ∈ w, 0 < x) → (∃ x ∈ w, x < 0) → metrics srt tv pts w = .error .value) := by
  refine ⟨fun h => ?_, fun h h' => ?_, fun h h1 h2 => ?_, fun h hp hn => ?_⟩
  · unfold metrics; simp only []; rw [if_pos h]
  · subst h h'; simp [metrics]
  · unfold metrics; simp only []
    rw [if_neg (not_not.2 h), if_neg h1, if_pos (sum_zero h2), if_pos h2]
  · have h1 : pts ≠ [] := by
      rintro rfl
      have : w = [] := List.length_eq_zero_iff.1 (by simpa using h.symm)
      subst this
      simp at hp
    unfold metrics; simp only []
    rw [if_neg (not_not.2 h), if_neg h1]
    obtain ⟨a, ha, ha0⟩ := hp
    obtain ⟨b, hb, hb0⟩ := hn
    by_cases h0 : w.sum = 0
    · rw [if_pos h0, if_neg]
      intro hh; exact ha0.ne' (hh a ha)
    · rw [if_neg h0, if_pos]
      rcases lt_or_gt_of_ne h0 with h3 | h3
      · exact ⟨_, List.mem_map.2 ⟨a, ha, rfl⟩, div_neg_of_pos_of_neg ha0 h3⟩
      · exact ⟨_, List.mem_map.2 ⟨b, hb, rfl⟩, div_neg_of_neg_of_pos hb0 h3⟩

/-- The full property would allow one parameter, which every function of the class handles; but no distribution of one
parameter can be added at all. -/
theorem C147_false (srt : List ℝ → List ℕ) (tv : Option (List ℝ)) (pts : List (Fin 1 → ℝ)) (w : List ℝ) (m : Metrics 1) :
    metrics srt tv pts w ≠ .ok m :=
  fun h => (metrics_inv h).2.2.2.2.1 rfl

/-- Two samples with the weights 1 and 3. -/
example : ∃ m, metrics (fun _ => [0, 1]) none [![0, 0], ![4, 8]] [1, 3] = .ok m ∧ m.means 0 = 3 ∧ m.means 1 = 6 := by
  obtain ⟨m, hm, h1, -⟩ := C147_partial (d := 2) (by norm_num) (fun _ => [0, 1]) (pts := [![0, 0], ![4, 8]]) (w := [1, 3])
    rfl (by simp) (by norm_num)
  refine ⟨m, hm, ?_, ?_⟩
  · rw [h1]; norm_num [wsum]
  · rw [h1]; norm_num [wsum]

example : ∃ m C, metrics (fun _ => [0, 1]) none [![0, 0], ![4, 8]] (List.replicate 2 5) = .ok m ∧ m.cov = some C ∧
    C 0 1 = 16 := by
  obtain ⟨m, C, hm, hC, h1, h2⟩ := C147_equal (d := 2) (by norm_num) (fun _ => [0, 1]) (pts := [![0, 0], ![4, 8]])
    (c := 5) (by simp) (by norm_num)
  refine ⟨m, C, hm, hC, ?_⟩
  rw [h2, h1, h1]
  norm_num

example : metrics (d := 1) (fun _ => [0, 1]) none [![0], ![4]] [1, 3] = .error .value := by
  unfold metrics
  simp only []
  rw [if_neg (by simp), if_neg (by simp), if_neg (by norm_num), if_neg (by norm_num), if_pos trivial]

end Verif.Diagnostics
