import Verif.Model.SharpFeatures
import Mathlib.Tactic.Ring
import Mathlib.Tactic.Positivity
import Mathlib.Tactic.FieldSimp
import Mathlib.Tactic.Linarith
import Mathlib.Algebra.BigOperators.Field
import Mathlib.Algebra.BigOperators.Ring.Finset
import Mathlib.Algebra.Order.BigOperators.Group.Finset
import Mathlib.Order.Bounds.Basic
/-!
# Suppressing sharp features of UV maps (C211)
-/

namespace Verif.SharpFeatures

/-! ## Specification -/

/-- The entries of a map. -/
def values (n : ℕ) (m : Map) : Set ℝ := {v | ∃ i < n, ∃ j < n, v = m i j}

/-- The cell that an index shows when the map is mirrored at its edges. -/
def IsMirror (n : ℕ) (i : ℤ) (m : ℕ) : Prop := m < n ∧ (i % (2 * n) = m ∨ i % (2 * n) = 2 * n - 1 - m)

/-- The offsets within four standard deviations, rounded. -/
noncomputable def offsets (sigma : ℝ) : Finset ℤ := Finset.Icc (-⌊4 * sigma + 1 / 2⌋) ⌊4 * sigma + 1 / 2⌋

/-- The gaussian of an offset. -/
noncomputable def bell (sigma : ℝ) (x y : ℤ) : ℝ := Real.exp (-((x : ℝ) ^ 2 + (y : ℝ) ^ 2) / (2 * sigma ^ 2))

/-- The mean of the mirrored map around a cell with gaussian weights. -/
noncomputable def blurred (sigma : ℝ) (mir : ℤ → ℕ) (m : Map) (i j : ℕ) : ℝ :=
  (∑ x ∈ offsets sigma, ∑ y ∈ offsets sigma, bell sigma x y * m (mir (i + x)) (mir (j + y))) / ∑ x ∈ offsets sigma, ∑ y ∈ offsets sigma, bell sigma x y

/-! ## Lemmas -/

theorem reflect_mirror {n : ℕ} (hn : 0 < n) (i : ℤ) : IsMirror n i (reflect n i) := by
  have h0 : 0 ≤ i % (2 * (n : ℤ)) := Int.emod_nonneg _ (by omega)
  have h1 : i % (2 * (n : ℤ)) < 2 * n := Int.emod_lt_of_pos _ (by omega)
  unfold IsMirror reflect
  dsimp only
  generalize i % (2 * (n : ℤ)) = r at h0 h1 ⊢
  split_ifs <;> omega

theorem mirror_unique {n : ℕ} {i : ℤ} {a b : ℕ} (ha : IsMirror n i a) (hb : IsMirror n i b) : a = b := by
  unfold IsMirror at ha hb
  generalize i % (2 * (n : ℤ)) = r at ha hb
  omega

theorem reflect_lt {n : ℕ} (hn : 0 < n) (i : ℤ) : reflect n i < n := (reflect_mirror hn i).1

theorem reflect_self {n i : ℕ} (hi : i < n) : reflect n i = i := by
  refine mirror_unique (reflect_mirror (by omega) _) ⟨hi, Or.inl ?_⟩
  exact Int.emod_eq_of_lt (by omega) (by omega)

theorem radius_eq {sigma : ℝ} (hs : 0 < sigma) : (radius sigma : ℤ) = ⌊4 * sigma + 1 / 2⌋ := by
  unfold radius
  exact Int.natCast_floor_eq_floor (by linarith)

theorem kernel_pos (sigma : ℝ) (x : ℤ) : 0 < kernel sigma x := Real.exp_pos _

theorem norm_pos (sigma : ℝ) : 0 < ∑ y ∈ Finset.Icc (-(radius sigma : ℤ)) (radius sigma), kernel sigma y :=
  Finset.sum_pos (fun _ _ => kernel_pos _ _) ⟨0, Finset.mem_Icc.2 ⟨by omega, by omega⟩⟩

theorem filterAxis_nonneg (sigma : ℝ) {n : ℕ} (hn : 0 < n) {f : ℕ → ℝ} (hf : ∀ i < n, 0 ≤ f i) (i : ℕ) : 0 ≤ filterAxis sigma n f i :=
  Finset.sum_nonneg fun x _ => mul_nonneg (div_nonneg (kernel_pos _ _).le (norm_pos _).le) (hf _ (reflect_lt hn _))

theorem filterAxis_pos (sigma : ℝ) {n : ℕ} {f : ℕ → ℝ} (hf : ∀ i < n, 0 ≤ f i) {i : ℕ} {x : ℤ} (hn : 0 < n)
    (hx : x ∈ Finset.Icc (-(radius sigma : ℤ)) (radius sigma)) (hp : 0 < f (reflect n (i + x))) : 0 < filterAxis sigma n f i :=
  Finset.sum_pos' (fun x _ => mul_nonneg (div_nonneg (kernel_pos _ _).le (norm_pos _).le) (hf _ (reflect_lt hn _)))
    ⟨x, hx, mul_pos (div_pos (kernel_pos _ _) (norm_pos _)) hp⟩

theorem filterAxis_zero (sigma : ℝ) {n : ℕ} {f : ℕ → ℝ} {i : ℕ}
    (h : ∀ x ∈ Finset.Icc (-(radius sigma : ℤ)) (radius sigma), f (reflect n (i + x)) = 0) : filterAxis sigma n f i = 0 :=
  Finset.sum_eq_zero fun x hx => by rw [h x hx, mul_zero]

theorem filterAxis_const (sigma : ℝ) {n : ℕ} (hn : 0 < n) {f : ℕ → ℝ} {c : ℝ} (hf : ∀ i < n, f i = c) (i : ℕ) : filterAxis sigma n f i = c := by
  unfold filterAxis
  rw [Finset.sum_congr rfl fun x _ => by rw [hf _ (reflect_lt hn _)], ← Finset.sum_mul, ← Finset.sum_div, div_self (norm_pos sigma).ne', one_mul]

theorem filterAxis_scale (sigma : ℝ) (n : ℕ) (f : ℕ → ℝ) (c : ℝ) (i : ℕ) : filterAxis sigma n (fun k => c * f k) i = c * filterAxis sigma n f i := by
  unfold filterAxis
  rw [Finset.mul_sum]
  exact Finset.sum_congr rfl fun x _ => by ring

theorem filter_blurred {sigma : ℝ} (hs : 1 / 10 ^ 15 < sigma) {n : ℕ} (hn : 0 < n) {mir : ℤ → ℕ} (hm : ∀ x, IsMirror n x (mir x)) (m : Map) (i j : ℕ) :
    gaussianFilter sigma n m i j = blurred sigma mir m i j := by
  have hpos : 0 < sigma := lt_trans (by positivity) hs
  have hmir : mir = reflect n := funext fun x => mirror_unique (hm x) (reflect_mirror hn x)
  have hb : ∀ x y : ℤ, bell sigma x y = kernel sigma x * kernel sigma y := by
    intro x y
    unfold bell kernel
    rw [← Real.exp_add]
    congr 1
    field_simp
    ring
  subst hmir
  unfold gaussianFilter blurred offsets
  rw [if_pos hs, ← radius_eq hpos]
  unfold filterAxis
  simp only [hb]
  have hK := norm_pos sigma
  have hden : (∑ x ∈ Finset.Icc (-(radius sigma : ℤ)) (radius sigma), ∑ y ∈ Finset.Icc (-(radius sigma : ℤ)) (radius sigma), kernel sigma x * kernel sigma y) =
      (∑ y ∈ Finset.Icc (-(radius sigma : ℤ)) (radius sigma), kernel sigma y) * ∑ y ∈ Finset.Icc (-(radius sigma : ℤ)) (radius sigma), kernel sigma y :=
    (Finset.sum_mul_sum _ _ _ _).symm
  rw [hden, eq_div_iff (mul_pos hK hK).ne', Finset.sum_mul, Finset.sum_comm]
  refine Finset.sum_congr rfl fun y _ => ?_
  rw [Finset.mul_sum, Finset.sum_mul]
  refine Finset.sum_congr rfl fun x _ => ?_
  field_simp

theorem mem_cells {n : ℕ} {c : ℕ × ℕ} : c ∈ cells n ↔ c.1 < n ∧ c.2 < n := by
  unfold cells
  rw [Finset.mem_product, Finset.mem_range, Finset.mem_range]

theorem peak_greatest {n : ℕ} (hn : 0 < n) (m : Map) : IsGreatest (values n m) (peak n m) := by
  have hne : (cells n).Nonempty := ⟨(0, 0), mem_cells.2 ⟨hn, hn⟩⟩
  unfold peak
  rw [dif_pos hne]
  constructor
  · obtain ⟨c, hc, h⟩ := Finset.exists_mem_eq_sup' hne fun c : ℕ × ℕ => m c.1 c.2
    exact ⟨c.1, (mem_cells.1 hc).1, c.2, (mem_cells.1 hc).2, h⟩
  · rintro v ⟨i, hi, j, hj, rfl⟩
    exact Finset.le_sup' (fun c : ℕ × ℕ => m c.1 c.2) (b := (i, j)) (mem_cells.2 ⟨hi, hj⟩)

theorem gaussian_nonneg (sigma : ℝ) {n : ℕ} (hn : 0 < n) {m : Map} (hm : ∀ i < n, ∀ j < n, 0 ≤ m i j) {i j : ℕ} (hi : i < n) (hj : j < n) :
    0 ≤ gaussianFilter sigma n m i j := by
  unfold gaussianFilter
  split_ifs
  · exact filterAxis_nonneg sigma hn (fun j' hj' => filterAxis_nonneg sigma hn (fun i' hi' => hm i' hi' j' hj') i) j
  · exact hm i hi j hj

theorem gaussian_pos (sigma : ℝ) {n : ℕ} {m : Map} (hm : ∀ i < n, ∀ j < n, 0 ≤ m i j) {i j : ℕ} (hi : i < n) (hj : j < n) (hp : 0 < m i j) :
    0 < gaussianFilter sigma n m i j := by
  have hn : 0 < n := by omega
  have h0 : (0 : ℤ) ∈ Finset.Icc (-(radius sigma : ℤ)) (radius sigma) := Finset.mem_Icc.2 ⟨by omega, by omega⟩
  unfold gaussianFilter
  split_ifs
  · refine filterAxis_pos sigma (fun j' hj' => filterAxis_nonneg sigma hn (fun i' hi' => hm i' hi' j' hj') i) hn h0 ?_
    rw [add_zero, reflect_self hj]
    refine filterAxis_pos sigma (fun i' hi' => hm i' hi' j hj) hn h0 ?_
    rw [add_zero, reflect_self hi]
    exact hp
  · exact hp

theorem lower_gaussian : "gaussian".toLower = "gaussian" := by decide +kernel

theorem suppress_eq (box : Option ℝ) (sigma : ℝ) {n : ℕ} {m : Map} (binned : ℝ → Except Err Map) (hm : ∀ i < n, ∀ j < n, 0 ≤ m i j)
    (hp : ∃ i < n, ∃ j < n, 0 < m i j) :
    suppress "gaussian" box sigma n m binned = .ok (fun i j => Real.sqrt (gaussianFilter sigma n m i j) *
      (peak n m / peak n fun i j => Real.sqrt (gaussianFilter sigma n m i j))) ∧ 0 < peak n m ∧ 0 < peak n fun i j => Real.sqrt (gaussianFilter sigma n m i j) := by
  obtain ⟨i, hi, j, hj, hpij⟩ := hp
  have hn : 0 < n := by omega
  have h1 : 0 < peak n m := lt_of_lt_of_le hpij ((peak_greatest hn m).2 ⟨i, hi, j, hj, rfl⟩)
  have h2 : 0 < peak n fun i j => Real.sqrt (gaussianFilter sigma n m i j) :=
    lt_of_lt_of_le (Real.sqrt_pos.2 (gaussian_pos sigma hm hi hj hpij)) ((peak_greatest hn _).2 ⟨i, hi, j, hj, rfl⟩)
  refine ⟨?_, h1, h2⟩
  unfold suppress
  rw [if_pos lower_gaussian, if_neg hn.ne']
  dsimp only
  rw [if_neg, if_neg h2.ne']
  rintro ⟨c, hc, h⟩
  exact absurd (gaussian_nonneg sigma hn hm (mem_cells.1 hc).1 (mem_cells.1 hc).2) (not_le.2 h)

/-! ## C211 -/

/-- **C211** (partial).  The smoothed map is not negative, is positive where the map was, has the same largest entry, and its square is proportional to the
gaussian mean of the mirrored map. -/
theorem C211_partial (box : Option ℝ) (binned : ℝ → Except Err Map) {sigma : ℝ} (hs : 1 / 10 ^ 15 < sigma) {n : ℕ} {uv : Map} {P : ℝ}
    (hm : ∀ i < n, ∀ j < n, 0 ≤ uv i j) (hp : ∃ i < n, ∃ j < n, 0 < uv i j) (hP : IsGreatest (values n uv) P) {mir : ℤ → ℕ}
    (hmir : ∀ x, IsMirror n x (mir x)) :
    ∃ s, suppress "gaussian" box sigma n uv binned = .ok s ∧ (∀ i < n, ∀ j < n, 0 ≤ s i j ∧ (0 < uv i j → 0 < s i j)) ∧ IsGreatest (values n s) P ∧
      ∃ c > 0, ∀ i < n, ∀ j < n, s i j ^ 2 = c * blurred sigma mir uv i j := by
  obtain ⟨h1, h2, h3⟩ := suppress_eq box sigma binned hm hp
  have hn : 0 < n := by obtain ⟨i, hi, -⟩ := hp; omega
  have hPe : P = peak n uv := hP.unique (peak_greatest hn uv)
  have hq : 0 < peak n uv / peak n fun i j => Real.sqrt (gaussianFilter sigma n uv i j) := div_pos h2 h3
  refine ⟨_, h1, fun i hi j hj => ⟨mul_nonneg (Real.sqrt_nonneg _) hq.le, fun h => mul_pos (Real.sqrt_pos.2 (gaussian_pos sigma hm hi hj h)) hq⟩, ?_, _, pow_pos hq 2, fun i hi j hj => ?_⟩
  · obtain ⟨⟨i, hi, j, hj, h⟩, hub⟩ := peak_greatest hn fun i j => Real.sqrt (gaussianFilter sigma n uv i j)
    constructor
    · refine ⟨i, hi, j, hj, ?_⟩
      dsimp only at h ⊢
      rw [← h, hPe, mul_div_cancel₀ _ h3.ne']
    · rintro v ⟨i', hi', j', hj', rfl⟩
      have := hub ⟨i', hi', j', hj', rfl⟩
      dsimp only at this ⊢
      calc _ ≤ _ := mul_le_mul_of_nonneg_right this hq.le
        _ = P := by rw [hPe, mul_div_cancel₀ _ h3.ne']
  · try dsimp only
    rw [mul_pow, Real.sq_sqrt (gaussian_nonneg sigma hn hm hi hj), filter_blurred hs hn hmir, mul_comm]

/-- A map of two cells each way, which has one baseline. -/
example : ∃ s, suppress "gaussian" none 15 2 (fun i j => if i = 0 ∧ j = 0 then 1 else 0) (fun _ => .error .value) = .ok s ∧ IsGreatest (values 2 s) 1 := by
  have hg : IsGreatest (values 2 fun i j => if i = 0 ∧ j = 0 then (1 : ℝ) else 0) 1 := by
    refine ⟨⟨0, by omega, 0, by omega, by simp⟩, ?_⟩
    rintro v ⟨i, hi, j, hj, rfl⟩
    dsimp only
    split_ifs <;> norm_num
  obtain ⟨s, h1, -, h2, -⟩ := C211_partial none (fun _ => .error .value) (sigma := 15) (by norm_num) (fun i _ j _ => by split_ifs <;> norm_num)
    ⟨0, by omega, 0, by omega, by simp⟩ hg (reflect_mirror (by omega))
  exact ⟨s, h1, h2⟩

/-- A uniform map stays as it is. -/
theorem C211_uniform (box : Option ℝ) (binned : ℝ → Except Err Map) (sigma : ℝ) {n : ℕ} (hn : 0 < n) {uv : Map} {c : ℝ} (hc : 0 < c)
    (h : ∀ i < n, ∀ j < n, uv i j = c) : ∃ s, suppress "gaussian" box sigma n uv binned = .ok s ∧ ∀ i < n, ∀ j < n, s i j = c := by
  have hm : ∀ i < n, ∀ j < n, 0 ≤ uv i j := fun i hi j hj => by rw [h i hi j hj]; exact hc.le
  obtain ⟨h1, h2, h3⟩ := suppress_eq box sigma binned hm ⟨0, hn, 0, hn, by rw [h 0 hn 0 hn]; exact hc⟩
  have hg : ∀ i < n, ∀ j < n, gaussianFilter sigma n uv i j = c := by
    intro i hi j hj
    unfold gaussianFilter
    split_ifs
    · exact filterAxis_const sigma hn (fun j' hj' => filterAxis_const sigma hn (fun i' hi' => h i' hi' j' hj') i) j
    · exact h i hi j hj
  have hpk : ∀ {m : Map} {d : ℝ}, (∀ i < n, ∀ j < n, m i j = d) → peak n m = d := by
    intro m d hd
    obtain ⟨⟨i, hi, j, hj, h'⟩, -⟩ := peak_greatest hn m
    rw [h', hd i hi j hj]
  refine ⟨_, h1, fun i hi j hj => ?_⟩
  beta_reduce
  rw [hg i hi j hj, hpk h, hpk (m := fun i j => Real.sqrt (gaussianFilter sigma n uv i j)) (d := Real.sqrt c) fun i hi j hj => by rw [hg i hi j hj],
    mul_div_cancel₀ _ (Real.sqrt_pos.2 hc).ne']

/-- The smoothed map is proportional to the exposure. -/
theorem C211_scale (box : Option ℝ) (binned : ℝ → Except Err Map) (sigma : ℝ) {n : ℕ} {uv : Map} {c : ℝ} (hc : 0 < c)
    (hm : ∀ i < n, ∀ j < n, 0 ≤ uv i j) (hp : ∃ i < n, ∃ j < n, 0 < uv i j) :
    ∃ s t, suppress "gaussian" box sigma n uv binned = .ok s ∧ suppress "gaussian" box sigma n (fun i j => c * uv i j) binned = .ok t ∧
      ∀ i < n, ∀ j < n, t i j = c * s i j := by
  have hn : 0 < n := by obtain ⟨i, hi, -⟩ := hp; omega
  obtain ⟨h1, h2, h3⟩ := suppress_eq box sigma binned hm hp
  obtain ⟨k1, k2, k3⟩ := suppress_eq (m := fun i j => c * uv i j) box sigma binned (fun i hi j hj => mul_nonneg hc.le (hm i hi j hj))
    (by obtain ⟨i, hi, j, hj, h⟩ := hp; exact ⟨i, hi, j, hj, mul_pos hc h⟩)
  have hg : ∀ i j, gaussianFilter sigma n (fun i j => c * uv i j) i j = c * gaussianFilter sigma n uv i j := by
    intro i j
    unfold gaussianFilter
    split_ifs
    · dsimp only
      rw [← filterAxis_scale]
      congr 1
      funext j'
      exact filterAxis_scale sigma n _ c i
    · rfl
  have hpk : ∀ (m : Map) (d : ℝ), 0 < d → peak n (fun i j => d * m i j) = d * peak n m := by
    intro m d hd
    refine (peak_greatest hn _).unique ?_
    obtain ⟨⟨i, hi, j, hj, h'⟩, hub⟩ := peak_greatest hn m
    refine ⟨⟨i, hi, j, hj, by rw [h']⟩, ?_⟩
    rintro v ⟨i', hi', j', hj', rfl⟩
    exact mul_le_mul_of_nonneg_left (hub ⟨i', hi', j', hj', rfl⟩) hd.le
  have hsq : (fun i j => Real.sqrt (gaussianFilter sigma n (fun i j => c * uv i j) i j)) = fun i j => Real.sqrt c * Real.sqrt (gaussianFilter sigma n uv i j) := by
    funext i j
    rw [hg, Real.sqrt_mul hc.le]
  refine ⟨_, _, h1, k1, fun i _ j _ => ?_⟩
  beta_reduce
  rw [hsq, hpk _ c hc, hpk _ _ (Real.sqrt_pos.2 hc), hg, Real.sqrt_mul hc.le]
  have := (Real.sqrt_pos.2 hc).ne'
  field_simp

/-- The noise with this option is finite everywhere, is zero in the cells that are hardly sampled, and elsewhere is divided by the root of the smoothed map. -/
theorem C211_noise (box : Option ℝ) (binned : ℝ → Except Err Map) {n : ℕ} {uv : Map} (noise : ℕ → ℕ → ℝ) (hm : ∀ i < n, ∀ j < n, 0 ≤ uv i j)
    (hp : ∃ i < n, ∃ j < n, 0 < uv i j) :
    ∃ s r, suppress "gaussian" box 15 n uv binned = .ok s ∧ response "natural" (some "gaussian") box n uv noise binned = .ok r ∧
      ∀ i < n, ∀ j < n, r i j = some (if uv i j < 1 / 100 then 0 else noise i j / Real.sqrt (s i j)) := by
  obtain ⟨h1, h2, h3⟩ := suppress_eq box 15 binned hm hp
  have hw : weights (some "gaussian") box n uv binned = .ok (fun i j => Real.sqrt (gaussianFilter 15 n uv i j) *
      (peak n uv / peak n fun i j => Real.sqrt (gaussianFilter 15 n uv i j))) := by
    unfold weights
    dsimp only
    rw [if_neg (by decide), h1]
  have hl : "natural".toLower ∈ ["nat", "natural", "natural_weighting"] := by decide +kernel
  refine ⟨_, _, h1, by unfold response; dsimp only; rw [if_pos hl, hw], fun i hi j hj => ?_⟩
  dsimp only
  split_ifs with hu hle
  · rfl
  · exfalso
    have hpos : 0 < uv i j := lt_of_lt_of_le (by norm_num) (not_lt.1 hu)
    have := mul_pos (Real.sqrt_pos.2 (gaussian_pos 15 hm hi hj hpos)) (div_pos h2 h3)
    linarith
  · rfl

/-- The other weightings, in any spelling with capitals: uniform weighting leaves the noise of the sampled cells, whatever the option; natural weighting
without the option divides by the root of the number of baselines; other names raise. -/
theorem C211_weightings (option : Option String) (box : Option ℝ) (binned : ℝ → Except Err Map) {n : ℕ} {uv : Map} (noise : ℕ → ℕ → ℝ) (w : String) :
    (w.toLower = "uni" ∨ w.toLower = "uniform" ∨ w.toLower = "uniform_weighting" →
      ∃ r, response w option box n uv noise binned = .ok r ∧ ∀ i j, r i j = some (if uv i j < 1 / 100 then 0 else noise i j)) ∧
    (w.toLower = "nat" ∨ w.toLower = "natural" ∨ w.toLower = "natural_weighting" →
      ∃ r, response w none box n uv noise binned = .ok r ∧ ∀ i j, r i j = some (if uv i j < 1 / 100 then 0 else noise i j / Real.sqrt (uv i j))) ∧
    (w.toLower ∉ ["uni", "uniform", "uniform_weighting", "nat", "natural", "natural_weighting"] →
      response w option box n uv noise binned = .error .unbound) := by
  refine ⟨fun h => ?_, fun h => ?_, fun h => ?_⟩
  · have h1 : w.toLower ∉ ["nat", "natural", "natural_weighting"] := by rcases h with h | h | h <;> rw [h] <;> decide
    have h2 : w.toLower ∈ ["uni", "uniform", "uniform_weighting"] := by rcases h with h | h | h <;> rw [h] <;> decide
    refine ⟨_, by unfold response; dsimp only; rw [if_neg h1, if_pos h2], fun i j => ?_⟩
    split_ifs <;> rfl
  · have h1 : w.toLower ∈ ["nat", "natural", "natural_weighting"] := by rcases h with h | h | h <;> rw [h] <;> decide
    refine ⟨_, by unfold response weights; dsimp only; rw [if_pos h1], fun i j => ?_⟩
    split_ifs with h2 h3
    · rfl
    · exfalso; linarith
    · rfl
  · simp only [List.mem_cons, List.not_mem_nil, or_false, not_or] at h
    unfold response
    dsimp only
    rw [if_neg (by simp [h]), if_neg (by simp [h])]

example (noise : ℕ → ℕ → ℝ) : ∃ r, response "uniform" none none 2 (fun _ _ => 1) noise (fun _ => .error .value) = .ok r ∧
    ∀ i j, r i j = some (noise i j) := by
  obtain ⟨r, h1, h2⟩ := (C211_weightings none none (fun _ => .error .value) (n := 2) (uv := fun _ _ => 1) noise "uniform").1
    (Or.inr (Or.inl (by decide +kernel)))
  refine ⟨r, h1, fun i j => ?_⟩
  rw [h2, if_neg (by norm_num)]

/-- What the option does for other maps and names. -/
theorem C211_raises (box : Option ℝ) (binned : ℝ → Except Err Map) (sigma : ℝ) {n : ℕ} (uv : Map) :
    (0 < n → (∀ i < n, ∀ j < n, uv i j = 0) → suppress "gaussian" box sigma n uv binned = .error .nan) ∧ suppress "gaussian" box sigma 0 uv binned = .error .value ∧
      suppress "binned" none sigma n uv binned = .error .assertion ∧
      (∀ method : String, method.toLower ≠ "gaussian" → method.toLower ≠ "binned" → method.toLower ≠ "bin" →
        suppress method box sigma n uv binned = .error .unbound) := by
  refine ⟨fun hn h => ?_, ?_, ?_, fun method h1 h2 h3 => ?_⟩
  · have hg : ∀ i < n, ∀ j < n, gaussianFilter sigma n uv i j = 0 := by
      intro i hi j hj
      unfold gaussianFilter
      split_ifs
      · exact filterAxis_zero sigma fun y _ => filterAxis_zero sigma fun x _ => h _ (reflect_lt hn _) _ (reflect_lt hn _)
      · exact h i hi j hj
    unfold suppress
    rw [if_pos lower_gaussian, if_neg hn.ne']
    dsimp only
    split_ifs with h1 h2
    · rfl
    · rfl
    · exfalso
      apply h2
      obtain ⟨⟨i, hi, j, hj, h'⟩, -⟩ := peak_greatest hn fun i j => Real.sqrt (gaussianFilter sigma n uv i j)
      rw [h']
      dsimp only
      rw [hg i hi j hj, Real.sqrt_zero]
  · unfold suppress
    rw [if_pos lower_gaussian, if_pos rfl]
  · have e1 : "binned".toLower ≠ "gaussian" := by decide +kernel
    have e2 : "binned".toLower = "binned" := by decide +kernel
    unfold suppress
    rw [if_neg e1, if_pos (Or.inl e2)]
  · unfold suppress
    rw [if_neg h1, if_neg (by simp [h2, h3])]

/-- False of the code: UV maps are symmetric, `uv[i, j] = uv[-i, -j]`, and periodic, but the filter mirrors them at the edges.  A map with nothing but the cell of zero
baseline is symmetric, and the smoothed one is not, for every width of the filter that reaches the next cell but not the other edge. -/
theorem C211_false (box : Option ℝ) (binned : ℝ → Except Err Map) {sigma : ℝ} (hs : 1 / 10 ^ 15 < sigma) {n : ℕ} (h1 : 1 ≤ ⌊4 * sigma + 1 / 2⌋)
    (hn : ⌊4 * sigma + 1 / 2⌋ < (n : ℤ) - 1) :
    let uv : Map := fun i j => if i = 0 ∧ j = 0 then 1 else 0
    (∀ i < n, ∀ j < n, uv i j = uv ((n - i) % n) ((n - j) % n)) ∧
      ∃ s, suppress "gaussian" box sigma n uv binned = .ok s ∧ 0 < s 1 0 ∧ s (n - 1) 0 = 0 := by
  intro uv
  have hpos : 0 < sigma := lt_trans (by positivity) hs
  rw [← radius_eq hpos] at h1 hn
  have hmod : ∀ i < n, (n - i) % n = 0 ↔ i = 0 := by
    intro i hi
    rcases Nat.eq_zero_or_pos i with h | h
    · simp [h]
    · rw [Nat.mod_eq_of_lt (by omega)]
      omega
  refine ⟨fun i hi j hj => ?_, ?_⟩
  · simp only [uv, hmod i hi, hmod j hj]
  have hm : ∀ i < n, ∀ j < n, 0 ≤ uv i j := fun i _ j _ => by simp only [uv]; split_ifs <;> norm_num
  have hnp : 0 < n := by omega
  obtain ⟨e1, e2, e3⟩ := suppress_eq box sigma binned hm ⟨0, hnp, 0, hnp, by simp [uv]⟩
  refine ⟨_, e1, mul_pos (Real.sqrt_pos.2 ?_) (div_pos e2 e3), ?_⟩
  · unfold gaussianFilter
    rw [if_pos hs]
    refine filterAxis_pos sigma (fun j' hj' => filterAxis_nonneg sigma hnp (fun i' hi' => hm i' hi' j' hj') 1) hnp (x := 0) (Finset.mem_Icc.2 ⟨by omega, by omega⟩) ?_
    rw [add_zero, reflect_self hnp]
    refine filterAxis_pos sigma (fun i' hi' => hm i' hi' 0 hnp) hnp (x := -1) (Finset.mem_Icc.2 ⟨by omega, by omega⟩) ?_
    rw [show ((1 : ℕ) : ℤ) + -1 = ((0 : ℕ) : ℤ) from rfl, reflect_self hnp]
    simp [uv]
  · try dsimp only
    have hz : gaussianFilter sigma n uv (n - 1) 0 = 0 := by
      unfold gaussianFilter
      rw [if_pos hs]
      refine filterAxis_zero sigma fun y _ => filterAxis_zero sigma fun x hx => ?_
      rw [Finset.mem_Icc] at hx
      simp only [uv]
      rw [if_neg]
      rintro ⟨hr, -⟩
      have := reflect_mirror hnp (((n - 1 : ℕ) : ℤ) + x)
      rw [hr] at this
      unfold IsMirror at this
      have hlo : 0 ≤ ((n - 1 : ℕ) : ℤ) + x := by omega
      have hhi : ((n - 1 : ℕ) : ℤ) + x < 2 * n := by omega
      rw [Int.emod_eq_of_lt hlo hhi] at this
      omega
    rw [hz, Real.sqrt_zero, zero_mul]

/-- The width that the noise uses, for a map of 100 cells. -/
example : 1 ≤ ⌊4 * (15 : ℝ) + 1 / 2⌋ ∧ ⌊4 * (15 : ℝ) + 1 / 2⌋ < ((100 : ℕ) : ℤ) - 1 := by
  have : ⌊4 * (15 : ℝ) + 1 / 2⌋ = 60 := by
    rw [Int.floor_eq_iff]
    norm_num
  rw [this]
  norm_num

/-- False of the code: a filter that is too narrow to reach another cell changes the map, to the root of its product with the largest entry. -/
theorem C211_false_narrow (box : Option ℝ) (binned : ℝ → Except Err Map) {sigma : ℝ} (hs : sigma < 1 / 8) {n : ℕ} {uv : Map} {P : ℝ}
    (hm : ∀ i < n, ∀ j < n, 0 ≤ uv i j) (hp : ∃ i < n, ∃ j < n, 0 < uv i j) (hP : IsGreatest (values n uv) P) :
    ∃ s, suppress "gaussian" box sigma n uv binned = .ok s ∧ (∀ i < n, ∀ j < n, s i j = Real.sqrt (uv i j * P)) ∧
      ∀ i < n, ∀ j < n, (s i j = uv i j ↔ uv i j = 0 ∨ uv i j = P) := by
  have hn : 0 < n := by obtain ⟨i, hi, -⟩ := hp; omega
  have hrad : radius sigma = 0 := by
    unfold radius
    rw [Nat.floor_eq_zero]
    linarith
  have hax : ∀ (f : ℕ → ℝ) (i : ℕ), i < n → filterAxis sigma n f i = f i := by
    intro f i hi
    unfold filterAxis
    rw [hrad, show Finset.Icc (-((0 : ℕ) : ℤ)) ((0 : ℕ) : ℤ) = {0} from rfl, Finset.sum_singleton, Finset.sum_singleton, div_self (kernel_pos _ _).ne', one_mul,
      add_zero, reflect_self hi]
  have hg : ∀ i < n, ∀ j < n, gaussianFilter sigma n uv i j = uv i j := by
    intro i hi j hj
    unfold gaussianFilter
    split_ifs
    · dsimp only
      rw [hax _ j hj, hax _ i hi]
    · rfl
  obtain ⟨h1, h2, h3⟩ := suppress_eq box sigma binned hm hp
  have hPe : P = peak n uv := hP.unique (peak_greatest hn uv)
  have hpk : (peak n fun i j => Real.sqrt (gaussianFilter sigma n uv i j)) = Real.sqrt P := by
    refine (peak_greatest hn _).unique ?_
    obtain ⟨⟨i, hi, j, hj, h'⟩, hub⟩ := hP
    refine ⟨⟨i, hi, j, hj, by dsimp only; rw [hg i hi j hj, h']⟩, ?_⟩
    rintro v ⟨i', hi', j', hj', rfl⟩
    dsimp only
    rw [hg i' hi' j' hj']
    exact Real.sqrt_le_sqrt (hub ⟨i', hi', j', hj', rfl⟩)
  have hPpos : 0 < P := hPe ▸ h2
  have hval : ∀ i < n, ∀ j < n, Real.sqrt (gaussianFilter sigma n uv i j) * (peak n uv / peak n fun i j => Real.sqrt (gaussianFilter sigma n uv i j)) = Real.sqrt (uv i j * P) := by
    intro i hi j hj
    rw [hg i hi j hj, hpk, ← hPe, Real.div_sqrt, Real.sqrt_mul (hm i hi j hj)]
  refine ⟨_, h1, hval, fun i hi j hj => ?_⟩
  beta_reduce
  rw [hval i hi j hj, Real.sqrt_eq_iff_mul_self_eq (mul_nonneg (hm i hi j hj) hPpos.le) (hm i hi j hj)]
  constructor
  · intro h
    rcases eq_or_ne (uv i j) 0 with h0 | h0
    · exact Or.inl h0
    · exact Or.inr (mul_left_cancel₀ h0 h.symm)
  · rintro (h | h) <;> rw [h]
    ring

end Verif.SharpFeatures
