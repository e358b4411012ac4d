import Verif.Model.Estimates
import Verif.Props.Temperature

/-!
# C228 and C229: estimates and pictures of `superpixels.py`

Full statement (C228): applied to the signal that `calc_dt` makes, `xfrac_mass_estimate` gives the ionised fraction by mass of the cube; `xfrac_volume_estimate` is the part of
the cells that are set.

C228 is false of the code: the estimate takes the mean signal of neutral gas to be `27 sqrt((1+z)/10)` mK, whatever the cosmology, and `calc_dt` does not; the two agree for at
most one redshift, unless the universe holds matter only.

Full statement (C229): `see_label` shows the cells of a label, and tells if there are none; `boundaries` returns the slice with the boundaries above all its values and no other
change.

C229 is false of the code: the boundaries are set to the maximum times a factor, which is no larger than the maximum if that is not positive; and with `mark=False` the first
pixel is overwritten.
-/

namespace Verif.Estimates
open Verif.Temperature Verif.Constants Verif.Convolve

/-- The ionised fraction by mass. -/
noncomputable def massFraction (xi rho : Cube) : ℝ := (∑ i ∈ box rho.shape, rho.val i * xi.val i) / ∑ i ∈ box rho.shape, rho.val i

/-- The mean of a cube. -/
noncomputable def average (c : Cube) : ℝ := (∑ i ∈ box c.shape, c.val i) / (box c.shape).card

/-- A cube with a redshift for which `calc_dt` is made: densities that are nowhere negative and average to the mean density of the baryons. -/
structure Fair (k : Const) (xi rho : Cube) : Prop where
  shape : xi.shape = rho.shape
  some : (box rho.shape).Nonempty
  dense : ∀ i ∈ box rho.shape, 0 ≤ rho.val i
  unit : 0 < k.rhoCrit0 * k.omegaB
  mean : (∑ i ∈ box rho.shape, rho.val i) / (box rho.shape).card = k.rhoCrit0 * k.omegaB

theorem Fair.sum_ne {k : Const} {xi rho : Cube} (f : Fair k xi rho) : (∑ i ∈ box rho.shape, rho.val i) ≠ 0 := by
  intro h
  have hk : (0 : ℝ) < k.rhoCrit0 * k.omegaB := by exact_mod_cast f.unit
  have := f.mean
  rw [h, zero_div] at this
  exact hk.ne this

theorem neutral_eq {k : Const} {xi rho : Cube} (f : Fair k xi rho) :
    (∑ i ∈ box rho.shape, rho.val i * (1 - xi.val i)) / ∑ i ∈ box rho.shape, rho.val i = 1 - massFraction xi rho := by
  rw [massFraction, eq_sub_iff_add_eq, ← add_div, ← Finset.sum_add_distrib, Finset.sum_congr rfl fun i _ => show rho.val i * (1 - xi.val i) + rho.val i * xi.val i = rho.val i by ring,
    div_self f.sum_ne]

theorem sqrt_pos' {z : ℝ} (hz : 0 ≤ z) : 0 < Real.sqrt ((1 + z) / 10) := Real.sqrt_pos.mpr (by positivity)

/-- The estimate for the average signal. -/
theorem estimate_eq {meandt : ℝ} {k : Const} {a b : Source} {xi rho : Cube} {z : ℚ} (hz : 0 ≤ z) (f : Fair k xi rho) :
    ∃ out, calcDt meandt k a b xi rho z = .ok out ∧ out.shape = xi.shape ∧
      massEstimate (average out) z = 1 - meanDt meandt k z / (27 * Real.sqrt ((1 + z) / 10)) * (1 - massFraction xi rho) := by
  obtain ⟨out, h1, h2, -⟩ := dt_single k rho xi (meanDt meandt k z) f.shape f.some.ne_empty
  have h1' : calcDt meandt k a b xi rho z = .ok out := by
    unfold calcDt
    rw [chooseZ_given _ z hz]
    exact h1
  obtain ⟨out', h3, h4⟩ := C99_average meandt k a b xi rho z hz f.shape f.some f.dense f.unit f.mean
  have e : out' = out := by
    rw [h1'] at h3
    exact (Except.ok.inj h3).symm
  subst e
  refine ⟨out', h1', h2, ?_⟩
  have hs := sqrt_pos' (z := (z : ℝ)) (by exact_mod_cast hz)
  rw [average, h2, h4, neutral_eq f, massEstimate]
  field_simp

/-- **C228** (partial: the estimate is right exactly if the mean signal of neutral gas is `27 sqrt((1+z)/10)` mK, or everything is ionised; and it does not matter whether the
estimate or the average is taken first). -/
theorem C228_partial {meandt : ℝ} {k : Const} {a b : Source} {xi rho : Cube} {z : ℚ} (hz : 0 ≤ z) (f : Fair k xi rho) :
    ∃ out, calcDt meandt k a b xi rho z = .ok out ∧
      (massEstimate (average out) z = massFraction xi rho ↔ massFraction xi rho = 1 ∨ meanDt meandt k z = 27 * Real.sqrt ((1 + z) / 10)) ∧
      average ⟨out.shape, fun i => massEstimate (out.val i) z⟩ = massEstimate (average out) z := by
  obtain ⟨out, h1, h2, h3⟩ := estimate_eq (meandt := meandt) (a := a) (b := b) hz f
  have hs := sqrt_pos' (z := (z : ℝ)) (by exact_mod_cast hz)
  refine ⟨out, h1, ?_, ?_⟩
  · rw [h3]
    constructor
    · intro h
      by_cases hx : massFraction xi rho = 1
      · exact .inl hx
      · right
        have hx' : 1 - massFraction xi rho ≠ 0 := fun h => hx (by linarith)
        have : (meanDt meandt k z / (27 * Real.sqrt ((1 + z) / 10)) - 1) * (1 - massFraction xi rho) = 0 := by linarith
        rcases mul_eq_zero.mp this with h' | h'
        · have := sub_eq_zero.mp h'
          rwa [div_eq_one_iff_eq (by positivity)] at this
        · exact absurd h' hx'
    · rintro (h | h)
      · rw [h]; ring
      · rw [h, div_self (by positivity)]; ring
  · have hc : ((box out.shape).card : ℝ) ≠ 0 := by
      rw [h2, f.shape]
      exact_mod_cast f.some.card_pos.ne'
    unfold average massEstimate
    dsimp only
    rw [Finset.sum_sub_distrib, Finset.sum_const, nsmul_eq_mul, mul_one, ← Finset.sum_div, ← Finset.sum_div]
    field_simp

/-- The mean signal agrees with that of the estimate for at most one redshift. -/
theorem mean_once (meandt : ℝ) (hm : 0 < meandt) (k : Const) (p : Open k) (hc : k.omega0 < 1) {z w : ℝ} (hz : 0 ≤ z) (hw : z < w)
    (h1 : meanDt meandt k z = 27 * Real.sqrt ((1 + z) / 10)) : meanDt meandt k w ≠ 27 * Real.sqrt ((1 + w) / 10) := by
  intro h2
  have hh : (0 : ℝ) < k.h := by exact_mod_cast p.little
  have ho : (0 : ℝ) < k.omega0 := p.toPhysical.matter'
  have hl : (0 : ℝ) ≤ k.lam := p.toPhysical.lam'
  have hq : (0 : ℝ) ≤ 1 - k.omega0 - k.lam := by
    have : ((k.omega0 + k.lam : ℚ) : ℝ) ≤ 1 := by exact_mod_cast p.curvature
    push_cast at this
    linarith
  have ho1 : (k.omega0 : ℝ) < 1 := by exact_mod_cast hc
  have sq : ∀ t : ℝ, 0 ≤ t → meanDt meandt k t = 27 * Real.sqrt ((1 + t) / 10) →
      (meandt / k.h) ^ 2 * (1 + t) ^ 3 * 10 = 27 ^ 2 * (k.omega0 * (1 + t) ^ 3 + k.lam + (1 - k.omega0 - k.lam) * (1 + t) ^ 2) := by
    intro t ht h
    have hE := expansion_pos p (show -1 < t by linarith)
    have h' := congrArg (· ^ 2) h
    simp only [meanDt] at h'
    rw [div_pow, mul_pow, mul_pow, Real.sq_sqrt hE.le, Real.sq_sqrt (by positivity), div_eq_iff hE.ne'] at h'
    have h3 : (1 + t) * ((meandt / k.h) ^ 2 * (1 + t) ^ 3 * 10) =
        (1 + t) * (27 ^ 2 * (k.omega0 * (1 + t) ^ 3 + k.lam + (1 - k.omega0 - k.lam) * (1 + t) ^ 2)) := by
      linear_combination 10 * h'
    exact mul_left_cancel₀ (by positivity) h3
  have e1 := sq z hz h1
  have e2 := sq w (by linarith) h2
  set u : ℝ := 1 + z
  set v : ℝ := 1 + w
  have hu : 1 ≤ u := by simp only [u]; linarith
  have huv : u < v := by simp only [u, v]; linarith
  set A : ℝ := (meandt / k.h) ^ 2
  have e3 : u ^ 3 * (k.lam + (1 - k.omega0 - k.lam) * v ^ 2) = v ^ 3 * (k.lam + (1 - k.omega0 - k.lam) * u ^ 2) := by
    linear_combination (v ^ 3 * e1 - u ^ 3 * e2) / (27 ^ 2)
  have e4 : (k.lam : ℝ) * (v ^ 3 - u ^ 3) + (1 - k.omega0 - k.lam) * (u ^ 2 * v ^ 2 * (v - u)) = 0 := by
    linear_combination -e3
  have g1 : 0 < v ^ 3 - u ^ 3 := by
    have : u ^ 3 < v ^ 3 := pow_lt_pow_left₀ huv (by linarith) (by norm_num)
    linarith
  have g2 : 0 < u ^ 2 * v ^ 2 * (v - u) := by
    have : 0 < v - u := by linarith
    have : 0 < v := by linarith
    have : 0 < u := by linarith
    positivity
  rcases hl.eq_or_lt with hl0 | hl0
  · have hq' : 0 < 1 - (k.omega0 : ℝ) - k.lam := by linarith
    have := mul_pos hq' g2
    have := mul_nonneg hl g1.le
    linarith
  · have := mul_pos hl0 g1
    have := mul_nonneg hq g2.le
    linarith

/-- **C228** is false of the code: unless the universe holds matter only or everything is ionised, the estimate is wrong for one of any two redshifts. -/
theorem C228_false (meandt : ℝ) (hm : 0 < meandt) (k : Const) (p : Open k) (hc : k.omega0 < 1) (a b : Source) (xi rho : Cube) (f : Fair k xi rho)
    (hx : massFraction xi rho ≠ 1) (z w : ℚ) (hz : 0 ≤ z) (hw : z < w) :
    ∃ t, (t = z ∨ t = w) ∧ ∃ out, calcDt meandt k a b xi rho t = .ok out ∧ massEstimate (average out) t ≠ massFraction xi rho := by
  by_cases h : meanDt meandt k z = 27 * Real.sqrt ((1 + z) / 10)
  · obtain ⟨out, h1, h2, -⟩ := C228_partial (meandt := meandt) (a := a) (b := b) (hz.trans hw.le) f
    refine ⟨w, .inr rfl, out, h1, fun e => ?_⟩
    rcases h2.mp e with e | e
    · exact hx e
    · exact mean_once meandt hm k p hc (by exact_mod_cast hz) (by exact_mod_cast hw) h e
  · obtain ⟨out, h1, h2, -⟩ := C228_partial (meandt := meandt) (a := a) (b := b) hz f
    refine ⟨z, .inl rfl, out, h1, fun e => ?_⟩
    rcases h2.mp e with e | e
    · exact hx e
    · exact h e

/-- **C228**, by volume: the part of the cells that are set, and no number only without cells. -/
theorem C228_volume (binary : List Bool) :
    (volumeEstimate binary = none ↔ binary = []) ∧ ∀ x, volumeEstimate binary = some x → x = (binary.count true : ℚ) / binary.length := by
  have hs : (binary.map fun b => if b then (1 : ℚ) else 0).sum = binary.count true := by
    induction binary with
    | nil => simp
    | cons b l ih => cases b <;> simp [ih]; ring
  constructor
  · unfold volumeEstimate
    split_ifs with h
    · simpa using h
    · simpa using h
  · intro x hx
    unfold volumeEstimate at hx
    split_ifs at hx
    rw [← Option.some.inj hx, hs]

/-- **C229** (part: labels): the cells of a label, and a message if and only if there are none. -/
theorem C229_label (map : List ℤ) (label : ℤ) :
    (seeLabel map label).1.length = map.length ∧
      (∀ (i : ℕ) (l : ℤ), map[i]? = some l → (seeLabel map label).1[i]? = some (if l = label then 1 else 0)) ∧ ((seeLabel map label).2 = true ↔ label ∉ map) := by
  have hf : (map.filter (· == label)).length = 0 ↔ label ∉ map := by
    rw [List.length_eq_zero_iff, List.filter_eq_nil_iff]
    constructor
    · intro h hm
      exact h label hm (by simp)
    · intro h x hx e
      rw [beq_iff_eq] at e
      exact h (e ▸ hx)
  unfold seeLabel
  by_cases h : (map.filter (· == label)).length = 0
  · rw [if_neg (not_not.mpr h)]
    refine ⟨by simp, fun i l hl => ?_, by simpa using hf.mp h⟩
    have : l ≠ label := fun e => hf.mp h (e ▸ List.mem_of_getElem? hl)
    rw [List.getElem?_map, hl, if_neg this]
    rfl
  · rw [if_pos h]
    refine ⟨by simp, fun i l hl => by simp [hl], ?_⟩
    have := mt hf.mpr h
    simpa using this

theorem foldl_max (xs : List ℝ) (x : ℝ) : x ≤ xs.foldl max x ∧ (∀ y ∈ xs, y ≤ xs.foldl max x) ∧ (xs.foldl max x = x ∨ xs.foldl max x ∈ xs) := by
  induction xs generalizing x with
  | nil => simp
  | cons y ys ih =>
    obtain ⟨h1, h2, h3⟩ := ih (max x y)
    rw [List.foldl_cons]
    refine ⟨(le_max_left _ _).trans h1, ?_, ?_⟩
    · intro z hz
      rcases List.mem_cons.mp hz with rfl | hz
      · exact (le_max_right _ _).trans h1
      · exact h2 z hz
    · rcases h3 with h3 | h3
      · rcases max_choice x y with e | e
        · left; rw [h3, e]
        · right; rw [h3, e]; simp
      · right; exact List.mem_cons_of_mem _ h3

/-- The maximum of a slice. -/
def IsMax (rows cols : ℕ) (sl : ℕ → ℕ → ℝ) (m : ℝ) : Prop := (∀ i j, i < rows → j < cols → sl i j ≤ m) ∧ ∃ i j, i < rows ∧ j < cols ∧ sl i j = m

theorem maxOf_slice {rows cols : ℕ} (hr : 0 < rows) (hc : 0 < cols) (sl : ℕ → ℕ → ℝ) {m : ℝ} (hm : IsMax rows cols sl m) :
    maxOf ((List.range rows).flatMap fun i => (List.range cols).map fun j => sl i j) = .ok m := by
  have hmem : ∀ x, x ∈ ((List.range rows).flatMap fun i => (List.range cols).map fun j => sl i j) ↔ ∃ i j, i < rows ∧ j < cols ∧ sl i j = x := by
    intro x
    simp only [List.mem_flatMap, List.mem_map, List.mem_range]
    constructor
    · rintro ⟨i, hi, j, hj, e⟩; exact ⟨i, j, hi, hj, e⟩
    · rintro ⟨i, j, hi, hj, e⟩; exact ⟨i, hi, j, hj, e⟩
  generalize ((List.range rows).flatMap fun i => (List.range cols).map fun j => sl i j) = l at hmem ⊢
  cases l with
  | nil => exact absurd ((hmem (sl 0 0)).mpr ⟨0, 0, hr, hc, rfl⟩) (by simp)
  | cons x xs =>
    rw [maxOf]
    congr 1
    obtain ⟨h1, h2, h3⟩ := foldl_max xs x
    apply le_antisymm
    · have : xs.foldl max x ∈ x :: xs := by
        rcases h3 with h3 | h3
        · rw [h3]; simp
        · exact List.mem_cons_of_mem _ h3
      obtain ⟨i, j, hi, hj, e⟩ := (hmem _).mp this
      rw [← e]
      exact hm.1 i j hi hj
    · obtain ⟨i, j, hi, hj, e⟩ := hm.2
      rcases List.mem_cons.mp ((hmem m).mpr ⟨i, j, hi, hj, e⟩) with e' | e'
      · rw [e']; exact h1
      · exact h2 m e'

/-- **C229** (partial: the pixels that are not marked keep their values, the marked ones are above the maximum if the maximum is positive and the factor larger than one; an empty
slice raises). -/
theorem C229_partial (rows cols : ℕ) (hr : 0 < rows) (hc : 0 < cols) (sl : ℕ → ℕ → ℝ) (marked : ℕ → ℕ → Bool) (factor : ℝ) (m : ℝ) (hm : IsMax rows cols sl m) :
    (∃ out, boundaries rows cols sl marked true factor = .ok out ∧ (∀ i j, marked i j = false → out i j = sl i j) ∧
      (1 < factor → ∀ i j, marked i j = true → (0 < m ↔ m < out i j))) ∧
      boundaries 0 cols sl marked true factor = .error .value := by
  have h := maxOf_slice hr hc sl hm
  constructor
  · refine ⟨fun i j => if marked i j then m * factor else sl i j, ?_, fun i j hij => by simp [hij], fun hf i j hij => ?_⟩
    · simp only [boundaries, h, if_true]
    · simp only [hij, if_true]
      constructor
      · intro h0; nlinarith
      · intro h1; by_contra h0; nlinarith
  · rfl

/-- **C229** is false of the code: with a maximum that is not positive no boundary stands out. -/
theorem C229_false (rows cols : ℕ) (hr : 0 < rows) (hc : 0 < cols) (sl : ℕ → ℕ → ℝ) (marked : ℕ → ℕ → Bool) (factor : ℝ) (hf : 1 < factor) (m : ℝ) (hm : IsMax rows cols sl m)
    (h0 : m ≤ 0) (i j : ℕ) (hij : marked i j = true) : ∃ out, boundaries rows cols sl marked true factor = .ok out ∧ out i j ≤ m := by
  obtain ⟨⟨out, h1, -, h3⟩, -⟩ := C229_partial rows cols hr hc sl marked factor m hm
  exact ⟨out, h1, not_lt.mp fun h => absurd ((h3 hf i j hij).mpr h) (not_lt.mpr h0)⟩

/-- **C229** is false of the code: without marks the first pixel is lost. -/
theorem C229_false_first (rows cols : ℕ) (hr : 0 < rows) (hc : 0 < cols) (sl : ℕ → ℕ → ℝ) (marked : ℕ → ℕ → Bool) (factor : ℝ) (hf : 1 < factor) (m : ℝ)
    (hm : IsMax rows cols sl m) (h0 : 0 < m) :
    ∃ out, boundaries rows cols sl marked false factor = .ok out ∧ out 0 0 ≠ sl 0 0 ∧ ∀ i j, (i, j) ≠ (0, 0) → out i j = sl i j := by
  have h := maxOf_slice hr hc sl hm
  refine ⟨fun i j => if i = 0 ∧ j = 0 then m * factor else sl i j, ?_, ?_, ?_⟩
  · simp only [boundaries, h, Bool.false_eq_true, if_false]
  · have := hm.1 0 0 hr hc
    simp only [and_self, if_true]
    nlinarith
  · intro i j hij
    have : ¬(i = 0 ∧ j = 0) := fun e => hij (by rw [e.1, e.2])
    simp [this]

/-- A cube with the mean density everywhere and a quarter of the gas ionised. -/
theorem quarter : Fair (Const.init 3) (eight fun _ => 1 / 4) (eight fun _ => (Const.init 3).rhoCrit0 * (Const.init 3).omegaB) ∧
    massFraction (eight fun _ => 1 / 4) (eight fun _ => (Const.init 3).rhoCrit0 * (Const.init 3).omegaB) = 1 / 4 := by
  have h : (0 : ℝ) < (Const.init 3).rhoCrit0 * (Const.init 3).omegaB := by exact_mod_cast init_density
  have hc : ((box (eight fun _ => ((Const.init 3).rhoCrit0 : ℝ) * (Const.init 3).omegaB).shape).card : ℝ) ≠ 0 := by
    exact_mod_cast (eight_ne _).card_pos.ne'
  have hsum : (∑ i ∈ box (eight fun _ => ((Const.init 3).rhoCrit0 : ℝ) * (Const.init 3).omegaB).shape,
      (eight fun _ => ((Const.init 3).rhoCrit0 : ℝ) * (Const.init 3).omegaB).val i) =
      (box (eight fun _ => ((Const.init 3).rhoCrit0 : ℝ) * (Const.init 3).omegaB).shape).card * ((Const.init 3).rhoCrit0 * (Const.init 3).omegaB) := by
    rw [Finset.sum_congr rfl fun i _ => show (eight fun _ => ((Const.init 3).rhoCrit0 : ℝ) * (Const.init 3).omegaB).val i =
      (Const.init 3).rhoCrit0 * (Const.init 3).omegaB from rfl, Finset.sum_const, nsmul_eq_mul]
  constructor
  · refine ⟨rfl, eight_ne _, fun _ _ => h.le, init_density, ?_⟩
    rw [hsum, mul_div_cancel_left₀ _ hc]
  · unfold massFraction
    rw [Finset.sum_congr rfl fun i _ => show (eight fun _ => ((Const.init 3).rhoCrit0 : ℝ) * (Const.init 3).omegaB).val i * (eight fun _ => 1 / 4).val i =
      (eight fun _ => ((Const.init 3).rhoCrit0 : ℝ) * (Const.init 3).omegaB).val i * (1 / 4) from rfl, ← Finset.sum_mul, hsum]
    rw [mul_div_assoc, mul_comm, div_mul_cancel₀]
    exact mul_ne_zero hc h.ne'

/-- The hypotheses of `C228_partial` and `C228_false`. -/
example : ∃ t : ℚ, (t = 7 ∨ t = 8) ∧ ∃ out, calcDt 1 (Const.init 3) .array .array (eight fun _ => 1 / 4)
    (eight fun _ => (Const.init 3).rhoCrit0 * (Const.init 3).omegaB) t = .ok out ∧ massEstimate (average out) t ≠ 1 / 4 := by
  have := C228_false 1 one_pos (Const.init 3) open_init (by norm_num [Const.init]) .array .array _ _ quarter.1 (by rw [quarter.2]; norm_num) 7 8 (by norm_num) (by norm_num)
  rwa [quarter.2] at this

/-- `C228_volume` for three cells, and `C229_label` for a map. -/
example : volumeEstimate [true, false, true] = some (2 / 3) ∧ seeLabel [1, 2, 1] 1 = ([1, 0, 1], false) ∧ seeLabel [1, 2, 1] 5 = ([0, 0, 0], true) := by decide +kernel

/-- The hypotheses of `C229_partial` and `C229_false_first`, and of `C229_false` with the opposite sign. -/
example : IsMax 2 2 (fun i j => (i : ℝ) + j) 2 ∧ IsMax 2 2 (fun i j => -(i : ℝ) - j - 1) (-1) := by
  refine ⟨⟨fun i j hi hj => ?_, 1, 1, by norm_num, by norm_num, by norm_num⟩, ⟨fun i j hi hj => ?_, 0, 0, by norm_num, by norm_num, by norm_num⟩⟩
  · have h1 : (i : ℝ) ≤ 1 := by exact_mod_cast (by omega : i ≤ 1)
    have h2 : (j : ℝ) ≤ 1 := by exact_mod_cast (by omega : j ≤ 1)
    linarith
  · have h1 : (0 : ℝ) ≤ i := Nat.cast_nonneg i
    have h2 : (0 : ℝ) ≤ j := Nat.cast_nonneg j
    linarith

end Verif.Estimates
