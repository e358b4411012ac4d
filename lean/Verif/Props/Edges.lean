import Verif.Model.Edges
import Verif.Props.FieldLike

/-!
# C230: the edges of `get_kbins`

Full statement (C230): for an integer `n`, `get_kbins` returns `n + 1` increasing edges from `2 pi/min(box_dims)` to the largest wave number, which is taken from `k` if it is
given and from the array otherwise: equally spaced (`linear`), equally spaced in the logarithm (`log`), or the first below 0.1 and the second above.  They are the edges of the
spectra.  Anything else than an integer is returned as it is.

False of the code: `k` without an array raises, although the assertion accepts it; the mixed binning may have fewer edges; and for small arrays the largest wave number is below the
first edge, so that the edges fall.
-/

namespace Verif.Edges
open Verif.PowerSpectrum Verif.Convolve Verif.FieldLike

/-- Edges in equal steps. -/
def EqualSteps (e : List ℝ) (a b : ℝ) (n : ℕ) : Prop := e.length = n + 1 ∧ ∀ i ≤ n, e[i]? = some (a + (b - a) * i / n)

/-- Edges in equal ratios. -/
def EqualRatios (e : List ℝ) (a b : ℝ) (n : ℕ) : Prop := e.length = n + 1 ∧ ∀ i ≤ n, e[i]? = some (a * (b / a) ^ ((i : ℝ) / n))

theorem linspace_steps (a b : ℝ) (n : ℕ) : EqualSteps (linspace a b n) a b n := by
  refine ⟨linspace_length a b n, fun i hi => ?_⟩
  rw [linspace_get a b n i (by omega)]
  congr 2
  ring

theorem logspace_ratios {a b : ℝ} (ha : 0 < a) (hb : 0 < b) (n : ℕ) : EqualRatios (logspace a b n) a b n := by
  refine ⟨by rw [logspace, List.length_map, linspace_length], fun i hi => ?_⟩
  rw [logspace, List.getElem?_map, linspace_get _ _ n i (by omega), Option.map_some]
  congr 1
  rw [Real.rpow_add (by norm_num), Real.rpow_logb (by norm_num) (by norm_num) ha, ← Real.logb_div hb.ne' ha.ne',
    show (i : ℝ) * (Real.logb 10 (b / a) / n) = Real.logb 10 (b / a) * (i / n) by ring, Real.rpow_mul (by norm_num),
    Real.rpow_logb (by norm_num) (by norm_num) (by positivity)]

/-- What the edges from `a` to `b` should be like. -/
def Sound (binning : Binning) (e : List ℝ) (a b : ℝ) (n : ℕ) : Prop :=
  e.Pairwise (· < ·) ∧ (∀ x ∈ e, a ≤ x ∧ x ≤ b) ∧
    match binning with
    | .linear => EqualSteps e a b n
    | .log => EqualRatios e a b n
    | .other => ∀ x, x ∈ e ↔ (x < 1 / 10 ∧ ∃ i : ℕ, i ≤ n ∧ x = a + (b - a) * i / n) ∨ (1 / 10 < x ∧ ∃ i : ℕ, i ≤ n ∧ x = a * (b / a) ^ ((i : ℝ) / n))

theorem steps_mem {e : List ℝ} {a b : ℝ} {n : ℕ} (h : EqualSteps e a b n) (x : ℝ) : x ∈ e ↔ ∃ i : ℕ, i ≤ n ∧ x = a + (b - a) * i / n := by
  rw [List.mem_iff_getElem?]
  constructor
  · rintro ⟨i, hi⟩
    have hl : i < e.length := (List.getElem?_eq_some_iff.mp hi).1
    rw [h.1] at hl
    refine ⟨i, by omega, ?_⟩
    rw [h.2 i (by omega)] at hi
    exact (Option.some.inj hi).symm
  · rintro ⟨i, hi, rfl⟩
    exact ⟨i, h.2 i hi⟩

theorem ratios_mem {e : List ℝ} {a b : ℝ} {n : ℕ} (h : EqualRatios e a b n) (x : ℝ) : x ∈ e ↔ ∃ i : ℕ, i ≤ n ∧ x = a * (b / a) ^ ((i : ℝ) / n) := by
  rw [List.mem_iff_getElem?]
  constructor
  · rintro ⟨i, hi⟩
    have hl : i < e.length := (List.getElem?_eq_some_iff.mp hi).1
    rw [h.1] at hl
    refine ⟨i, by omega, ?_⟩
    rw [h.2 i (by omega)] at hi
    exact (Option.some.inj hi).symm
  · rintro ⟨i, hi, rfl⟩
    exact ⟨i, h.2 i hi⟩

theorem steps_within {a b : ℝ} (h : a < b) {n : ℕ} (hn : 1 ≤ n) {i : ℕ} (hi : i ≤ n) : a ≤ a + (b - a) * i / n ∧ a + (b - a) * i / n ≤ b := by
  have hn' : (0 : ℝ) < n := by exact_mod_cast hn
  have h0 : (0 : ℝ) ≤ i / n := by positivity
  have h1 : (i : ℝ) / n ≤ 1 := by rw [div_le_one hn']; exact_mod_cast hi
  rw [mul_div_assoc]
  constructor <;> nlinarith

theorem ratios_within {a b : ℝ} (ha : 0 < a) (h : a < b) {n : ℕ} (hn : 1 ≤ n) {i : ℕ} (hi : i ≤ n) : a ≤ a * (b / a) ^ ((i : ℝ) / n) ∧ a * (b / a) ^ ((i : ℝ) / n) ≤ b := by
  have hn' : (0 : ℝ) < n := by exact_mod_cast hn
  have h0 : (0 : ℝ) ≤ i / n := by positivity
  have h1 : (i : ℝ) / n ≤ 1 := by rw [div_le_one hn']; exact_mod_cast hi
  have hr : 1 ≤ b / a := (one_le_div ha).mpr h.le
  constructor
  · have := Real.one_le_rpow hr h0
    nlinarith
  · have := Real.rpow_le_rpow_of_exponent_le hr h1
    rw [Real.rpow_one] at this
    calc a * _ ≤ a * (b / a) := mul_le_mul_of_nonneg_left this ha.le
      _ = b := mul_div_cancel₀ b ha.ne'

theorem edges_sound {a b : ℝ} (ha : 0 < a) (h : a < b) {n : ℕ} (hn : 1 ≤ n) (binning : Binning) : Sound binning (edges a b n binning (1 / 10)) a b n := by
  have hs := linspace_steps a b n
  have hr := logspace_ratios ha (ha.trans h) n
  have w1 : ∀ x ∈ linspace a b n, a ≤ x ∧ x ≤ b := fun x hx => by
    obtain ⟨i, hi, rfl⟩ := (steps_mem hs x).mp hx
    exact steps_within h hn hi
  have w2 : ∀ x ∈ logspace a b n, a ≤ x ∧ x ≤ b := fun x hx => by
    obtain ⟨i, hi, rfl⟩ := (ratios_mem hr x).mp hx
    exact ratios_within ha h hn hi
  cases binning with
  | linear => exact ⟨linspace_strict h hn, w1, hs⟩
  | log => exact ⟨logspace_strict ha h hn, w2, hr⟩
  | other =>
    refine ⟨?_, ?_, ?_⟩
    · simp only [edges]
      rw [List.pairwise_append]
      refine ⟨(linspace_strict h hn).filter _, (logspace_strict ha h hn).filter _, fun x hx y hy => ?_⟩
      have hx := (List.mem_filter.mp hx).2
      have hy := (List.mem_filter.mp hy).2
      simp only [decide_eq_true_eq] at hx hy
      exact hx.trans hy
    · intro x hx
      simp only [edges, List.mem_append, List.mem_filter] at hx
      rcases hx with hx | hx
      · exact w1 x hx.1
      · exact w2 x hx.1
    · intro x
      simp only [edges, List.mem_append, List.mem_filter, decide_eq_true_eq]
      rw [steps_mem hs, ratios_mem hr]
      exact or_congr and_comm and_comm

/-- The shortest side. -/
def IsMin (L : List ℝ) (l : ℝ) : Prop := l ∈ L ∧ ∀ x ∈ L, l ≤ x

theorem min_eq {L : List ℝ} {l : ℝ} (h : IsMin L l) : L.min? = some l := List.min?_eq_some_iff.mpr ⟨h.1, fun x hx => h.2 x hx⟩

/-- **C230** (partial: with an array, and wave numbers above the first edge; for a list of sides, the wave numbers given or those of the array). -/
theorem C230_partial {d : ℕ} (LB : ℝ) (s : Fin d → ℕ) (L : List ℝ) (l : ℝ) (hl : IsMin L l) (h0 : 0 < l) (n : ℕ) (hn : 1 ≤ n) (binning : Binning) :
    (∀ (k : Finset ℝ) (m : ℝ), k.max = some m → 2 * Real.pi / l < m →
      ∃ e, getKbins LB (.int n) (.list L) (some k) (some s) binning = .ok e ∧ Sound binning e (2 * Real.pi / l) m n) ∧
    (d = 1 ∨ d = 2 ∨ d = 3 → L.length = d → ∀ m : ℝ, ((box s).image (kMag s L)).max = some m → 2 * Real.pi / l < m →
      ∃ e, getKbins LB (.int n) (.list L) none (some s) binning = .ok e ∧ Sound binning e (2 * Real.pi / l) m n ∧
        PowerSpectrum.getKbins s L (.int n) binning (1 / 10) = .ok e) ∧
    ∀ (k : Option (Finset ℝ)) (given : List ℝ), k.isSome = true → getKbins LB (.array given) (.list L) k (some s) binning = .ok given ∧
      getKbins LB (.list given) (.list L) k (some s) binning = .ok given := by
  have hp : 0 < 2 * Real.pi / l := by positivity
  refine ⟨fun k m hk hm => ⟨_, ?_, edges_sound hp hm hn binning⟩, fun hd hL m hk hm => ⟨_, ?_, edges_sound hp hm hn binning, ?_⟩, fun k given hk => ?_⟩
  · simp only [getKbins, getDims, rawKbins, min_eq hl, hk]
  · have hg : getK d (.list L) = .ok L := by
      rw [getK, if_pos hd, boxOf, if_pos hL.ge]
    simp only [getKbins, getDims, hg, rawKbins, min_eq hl, hk]
  · simp only [PowerSpectrum.getKbins, kMax, hk, min_eq hl, Option.getD_some]
  · obtain ⟨k, rfl⟩ := Option.isSome_iff_exists.mp hk
    exact ⟨rfl, rfl⟩

/-- **C230** is false of the code: the wave numbers alone pass the assertion, and raise all the same. -/
theorem C230_false {d : ℕ} (LB : ℝ) (kbins : KBins) (box : Dims) (k : Finset ℝ) (binning : Binning) :
    getKbins (d := d) LB kbins box (some k) none binning = .error .attribute ∧ getKbins (d := d) LB kbins box none none binning = .error .assertion := ⟨rfl, rfl⟩

/-- **C230** is false of the code: two bins are asked for, and the mixed binning has one. -/
theorem C230_false_mixed {d : ℕ} (LB : ℝ) (s : Fin d → ℕ) :
    ∃ e, getKbins LB (.int 2) (.list [200 * Real.pi]) (some {1}) (some s) .other = .ok e ∧ ∀ x, x ∈ e ↔ x = 1 / 100 ∨ x = 1 := by
  have hm : IsMin [200 * Real.pi] (200 * Real.pi) := ⟨by simp, by simp⟩
  have hpi := Real.pi_pos
  have ha : 2 * Real.pi / (200 * Real.pi) = 1 / 100 := by field_simp; norm_num
  obtain ⟨h1, -⟩ := C230_partial LB s [200 * Real.pi] (200 * Real.pi) hm (by positivity) 2 (by norm_num) .other
  obtain ⟨e, he, -, -, h3⟩ := h1 {1} 1 Finset.max_singleton (by rw [ha]; norm_num)
  refine ⟨e, he, fun x => ?_⟩
  rw [h3 x, ha]
  have r0 : (1 : ℝ) / 100 * (1 / (1 / 100)) ^ (((0 : ℕ) : ℝ) / ((2 : ℕ) : ℝ)) = 1 / 100 := by norm_num
  have r1 : (1 : ℝ) / 100 * (1 / (1 / 100)) ^ (((1 : ℕ) : ℝ) / ((2 : ℕ) : ℝ)) = 1 / 10 := by
    have hb : (1 : ℝ) / (1 / 100) = (10 : ℝ) ^ (2 : ℝ) := by norm_num
    rw [hb, ← Real.rpow_mul (by norm_num)]
    norm_num
  have r2 : (1 : ℝ) / 100 * (1 / (1 / 100)) ^ (((2 : ℕ) : ℝ) / ((2 : ℕ) : ℝ)) = 1 := by norm_num
  constructor
  · rintro (⟨hx, i, hi, rfl⟩ | ⟨hx, i, hi, rfl⟩)
    · rcases (by omega : i = 0 ∨ i = 1 ∨ i = 2) with rfl | rfl | rfl
      · left; norm_num
      · norm_num at hx
      · norm_num at hx
    · rcases (by omega : i = 0 ∨ i = 1 ∨ i = 2) with rfl | rfl | rfl
      · rw [r0] at hx; norm_num at hx
      · rw [r1] at hx; norm_num at hx
      · exact .inr r2
  · rintro (rfl | rfl)
    · exact .inl ⟨by norm_num, 0, by norm_num, by norm_num⟩
    · exact .inr ⟨by norm_num, 2, le_rfl, r2.symm⟩

/-- **C230** is false of the code: the edges of a plane of two by two cells fall. -/
theorem C230_false_small (LB l : ℝ) (h0 : 0 < l) (n : ℕ) (hn : 1 ≤ n) :
    ∃ e, getKbins LB (.int n) (.list [l, l]) none (some (fun _ : Fin 2 => 2)) .linear = .ok e ∧ e.Pairwise (· > ·) := by
  have hpi := Real.pi_pos
  set s : Fin 2 → ℕ := fun _ => 2
  have hk : ∀ i ∈ box s, kMag s [l, l] i = 2 * Real.pi / l * Real.sqrt (1 / 2) := by
    intro i hi
    have hb := (mem_box s i).mp hi
    have hc : ∀ j : Fin 2, kComp s [l, l] j i ^ 2 = (2 * Real.pi / l) ^ 2 * (1 / 4) := by
      intro j
      have hj := hb j
      have h2 : ([l, l] : List ℝ).getD (j : ℕ) 0 = l := by
        match j with
        | 0 => rfl
        | 1 => rfl
      have h3 : s j = 2 := rfl
      have h4 : center 2 2 = 1 / 2 := by norm_num [center]
      have h5 : i j = 0 ∨ i j = 1 := by rw [h3] at hj; omega
      unfold kComp
      rw [h2, h3, h4]
      rcases h5 with h5 | h5 <;> rw [h5] <;> push_cast <;> ring
    unfold kMag
    rw [if_neg (by norm_num), Fin.sum_univ_two, hc, hc, ← mul_add, Real.sqrt_mul (by positivity), Real.sqrt_sq (by positivity)]
    norm_num
  have hne : (box s).Nonempty := ⟨fun _ => 0, (mem_box s _).mpr fun _ => ⟨le_rfl, by simp [s]⟩⟩
  have him : ((box s).image (kMag s [l, l])) = {2 * Real.pi / l * Real.sqrt (1 / 2)} := by
    rw [Finset.image_congr (g := fun _ => 2 * Real.pi / l * Real.sqrt (1 / 2)) fun i hi => hk i hi, Finset.image_const hne]
  have hmin : ([l, l] : List ℝ).min? = some l := min_eq ⟨by simp, by simp⟩
  have hgk : getK 2 (.list [l, l]) = .ok [l, l] := by
    rw [getK, if_pos (by norm_num), boxOf, if_pos (by simp)]
  refine ⟨linspace (2 * Real.pi / l) (2 * Real.pi / l * Real.sqrt (1 / 2)) n, ?_, ?_⟩
  · simp only [getKbins, getDims, hgk, rawKbins, hmin, him, Finset.max_singleton]
    rfl
  · have hs : Real.sqrt (1 / 2) < 1 := by
      rw [Real.sqrt_lt' one_pos]; norm_num
    have hp : 0 < 2 * Real.pi / l := by positivity
    have hd : 2 * Real.pi / l * Real.sqrt (1 / 2) - 2 * Real.pi / l < 0 := by nlinarith
    have hn' : (0 : ℝ) < n := by exact_mod_cast hn
    have hd' := div_neg_of_neg_of_pos hd hn'
    unfold linspace
    rw [List.pairwise_map]
    refine List.Pairwise.imp ?_ (List.pairwise_lt_range (n := n + 1))
    intro a b hab
    have hab' : (a : ℝ) < b := by exact_mod_cast hab
    show _ < _
    nlinarith

/-- The hypotheses of `C230_partial`: a box with two different sides. -/
example (s : Fin 2 → ℕ) : ∃ e, getKbins 0 (.int 4) (.list [3 * Real.pi, 2 * Real.pi]) (some {5, 2}) (some s) .linear = .ok e ∧ EqualSteps e 1 5 4 := by
  have hpi := Real.pi_pos
  have hm : IsMin [3 * Real.pi, 2 * Real.pi] (2 * Real.pi) := ⟨by simp, by simp; linarith⟩
  have ha : 2 * Real.pi / (2 * Real.pi) = 1 := by field_simp
  obtain ⟨h1, -⟩ := C230_partial 0 s _ _ hm (by positivity) 4 (by norm_num) .linear
  have hmax : (({5, 2} : Finset ℝ).max) = ((5 : ℝ) : WithBot ℝ) := by
    rw [Finset.max_insert, Finset.max_singleton]
    exact max_eq_left (by exact_mod_cast (by norm_num : (2 : ℝ) ≤ 5))
  obtain ⟨e, he, -, -, h3⟩ := h1 {5, 2} 5 hmax (by rw [ha]; norm_num)
  rw [ha] at h3
  exact ⟨e, he, h3⟩

/-- The hypotheses of `C230_false_small`. -/
example : ∃ e, getKbins 0 (.int 3) (.list [10, 10]) none (some (fun _ : Fin 2 => 2)) .linear = .ok e ∧ e.Pairwise (· > ·) := C230_false_small 0 10 (by norm_num) 3 (by norm_num)

end Verif.Edges
