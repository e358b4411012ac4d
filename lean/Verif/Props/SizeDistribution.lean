import Verif.Model.SizeDistribution
import Verif.Props.Correlation
import Verif.Props.Multipoles
import Mathlib.Analysis.SpecialFunctions.Log.Base
import Mathlib.Tactic.FieldSimp
import Mathlib.Tactic.Linarith
import Mathlib.Tactic.Positivity
import Mathlib.Tactic.NormNum
import Mathlib.Tactic.Ring
/-!
# C136: distributions of region sizes; C137: the volume in regions of a size
-/

namespace Verif.SizeDistribution

open Verif.PowerSpectrum Verif.Correlation

/-! ## Specification -/

/-- The `i`-th of `n + 1` sizes in geometric progression from `lo` to `hi`. -/
noncomputable def step (lo hi : ℝ) (n i : ℕ) : ℝ := lo * (hi / lo) ^ ((i : ℝ) / n)

/-- `v` lies between the `i`-th of these sizes and the next; the last interval is closed. -/
def Inside (lo hi : ℝ) (n i : ℕ) (v : ℝ) : Prop :=
  step lo hi n i ≤ v ∧ (v < step lo hi n (i + 1) ∨ (i + 1 = n ∧ v = hi))

open Classical in
/-- The number of regions with a size in the interval. -/
noncomputable def number (sizes : List ℝ) (lo hi : ℝ) (n i : ℕ) : ℕ :=
  (sizes.filter fun v => decide (Inside lo hi n i v)).length

/-- Their share of the regions. -/
noncomputable def share (sizes : List ℝ) (lo hi : ℝ) (n i : ℕ) : ℝ :=
  (number sizes lo hi n i : ℝ) / (sizes.length : ℝ)

/-- `lo` and `hi` are the smallest and the largest of the sizes. -/
def Spans (sizes : List ℝ) (lo hi : ℝ) : Prop :=
  lo ∈ sizes ∧ hi ∈ sizes ∧ ∀ v ∈ sizes, lo ≤ v ∧ v ≤ hi

/-- What replaces a zero: the given number, or a thousandth of the smallest positive share. -/
def Dummy (null : Option ℝ) (sizes : List ℝ) (lo hi : ℝ) (n : ℕ) (x : ℝ) : Prop :=
  match null with
  | some f => x = f
  | none => ∃ m, IsLeast {t | ∃ i < n, t = share sizes lo hi n i ∧ t ≠ 0} m ∧ x = m / 1000

/-- The radius of a ball of the volume. -/
noncomputable def ballRadius (v : ℝ) : ℝ := (3 * v / (4 * Real.pi)) ^ (1 / 3 : ℝ)

/-! ## Histograms -/

theorem min_eq {x : List ℝ} {m : ℝ} (h : m ∈ x) (hm : ∀ v ∈ x, m ≤ v) : x.min? = some m :=
  List.min?_eq_some_iff.mpr ⟨h, hm⟩

theorem max_eq {x : List ℝ} {m : ℝ} (h : m ∈ x) (hm : ∀ v ∈ x, v ≤ m) : x.max? = some m :=
  List.max?_eq_some_iff.mpr ⟨h, hm⟩

theorem spans_exists {sizes : List ℝ} (h : sizes ≠ []) : ∃ lo hi, Spans sizes lo hi := by
  obtain ⟨lo, hl⟩ : ∃ lo, sizes.min? = some lo := by
    cases hm : sizes.min? with
    | none => exact absurd (List.min?_eq_none_iff.mp hm) h
    | some m => exact ⟨m, rfl⟩
  obtain ⟨hi, hh⟩ : ∃ hi, sizes.max? = some hi := by
    cases hm : sizes.max? with
    | none => exact absurd (List.max?_eq_none_iff.mp hm) h
    | some m => exact ⟨m, rfl⟩
  obtain ⟨h1, h2⟩ := List.min?_eq_some_iff.mp hl
  obtain ⟨h3, h4⟩ := List.max?_eq_some_iff.mp hh
  exact ⟨lo, hi, h1, h3, fun v hv => ⟨h2 v hv, h4 v hv⟩⟩

theorem spans_map {sizes : List ℝ} {lo hi : ℝ} (h : Spans sizes lo hi) (f : ℝ → ℝ)
    (hf : ∀ v ∈ sizes, ∀ w ∈ sizes, v ≤ w → f v ≤ f w) : Spans (sizes.map f) (f lo) (f hi) := by
  refine ⟨List.mem_map_of_mem h.1, List.mem_map_of_mem h.2.1, ?_⟩
  intro y hy
  obtain ⟨v, hv, rfl⟩ := List.mem_map.mp hy
  exact ⟨hf _ h.1 _ hv (h.2.2 v hv).1, hf _ hv _ h.2.1 (h.2.2 v hv).2⟩

theorem autoRange_eq {x : List ℝ} {lo hi : ℝ} (h : Spans x lo hi) (hne : lo ≠ hi) : autoRange x = (lo, hi) := by
  unfold autoRange
  rw [min_eq h.1 fun v hv => (h.2.2 v hv).1, max_eq h.2.1 fun v hv => (h.2.2 v hv).2]
  simp only [Option.getD_some]
  rw [if_neg hne]

theorem autoRange_same {x : List ℝ} {a : ℝ} (h : Spans x a a) : autoRange x = (a - 1 / 2, a + 1 / 2) := by
  unfold autoRange
  rw [min_eq h.1 fun v hv => (h.2.2 v hv).1, max_eq h.2.1 fun v hv => (h.2.2 v hv).2]
  simp

/-- All values lie in the range. -/
theorem autoRange_covers {x : List ℝ} : (autoRange x).1 ≤ (autoRange x).2 ∧
    ∀ v ∈ x, (autoRange x).1 ≤ v ∧ v ≤ (autoRange x).2 := by
  by_cases hx : x = []
  · subst hx
    simp [autoRange]
  obtain ⟨lo, hi, h⟩ := spans_exists hx
  by_cases hne : lo = hi
  · subst hne
    rw [autoRange_same h]
    refine ⟨by dsimp only; linarith, fun v hv => ?_⟩
    have := h.2.2 v hv
    exact ⟨by dsimp only; linarith [this.1], by dsimp only; linarith [this.2]⟩
  · rw [autoRange_eq h hne]
    exact ⟨(h.2.2 lo h.1).2, h.2.2⟩

theorem sum_indicator {n : ℕ} (P : ℕ → Prop) [DecidablePred P] (h : ∃ b < n, P b ∧ ∀ c < n, P c → c = b) :
    ∑ b ∈ Finset.range n, (if P b then 1 else 0) = 1 := by
  obtain ⟨b, hb, h1, h2⟩ := h
  rw [Finset.sum_eq_single b]
  · rw [if_pos h1]
  · intro c hc hcb
    exact if_neg fun hp => hcb (h2 c (Finset.mem_range.mp hc) hp)
  · intro hc
    exact absurd (Finset.mem_range.mpr hb) hc

open Classical in
/-- Every value is counted once. -/
theorem histogram_sum (e : List ℝ) (h : e.Pairwise (· ≤ ·)) (hl : 2 ≤ e.length) (x : List ℝ)
    (hx : ∀ v ∈ x, InRange e v) : (histogram e x).sum = x.length := by
  unfold histogram
  rw [list_sum_range]
  induction x with
  | nil => simp
  | cons a l ih =>
    have h1 : ∀ b, ((a :: l).filter fun v => decide (inBin e b v)).length =
        (if inBin e b a then 1 else 0) + (l.filter fun v => decide (inBin e b v)).length := by
      intro b
      rw [List.filter_cons]
      by_cases hp : inBin e b a
      · simp [hp]; omega
      · simp [hp]
    rw [Finset.sum_congr rfl fun b _ => h1 b, Finset.sum_add_distrib, ih fun v hv => hx v (List.mem_cons_of_mem _ hv),
      sum_indicator]
    · simp; omega
    · obtain ⟨b, hb, hp⟩ := inBin_exists hl (hx a List.mem_cons_self)
      exact ⟨b, by omega, hp, fun c hc hq => inBin_unique h (by omega) hb hq hp⟩

theorem hist_sum (x : List ℝ) {n : ℕ} (hn : 1 ≤ n) : (hist x n).1.sum = x.length := by
  have hc := autoRange_covers (x := x)
  unfold hist
  refine histogram_sum _ (linspace_sorted hc.1 n) (by rw [linspace_length]; omega) x ?_
  intro v hv
  unfold InRange
  rw [linspace_first, linspace_length, Nat.add_sub_cancel, linspace_last _ _ hn]
  exact hc.2 v hv

theorem hist_length (x : List ℝ) (n : ℕ) : (hist x n).1.length = n ∧ (hist x n).2.length = n + 1 := by
  unfold hist
  simp [histogram, linspace_length]

theorem step_pos {lo hi : ℝ} (hl : 0 < lo) (hh : 0 < hi) (n i : ℕ) : 0 < step lo hi n i :=
  mul_pos hl (Real.rpow_pos_of_pos (div_pos hh hl) _)

theorem step_zero (lo hi : ℝ) (n : ℕ) : step lo hi n 0 = lo := by simp [step]

theorem step_last {lo hi : ℝ} (hl : 0 < lo) {n : ℕ} (hn : 1 ≤ n) : step lo hi n n = hi := by
  unfold step
  have : (n : ℝ) ≠ 0 := by positivity
  rw [div_self this, Real.rpow_one]
  field_simp

/-- The edges of the histogram of the logarithms. -/
theorem hist_edge {b : ℝ} (hb : 1 < b) {sizes : List ℝ} {lo hi : ℝ} (hpos : ∀ v ∈ sizes, 0 < v)
    (h : Spans sizes lo hi) (hlt : lo < hi) {n i : ℕ} (hi' : i ≤ n) :
    (hist (sizes.map (Real.logb b)) n).2.getD i 0 = Real.logb b (step lo hi n i) := by
  have hlo : 0 < lo := hpos lo h.1
  have hhi : 0 < hi := hpos hi h.2.1
  have hs := spans_map h (Real.logb b) fun v hv w hw hvw =>
    (Real.logb_le_logb hb (hpos v hv) (hpos w hw)).mpr hvw
  have hne : Real.logb b lo ≠ Real.logb b hi :=
    ((Real.logb_lt_logb_iff hb hlo hhi).mpr hlt).ne
  unfold hist
  rw [autoRange_eq hs hne]
  simp only []
  rw [List.getD_eq_getElem?_getD, linspace_get _ _ _ _ (by omega), Option.getD_some]
  unfold step
  rw [Real.logb_mul hlo.ne' (Real.rpow_pos_of_pos (div_pos hhi hlo) _).ne',
    Real.logb_rpow_eq_mul_logb_of_pos (div_pos hhi hlo), Real.logb_div hhi.ne' hlo.ne']
  ring

/-- A logarithm is counted in the bin of its size. -/
theorem hist_bin {b : ℝ} (hb : 1 < b) {sizes : List ℝ} {lo hi : ℝ} (hpos : ∀ v ∈ sizes, 0 < v)
    (h : Spans sizes lo hi) (hlt : lo < hi) {n i : ℕ} (hi' : i < n) {v : ℝ} (hv : 0 < v) :
    inBin (hist (sizes.map (Real.logb b)) n).2 i (Real.logb b v) ↔ Inside lo hi n i v := by
  have hlo : 0 < lo := hpos lo h.1
  have hhi : 0 < hi := hpos hi h.2.1
  have hsp : ∀ j, 0 < step lo hi n j := step_pos hlo hhi n
  unfold inBin Inside
  rw [hist_edge hb hpos h hlt hi'.le, hist_edge hb hpos h hlt (by omega : i + 1 ≤ n), (hist_length _ n).2,
    Real.logb_le_logb hb (hsp i) hv, Real.logb_lt_logb_iff hb hv (hsp (i + 1))]
  refine and_congr Iff.rfl (or_congr Iff.rfl ?_)
  constructor
  · rintro ⟨h1, h2⟩
    have hn : i + 1 = n := by omega
    refine ⟨hn, ?_⟩
    have := Real.logb_injOn_pos hb (Set.mem_Ioi.mpr hv) (Set.mem_Ioi.mpr (hsp (i + 1))) h2
    rw [this, hn, step_last hlo (by omega)]
  · rintro ⟨h1, h2⟩
    refine ⟨by omega, ?_⟩
    rw [h2, h1, step_last hlo (by omega)]

/-- The counts. -/
theorem hist_count {b : ℝ} (hb : 1 < b) {sizes : List ℝ} {lo hi : ℝ} (hpos : ∀ v ∈ sizes, 0 < v)
    (h : Spans sizes lo hi) (hlt : lo < hi) {n i : ℕ} (hi' : i < n) :
    (hist (sizes.map (Real.logb b)) n).1.getD i 0 = number sizes lo hi n i := by
  classical
  have hl := (hist_length (sizes.map (Real.logb b)) n).2
  show (histogram (hist (sizes.map (Real.logb b)) n).2 _).getD i 0 = _
  rw [histogram_getD _ _ _ (by omega), List.filter_map, List.length_map]
  unfold number
  congr 1
  refine List.filter_congr fun v hv => ?_
  simp only [Function.comp_apply]
  exact decide_eq_decide.mpr (hist_bin hb hpos h hlt hi' (hpos v hv))

theorem fractions_getD (c : List ℕ) (i : ℕ) : (fractions c).getD i 0 = (c.getD i 0 : ℝ) / (c.sum : ℕ) := by
  unfold fractions
  rw [List.getD_eq_getElem?_getD, List.getD_eq_getElem?_getD, List.getElem?_map]
  cases c[i]? <;> simp

theorem fractions_sum (c : List ℕ) (h : c.sum ≠ 0) : (fractions c).sum = 1 := by
  unfold fractions
  have h1 : ∀ (d : ℝ) (c : List ℕ), (c.map fun (k : ℕ) => (k : ℝ) / d).sum = (c.sum : ℝ) / d := by
    intro d c
    induction c with
    | nil => simp
    | cons a l ih => rw [List.map_cons, List.sum_cons, ih, List.sum_cons]; push_cast; ring
  rw [h1, div_self (by exact_mod_cast h)]

theorem hist_share {b : ℝ} (hb : 1 < b) {sizes : List ℝ} {lo hi : ℝ} (hpos : ∀ v ∈ sizes, 0 < v)
    (h : Spans sizes lo hi) (hlt : lo < hi) {n i : ℕ} (hi' : i < n) :
    (fractions (hist (sizes.map (Real.logb b)) n).1).getD i 0 = share sizes lo hi n i := by
  rw [fractions_getD, hist_count hb hpos h hlt hi', hist_sum _ (by omega), List.length_map]
  rfl

theorem sum_getD (l : List ℝ) : l.sum = ∑ i ∈ Finset.range l.length, l.getD i 0 := by
  induction l with
  | nil => simp
  | cons a l ih => rw [List.sum_cons, List.length_cons, Finset.sum_range_succ', ih, add_comm]; simp

theorem share_sum {sizes : List ℝ} {lo hi : ℝ} (hpos : ∀ v ∈ sizes, 0 < v)
    (h : Spans sizes lo hi) (hlt : lo < hi) {n : ℕ} (hn : 1 ≤ n) :
    ∑ i ∈ Finset.range n, share sizes lo hi n i = 1 := by
  have hb : (1 : ℝ) < 10 := by norm_num
  have hne : sizes ≠ [] := fun h0 => by rw [h0] at h; simpa using h.1
  have hf := fractions_sum (hist (sizes.map (Real.logb 10)) n).1 (by
    rw [hist_sum _ hn, List.length_map]
    exact fun h0 => hne (List.length_eq_zero_iff.mp h0))
  rw [← hf]
  have hl : (fractions (hist (sizes.map (Real.logb 10)) n).1).length = n := by
    simp [fractions, (hist_length _ n).1]
  rw [sum_getD, hl]
  exact Finset.sum_congr rfl fun i hi => (hist_share hb hpos h hlt (Finset.mem_range.mp hi)).symm

theorem smallest_spec {d : List ℝ} {x : ℝ} (hx : x ∈ d) (h0 : x ≠ 0) :
    IsLeast {t | t ∈ d ∧ t ≠ 0} (smallest d) := by
  classical
  unfold smallest
  have hm : x ∈ d.filter fun x => decide (x ≠ 0) := by
    rw [List.mem_filter]
    exact ⟨hx, by simpa using h0⟩
  cases hq : (d.filter fun x => decide (x ≠ 0)).min? with
  | none =>
    rw [List.min?_eq_none_iff.mp hq] at hm
    exact absurd hm List.not_mem_nil
  | some m =>
    obtain ⟨h1, h2⟩ := List.min?_eq_some_iff.mp hq
    rw [Option.getD_some]
    rw [List.mem_filter] at h1
    refine ⟨⟨h1.1, by simpa using h1.2⟩, ?_⟩
    rintro t ⟨ht, ht0⟩
    exact h2 t (List.mem_filter.mpr ⟨ht, by simpa using ht0⟩)

theorem fractions_ne {c : List ℕ} (h : c.sum ≠ 0) : ∃ x ∈ fractions c, x ≠ 0 := by
  by_contra hc
  push Not at hc
  have := fractions_sum c h
  rw [List.sum_eq_zero hc] at this
  exact zero_ne_one this

theorem fractions_nonneg {c : List ℕ} : ∀ x ∈ fractions c, 0 ≤ x := by
  intro x hx
  obtain ⟨k, -, rfl⟩ := List.mem_map.mp hx
  positivity

theorem fill_sum (q : ℝ) (hq : 0 ≤ q) (d : List ℝ) : d.sum ≤ (fill q d).sum := by
  classical
  unfold fill
  induction d with
  | nil => simp
  | cons a l ih =>
    rw [List.map_cons, List.sum_cons, List.sum_cons]
    split_ifs with h
    · linarith
    · linarith

theorem fill_append (q : ℝ) (d e : List ℝ) : fill q (d ++ e) = fill q d ++ fill q e := by
  simp [fill]

theorem dummy_of {null : Option ℝ} {sizes : List ℝ} {lo hi : ℝ} {n : ℕ} {d e : List ℝ} {x : ℝ}
    (hs : ∀ i < n, d.getD i 0 = share sizes lo hi n i) (hl : d.length = n) (hd : ∃ x ∈ d, x ≠ 0)
    (he : ∀ t, (t ∈ e ∧ t ≠ 0) ↔ (t ∈ d ∧ t ≠ 0)) (hx : x = null.getD (smallest e / 1000)) :
    Dummy null sizes lo hi n x := by
  cases null with
  | some f => exact hx
  | none =>
    obtain ⟨y, hy, hy0⟩ := hd
    have := smallest_spec ((he y).mpr ⟨hy, hy0⟩).1 hy0
    refine ⟨_, ?_, hx⟩
    have hset : {t | t ∈ e ∧ t ≠ 0} = {t | ∃ i < n, t = share sizes lo hi n i ∧ t ≠ 0} := by
      ext t
      rw [Set.mem_setOf_eq, Set.mem_setOf_eq, he]
      constructor
      · rintro ⟨h1, h2⟩
        obtain ⟨i, hi, rfl⟩ := List.getElem_of_mem h1
        refine ⟨i, by omega, ?_, h2⟩
        rw [← hs i (by omega), List.getD_eq_getElem _ _ hi]
      · rintro ⟨i, hi, h1, h2⟩
        refine ⟨?_, h2⟩
        rw [h1, ← hs i hi, List.getD_eq_getElem _ _ (by omega)]
        exact List.getElem_mem _
    rwa [hset] at this

theorem effRadius_eq (v : ℝ) : effRadius v = ballRadius v := by
  unfold effRadius ballRadius
  congr 1
  field_simp

theorem ballRadius_pos {v : ℝ} (h : 0 < v) : 0 < ballRadius v := by
  have := Real.pi_pos
  unfold ballRadius
  positivity

theorem ballRadius_lt {v w : ℝ} (h : 0 < v) (hvw : v < w) : ballRadius v < ballRadius w := by
  have := Real.pi_pos
  unfold ballRadius
  refine Real.rpow_lt_rpow (by positivity) ?_ (by norm_num)
  gcongr

theorem ballRadius_mul {v t : ℝ} (h : 0 < v) (ht : 0 < t) : ballRadius (v * t) = ballRadius v * t ^ (1 / 3 : ℝ) := by
  have := Real.pi_pos
  unfold ballRadius
  rw [← Real.mul_rpow (by positivity) ht.le]
  congr 1
  ring

theorem step_radius {lo hi : ℝ} (hl : 0 < lo) (hh : 0 < hi) (n i : ℕ) :
    step (ballRadius lo) (ballRadius hi) n i = ballRadius (step lo hi n i) := by
  have hq := div_pos hh hl
  have h1 : ballRadius hi = ballRadius lo * (hi / lo) ^ (1 / 3 : ℝ) := by
    rw [← ballRadius_mul hl hq]
    congr 1
    field_simp
  unfold step
  rw [ballRadius_mul hl (Real.rpow_pos_of_pos hq _), h1, mul_div_cancel_left₀ _ (ballRadius_pos hl).ne',
    ← Real.rpow_mul hq.le, ← Real.rpow_mul hq.le, mul_comm (1 / 3 : ℝ)]

theorem ballRadius_le {v w : ℝ} (h : 0 < v) (hw : 0 < w) : ballRadius v ≤ ballRadius w ↔ v ≤ w := by
  constructor
  · intro hle
    by_contra hc
    exact absurd (ballRadius_lt hw (not_le.mp hc)) (not_lt.mpr hle)
  · intro hle
    rcases hle.eq_or_lt with rfl | hlt
    · exact le_rfl
    · exact (ballRadius_lt h hlt).le

theorem number_radius {sizes : List ℝ} {lo hi : ℝ} (hpos : ∀ v ∈ sizes, 0 < v) (hl : 0 < lo) (hh : 0 < hi) (n i : ℕ) :
    number (sizes.map ballRadius) (ballRadius lo) (ballRadius hi) n i = number sizes lo hi n i := by
  classical
  unfold number
  rw [List.filter_map, List.length_map]
  congr 1
  refine List.filter_congr fun v hv => ?_
  have hv0 := hpos v hv
  simp only [Function.comp_apply]
  refine decide_eq_decide.mpr ?_
  unfold Inside
  rw [step_radius hl hh, step_radius hl hh, ballRadius_le (step_pos hl hh n i) hv0, ← not_le,
    ballRadius_le (step_pos hl hh n (i + 1)) hv0, not_le]
  refine and_congr Iff.rfl (or_congr Iff.rfl (and_congr Iff.rfl ?_))
  constructor
  · intro h
    exact le_antisymm ((ballRadius_le hv0 hh).mp h.le) ((ballRadius_le hh hv0).mp h.ge)
  · rintro rfl
    rfl

theorem share_radius {sizes : List ℝ} {lo hi : ℝ} (hpos : ∀ v ∈ sizes, 0 < v) (hl : 0 < lo) (hh : 0 < hi) (n i : ℕ) :
    share (sizes.map ballRadius) (ballRadius lo) (ballRadius hi) n i = share sizes lo hi n i := by
  unfold share
  rw [number_radius hpos hl hh, List.length_map]

theorem dist_ok {sizes : List ℝ} (hpos : ∀ v ∈ sizes, 0 < v) (hne : sizes ≠ []) (res : ℝ) {n : ℕ} (hn : 1 ≤ n)
    (null : Option ℝ) : distFromVolumes sizes res n null = .ok (some {
      v := (hist (sizes.map (Real.logb 10)) n).2.map fun x => (10 : ℝ) ^ x * res ^ 3
      pv := fill (null.getD (smallest (fractions (hist (sizes.map (Real.logb 10)) n).1 ++ [0]) / 1000))
        (fractions (hist (sizes.map (Real.logb 10)) n).1 ++ [0])
      r := (hist ((sizes.map ballRadius).map (Real.logb 10)) n).2.map fun x => (10 : ℝ) ^ x * res
      pr := null.getD (smallest (0 :: fractions (hist ((sizes.map ballRadius).map (Real.logb 10)) n).1) / 1000) ::
        fractions (hist ((sizes.map ballRadius).map (Real.logb 10)) n).1 }) := by
  have hr : ¬ Rejected sizes n := by
    rintro (h | ⟨v, hv, h⟩)
    · omega
    · exact absurd (hpos v hv) (not_lt.mpr h)
  unfold distFromVolumes
  rw [if_neg hr, if_neg hne]
  have : sizes.map effRadius = sizes.map ballRadius := List.map_congr_left fun v _ => effRadius_eq v
  simp only [this]

/-! ## C136 -/

/-- **C136**, volumes: for positive sizes that are not all equal the volumes are in geometric progression from the
smallest to the largest, in units of the cube of the resolution.  At all but the last one stands the share of regions up
to the next volume; these shares add up to one.  Without a region, and at the last volume, stands a small number instead
of zero. -/
theorem C136_volumes_partial {sizes : List ℝ} {lo hi : ℝ} (hpos : ∀ v ∈ sizes, 0 < v) (h : Spans sizes lo hi)
    (hlt : lo < hi) (res : ℝ) {n : ℕ} (hn : 1 ≤ n) (null : Option ℝ) :
    ∃ D q, distFromVolumes sizes res n null = .ok (some D) ∧ D.v.length = n + 1 ∧ D.pv.length = n + 1 ∧
      (∀ i ≤ n, D.v.getD i 0 = step lo hi n i * res ^ 3) ∧
      Dummy null sizes lo hi n q ∧ D.pv.getD n 0 = q ∧
      (∀ i < n, share sizes lo hi n i ≠ 0 → D.pv.getD i 0 = share sizes lo hi n i) ∧
      (∀ i < n, share sizes lo hi n i = 0 → D.pv.getD i 0 = q) ∧
      ∑ i ∈ Finset.range n, share sizes lo hi n i = 1 := by
  have hb : (1 : ℝ) < 10 := by norm_num
  have hlo : 0 < lo := hpos lo h.1
  have hhi : 0 < hi := hpos hi h.2.1
  have hne : sizes ≠ [] := fun h0 => by rw [h0] at h; simpa using h.1
  have hsum : (hist (sizes.map (Real.logb 10)) n).1.sum ≠ 0 := by
    rw [hist_sum _ hn, List.length_map]
    exact fun h0 => hne (List.length_eq_zero_iff.mp h0)
  have hfl : (fractions (hist (sizes.map (Real.logb 10)) n).1).length = n := by
    simp [fractions, (hist_length _ n).1]
  have hsh : ∀ i < n, (fractions (hist (sizes.map (Real.logb 10)) n).1).getD i 0 = share sizes lo hi n i :=
    fun i hi => hist_share hb hpos h hlt hi
  refine ⟨_, _, dist_ok hpos hne res hn null, ?_, ?_, ?_, ?_, rfl, ?_, ?_, share_sum hpos h hlt hn⟩
  · rw [List.length_map, (hist_length _ n).2]
  · unfold fill
    rw [List.length_map, List.length_append, hfl]
    rfl
  · intro i hi'
    have hl := (hist_length (sizes.map (Real.logb 10)) n).2
    have he := hist_edge hb hpos h hlt hi'
    rw [List.getD_eq_getElem _ _ (by omega)] at he
    rw [List.getD_eq_getElem _ _ (by rw [List.length_map]; omega), List.getElem_map, he,
      Real.rpow_logb (by norm_num) (by norm_num) (step_pos hlo hhi n i)]
  · refine dummy_of hsh hfl (fractions_ne hsum) (e := fractions (hist (sizes.map (Real.logb 10)) n).1 ++ [0]) ?_ ?_
    · intro t
      rw [List.mem_append, List.mem_singleton]
      tauto
    · rw [fill_append, List.getD_append_right _ _ _ _ (by unfold fill; rw [List.length_map, hfl])]
      unfold fill
      rw [List.length_map, hfl]
      simp
  · intro i hi' h0
    rw [fill_append, List.getD_append _ _ _ _ (by unfold fill; rw [List.length_map, hfl]; exact hi')]
    have he := hsh i hi'
    rw [List.getD_eq_getElem _ _ (by omega)] at he
    unfold fill
    rw [List.getD_eq_getElem _ _ (by rw [List.length_map]; omega), List.getElem_map, he, if_neg h0]
  · intro i hi' h0
    rw [fill_append, List.getD_append _ _ _ _ (by unfold fill; rw [List.length_map, hfl]; exact hi'),
      List.getD_append_right _ _ _ _ (by unfold fill; rw [List.length_map, hfl])]
    have he := hsh i hi'
    rw [List.getD_eq_getElem _ _ (by omega)] at he
    unfold fill
    rw [List.getD_eq_getElem _ _ (by rw [List.length_map]; omega), List.getElem_map, he, if_pos h0, List.length_map, hfl]
    simp

/-- **C136**, radii: the radii are those of balls of the volumes, but the distribution is at the other edges: the share
that stands at a volume stands at the radius of the *next* volume, and shares that are zero stay. -/
theorem C136_radii_partial {sizes : List ℝ} {lo hi : ℝ} (hpos : ∀ v ∈ sizes, 0 < v) (h : Spans sizes lo hi)
    (hlt : lo < hi) {res : ℝ} (hres : 0 < res) {n : ℕ} (hn : 1 ≤ n) (null : Option ℝ) :
    ∃ D, distFromVolumes sizes res n null = .ok (some D) ∧ D.r.length = n + 1 ∧ D.pr.length = n + 1 ∧
      (∀ i ≤ n, D.r.getD i 0 = ballRadius (D.v.getD i 0)) ∧
      Dummy null sizes lo hi n (D.pr.getD 0 0) ∧
      ∀ i < n, D.pr.getD (i + 1) 0 = share sizes lo hi n i := by
  have hb : (1 : ℝ) < 10 := by norm_num
  have hlo : 0 < lo := hpos lo h.1
  have hhi : 0 < hi := hpos hi h.2.1
  have hne : sizes ≠ [] := fun h0 => by rw [h0] at h; simpa using h.1
  have hpos' : ∀ v ∈ sizes.map ballRadius, 0 < v := by
    intro v hv
    obtain ⟨w, hw, rfl⟩ := List.mem_map.mp hv
    exact ballRadius_pos (hpos w hw)
  have h' : Spans (sizes.map ballRadius) (ballRadius lo) (ballRadius hi) :=
    spans_map h _ fun v hv w hw hvw => (ballRadius_le (hpos v hv) (hpos w hw)).mpr hvw
  have hlt' := ballRadius_lt hlo hlt
  have hsum : (hist ((sizes.map ballRadius).map (Real.logb 10)) n).1.sum ≠ 0 := by
    rw [hist_sum _ hn, List.length_map, List.length_map]
    exact fun h0 => hne (List.length_eq_zero_iff.mp h0)
  have hfl : (fractions (hist ((sizes.map ballRadius).map (Real.logb 10)) n).1).length = n := by
    simp only [fractions, List.length_map, (hist_length _ n).1]
  have hsh : ∀ i < n, (fractions (hist ((sizes.map ballRadius).map (Real.logb 10)) n).1).getD i 0 =
      share sizes lo hi n i := fun i hi' => by
    rw [hist_share hb hpos' h' hlt' hi', share_radius hpos hlo hhi]
  refine ⟨_, dist_ok hpos hne res hn null, ?_, ?_, ?_, ?_, ?_⟩
  · rw [List.length_map, (hist_length _ n).2]
  · rw [List.length_cons, hfl]
  · intro i hi'
    have hl := (hist_length (sizes.map (Real.logb 10)) n).2
    have he := hist_edge hb hpos h hlt hi'
    rw [List.getD_eq_getElem _ _ (by omega)] at he
    have hl' := (hist_length ((sizes.map ballRadius).map (Real.logb 10)) n).2
    have he' := hist_edge hb hpos' h' hlt' hi'
    rw [List.getD_eq_getElem _ _ (by omega)] at he'
    simp only []
    rw [List.getD_eq_getElem _ _ (by rw [List.length_map]; omega), List.getElem_map, he',
      List.getD_eq_getElem _ _ (by rw [List.length_map]; omega), List.getElem_map, he,
      Real.rpow_logb (by norm_num) (by norm_num) (step_pos hlo hhi n i),
      Real.rpow_logb (by norm_num) (by norm_num) (step_pos (ballRadius_pos hlo) (ballRadius_pos hhi) n i),
      step_radius hlo hhi, ballRadius_mul (step_pos hlo hhi n i) (by positivity)]
    congr 1
    rw [← Real.rpow_natCast, ← Real.rpow_mul hres.le]
    norm_num
  · refine dummy_of hsh hfl (fractions_ne hsum) ?_ (List.getD_cons_zero ..)
    intro t
    rw [List.mem_cons]
    tauto
  · intro i hi'
    rw [← hsh i hi']
    rfl

theorem spans_witness : Spans [1, 1, 8] 1 8 ∧ (∀ v ∈ ([1, 1, 8] : List ℝ), 0 < v) ∧ (1 : ℝ) < 8 := by
  refine ⟨⟨by simp, by simp, ?_⟩, ?_, by norm_num⟩
  · intro v hv
    simp only [List.mem_cons, List.not_mem_nil, or_false] at hv
    rcases hv with rfl | rfl | rfl <;> norm_num
  · intro v hv
    simp only [List.mem_cons, List.not_mem_nil, or_false] at hv
    rcases hv with rfl | rfl | rfl <;> norm_num

example : ∃ D q, distFromVolumes [1, 1, 8] 2 3 none = .ok (some D) ∧ D.v.length = 4 ∧ D.pv.length = 4 ∧
    (∀ i ≤ 3, D.v.getD i 0 = step 1 8 3 i * 2 ^ 3) ∧ Dummy none [1, 1, 8] 1 8 3 q ∧ D.pv.getD 3 0 = q ∧
    (∀ i < 3, share [1, 1, 8] 1 8 3 i ≠ 0 → D.pv.getD i 0 = share [1, 1, 8] 1 8 3 i) ∧
    (∀ i < 3, share [1, 1, 8] 1 8 3 i = 0 → D.pv.getD i 0 = q) ∧
    ∑ i ∈ Finset.range 3, share [1, 1, 8] 1 8 3 i = 1 :=
  C136_volumes_partial spans_witness.2.1 spans_witness.1 spans_witness.2.2 2 (by norm_num) none

theorem share_first {sizes : List ℝ} {lo hi : ℝ} (hpos : ∀ v ∈ sizes, 0 < v) (h : Spans sizes lo hi)
    (hlt : lo < hi) {n : ℕ} (hn : 1 ≤ n) : 0 < share sizes lo hi n 0 := by
  classical
  have hlo : 0 < lo := hpos lo h.1
  have hhi : 0 < hi := hpos hi h.2.1
  have hne : sizes ≠ [] := fun h0 => by rw [h0] at h; simpa using h.1
  have hin : Inside lo hi n 0 lo := by
    refine ⟨(step_zero lo hi n).le, Or.inl ?_⟩
    unfold step
    have h1 : 1 < hi / lo := (one_lt_div hlo).mpr hlt
    have h2 : (0 : ℝ) < ((0 + 1 : ℕ) : ℝ) / n := by positivity
    have := Real.one_lt_rpow h1 h2
    nlinarith
  have hnum : 0 < number sizes lo hi n 0 := by
    unfold number
    exact List.length_pos_of_mem (List.mem_filter.mpr ⟨h.1, decide_eq_true hin⟩)
  have hlen : 0 < sizes.length := List.length_pos_iff.mpr hne
  unfold share
  have h1 : (0 : ℝ) < number sizes lo hi n 0 := by exact_mod_cast hnum
  have h2 : (0 : ℝ) < sizes.length := by exact_mod_cast hlen
  exact div_pos h1 h2

/-- **C136 is false**: the first radius is that of a ball of the first volume, but far less probable. -/
theorem C136_false {sizes : List ℝ} {lo hi : ℝ} (hpos : ∀ v ∈ sizes, 0 < v) (h : Spans sizes lo hi)
    (hlt : lo < hi) {res : ℝ} (hres : 0 < res) {n : ℕ} (hn : 1 ≤ n) :
    ∃ D, distFromVolumes sizes res n none = .ok (some D) ∧ D.r.getD 0 0 = ballRadius (D.v.getD 0 0) ∧
      0 < D.pv.getD 0 0 ∧ D.pr.getD 0 0 ≤ D.pv.getD 0 0 / 1000 := by
  obtain ⟨D, q, h1, -, -, -, -, -, h2, -, -⟩ := C136_volumes_partial hpos h hlt res hn none
  obtain ⟨D', h1', -, -, h3, h4, -⟩ := C136_radii_partial hpos h hlt hres hn none
  rw [h1] at h1'
  obtain rfl : D = D' := by simpa using h1'
  have hs := share_first hpos h hlt hn
  refine ⟨D, h1, h3 0 (Nat.zero_le _), ?_, ?_⟩
  · rw [h2 0 (by omega) hs.ne']
    exact hs
  · obtain ⟨m, hm, hq⟩ := h4
    rw [hq, h2 0 (by omega) hs.ne']
    have := hm.2 ⟨0, by omega, rfl, hs.ne'⟩
    linarith

example : ∃ D, distFromVolumes [1, 1, 8] 2 3 none = .ok (some D) ∧ D.r.getD 0 0 = ballRadius (D.v.getD 0 0) ∧
    0 < D.pv.getD 0 0 ∧ D.pr.getD 0 0 ≤ D.pv.getD 0 0 / 1000 :=
  C136_false spans_witness.2.1 spans_witness.1 spans_witness.2.2 (by norm_num) (by norm_num)

/-- **C136 is false** of the sum: by default both distributions add up to more than one. -/
theorem C136_sum_false {sizes : List ℝ} (hpos : ∀ v ∈ sizes, 0 < v) (hne : sizes ≠ []) (res : ℝ) {n : ℕ}
    (hn : 1 ≤ n) : ∃ D, distFromVolumes sizes res n none = .ok (some D) ∧ 1 < D.pv.sum ∧ 1 < D.pr.sum := by
  have key : ∀ x : List ℝ, x.length = sizes.length → ∀ e : List ℝ,
      (∀ t, t ∈ fractions (hist x n).1 → t ∈ e) → (∀ t ∈ e, 0 ≤ t) →
      (fractions (hist x n).1).sum = 1 ∧ 0 < smallest e := by
    intro x hx e he h0
    have hsum : (hist x n).1.sum ≠ 0 := by
      rw [hist_sum _ hn, hx]
      exact fun h0 => hne (List.length_eq_zero_iff.mp h0)
    refine ⟨fractions_sum _ hsum, ?_⟩
    obtain ⟨y, hy, hy0⟩ := fractions_ne hsum
    have := (smallest_spec (he y hy) hy0).1
    exact lt_of_le_of_ne (h0 _ this.1) (Ne.symm this.2)
  refine ⟨_, dist_ok hpos hne res hn none, ?_, ?_⟩
  · obtain ⟨h1, h2⟩ := key (sizes.map (Real.logb 10)) (by simp)
      (fractions (hist (sizes.map (Real.logb 10)) n).1 ++ [0]) (fun t ht => List.mem_append_left _ ht)
      (fun t ht => by
        rcases List.mem_append.mp ht with h | h
        · exact fractions_nonneg t h
        · rw [List.mem_singleton.mp h])
    simp only [Option.getD_none]
    rw [fill_append, List.sum_append]
    have h3 := fill_sum (smallest (fractions (hist (sizes.map (Real.logb 10)) n).1 ++ [0]) / 1000) (by linarith)
      (fractions (hist (sizes.map (Real.logb 10)) n).1)
    have h4 : (fill (smallest (fractions (hist (sizes.map (Real.logb 10)) n).1 ++ [0]) / 1000) [0]).sum =
      smallest (fractions (hist (sizes.map (Real.logb 10)) n).1 ++ [0]) / 1000 := by simp [fill]
    rw [h4]
    linarith
  · obtain ⟨h1, h2⟩ := key ((sizes.map ballRadius).map (Real.logb 10)) (by simp)
      (0 :: fractions (hist ((sizes.map ballRadius).map (Real.logb 10)) n).1) (fun t ht => List.mem_cons_of_mem _ ht)
      (fun t ht => by
        rcases List.mem_cons.mp ht with h | h
        · rw [h]
        · exact fractions_nonneg t h)
    simp only [Option.getD_none]
    rw [List.sum_cons]
    linarith

example : ∃ D, distFromVolumes [5] 1 100 none = .ok (some D) ∧ 1 < D.pv.sum ∧ 1 < D.pr.sum :=
  C136_sum_false (by simp) (by simp) 1 (by norm_num)

/-- **C136 is false** of regions of one size: the range then covers a factor of ten in volume and a factor of ten in
radius, and the radii are not those of the volumes. -/
theorem C136_same_false {sizes : List ℝ} {a : ℝ} (hpos : 0 < a) (h : Spans sizes a a) {res : ℝ} (hres : 0 < res)
    {n : ℕ} (hn : 1 ≤ n) (null : Option ℝ) :
    ∃ D, distFromVolumes sizes res n null = .ok (some D) ∧
      D.v.getD 0 0 = a * res ^ 3 / Real.sqrt 10 ∧ D.r.getD 0 0 = ballRadius (a * res ^ 3) / Real.sqrt 10 ∧
      D.r.getD 0 0 ≠ ballRadius (D.v.getD 0 0) := by
  have hall : ∀ v ∈ sizes, 0 < v := fun v hv => lt_of_lt_of_le hpos (h.2.2 v hv).1
  have hne : sizes ≠ [] := fun h0 => by rw [h0] at h; simpa using h.1
  have heq : ∀ v ∈ sizes, v = a := fun v hv => le_antisymm (h.2.2 v hv).2 (h.2.2 v hv).1
  have hx : ∀ f : ℝ → ℝ, Spans (sizes.map f) (f a) (f a) := fun f =>
    spans_map h f fun v hv w hw _ => by rw [heq v hv, heq w hw]
  have h10 : (10 : ℝ) ^ (-(1 / 2) : ℝ) = (Real.sqrt 10)⁻¹ := by
    rw [Real.sqrt_eq_rpow, ← Real.rpow_neg (by norm_num)]
  have hs10 : 0 < Real.sqrt 10 := Real.sqrt_pos.mpr (by norm_num)
  have key : ∀ (x : List ℝ) (c : ℝ), 0 < c → Spans x (Real.logb 10 c) (Real.logb 10 c) → ∀ k : ℝ,
      ((hist x n).2.map fun x => (10 : ℝ) ^ x * k).getD 0 0 = c * k / Real.sqrt 10 := by
    intro x c hc hs k
    unfold hist
    rw [autoRange_same hs]
    simp only []
    have h0 := linspace_get (Real.logb 10 c - 1 / 2) (Real.logb 10 c + 1 / 2) n 0 (by omega)
    rw [List.getD_eq_getElem?_getD, List.getElem?_map, h0, Option.map_some, Option.getD_some]
    rw [Nat.cast_zero, zero_mul, add_zero, sub_eq_add_neg, Real.rpow_add (by norm_num),
      Real.rpow_logb (by norm_num) (by norm_num) hc, h10]
    ring
  have hrad : ballRadius (a * res ^ 3) = ballRadius a * res := by
    rw [ballRadius_mul hpos (by positivity)]
    congr 1
    rw [← Real.rpow_natCast, ← Real.rpow_mul hres.le]
    norm_num
  have hv := key (sizes.map (Real.logb 10)) a hpos (hx _) (res ^ 3)
  have hr := key ((sizes.map ballRadius).map (Real.logb 10)) (ballRadius a) (ballRadius_pos hpos)
    (by rw [List.map_map]; exact hx (Real.logb 10 ∘ ballRadius)) res
  rw [← hrad] at hr
  refine ⟨_, dist_ok hall hne res hn null, hv, hr, ?_⟩
  simp only []
  rw [hv, hr, show a * res ^ 3 / Real.sqrt 10 = a * res ^ 3 * (Real.sqrt 10)⁻¹ by ring,
    ballRadius_mul (v := a * res ^ 3) (by positivity) (inv_pos.mpr hs10), div_eq_mul_inv]
  intro hc
  have hb := ballRadius_pos (show 0 < a * res ^ 3 by positivity)
  have h1 := mul_left_cancel₀ hb.ne' hc
  have h2 : (Real.sqrt 10)⁻¹ < 1 := inv_lt_one_of_one_lt₀ (by
    rw [show (1 : ℝ) = Real.sqrt 1 by simp]
    exact Real.sqrt_lt_sqrt (by norm_num) (by norm_num))
  have h3 := Real.rpow_lt_rpow_of_exponent_gt (inv_pos.mpr hs10) h2 (show (1 / 3 : ℝ) < 1 by norm_num)
  rw [Real.rpow_one, ← h1] at h3
  exact lt_irrefl _ h3

example : ∃ D, distFromVolumes [5] 2 100 none = .ok (some D) ∧
    D.v.getD 0 0 = 5 * 2 ^ 3 / Real.sqrt 10 ∧ D.r.getD 0 0 = ballRadius (5 * 2 ^ 3) / Real.sqrt 10 ∧
    D.r.getD 0 0 ≠ ballRadius (D.v.getD 0 0) :=
  C136_same_false (by norm_num) ⟨by simp, by simp, by simp⟩ (by norm_num) (by norm_num) none

/-- **C136**: a size that is not positive, or no bins, raise ValueError; no sizes give nothing. -/
theorem C136_raises (sizes : List ℝ) (res : ℝ) (n : ℕ) (null : Option ℝ) :
    (distFromVolumes sizes res n null = .error .value ↔ (n = 0 ∨ ∃ v ∈ sizes, v ≤ 0)) ∧
      (distFromVolumes sizes res n null = .ok none ↔ (n ≠ 0 ∧ sizes = [])) := by
  unfold distFromVolumes
  by_cases hr : Rejected sizes n
  · rw [if_pos hr]
    refine ⟨⟨fun _ => hr, fun _ => rfl⟩, ⟨fun h => by simp at h, ?_⟩⟩
    rintro ⟨h1, rfl⟩
    rcases hr with h | ⟨v, hv, -⟩
    · exact absurd h h1
    · simp at hv
  · rw [if_neg hr]
    by_cases hs : sizes = []
    · rw [if_pos hs]
      refine ⟨⟨fun h => by simp at h, fun h => absurd h hr⟩, ⟨fun _ => ⟨fun h => hr (Or.inl h), hs⟩, fun _ => rfl⟩⟩
    · rw [if_neg hs]
      exact ⟨⟨fun h => by simp at h, fun h => absurd h hr⟩, ⟨fun h => by simp at h, fun h => absurd h.2 hs⟩⟩

example : distFromVolumes [3, 0] 1 100 none = .error .value :=
  ((C136_raises [3, 0] 1 100 none).1).mpr (Or.inr ⟨0, by simp, le_rfl⟩)

/-- **C136**, `get_distribution` of sizes: they are returned, the shares stand at all but the last volume, where zero
stands, and add up to one; the volumes are multiplied by the resolution. -/
theorem C136_sizes_partial {sizes : List ℝ} {lo hi : ℝ} (hpos : ∀ v ∈ sizes, 0 < v) (h : Spans sizes lo hi)
    (hlt : lo < hi) (res : ℝ) {n : ℕ} (hn : 1 ≤ n) :
    ∃ p v, getDistribution (.sizes sizes) res n = .ok (sizes, some p, v) ∧ p.length = n + 1 ∧ v.length = n + 1 ∧
      (∀ i < n, p.getD i 0 = share sizes lo hi n i) ∧ p.getD n 0 = 0 ∧ p.sum = 1 ∧
      ∀ i ≤ n, v.getD i 0 = step lo hi n i * res := by
  have hb : (1 : ℝ) < Real.exp 1 := by simp
  have hlo : 0 < lo := hpos lo h.1
  have hhi : 0 < hi := hpos hi h.2.1
  have hne : sizes ≠ [] := fun h0 => by rw [h0] at h; simpa using h.1
  have hr : ¬ Rejected sizes n := by
    rintro (h | ⟨v, hv, h⟩)
    · omega
    · exact absurd (hpos v hv) (not_lt.mpr h)
  have hlog : sizes.map Real.log = sizes.map (Real.logb (Real.exp 1)) :=
    List.map_congr_left fun v _ => by rw [Real.logb, Real.log_exp, div_one]
  have hsum : (hist (sizes.map Real.log) n).1.sum ≠ 0 := by
    rw [hist_sum _ hn, List.length_map]
    exact fun h0 => hne (List.length_eq_zero_iff.mp h0)
  have hfl : (fractions (hist (sizes.map Real.log) n).1).length = n := by
    simp only [fractions, List.length_map, (hist_length _ n).1]
  have hres : getDistribution (.sizes sizes) res n = .ok (sizes,
      some (fractions (hist (sizes.map Real.log) n).1 ++ [0]),
      (hist (sizes.map Real.log) n).2.map fun x => Real.exp x * res) := by
    unfold getDistribution Arg.resolve
    simp only []
    rw [if_neg hr, if_neg hne]
  refine ⟨_, _, hres, ?_, ?_, ?_, ?_, ?_, ?_⟩
  · rw [List.length_append, hfl]
    rfl
  · rw [List.length_map, (hist_length _ n).2]
  · intro i hi'
    rw [List.getD_append _ _ _ _ (by rw [hfl]; exact hi'), hlog, hist_share hb hpos h hlt hi']
  · rw [List.getD_append_right _ _ _ _ (by rw [hfl]), hfl]
    simp
  · rw [List.sum_append, fractions_sum _ hsum]
    simp
  · intro i hi'
    have hl := (hist_length (sizes.map Real.log) n).2
    have he := hist_edge hb hpos h hlt hi'
    rw [← hlog, List.getD_eq_getElem _ _ (by omega), Real.logb, Real.log_exp, div_one] at he
    rw [List.getD_eq_getElem _ _ (by rw [List.length_map]; omega), List.getElem_map, he,
      Real.exp_log (step_pos hlo hhi n i)]

example : ∃ p v, getDistribution (.sizes [1, 1, 8]) 2 3 = .ok ([1, 1, 8], some p, v) ∧ p.length = 4 ∧
    v.length = 4 ∧ (∀ i < 3, p.getD i 0 = share [1, 1, 8] 1 8 3 i) ∧ p.getD 3 0 = 0 ∧ p.sum = 1 ∧
    ∀ i ≤ 3, v.getD i 0 = step 1 8 3 i * 2 :=
  C136_sizes_partial spans_witness.2.1 spans_witness.1 spans_witness.2.2 2 (by norm_num)

/-- **C136 is false** of `get_distribution`: the volume of the largest region is not multiplied by the volume of a
pixel, unless the pixels are as large as the unit. -/
theorem C136_resolution_false {sizes : List ℝ} {lo hi : ℝ} (hpos : ∀ v ∈ sizes, 0 < v) (h : Spans sizes lo hi)
    (hlt : lo < hi) {res : ℝ} (hres : 0 < res) (hne : res ≠ 1) {n : ℕ} (hn : 1 ≤ n) :
    ∃ p v D, getDistribution (.sizes sizes) res n = .ok (sizes, some p, v) ∧
      distFromVolumes sizes res n none = .ok (some D) ∧ D.v.getD n 0 = hi * res ^ 3 ∧ v.getD n 0 ≠ hi * res ^ 3 := by
  obtain ⟨p, v, h1, -, -, -, -, -, h2⟩ := C136_sizes_partial hpos h hlt res hn
  obtain ⟨D, q, h3, -, -, h4, -⟩ := C136_volumes_partial hpos h hlt res hn none
  have hlo : 0 < lo := hpos lo h.1
  have hhi : 0 < hi := hpos hi h.2.1
  refine ⟨p, v, D, h1, h3, ?_, ?_⟩
  · rw [h4 n le_rfl, step_last hlo hn]
  · rw [h2 n le_rfl, step_last hlo hn]
    intro hc
    have h5 := mul_left_cancel₀ hhi.ne' hc
    have h6 : res * ((res - 1) * (res + 1)) = 0 := by ring_nf; linarith
    rcases mul_eq_zero.mp h6 with h7 | h7
    · exact hres.ne' h7
    · rcases mul_eq_zero.mp h7 with h8 | h8
      · exact hne (by linarith)
      · linarith

example : ∃ p v D, getDistribution (.sizes [1, 1, 8]) 2 3 = .ok ([1, 1, 8], some p, v) ∧
    distFromVolumes [1, 1, 8] 2 3 none = .ok (some D) ∧ D.v.getD 3 0 = 8 * 2 ^ 3 ∧ v.getD 3 0 ≠ 8 * 2 ^ 3 :=
  C136_resolution_false spans_witness.2.1 spans_witness.1 spans_witness.2.2 (by norm_num) (by norm_num) (by norm_num)

/-- **C136**, `get_distribution` of labels: the numbers of pixels of the labels from one to the largest stand for the
sizes; a label left out among them raises ValueError, and so do no pixels. -/
theorem C136_labels (l : List ℕ) (m : ℕ) (hm : m ∈ l) (hle : ∀ k ∈ l, k ≤ m) (res : ℝ) {n : ℕ} (hn : 1 ≤ n) :
    ((∀ k, 1 ≤ k → k ≤ m → k ∈ l) → ∃ s, s.length = m ∧ (∀ i < m, s.getD i 0 = ((l.count (i + 1) : ℕ) : ℝ)) ∧
      (∀ v ∈ s, 1 ≤ v) ∧ getDistribution (.labels l) res n = getDistribution (.sizes s) res n) ∧
    ((∃ k, 1 ≤ k ∧ k ≤ m ∧ k ∉ l) → getDistribution (.labels l) res n = .error .value) ∧
    getDistribution (.labels []) res n = .error .value := by
  have hmax : l.max? = some m := List.max?_eq_some_iff.mpr ⟨hm, hle⟩
  have hcons : ∃ a t, l = a :: t := by
    cases l with
    | nil => simp at hm
    | cons a t => exact ⟨a, t, rfl⟩
  have hres : (Arg.labels l).resolve = .ok ((List.range m).map fun i => ((l.count (i + 1) : ℕ) : ℝ)) := by
    obtain ⟨a, t, rfl⟩ := hcons
    unfold Arg.resolve
    simp only []
    rw [hmax, Option.getD_some]
  refine ⟨?_, ?_, rfl⟩
  · intro hk
    refine ⟨(List.range m).map fun i => ((l.count (i + 1) : ℕ) : ℝ), by simp, ?_, ?_, ?_⟩
    · intro i hi
      rw [List.getD_eq_getElem _ _ (by simpa using hi), List.getElem_map, List.getElem_range]
    · intro v hv
      obtain ⟨i, hi, rfl⟩ := List.mem_map.mp hv
      have := List.count_pos_iff.mpr (hk (i + 1) (by omega) (by have := List.mem_range.mp hi; omega))
      exact_mod_cast this
    · unfold getDistribution
      rw [hres]
      rfl
  · rintro ⟨k, h1, h2, h3⟩
    unfold getDistribution
    rw [hres]
    simp only []
    rw [if_pos]
    refine Or.inr ⟨0, ?_, le_rfl⟩
    refine List.mem_map.mpr ⟨k - 1, List.mem_range.mpr (by omega), ?_⟩
    rw [show k - 1 + 1 = k by omega, List.count_eq_zero_of_not_mem h3]
    simp

example : getDistribution (.labels [0, 1, 3]) 1 100 = .error .value :=
  (C136_labels [0, 1, 3] 3 (by decide) (by decide) 1 (by norm_num)).2.1 ⟨2, by decide, by decide, by decide⟩

/-! ## C137 -/

open Classical in
/-- The volume of the regions with a size in the interval. -/
noncomputable def volume (sizes : List ℝ) (lo hi : ℝ) (n i : ℕ) : ℝ :=
  (sizes.filter fun v => decide (Inside lo hi n i v)).sum

/-- The number of regions in the interval times the smallest size in it. -/
noncomputable def estimate (sizes : List ℝ) (lo hi : ℝ) (n i : ℕ) : ℝ :=
  (number sizes lo hi n i : ℝ) * step lo hi n i

/-- What the values are divided by. -/
noncomputable def norm (LB : ℝ) (sizes : List ℝ) (lo hi : ℝ) (n : ℕ) (boxsize : Option ℝ) (normalize : String) : ℝ :=
  if normalize = "ionized" then ∑ i ∈ Finset.range n, estimate sizes lo hi n i
  else (match boxsize with | some b => b | none => LB) ^ 3

theorem sum_bounds (P : ℝ → Bool) (a b : ℝ) (l : List ℝ) (h : ∀ v ∈ l, P v = true → a ≤ v ∧ v ≤ b) :
    ((l.filter P).length : ℝ) * a ≤ (l.filter P).sum ∧ (l.filter P).sum ≤ ((l.filter P).length : ℝ) * b := by
  induction l with
  | nil => simp
  | cons x l ih =>
    obtain ⟨h1, h2⟩ := ih fun v hv => h v (List.mem_cons_of_mem _ hv)
    rw [List.filter_cons]
    split_ifs with hp
    · obtain ⟨h3, h4⟩ := h x List.mem_cons_self hp
      rw [List.length_cons, List.sum_cons]
      push_cast
      constructor <;> linarith
    · exact ⟨h1, h2⟩

/-- **C137**, how far off the estimate is: the volume of the regions lies between it and the same number times the next
size. -/
theorem C137_bounds {lo hi : ℝ} (sizes : List ℝ) (hlo : 0 < lo) (hhi : lo ≤ hi) {n i : ℕ} (hi' : i < n) :
    estimate sizes lo hi n i ≤ volume sizes lo hi n i ∧
      volume sizes lo hi n i ≤ estimate sizes lo hi n i * (hi / lo) ^ (1 / (n : ℝ)) := by
  classical
  have hq : 0 < hi / lo := div_pos (lt_of_lt_of_le hlo hhi) hlo
  have hn : (0 : ℝ) < n := by exact_mod_cast (by omega : 0 < n)
  have hs : step lo hi n (i + 1) = step lo hi n i * (hi / lo) ^ (1 / (n : ℝ)) := by
    unfold step
    rw [mul_assoc, ← Real.rpow_add hq]
    congr 2
    push_cast
    ring
  have := sum_bounds (fun v => decide (Inside lo hi n i v)) (step lo hi n i) (step lo hi n (i + 1)) sizes ?_
  · unfold estimate volume number
    refine ⟨this.1, ?_⟩
    rw [mul_assoc, ← hs]
    exact this.2
  · intro v _ hv
    have hv' := of_decide_eq_true hv
    refine ⟨hv'.1, ?_⟩
    rcases hv'.2 with h | ⟨h1, h2⟩
    · exact h.le
    · rw [h1, step_last hlo (by omega), h2]

example : estimate [1, 1, 8] 1 8 3 0 ≤ volume [1, 1, 8] 1 8 3 0 ∧
    volume [1, 1, 8] 1 8 3 0 ≤ estimate [1, 1, 8] 1 8 3 0 * (8 / 1) ^ (1 / ((3 : ℕ) : ℝ)) :=
  C137_bounds _ (by norm_num) (by norm_num) (by norm_num)

theorem fof_estimate {sizes : List ℝ} {lo hi : ℝ} (hpos : ∀ v ∈ sizes, 0 < v) (h : Spans sizes lo hi)
    (hlt : lo < hi) {n : ℕ} : ∀ y, y = ((List.zip (hist (sizes.map (Real.logb 10)) n).1
      ((hist (sizes.map (Real.logb 10)) n).2.map fun t => (10 : ℝ) ^ t)).map fun p => (p.1 : ℝ) * p.2) →
      y.length = n ∧ (∀ i < n, y.getD i 0 = estimate sizes lo hi n i) ∧
      y.sum = ∑ i ∈ Finset.range n, estimate sizes lo hi n i := by
  rintro y rfl
  have hb : (1 : ℝ) < 10 := by norm_num
  have hlo : 0 < lo := hpos lo h.1
  have hhi : 0 < hi := hpos hi h.2.1
  obtain ⟨hl1, hl2⟩ := hist_length (sizes.map (Real.logb 10)) n
  have hlen : ((List.zip (hist (sizes.map (Real.logb 10)) n).1
      ((hist (sizes.map (Real.logb 10)) n).2.map fun t => (10 : ℝ) ^ t)).map fun p => (p.1 : ℝ) * p.2).length = n := by
    rw [List.length_map, List.length_zip, List.length_map, hl1, hl2]
    omega
  have hval : ∀ i < n, ((List.zip (hist (sizes.map (Real.logb 10)) n).1
      ((hist (sizes.map (Real.logb 10)) n).2.map fun t => (10 : ℝ) ^ t)).map fun p => (p.1 : ℝ) * p.2).getD i 0 =
      estimate sizes lo hi n i := by
    intro i hi'
    have hc := hist_count hb hpos h hlt hi'
    have he := hist_edge hb hpos h hlt hi'.le
    rw [List.getD_eq_getElem _ _ (by omega)] at hc he
    rw [List.getD_eq_getElem _ _ (by rw [hlen]; exact hi'), List.getElem_map, List.getElem_zip]
    simp only [List.getElem_map]
    rw [hc, he, Real.rpow_logb (by norm_num) (by norm_num) (step_pos hlo hhi n i)]
    rfl
  refine ⟨hlen, hval, ?_⟩
  rw [sum_getD, hlen]
  exact Finset.sum_congr rfl fun i hi' => hval i (Finset.mem_range.mp hi')

theorem estimate_first {sizes : List ℝ} {lo hi : ℝ} (hpos : ∀ v ∈ sizes, 0 < v) (h : Spans sizes lo hi)
    (hlt : lo < hi) {n : ℕ} (hn : 1 ≤ n) : 0 < estimate sizes lo hi n 0 := by
  have h1 := share_first hpos h hlt hn
  have h2 : 0 < number sizes lo hi n 0 := by
    by_contra hc
    unfold share at h1
    rw [show number sizes lo hi n 0 = 0 by omega] at h1
    simp at h1
  unfold estimate
  exact mul_pos (by exact_mod_cast h2) (step_pos (hpos lo h.1) (hpos hi h.2.1) n 0)

theorem estimate_nonneg {sizes : List ℝ} {lo hi : ℝ} (hpos : ∀ v ∈ sizes, 0 < v) (h : Spans sizes lo hi)
    (n i : ℕ) : 0 ≤ estimate sizes lo hi n i := by
  unfold estimate
  exact mul_nonneg (Nat.cast_nonneg _) (step_pos (hpos lo h.1) (hpos hi h.2.1) n i).le

/-- **C137**, what is returned for positive sizes that are not all equal: the sizes in geometric progression; at each
but the last the number of regions up to the next times the size, over the volume of the box or over the sum; a tenth of
the smallest of these in place of zeros and at the last size, and as the last result. -/
theorem C137_partial {LB : ℝ} {sizes : List ℝ} {lo hi : ℝ} (hpos : ∀ v ∈ sizes, 0 < v) (h : Spans sizes lo hi)
    (hlt : lo < hi) {n : ℕ} (hn : 1 ≤ n) {boxsize : Option ℝ} (normalize : String)
    (hLB : 0 < LB) (hbox : ∀ b, boxsize = some b → 0 < b) :
    ∃ F m, plotFofSizes LB sizes n boxsize normalize = .ok (some F) ∧ F.x.length = n + 1 ∧ F.z.length = n + 1 ∧
      0 < norm LB sizes lo hi n boxsize normalize ∧
      (∀ i ≤ n, F.x.getD i 0 = step lo hi n i) ∧
      IsLeast {t | ∃ i < n, t = estimate sizes lo hi n i ∧ t ≠ 0} m ∧
      F.dummy = m / norm LB sizes lo hi n boxsize normalize / 10 ∧
      (∀ i < n, estimate sizes lo hi n i ≠ 0 →
        F.z.getD i 0 = estimate sizes lo hi n i / norm LB sizes lo hi n boxsize normalize) ∧
      (∀ i < n, estimate sizes lo hi n i = 0 → F.z.getD i 0 = F.dummy) ∧ F.z.getD n 0 = F.dummy := by
  classical
  have hb : (1 : ℝ) < 10 := by norm_num
  have hlo : 0 < lo := hpos lo h.1
  have hhi : 0 < hi := hpos hi h.2.1
  have hne : sizes ≠ [] := fun h0 => by rw [h0] at h; simpa using h.1
  have hr : ¬ Rejected sizes n := by
    rintro (h | ⟨v, hv, h⟩)
    · omega
    · exact absurd (hpos v hv) (not_lt.mpr h)
  obtain ⟨hyl, hyv, hys⟩ := fof_estimate hpos h hlt (n := n) _ rfl
  have hx : ∀ i ≤ n, ((hist (sizes.map (Real.logb 10)) n).2.map fun t => (10 : ℝ) ^ t).getD i 0 = step lo hi n i := by
    intro i hi'
    have hl := (hist_length (sizes.map (Real.logb 10)) n).2
    have he := hist_edge hb hpos h hlt hi'
    rw [List.getD_eq_getElem _ _ (by omega)] at he
    rw [List.getD_eq_getElem _ _ (by rw [List.length_map]; omega), List.getElem_map, he,
      Real.rpow_logb (by norm_num) (by norm_num) (step_pos hlo hhi n i)]
  have hxl : ((hist (sizes.map (Real.logb 10)) n).2.map fun t => (10 : ℝ) ^ t).length = n + 1 := by
    rw [List.length_map, (hist_length _ n).2]
  have hN : 0 < norm LB sizes lo hi n boxsize normalize := by
    unfold norm
    split_ifs with h1
    · refine lt_of_lt_of_le (estimate_first hpos h hlt hn)
        (Finset.single_le_sum (f := fun i => estimate sizes lo hi n i) (fun i _ => estimate_nonneg hpos h n i)
          (Finset.mem_range.mpr (by omega)))
    · cases boxsize with
      | none => exact pow_pos hLB 3
      | some b => exact pow_pos (hbox b rfl) 3
  generalize hy : ((List.zip (hist (sizes.map (Real.logb 10)) n).1
      ((hist (sizes.map (Real.logb 10)) n).2.map fun t => (10 : ℝ) ^ t)).map fun p => (p.1 : ℝ) * p.2) = y at *
  have hres : plotFofSizes LB sizes n boxsize normalize = .ok (some
      ⟨(hist (sizes.map (Real.logb 10)) n).2.map fun t => (10 : ℝ) ^ t,
        fill (smallest (y.map fun t => t / norm LB sizes lo hi n boxsize normalize) / 10)
          (y.map fun t => t / norm LB sizes lo hi n boxsize normalize) ++
          [smallest (y.map fun t => t / norm LB sizes lo hi n boxsize normalize) / 10],
        smallest (y.map fun t => t / norm LB sizes lo hi n boxsize normalize) / 10⟩) := by
    unfold plotFofSizes
    rw [if_neg hr]
    simp only [hy]
    by_cases h1 : normalize = "ionized"
    · have h2 : norm LB sizes lo hi n boxsize normalize = y.sum := by
        unfold norm
        rw [if_pos h1, hys]
      rw [if_pos h1, if_neg hne, h2]
    · have h2 : norm LB sizes lo hi n boxsize normalize = (boxsize.getD LB) ^ 3 := by
        unfold norm
        rw [if_neg h1]
        cases boxsize <;> rfl
      have h3 : boxsize.getD LB ≠ 0 := by
        intro h0
        rw [h0] at h2
        rw [h2] at hN
        norm_num at hN
      rw [if_neg h1, if_neg h3, if_neg hne, h2]
  generalize hNd : norm LB sizes lo hi n boxsize normalize = N at *
  have hzl : (y.map fun t => t / N).length = n := by rw [List.length_map, hyl]
  have hzv : ∀ i < n, (y.map fun t => t / N).getD i 0 = estimate sizes lo hi n i / N := by
    intro i hi'
    have := hyv i hi'
    rw [List.getD_eq_getElem _ _ (by omega)] at this
    rw [List.getD_eq_getElem _ _ (by omega), List.getElem_map, this]
  have hfl : ∀ q, (fill q (y.map fun t => t / N)).length = n := fun q => by
    unfold fill
    rw [List.length_map, hzl]
  have hmem : estimate sizes lo hi n 0 / N ∈ y.map fun t => t / N := by
    rw [← hzv 0 (by omega), List.getD_eq_getElem _ _ (by omega)]
    exact List.getElem_mem _
  have hleast := smallest_spec hmem (div_pos (estimate_first hpos h hlt hn) hN).ne'
  refine ⟨_, smallest (y.map fun t => t / N) * N, hres, hxl, ?_, hN, hx, ?_, ?_, ?_, ?_, ?_⟩
  · simp only []
    rw [List.length_append, hfl]
    rfl
  · constructor
    · obtain ⟨h1, h2⟩ := hleast.1
      obtain ⟨i, hi', h3⟩ := List.getElem_of_mem h1
      have h4 := hzv i (by omega)
      rw [List.getD_eq_getElem _ _ (by omega), h3] at h4
      refine ⟨i, by omega, ?_, mul_ne_zero h2 hN.ne'⟩
      rw [h4]
      field_simp
    · rintro t ⟨i, hi', h1, h2⟩
      have h3 : t / N ∈ y.map fun t => t / N := by
        rw [h1, ← hzv i hi', List.getD_eq_getElem _ _ (by omega)]
        exact List.getElem_mem _
      have h4 := hleast.2 ⟨h3, div_ne_zero h2 hN.ne'⟩
      rwa [le_div_iff₀ hN] at h4
  · simp only []
    field_simp
  · intro i hi' h0
    simp only []
    have h1 := hzv i hi'
    rw [List.getD_eq_getElem _ _ (by omega)] at h1
    rw [List.getD_append _ _ _ _ (by rw [hfl]; exact hi'), List.getD_eq_getElem _ _ (by rw [hfl]; exact hi')]
    unfold fill
    rw [List.getElem_map, h1, if_neg (div_ne_zero h0 hN.ne')]
  · intro i hi' h0
    simp only []
    have h1 := hzv i hi'
    rw [List.getD_eq_getElem _ _ (by omega), h0, zero_div] at h1
    rw [List.getD_append _ _ _ _ (by rw [hfl]; exact hi'), List.getD_eq_getElem _ _ (by rw [hfl]; exact hi')]
    unfold fill
    rw [List.getElem_map, h1, if_pos rfl]
  · simp only []
    rw [List.getD_append_right _ _ _ _ (by rw [hfl]), hfl]
    simp

example : ∃ F m, plotFofSizes 300 [1, 1, 8] 3 none "box" = .ok (some F) ∧ F.x.length = 4 ∧ F.z.length = 4 ∧
    0 < norm 300 [1, 1, 8] 1 8 3 none "box" ∧ (∀ i ≤ 3, F.x.getD i 0 = step 1 8 3 i) ∧
    IsLeast {t | ∃ i < 3, t = estimate [1, 1, 8] 1 8 3 i ∧ t ≠ 0} m ∧
    F.dummy = m / norm 300 [1, 1, 8] 1 8 3 none "box" / 10 ∧
    (∀ i < 3, estimate [1, 1, 8] 1 8 3 i ≠ 0 →
      F.z.getD i 0 = estimate [1, 1, 8] 1 8 3 i / norm 300 [1, 1, 8] 1 8 3 none "box") ∧
    (∀ i < 3, estimate [1, 1, 8] 1 8 3 i = 0 → F.z.getD i 0 = F.dummy) ∧ F.z.getD 3 0 = F.dummy :=
  C137_partial spans_witness.2.1 spans_witness.1 spans_witness.2.2 (by norm_num) _ (by norm_num) (by simp)

/-- **C137 is false**: with one bin all regions count as large as the smallest one. -/
theorem C137_false : ∃ F, plotFofSizes 1 [1, 999] 1 (some 10) "box" = .ok (some F) ∧
    F.z.getD 0 0 = 2 / 1000 ∧ F.z.sum < 3 / 1000 ∧ (([1, 999] : List ℝ).sum) / 10 ^ 3 = 1 := by
  classical
  have hsp : Spans [1, 999] 1 999 := by
    refine ⟨by simp, by simp, ?_⟩
    intro v hv
    simp only [List.mem_cons, List.not_mem_nil, or_false] at hv
    rcases hv with rfl | rfl <;> norm_num
  have hpos : ∀ v ∈ ([1, 999] : List ℝ), 0 < v := fun v hv => lt_of_lt_of_le one_pos (hsp.2.2 v hv).1
  have hin : ∀ v ∈ ([1, 999] : List ℝ), Inside 1 999 1 0 v := by
    intro v hv
    have h1 := step_last (lo := 1) (hi := 999) one_pos (n := 1) le_rfl
    refine ⟨by rw [step_zero]; exact (hsp.2.2 v hv).1, ?_⟩
    rcases ((hsp.2.2 v hv).2).eq_or_lt with h | h
    · exact Or.inr ⟨rfl, h⟩
    · exact Or.inl (by rw [zero_add, h1]; exact h)
  have hest : estimate [1, 999] 1 999 1 0 = 2 := by
    unfold estimate number
    rw [List.filter_eq_self.mpr fun v hv => decide_eq_true (hin v hv), step_zero]
    norm_num
  obtain ⟨F, m, h1, -, h2, -, -, h3, h4, h5, -, h6⟩ := C137_partial (LB := 1) hpos hsp (by norm_num) (n := 1) le_rfl
    (boxsize := some 10) "box" one_pos (by intro b hb; simp only [Option.some.injEq] at hb; rw [← hb]; norm_num)
  have hN : norm 1 [1, 999] 1 999 1 (some 10) "box" = 1000 := by
    unfold norm
    rw [if_neg (by simp)]
    norm_num
  have hm : m = 2 := by
    obtain ⟨i, hi, h7, -⟩ := h3.1
    rw [h7, show i = 0 by omega, hest]
  rw [hN] at h4 h5
  have h0 := h5 0 (by norm_num) (by rw [hest]; norm_num)
  rw [hest] at h0
  refine ⟨F, h1, h0, ?_, by norm_num⟩
  rw [sum_getD, h2, Finset.sum_range_succ, Finset.sum_range_one, h0, h6, h4, hm]
  norm_num

/-- **C137**, errors: ValueError exactly for no bins, for a size that is not positive, and for no sizes with a box of
positive size unless normalised to the regions. -/
theorem C137_raises (LB : ℝ) (sizes : List ℝ) (n : ℕ) (boxsize : Option ℝ) (normalize : String)
    (hLB : 0 < LB) (hbox : ∀ b, boxsize = some b → 0 < b) :
    plotFofSizes LB sizes n boxsize normalize = .error .value ↔
      (n = 0 ∨ (∃ v ∈ sizes, v ≤ 0) ∨ (sizes = [] ∧ normalize ≠ "ionized")) := by
  have h3 : boxsize.getD LB ≠ 0 := by
    cases boxsize with
    | none => exact hLB.ne'
    | some b => exact (hbox b rfl).ne'
  unfold plotFofSizes
  by_cases hr : Rejected sizes n
  · rw [if_pos hr]
    refine ⟨fun _ => ?_, fun _ => rfl⟩
    rcases hr with h | h
    · exact Or.inl h
    · exact Or.inr (Or.inl h)
  · rw [if_neg hr]
    have hr' : ¬ n = 0 ∧ ¬ ∃ v ∈ sizes, v ≤ 0 := ⟨fun h => hr (Or.inl h), fun h => hr (Or.inr h)⟩
    simp only []
    by_cases h1 : normalize = "ionized"
    · rw [if_pos h1]
      by_cases h2 : sizes = []
      · rw [if_pos h2]
        refine ⟨fun h => by simp at h, ?_⟩
        rintro (h | h | h)
        · exact absurd h hr'.1
        · exact absurd h hr'.2
        · exact absurd h1 h.2
      · rw [if_neg h2]
        refine ⟨fun h => by simp at h, ?_⟩
        rintro (h | h | h)
        · exact absurd h hr'.1
        · exact absurd h hr'.2
        · exact absurd h1 h.2
    · rw [if_neg h1, if_neg h3]
      by_cases h2 : sizes = []
      · rw [if_pos h2]
        exact ⟨fun _ => Or.inr (Or.inr ⟨h2, h1⟩), fun _ => rfl⟩
      · rw [if_neg h2]
        refine ⟨fun h => by simp at h, ?_⟩
        rintro (h | h | h)
        · exact absurd h hr'.1
        · exact absurd h hr'.2
        · exact absurd h.1 h2

example : plotFofSizes 300 [] 100 none "box" = .error .value :=
  (C137_raises 300 [] 100 none "box" (by norm_num) (by simp)).mpr (Or.inr (Or.inr ⟨rfl, by simp⟩))

end Verif.SizeDistribution
