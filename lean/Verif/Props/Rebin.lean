import Verif.Model.Rebin
import Verif.Props.PowerSpectrum
import Mathlib.Tactic.Linarith
/-!
# Rebinning of size distributions (C172)
-/

namespace Verif.Rebin
open Verif.PowerSpectrum

/-! ## Specification -/

/-- `lo` and `hi` are the smallest and the largest of the sizes. -/
def Extent (rr : List ℝ) (lo hi : ℝ) : Prop := lo ∈ rr ∧ hi ∈ rr ∧ ∀ v ∈ rr, lo ≤ v ∧ v ≤ hi

/-- The `i`-th of `n` sizes from `a` to `b` with a constant ratio. -/
noncomputable def size (a b : ℝ) (n i : ℕ) : ℝ := a * (b / a) ^ ((i : ℝ) / ((n : ℝ) - 1))

/-! ## Proofs -/

theorem extent_min {rr : List ℝ} {lo hi : ℝ} (h : Extent rr lo hi) : rr.min?.getD 0 = lo := by
  rw [List.min?_eq_some_iff.mpr ⟨h.1, fun v hv => (h.2.2 v hv).1⟩]
  rfl

theorem extent_max {rr : List ℝ} {lo hi : ℝ} (h : Extent rr lo hi) : rr.max?.getD 0 = hi := by
  rw [List.max?_eq_some_iff.mpr ⟨h.2.1, fun v hv => (h.2.2 v hv).2⟩]
  rfl

theorem points_eq {a b : ℝ} (ha : 0 < a) (hb : 0 < b) {n : ℕ} (hn : 2 ≤ n) :
    points a b n = (List.range n).map fun i => some (size a b n i) := by
  unfold points
  rw [if_neg (not_le.2 hb), if_neg (not_le.2 ha), if_neg (by omega)]
  have hl : (logspace a b (n - 1)).length = n := by
    unfold logspace
    rw [List.length_map, linspace_length]
    omega
  rw [List.take_of_length_le hl.le]
  unfold logspace linspace
  rw [show n - 1 + 1 = n by omega, List.map_map, List.map_map]
  refine List.map_congr_left fun i _ => ?_
  simp only [Function.comp_apply, Option.some.injEq]
  unfold size
  rw [Real.rpow_add (by norm_num), Real.rpow_logb (by norm_num) (by norm_num) ha]
  congr 1
  rw [← Real.logb_div hb.ne' ha.ne', Nat.cast_sub (by omega), mul_div_assoc', mul_comm, mul_div_assoc, Real.rpow_mul (by norm_num),
    Real.rpow_logb (by norm_num) (by norm_num) (div_pos hb ha)]
  simp

/-- The sizes lie between the limits. -/
theorem size_between {a b : ℝ} (ha : 0 < a) (hab : a ≤ b) {n i : ℕ} (hn : 2 ≤ n) (hi : i < n) : a ≤ size a b n i ∧ size a b n i ≤ b := by
  have h1 : 1 ≤ b / a := (one_le_div ha).2 hab
  have hn' : (0 : ℝ) < (n : ℝ) - 1 := by
    have : (2 : ℝ) ≤ n := by exact_mod_cast hn
    linarith
  have hi' : (i : ℝ) ≤ (n : ℝ) - 1 := by
    have : ((i + 1 : ℕ) : ℝ) ≤ n := by exact_mod_cast hi
    push_cast at this
    linarith
  unfold size
  constructor
  · have : 1 ≤ (b / a) ^ ((i : ℝ) / ((n : ℝ) - 1)) := Real.one_le_rpow h1 (div_nonneg (Nat.cast_nonneg _) hn'.le)
    nlinarith
  · have h2 : (b / a) ^ ((i : ℝ) / ((n : ℝ) - 1)) ≤ (b / a) ^ (1 : ℝ) := Real.rpow_le_rpow_of_exponent_le h1 ((div_le_one hn').2 hi')
    rw [Real.rpow_one] at h2
    have : a * (b / a) = b := by field_simp
    nlinarith

theorem size_ends {a b : ℝ} (ha : 0 < a) {n : ℕ} (hn : 2 ≤ n) : size a b n 0 = a ∧ size a b n (n - 1) = b := by
  have hn' : (n : ℝ) - 1 ≠ 0 := by
    have : (2 : ℝ) ≤ n := by exact_mod_cast hn
    linarith
  unfold size
  refine ⟨by simp, ?_⟩
  rw [Nat.cast_sub (by omega), Nat.cast_one, div_self hn', Real.rpow_one]
  field_simp

theorem rebin_ok (f : ℝ → ℝ) {rr : List ℝ} {lo hi a b : ℝ} (h : Extent rr lo hi) (ha : 0 < a) (hb : 0 < b) {n : ℕ} (hn : 2 ≤ n)
    (hr : ∀ i < n, lo ≤ size a b n i ∧ size a b n i ≤ hi) :
    evaluate f rr (points a b n) = .ok ((List.range n).map fun i => some (f (size a b n i))) := by
  classical
  unfold evaluate
  rw [extent_min h, extent_max h, points_eq ha hb hn, if_neg]
  · rw [List.map_map]
    rfl
  · rintro ⟨v, hv, hv'⟩
    obtain ⟨i, hi', hv⟩ := List.mem_map.1 hv
    cases hv
    have := hr i (List.mem_range.1 hi')
    rcases hv' with h | h <;> linarith

/-- **C172** (partial): between given limits inside the range of the sizes, the curve at `n` sizes from the lower to the upper limit with a
constant ratio.  Missing: limits that are not given, see `C172_false`. -/
theorem C172_partial (f : ℝ → ℝ) {rr : List ℝ} {lo hi a b : ℝ} (h : Extent rr lo hi) (ha : 0 < a) (hla : lo ≤ a) (hab : a ≤ b) (hbh : b ≤ hi)
    {n : ℕ} (hn : 2 ≤ n) : ∃ s : List ℝ, s.length = n ∧ s[0]? = some a ∧ s[n - 1]? = some b ∧ (∀ i : ℕ, i < n → s[i]? = some (size a b n i)) ∧
      rebin f rr (.number n) (some a) (some b) = .ok (s.map some, s.map fun v => some (f v)) := by
  refine ⟨(List.range n).map fun i => size a b n i, by simp, ?_, ?_, ?_, ?_⟩
  · rw [List.getElem?_map, List.getElem?_range (by omega)]
    simp only [Option.map_some, (size_ends (b := b) ha hn).1]
  · rw [List.getElem?_map, List.getElem?_range (by omega)]
    simp only [Option.map_some, (size_ends (b := b) ha hn).2]
  · intro i hi'
    rw [List.getElem?_map, List.getElem?_range hi']
    rfl
  · have hb : 0 < b := lt_of_lt_of_le ha hab
    unfold rebin
    dsimp only [Option.getD_some]
    rw [rebin_ok f h ha hb hn fun i hi' => ?_, points_eq ha hb hn, List.map_map, List.map_map]
    · rfl
    · have := size_between ha hab hn hi'
      exact ⟨hla.trans this.1, this.2.trans hbh⟩

/-- **C172** (partial): at given sizes, none or at least two, the curve at these sizes; outside of the range an exception. -/
theorem C172_sizes (f : ℝ → ℝ) {rr : List ℝ} {lo hi : ℝ} (h : Extent rr lo hi) (l : List ℝ) (hl : l.length ≠ 1) (a b : Option ℝ) :
    ((∀ v ∈ l, lo ≤ v ∧ v ≤ hi) → rebin f rr (.sizes l) a b = .ok (l.map some, l.map fun v => some (f v))) ∧
    ((∃ v ∈ l, v < lo ∨ hi < v) → rebin f rr (.sizes l) a b = .error .value) := by
  classical
  have hu : rebin f rr (.sizes l) a b = (evaluate f rr (l.map some)).map fun p => (l.map some, p) := by
    match l, hl with
    | [], _ => rfl
    | _ :: _ :: _, _ => rfl
  rw [hu]
  unfold evaluate
  rw [extent_min h, extent_max h]
  constructor
  · intro hv
    rw [if_neg, List.map_map]
    · rfl
    · rintro ⟨v, hm, hv'⟩
      have := hv v (by simpa using hm)
      rcases hv' with h | h <;> linarith
  · rintro ⟨v, hm, hv⟩
    rw [if_pos ⟨v, by simpa using hm, hv⟩]
    rfl

/-- A list of one size is not accepted. -/
theorem C172_single_false (f : ℝ → ℝ) (rr : List ℝ) (v : ℝ) (a b : Option ℝ) : rebin f rr (.sizes [v]) a b = .error .type := rfl

/-- Without limits the sizes go from the smallest plus 1 to the largest minus 10, whatever the unit: the ends of the distribution are cut. -/
theorem C172_false (f : ℝ → ℝ) {rr : List ℝ} {lo hi : ℝ} (h : Extent rr lo hi) (h0 : 0 ≤ lo) (hh : lo + 1 ≤ hi - 10) {n : ℕ} (hn : 2 ≤ n) :
    ∃ s : List ℝ, rebin f rr (.number n) none none = .ok (s.map some, s.map fun v => some (f v)) ∧ s[0]? = some (lo + 1) ∧ s[n - 1]? = some (hi - 10) := by
  obtain ⟨s, -, h1, h2, -, h3⟩ := C172_partial f h (a := lo + 1) (b := hi - 10) (by linarith) (by linarith) hh (by linarith) hn
  refine ⟨s, ?_, h1, h2⟩
  rw [← h3]
  unfold rebin
  dsimp only [Option.getD_some, Option.getD_none]
  rw [extent_min h, extent_max h]

/-- Without limits sizes up to less than 10 give no numbers at all. -/
theorem C172_nan (f : ℝ → ℝ) {rr : List ℝ} {lo hi : ℝ} (h : Extent rr lo hi) (hh : hi < 10) (n : ℕ) (a : Option ℝ) :
    rebin f rr (.number n) a none = .ok (List.replicate n none, List.replicate n none) := by
  classical
  unfold rebin
  dsimp only [Option.getD_none]
  rw [extent_max h]
  unfold points evaluate
  rw [if_pos (by linarith), if_neg]
  · simp [Except.map]
  · rintro ⟨v, hv, -⟩
    have := List.eq_of_mem_replicate hv
    cases this

/-- Without an upper limit sizes that span less than 10 raise an exception. -/
theorem C172_raises (f : ℝ → ℝ) {rr : List ℝ} {lo hi : ℝ} (h : Extent rr lo hi) (h0 : 0 ≤ lo) (h10 : 10 < hi) (hh : hi - 10 < lo)
    {n : ℕ} (hn : 2 ≤ n) : rebin f rr (.number n) none none = .error .value := by
  classical
  unfold rebin
  dsimp only [Option.getD_none]
  rw [extent_min h, extent_max h]
  unfold evaluate
  rw [extent_min h, extent_max h, if_pos]
  · rfl
  · refine ⟨hi - 10, ?_, Or.inl hh⟩
    rw [points_eq (by linarith) (by linarith) hn, List.mem_map]
    refine ⟨n - 1, List.mem_range.2 (by omega), ?_⟩
    rw [(size_ends (by linarith) hn).2]

example : Extent [0, 5, 20, 40] 0 40 := by
  refine ⟨by simp, by simp, ?_⟩
  intro v hv
  simp at hv
  rcases hv with rfl | rfl | rfl | rfl <;> norm_num

example : Extent [12, 14, 16, 18] 12 18 ∧ (10 : ℝ) < 18 ∧ (18 : ℝ) - 10 < 12 := by
  refine ⟨⟨by simp, by simp, ?_⟩, by norm_num, by norm_num⟩
  intro v hv
  simp at hv
  rcases hv with rfl | rfl | rfl | rfl <;> norm_num

end Verif.Rebin
