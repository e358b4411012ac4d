import Verif.Model.Identify
import Mathlib.Tactic.Linarith
import Mathlib.Tactic.NormNum
import Mathlib.Tactic.FieldSimp
import Mathlib.Tactic.Ring
import Mathlib.Algebra.Order.BigOperators.Group.Finset
import Mathlib.Algebra.BigOperators.Fin
import Mathlib.Data.Fin.VecNotation
/-!
# Regions by k-means

C107: the regions that `bubbles_from_kmeans` marks.
-/

namespace Verif.Identify

variable {n k : ℕ}

/-! ## Specification -/

/-- The sum of the squared distances of the cells from the centres of their clusters. -/
noncomputable def inertia (x : Fin n → ℝ) (y : Fin n → Fin k) (c : Fin k → ℝ) : ℝ := ∑ i, (x i - c (y i)) ^ 2

/-- k-means has come to rest: no cell is nearer to the centre of another cluster, no cluster is empty and the centres
differ. -/
structure Settled (x : Fin n → ℝ) (y : Fin n → Fin k) (c : Fin k → ℝ) : Prop where
  nearest : ∀ i j, |x i - c (y i)| ≤ |x i - c j|
  nonempty : ∀ j, ∃ i, y i = j
  distinct : Function.Injective c

/-- k-means has found the best clusters. -/
def Optimal (x : Fin n → ℝ) (y : Fin n → Fin k) (c : Fin k → ℝ) : Prop :=
  ∀ (y' : Fin n → Fin k) (c' : Fin k → ℝ), inertia x y c ≤ inertia x y' c'

/-- The cluster of the lowest centre, or of the highest one. -/
def Extreme (c : Fin k → ℝ) (upper : Bool) (j : Fin k) : Prop := ∀ l, if upper then c j ≤ c l else c l ≤ c j

/-! ## Lemmas -/

theorem clusterMax_ok {x : Fin n → ℝ} {y : Fin n → Fin k} {c : Fin k} (h : ∃ i, y i = c) :
    ∃ m, clusterMax x y c = .ok m ∧ (∃ i, y i = c ∧ x i = m) ∧ ∀ i, y i = c → x i ≤ m := by
  classical
  obtain ⟨i, hi⟩ := h
  obtain ⟨m, hm⟩ := Finset.max_of_mem (s := (Finset.univ.filter fun i => y i = c).image x) (a := x i)
    (Finset.mem_image_of_mem _ (by simpa using hi))
  refine ⟨m, ?_, ?_, fun j hj => ?_⟩
  · unfold clusterMax
    convert (rfl : (match (m : WithBot ℝ) with
      | some m => Except.ok m
      | none => .error .value : Except Err ℝ) = .ok m) using 2
    rw [← hm]
    congr
  · obtain ⟨j, hj, e⟩ := Finset.mem_image.mp (Finset.mem_of_max hm)
    exact ⟨j, by simpa using hj, e⟩
  · exact Finset.le_max_of_eq (Finset.mem_image_of_mem _ (by simpa using hj)) hm

theorem extreme_iff {c : Fin k → ℝ} (hc : Function.Injective c) (upper : Bool) (j : Fin k) :
    argmin (if upper then c else fun j => -c j) j ↔ Extreme c upper j := by
  unfold argmin Extreme
  cases upper
  · simp only [Bool.false_eq_true, if_false]
    refine ⟨fun h l => by linarith [h.1 l], fun h => ⟨fun l => by linarith [h l], fun l hl => ?_⟩⟩
    exact lt_of_le_of_ne (by linarith [h l]) fun e => hl.ne (hc (neg_injective e)).symm
  · simp only [if_true]
    refine ⟨fun h => h.1, fun h => ⟨h, fun l hl => ?_⟩⟩
    exact lt_of_le_of_ne (h l) fun e => hl.ne (hc e).symm

/-- Nearest centres are ordered as the cells. -/
theorem order_of_nearest {a b x z : ℝ} (hab : a < b) (hx : |x - a| ≤ |x - b|) (hz : |z - b| ≤ |z - a|) : x ≤ z := by
  have h1 : (x - a) ^ 2 ≤ (x - b) ^ 2 := sq_le_sq.mpr hx
  have h2 : (z - b) ^ 2 ≤ (z - a) ^ 2 := sq_le_sq.mpr hz
  nlinarith

/-! ## C107 -/

/-- **C107 (part): three clusters.**  With at least three different values and any number of clusters but two, the
marked cells are those of the cluster with the lowest (`upper_lim`) or highest centre, and every cell with a lower
(higher) value than a marked one is marked as well. -/
theorem C107_three_partial (x : Fin n → ℝ) (y2 : Fin n → Fin 2) (y3 : Fin n → Fin 3) (c : Fin 3 → ℝ) (upper : Bool)
    (nClusters : ℕ) (hn : nClusters ≠ 2) (hd : ∃ i j l, x i ≠ x j ∧ x j ≠ x l ∧ x i ≠ x l) (h : Settled x y3 c) :
    ∃ marked, bubblesFromKmeans x y2 y3 c upper nClusters = .ok marked ∧
      (∀ i, marked i = true ↔ Extreme c upper (y3 i)) ∧
      ∀ i j, marked i = true → (if upper then x j < x i else x i < x j) → marked j = true := by
  classical
  have hcard : 3 ≤ (Finset.univ.image x).card := by
    obtain ⟨i, j, l, h1, h2, h3⟩ := hd
    rw [← Finset.card_eq_three.mpr ⟨x i, x j, x l, h1, h3, h2, rfl⟩]
    refine Finset.card_le_card fun z hz => ?_
    simp only [Finset.mem_insert, Finset.mem_singleton] at hz
    rcases hz with rfl | rfl | rfl <;> exact Finset.mem_image_of_mem _ (Finset.mem_univ _)
  have hm : ∀ i, threshold3 x y3 c upper i = true ↔ Extreme c upper (y3 i) := by
    intro i
    unfold threshold3
    rw [decide_eq_true_eq, extreme_iff h.distinct]
  refine ⟨threshold3 x y3 c upper, ?_, hm, fun i j hi hlt => ?_⟩
  · unfold bubblesFromKmeans
    simp only []
    have e : ∀ inst : DecidableEq ℝ, (@Finset.image _ _ inst x Finset.univ).card = (Finset.univ.image x).card := by
      intro inst; congr
    rw [e, if_neg (by omega : ¬ (Finset.univ.image x).card < 2), if_neg (by omega : ¬ (Finset.univ.image x).card = 2), if_neg hn]
  · rw [hm] at hi ⊢
    by_cases he : y3 i = y3 j
    · rw [← he]
      exact hi
    · exfalso
      have hne : c (y3 i) ≠ c (y3 j) := fun e => he (h.distinct e)
      have h1 := h.nearest i (y3 j)
      have h2 := h.nearest j (y3 i)
      have h3 := hi (y3 j)
      cases upper
      · simp only [Bool.false_eq_true, if_false] at h3 hlt
        exact absurd (order_of_nearest (lt_of_le_of_ne h3 hne.symm) h2 h1) (by linarith)
      · simp only [if_true] at h3 hlt
        exact absurd (order_of_nearest (lt_of_le_of_ne h3 hne) h1 h2) (by linarith)

example : (3 : ℕ) ≠ 2 ∧ Settled (fun i : Fin 3 => 10 * (i : ℝ)) id (fun j => 10 * (j : ℝ)) ∧
    ∃ i j l : Fin 3, (10 * (i : ℝ)) ≠ 10 * (j : ℝ) ∧ (10 * (j : ℝ)) ≠ 10 * (l : ℝ) ∧ (10 * (i : ℝ)) ≠ 10 * (l : ℝ) := by
  refine ⟨by norm_num, ⟨fun i j => ?_, fun j => ⟨j, rfl⟩, fun i j h => ?_⟩, 0, 1, 2, by norm_num, by norm_num, by norm_num⟩
  · simp
  · have h : (i : ℝ) = j := by
      have : 10 * (i : ℝ) = 10 * j := h
      linarith
    exact Fin.ext (by exact_mod_cast h)

/-- What two clusters give, in terms of the two maxima. -/
theorem two_eq (x : Fin n → ℝ) (y2 : Fin n → Fin 2) (y3 : Fin n → Fin 3) (c3 : Fin 3 → ℝ) (upper : Bool)
    (nClusters : ℕ) (hd : ∃ i j, x i ≠ x j)
    (hn : nClusters = 2 ∨ ∃ a b, ∀ i, x i = a ∨ x i = b) (hne : ∀ j, ∃ i, y2 i = j) :
    ∃ m : Fin 2 → ℝ, (∀ j, (∃ i, y2 i = j ∧ x i = m j) ∧ ∀ i, y2 i = j → x i ≤ m j) ∧
      ∃ marked, bubblesFromKmeans x y2 y3 c3 upper nClusters = .ok marked ∧
        ∀ i, marked i = true ↔ if upper then x i ≤ (m 0 + m 1) / 2 else (m 0 + m 1) / 2 < x i := by
  classical
  obtain ⟨m0, e0, h0⟩ := clusterMax_ok (x := x) (hne 0)
  obtain ⟨m1, e1, h1⟩ := clusterMax_ok (x := x) (hne 1)
  have hcard : ¬ (Finset.univ.image x).card < 2 := by
    obtain ⟨i, j, h⟩ := hd
    have := Finset.one_lt_card.mpr ⟨x i, Finset.mem_image_of_mem x (Finset.mem_univ i), x j,
      Finset.mem_image_of_mem x (Finset.mem_univ j), h⟩
    omega
  have hn2 : (if (Finset.univ.image x).card = 2 then 2 else nClusters) = 2 := by
    split
    · rfl
    · next h =>
      rcases hn with hn | ⟨a, b, hab⟩
      · exact hn
      · exfalso
        have : (Finset.univ.image x) ⊆ {a, b} := by
          intro z hz
          obtain ⟨i, _, rfl⟩ := Finset.mem_image.mp hz
          simpa using hab i
        have := (Finset.card_le_card this).trans Finset.card_le_two
        omega
  refine ⟨![m0, m1], fun j => ?_, fun i => if upper then decide (x i ≤ m0 / 2 + m1 / 2) else decide (x i > m0 / 2 + m1 / 2),
    ?_, fun i => ?_⟩
  · match j with
    | 0 => exact h0
    | 1 => exact h1
  · unfold bubblesFromKmeans
    simp only []
    have e : ∀ inst : DecidableEq ℝ, (@Finset.image _ _ inst x Finset.univ).card = (Finset.univ.image x).card := by
      intro inst; congr
    rw [e, if_neg hcard, if_pos hn2]
    unfold thresholdKmeans
    rw [e0]
    simp only []
    rw [e1]
  · have : m0 / 2 + m1 / 2 = (m0 + m1) / 2 := by ring
    have e : ((![m0, m1] : Fin 2 → ℝ) 0 + (![m0, m1] : Fin 2 → ℝ) 1) / 2 = m0 / 2 + m1 / 2 := by rw [this]; rfl
    rw [e]
    cases upper <;> simp

/-- **C107 (part): two clusters.**  The cells of the lower cluster are all marked with `upper_lim` and none of them
without; a cell with a lower (higher) value than a marked one is marked as well. -/
theorem C107_two_partial (x : Fin n → ℝ) (y2 : Fin n → Fin 2) (y3 : Fin n → Fin 3) (c : Fin 2 → ℝ) (c3 : Fin 3 → ℝ)
    (upper : Bool) (hd : ∃ i j, x i ≠ x j) (h : Settled x y2 c) :
    ∃ marked, bubblesFromKmeans x y2 y3 c3 upper 2 = .ok marked ∧
      (∀ i, Extreme c true (y2 i) → marked i = upper) ∧
      ∀ i j, marked i = true → (if upper then x j < x i else x i < x j) → marked j = true := by
  obtain ⟨m, hm, marked, e, hmk⟩ := two_eq x y2 y3 c3 upper 2 hd (.inl rfl) h.nonempty
  refine ⟨marked, e, fun i hi => ?_, fun i j hi hlt => ?_⟩
  · have hle : x i ≤ (m 0 + m 1) / 2 := by
      have key : ∀ a b : Fin 2, a ≠ b → y2 i = a → x i ≤ (m a + m b) / 2 := by
        intro a b hab ha
        obtain ⟨j, hj, ej⟩ := (hm b).1
        have h1 := h.nearest i (y2 j)
        have h2 := h.nearest j (y2 i)
        have hlt : c (y2 i) < c (y2 j) := lt_of_le_of_ne (by simpa [Extreme] using hi (y2 j))
          fun e => hab (by rw [← ha, ← hj]; exact h.distinct e)
        have := order_of_nearest hlt h1 h2
        have := (hm a).2 i ha
        linarith
      match hy : y2 i with
      | 0 => exact key 0 1 (by decide) hy
      | 1 =>
        have := key 1 0 (by decide) hy
        linarith
    have := hmk i
    cases upper
    · simp only [Bool.false_eq_true, if_false] at this
      rw [← Bool.not_eq_true, this]
      linarith
    · simp only [if_true] at this
      exact this.mpr hle
  · rw [hmk] at hi ⊢
    cases upper
    · simp only [Bool.false_eq_true, if_false] at hi hlt ⊢
      linarith
    · simp only [if_true] at hi hlt ⊢
      linarith

example : (∃ i j : Fin 2, (10 * (i : ℝ)) ≠ 10 * (j : ℝ)) ∧
    Settled (fun i : Fin 2 => 10 * (i : ℝ)) id (fun j => 10 * (j : ℝ)) := by
  refine ⟨⟨0, 1, by norm_num⟩, ⟨fun i j => ?_, fun j => ⟨j, rfl⟩, fun i j h => ?_⟩⟩
  · simp
  · have h : (i : ℝ) = j := by
      have : 10 * (i : ℝ) = 10 * j := h
      linarith
    exact Fin.ext (by exact_mod_cast h)

/-- **C107 (part): two values.**  In data with two values the cells with the lower value are marked (`upper_lim`), or
those with the higher one, whatever the number of clusters asked for. -/
theorem C107_values_partial (x : Fin n → ℝ) (y2 : Fin n → Fin 2) (y3 : Fin n → Fin 3) (c : Fin 2 → ℝ) (c3 : Fin 3 → ℝ)
    (upper : Bool) (nClusters : ℕ) {a b : ℝ} (hab : a < b) (hx : ∀ i, x i = a ∨ x i = b) (ha : ∃ i, x i = a)
    (hb : ∃ i, x i = b) (h : Optimal x y2 c) :
    ∃ marked, bubblesFromKmeans x y2 y3 c3 upper nClusters = .ok marked ∧
      ∀ i, marked i = true ↔ x i = if upper then a else b := by
  classical
  obtain ⟨ia, ha⟩ := ha
  obtain ⟨ib, hb⟩ := hb
  have hz : inertia x y2 c ≤ 0 := by
    refine (h (fun i => if x i = a then 0 else 1) ![a, b]).trans (le_of_eq ?_)
    unfold inertia
    refine Finset.sum_eq_zero fun i _ => ?_
    simp only []
    rcases hx i with e | e
    · rw [if_pos e, e]
      simp
    · rw [if_neg (by rw [e]; exact hab.ne'), e]
      simp
  have hc : ∀ i, x i = c (y2 i) := by
    intro i
    have h0 : inertia x y2 c = 0 := le_antisymm hz (Finset.sum_nonneg fun i _ => sq_nonneg _)
    have := (Finset.sum_eq_zero_iff_of_nonneg fun i _ => sq_nonneg _).mp h0 i (Finset.mem_univ i)
    have := pow_eq_zero_iff (two_ne_zero) |>.mp this
    linarith
  have hy : y2 ia ≠ y2 ib := fun e => hab.ne (by rw [← ha, ← hb, hc ia, hc ib, e])
  have hne : ∀ j, ∃ i, y2 i = j := by
    intro j
    by_cases e : y2 ia = j
    · exact ⟨ia, e⟩
    · exact ⟨ib, by omega⟩
  obtain ⟨m, hm, marked, e, hmk⟩ := two_eq x y2 y3 c3 upper nClusters ⟨ia, ib, by rw [ha, hb]; exact hab.ne⟩
    (.inr ⟨a, b, hx⟩) hne
  have hmc : ∀ j, m j = c j := by
    intro j
    obtain ⟨i, hi, ei⟩ := (hm j).1
    rw [← ei, hc i, hi]
  have hsum : m 0 + m 1 = a + b := by
    have : ∀ p q : Fin 2, p ≠ q → y2 ia = p → y2 ib = q → m p + m q = a + b := by
      intro p q _ hp hq
      rw [hmc, hmc, ← hp, ← hq, ← hc, ← hc, ha, hb]
    match hp : y2 ia, hq : y2 ib with
    | 0, 0 => exact absurd (hp.trans hq.symm) hy
    | 1, 1 => exact absurd (hp.trans hq.symm) hy
    | 0, 1 => exact this 0 1 (by decide) hp hq
    | 1, 0 =>
      rw [add_comm]
      exact this 1 0 (by decide) hp hq
  refine ⟨marked, e, fun i => ?_⟩
  rw [hmk, hsum]
  cases upper
  · simp only [Bool.false_eq_true, if_false]
    rcases hx i with e | e <;> rw [e]
    · exact ⟨fun h => by linarith, fun h => by linarith⟩
    · exact ⟨fun _ => rfl, fun _ => by linarith⟩
  · simp only [if_true]
    rcases hx i with e | e <;> rw [e]
    · exact ⟨fun _ => rfl, fun _ => by linarith⟩
    · exact ⟨fun h => by linarith, fun h => by linarith⟩

example : (2 : ℝ) < 5 ∧ (∀ i : Fin 3, (![2, 5, 5] : Fin 3 → ℝ) i = 2 ∨ (![2, 5, 5] : Fin 3 → ℝ) i = 5) ∧
    Optimal (![2, 5, 5] : Fin 3 → ℝ) ![0, 1, 1] ![2, 5] := by
  refine ⟨by norm_num, fun i => ?_, fun y' c' => ?_⟩
  · match i with
    | 0 => exact .inl rfl
    | 1 => exact .inr rfl
    | 2 => exact .inr rfl
  · refine le_trans (le_of_eq ?_) (Finset.sum_nonneg fun i _ => sq_nonneg _)
    refine Finset.sum_eq_zero fun i _ => ?_
    match i with
    | 0 => change ((2 : ℝ) - 2) ^ 2 = 0; norm_num
    | 1 => change ((5 : ℝ) - 5) ^ 2 = 0; norm_num
    | 2 => change ((5 : ℝ) - 5) ^ 2 = 0; norm_num

/-- Data with a single value are one region. -/
theorem C107_single (x : Fin n → ℝ) (y2 : Fin n → Fin 2) (y3 : Fin n → Fin 3) (c3 : Fin 3 → ℝ) (upper : Bool)
    (nClusters : ℕ) (h : ∀ i j, x i = x j) :
    bubblesFromKmeans x y2 y3 c3 upper nClusters = .ok fun _ => true := by
  classical
  have : (Finset.univ.image x).card < 2 := by
    have : (Finset.univ.image x).card ≤ 1 := Finset.card_le_one.mpr fun a ha b hb => by
      obtain ⟨i, _, rfl⟩ := Finset.mem_image.mp ha
      obtain ⟨j, _, rfl⟩ := Finset.mem_image.mp hb
      exact h i j
    omega
  unfold bubblesFromKmeans
  simp only []
  have e : ∀ inst : DecidableEq ℝ, (@Finset.image _ _ inst x Finset.univ).card = (Finset.univ.image x).card := by
    intro inst; congr
  rw [e, if_pos this]

example : ∀ i j : Fin 5, (fun _ => (3 : ℝ)) i = (fun _ : Fin 5 => (3 : ℝ)) j := fun _ _ => rfl

/-! ### Where it fails -/

/-- Ten cells with 0, one with 6 and one with 14. -/
noncomputable def skewed (i : Fin 12) : ℝ := if i = 10 then 6 else if i = 11 then 14 else 0

/-- The clusters of the zeros and of the others. -/
def parts (i : Fin 12) : Fin 2 := if i = 10 ∨ i = 11 then 1 else 0

/-- **C107 is false** for two clusters: the threshold is the mean of the largest values of the two clusters, which can
lie within the upper one.  The best clusters are the zeros, and the cells with 6 and 14; but the cell with 6 is marked as
a cell of the lower cluster. -/
theorem C107_false (y3 : Fin 12 → Fin 3) (c3 : Fin 3 → ℝ) :
    Optimal skewed parts ![0, 10] ∧ Settled skewed parts ![0, 10] ∧
    ∃ marked, bubblesFromKmeans skewed parts y3 c3 true 2 = .ok marked ∧ marked 10 = true ∧
      ¬ Extreme (![0, 10] : Fin 2 → ℝ) true (parts 10) := by
  have x10 : skewed 10 = 6 := by unfold skewed; rw [if_pos rfl]
  have x11 : skewed 11 = 14 := by unfold skewed; rw [if_neg (by decide), if_pos rfl]
  have x0 : ∀ i : Fin 12, i ≠ 10 → i ≠ 11 → skewed i = 0 := by
    intro i h1 h2
    unfold skewed
    rw [if_neg h1, if_neg h2]
  have p10 : parts 10 = 1 := by decide
  have p11 : parts 11 = 1 := by decide
  have p0 : ∀ i : Fin 12, i ≠ 10 → i ≠ 11 → parts i = 0 := by decide
  have c0 : (![0, 10] : Fin 2 → ℝ) 0 = 0 := rfl
  have c1 : (![0, 10] : Fin 2 → ℝ) 1 = 10 := rfl
  have split : ∀ f : Fin 12 → ℝ, ∑ i, f i = (∑ i ∈ Finset.univ.filter (fun i : Fin 12 => i ≠ 10 ∧ i ≠ 11), f i) + f 10 + f 11 := by
    intro f
    rw [← Finset.sum_filter_add_sum_filter_not Finset.univ (fun i : Fin 12 => i ≠ 10 ∧ i ≠ 11), add_assoc]
    congr 1
    rw [show (Finset.univ.filter fun i : Fin 12 => ¬ (i ≠ 10 ∧ i ≠ 11)) = {10, 11} from by decide]
    exact Finset.sum_pair (by decide)
  have hopt : inertia skewed parts ![0, 10] = 32 := by
    unfold inertia
    rw [split, x10, x11, p10, p11, c1, Finset.sum_eq_zero]
    · norm_num
    · intro i hi
      have hi := (Finset.mem_filter.mp hi).2
      rw [x0 i hi.1 hi.2, p0 i hi.1 hi.2, c0]
      norm_num
  refine ⟨fun y' c' => ?_, ⟨fun i j => ?_, fun j => ?_, ?_⟩, ?_⟩
  · rw [hopt]
    unfold inertia
    rw [split, x10, x11]
    have hnn : ∀ t : Finset (Fin 12), 0 ≤ ∑ i ∈ t, (skewed i - c' (y' i)) ^ 2 :=
      fun t => Finset.sum_nonneg fun i _ => sq_nonneg _
    by_cases e : y' 10 = y' 11
    · rw [e]
      have := hnn (Finset.univ.filter fun i : Fin 12 => i ≠ 10 ∧ i ≠ 11)
      nlinarith [sq_nonneg (c' (y' 11) - 10)]
    · by_cases hz : ∃ i : Fin 12, (i ≠ 10 ∧ i ≠ 11) ∧ y' i = y' 11
      · obtain ⟨i, hi, ey⟩ := hz
        have hle := Finset.single_le_sum (s := Finset.univ.filter fun i : Fin 12 => i ≠ 10 ∧ i ≠ 11)
          (f := fun i => (skewed i - c' (y' i)) ^ 2) (fun i _ => sq_nonneg _) (Finset.mem_filter.mpr ⟨Finset.mem_univ i, hi⟩)
        simp only [x0 i hi.1 hi.2, ey] at hle
        nlinarith [sq_nonneg (c' (y' 11) - 7), sq_nonneg (6 - c' (y' 10))]
      · have hs : ∀ i ∈ Finset.univ.filter (fun i : Fin 12 => i ≠ 10 ∧ i ≠ 11),
            (skewed i - c' (y' i)) ^ 2 = c' (y' 10) ^ 2 := by
          intro i hi
          have hi := (Finset.mem_filter.mp hi).2
          have : y' i = y' 10 := by
            have : y' i ≠ y' 11 := fun h => hz ⟨i, hi, h⟩
            omega
          rw [x0 i hi.1 hi.2, this]
          ring
        rw [Finset.sum_congr rfl hs, Finset.sum_const,
          show (Finset.univ.filter fun i : Fin 12 => i ≠ 10 ∧ i ≠ 11).card = 10 from by decide, nsmul_eq_mul]
        push_cast
        nlinarith [sq_nonneg (11 * c' (y' 10) - 6), sq_nonneg (14 - c' (y' 11))]
  · by_cases h1 : i = 10
    · subst h1
      rw [x10, p10, c1]
      match j with
      | 0 => rw [c0]; norm_num [abs_of_nonneg, abs_of_nonpos]
      | 1 => rw [c1]
    · by_cases h2 : i = 11
      · subst h2
        rw [x11, p11, c1]
        match j with
        | 0 => rw [c0]; norm_num [abs_of_nonneg, abs_of_nonpos]
        | 1 => rw [c1]
      · rw [x0 i h1 h2, p0 i h1 h2, c0]
        norm_num
  · match j with
    | 0 => exact ⟨0, by decide⟩
    | 1 => exact ⟨10, by decide⟩
  · intro i j
    match i, j with
    | 0, 0 => exact fun _ => rfl
    | 1, 1 => exact fun _ => rfl
    | 0, 1 => rw [c0, c1]; intro h; norm_num at h
    | 1, 0 => rw [c0, c1]; intro h; norm_num at h
  · obtain ⟨m, hm, marked, e, hmk⟩ := two_eq skewed parts y3 c3 true 2
      ⟨10, 11, by rw [x10, x11]; norm_num⟩ (.inl rfl) (fun j => match j with
        | 0 => ⟨0, by decide⟩
        | 1 => ⟨10, by decide⟩)
    refine ⟨marked, e, ?_, fun h => ?_⟩
    · have h0 := (hm 0).2 0 (by decide)
      have h1 := (hm 1).2 11 p11
      rw [x0 0 (by decide) (by decide)] at h0
      rw [x11] at h1
      rw [hmk, x10]
      simp only [if_true]
      linarith
    · have := h 0
      rw [p10] at this
      simp only [if_true] at this
      rw [c0, c1] at this
      norm_num at this

end Verif.Identify
