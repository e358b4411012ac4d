import Verif.Model.Morphology
import Verif.Lemmas.Convolve
import Mathlib.Tactic.Ring
import Mathlib.Tactic.Linarith
import Mathlib.Tactic.NormNum
import Mathlib.Tactic.FieldSimp
import Mathlib.Tactic.Abel
import Mathlib.Tactic.Positivity
import Mathlib.Tactic.IntervalCases
import Mathlib.Algebra.Order.BigOperators.Ring.Finset
import Mathlib.Algebra.BigOperators.Fin
/-!
# Opening and granulometry: C39, C40, C72-C74
-/

namespace Verif.Morphology

open Verif.Convolve

variable {ι : Type} [Fintype ι] [DecidableEq ι]

/-! ## Specification -/

/-- The image has the values 0 and 1. -/
def Binary (a : Arr ι ℚ) : Prop := ∀ x ∈ box a.shape, a.val x = 0 ∨ a.val x = 1

/-- The cell `x` of the image is set. -/
def On (a : Arr ι ℚ) (x : ι → ℤ) : Prop := x ∈ box a.shape ∧ a.val x = 1

/-- The structuring element has a centre cell and is symmetric about it. -/
def Symmetric (b : Arr ι ℚ) (c : ι → ℤ) : Prop := (∀ i, (b.shape i : ℤ) = 2 * c i + 1) ∧ ∀ j, On b j → On b (c + c - j)

/-- The structuring element, with its centre cell `c` put at `z`, lies inside the image. -/
def Inside (a b : Arr ι ℚ) (c z : ι → ℤ) : Prop := ∀ j, On b j → On a (z + j - c)

/-! ## The convolution as a counting of cells -/

lemma sum_gt_half (s : Finset (ι → ℤ)) (f g : (ι → ℤ) → ℚ) (hf : ∀ y ∈ s, f y = 0 ∨ f y = 1)
    (hg : ∀ y ∈ s, g y = 0 ∨ g y = 1) : ∑ y ∈ s, f y * g y > 1 / 2 ↔ ∃ y ∈ s, f y = 1 ∧ g y = 1 := by
  have hn : ∀ y ∈ s, 0 ≤ f y * g y := by
    intro y hy
    rcases hf y hy with h | h <;> rcases hg y hy with h' | h' <;> simp [h, h']
  constructor
  · intro h
    by_contra hc
    have : ∑ y ∈ s, f y * g y = 0 := Finset.sum_eq_zero fun y hy => by
      rcases hf y hy with h | h <;> rcases hg y hy with h' | h' <;> simp [h, h']
      exact hc ⟨y, hy, h, h'⟩
    rw [this] at h
    norm_num at h
  · rintro ⟨y, hy, h1, h2⟩
    have := Finset.single_le_sum hn hy
    rw [h1, h2] at this
    linarith

lemma sum_gt_card (s : Finset (ι → ℤ)) (f g : (ι → ℤ) → ℚ) (hf : ∀ y ∈ s, f y = 0 ∨ f y = 1)
    (hg : ∀ y ∈ s, g y = 0 ∨ g y = 1) :
    ∑ y ∈ s, f y * g y > ((s.filter fun y => f y ≠ 0).card : ℚ) - 1 / 2 ↔ ∀ y ∈ s, f y = 1 → g y = 1 := by
  have hc : ((s.filter fun y => f y ≠ 0).card : ℚ) = ∑ y ∈ s, f y := by
    rw [Finset.card_eq_sum_ones, Finset.sum_filter]
    push_cast
    refine Finset.sum_congr rfl fun y hy => ?_
    rcases hf y hy with h | h <;> simp [h]
  have key : ∑ y ∈ s, f y - ∑ y ∈ s, f y * g y = ∑ y ∈ s, f y * (1 - g y) := by
    rw [← Finset.sum_sub_distrib]
    exact Finset.sum_congr rfl fun y _ => by ring
  have h2 := sum_gt_half s f (fun y => 1 - g y) hf (fun y hy => by rcases hg y hy with h | h <;> simp [h])
  have hn : ∀ y ∈ s, 0 ≤ f y * (1 - g y) := by
    intro y hy
    rcases hf y hy with h | h <;> rcases hg y hy with h' | h' <;> simp [h, h']
  rw [hc]
  constructor
  · intro h y hy hy1
    rcases hg y hy with h' | h'
    · have := h2.2 ⟨y, hy, hy1, by simp [h']⟩
      linarith
    · exact h'
  · intro h
    have : ∑ y ∈ s, f y * (1 - g y) = 0 := Finset.sum_eq_zero fun y hy => by
      rcases hf y hy with h1 | h1
      · simp [h1]
      · simp [h y hy h1]
    linarith

lemma ext_binary {a : Arr ι ℚ} (ha : Binary a) (x : ι → ℤ) : a.ext x = 0 ∨ a.ext x = 1 := by
  unfold Arr.ext
  split
  · exact ha x ‹_›
  · exact .inl rfl

lemma ext_eq_one {a : Arr ι ℚ} (x : ι → ℤ) : a.ext x = 1 ↔ On a x := by
  unfold Arr.ext On
  split
  · simp [*]
  · simp [*]

lemma binary_ofMask (s : ι → ℕ) (p : (ι → ℤ) → Bool) : Binary (ofMask s p) := by
  intro x _
  simp only [ofMask]
  split <;> simp

lemma binary_erosion (a b : Arr ι ℚ) : Binary (erosion a b) := binary_ofMask _ _

lemma binary_dilation (a b : Arr ι ℚ) : Binary (dilation a b) := binary_ofMask _ _

lemma on_ofMask (s : ι → ℕ) (p : (ι → ℤ) → Bool) (x : ι → ℤ) : On (ofMask s p) x ↔ x ∈ box s ∧ p x = true := by
  simp [On, ofMask]

lemma on_dilation {a b : Arr ι ℚ} (ha : Binary a) (hb : Binary b) (x : ι → ℤ) :
    On (dilation a b) x ↔ x ∈ box a.shape ∧ ∃ j, On b j ∧ On a (x + centre b - j) := by
  rw [dilation, on_ofMask, decide_eq_true_iff, same, sum_gt_half _ _ _ hb fun y _ => ext_binary ha _]
  simp only [ext_eq_one, On, and_assoc]

lemma on_erosion {a b : Arr ι ℚ} (ha : Binary a) (hb : Binary b) (x : ι → ℤ) :
    On (erosion a b) x ↔ x ∈ box a.shape ∧ ∀ j, On b j → On a (x + centre b - j) := by
  rw [erosion, on_ofMask, decide_eq_true_iff, same, countNonzero, sum_gt_card _ _ _ hb fun y _ => ext_binary ha _]
  simp only [ext_eq_one, On, and_imp]

lemma centre_of_symmetric {b : Arr ι ℚ} {c : ι → ℤ} (h : Symmetric b c) : centre b = c := by
  funext i
  have := h.1 i
  simp only [centre]
  omega

lemma opening_some (a b : Arr ι ℚ) : opening a (some b) = .ok (dilation (erosion a b) b) := rfl

lemma shape_opening (a b : Arr ι ℚ) : (dilation (erosion a b) b).shape = a.shape := rfl

/-- The opening of a symmetric element is the union of the copies of the element lying inside the image. -/
lemma on_opening {a b : Arr ι ℚ} (ha : Binary a) (hb : Binary b) {c : ι → ℤ} (hs : Symmetric b c) (x : ι → ℤ) :
    On (dilation (erosion a b) b) x ↔ ∃ z ∈ box a.shape, Inside a b c z ∧ ∃ j, On b j ∧ x = z + j - c := by
  rw [on_dilation (binary_erosion _ _) hb]
  simp only [on_erosion ha hb, centre_of_symmetric hs]
  constructor
  · rintro ⟨hx, j, hj, hz, hin⟩
    refine ⟨x + c - j, hz, fun j' hj' => ?_, j, hj, by abel⟩
    have := hin _ (hs.2 j' hj')
    rwa [show x + c - j + c - (c + c - j') = x + c - j + j' - c by abel] at this
  · rintro ⟨z, hz, hin, j, hj, rfl⟩
    refine ⟨(hin j hj).1, j, hj, ?_⟩
    rw [show z + j - c + c - j = z by abel]
    refine ⟨hz, fun j' hj' => ?_⟩
    have := hin _ (hs.2 j' hj')
    rwa [show z + (c + c - j') - c = z + c - j' by abel] at this

/-! ## C39 -/

/-- **C39, partial** (for elements symmetric about a centre cell): opening returns a 0/1 image of the same shape which is the
union of the copies of the element inside the image; it never adds cells and is idempotent. -/
theorem C39_opening_partial (a b : Arr ι ℚ) (ha : Binary a) (hb : Binary b) (c : ι → ℤ) (hs : Symmetric b c) :
    ∃ o, opening a (some b) = .ok o ∧ o.shape = a.shape ∧ Binary o ∧
      (∀ x, On o x ↔ ∃ z ∈ box a.shape, Inside a b c z ∧ ∃ j, On b j ∧ x = z + j - c) ∧
      (∀ x, On o x → On a x) ∧
      ∃ o', opening o (some b) = .ok o' ∧ o'.shape = o.shape ∧ ∀ x, On o' x ↔ On o x := by
  refine ⟨dilation (erosion a b) b, rfl, rfl, binary_dilation _ _, on_opening ha hb hs, ?_,
    dilation (erosion (dilation (erosion a b) b) b) b, opening_some _ _, (shape_opening _ _).trans rfl, ?_⟩
  · intro x hx
    obtain ⟨z, -, hin, j, hj, rfl⟩ := (on_opening ha hb hs x).1 hx
    exact hin j hj
  · intro x
    rw [on_opening (binary_dilation _ _) hb hs]
    constructor
    · rintro ⟨z, -, hin, j, hj, rfl⟩
      exact hin j hj
    · intro hx
      obtain ⟨z, hz, hin, j, hj, rfl⟩ := (on_opening ha hb hs x).1 hx
      exact ⟨z, hz, fun j' hj' => (on_opening ha hb hs _).2 ⟨z, hz, hin, j', hj', rfl⟩, j, hj, rfl⟩

/-- **C39, monotonicity**: for any structuring element whatever, a larger image has a larger opening. -/
theorem C39_monotone (a a' b : Arr ι ℚ) (ha : Binary a) (ha' : Binary a') (hb : Binary b) (hsh : a.shape = a'.shape)
    (hle : ∀ x, On a x → On a' x) : ∃ o o', opening a (some b) = .ok o ∧ opening a' (some b) = .ok o' ∧
      ∀ x, On o x → On o' x := by
  refine ⟨_, _, rfl, rfl, fun x => ?_⟩
  rw [on_dilation (binary_erosion _ _) hb, on_dilation (binary_erosion _ _) hb]
  rintro ⟨hx, j, hj, hz⟩
  rw [on_erosion ha hb] at hz
  refine ⟨hsh ▸ hx, j, hj, (on_erosion ha' hb _).2 ⟨hsh ▸ hz.1, fun j' hj' => hle _ (hz.2 j' hj')⟩⟩

lemma binary_ball (n : ℕ) : Binary (ball ι n) := by
  intro x _
  simp only [ball]
  split <;> simp

lemma on_ball (n : ℕ) (x : ι → ℤ) : On (ball ι n) x ↔ ∑ i, (x i - n) ^ 2 ≤ (n : ℤ) ^ 2 := by
  have : ∑ i, (x i - n) ^ 2 ≤ (n : ℤ) ^ 2 → x ∈ box (ball ι n).shape := by
    intro h
    rw [mem_box]
    intro i
    have h1 : (x i - n) ^ 2 ≤ (n : ℤ) ^ 2 :=
      (Finset.single_le_sum (f := fun i => (x i - (n : ℤ)) ^ 2) (fun i _ => sq_nonneg _) (Finset.mem_univ i)).trans h
    have h2 := abs_le_of_sq_le_sq' h1 (by positivity)
    simp only [ball]
    push_cast
    omega
  unfold On
  refine ⟨fun h => ?_, fun h => ⟨this h, by simp only [ball]; rw [if_pos h]⟩⟩
  by_contra hc
  have := h.2
  simp only [ball] at this
  rw [if_neg hc] at this
  norm_num at this

lemma symmetric_ball (n : ℕ) : Symmetric (ball ι n) (fun _ => (n : ℤ)) := by
  refine ⟨fun i => by simp [ball], fun j hj => ?_⟩
  rw [on_ball] at hj ⊢
  refine le_of_eq_of_le (Finset.sum_congr rfl fun i _ => ?_) hj
  simp only [Pi.sub_apply, Pi.add_apply]
  ring

/-- **C39 for the elements used by the granulometry**: the opening with `disk(n)`, `ball(n)` is the union of the discrete balls
of radius `n`, centred on cells, that lie inside the image. -/
theorem C39_ball (a : Arr ι ℚ) (ha : Binary a) (n : ℕ) : ∃ o, opening a (some (ball ι n)) = .ok o ∧
    ∀ x, On o x ↔ ∃ z ∈ box a.shape, (∀ y, ∑ i, (y i - z i) ^ 2 ≤ (n : ℤ) ^ 2 → On a y) ∧
      ∑ i, (x i - z i) ^ 2 ≤ (n : ℤ) ^ 2 := by
  refine ⟨_, rfl, fun x => ?_⟩
  rw [on_opening ha (binary_ball n) (symmetric_ball n)]
  refine exists_congr fun z => and_congr_right fun _ => and_congr ?_ ?_
  · constructor
    · intro h y hy
      have := h (y - z + fun _ => (n : ℤ)) ((on_ball _ _).2 (by simpa using hy))
      rwa [show z + (y - z + fun _ => (n : ℤ)) - (fun _ => (n : ℤ)) = y by abel] at this
    · intro h j hj
      refine h _ ?_
      rw [on_ball] at hj
      refine le_of_eq_of_le (Finset.sum_congr rfl fun i _ => ?_) hj
      simp only [Pi.sub_apply, Pi.add_apply]
      ring
  · constructor
    · rintro ⟨j, hj, rfl⟩
      rw [on_ball] at hj
      refine le_of_eq_of_le (Finset.sum_congr rfl fun i _ => ?_) hj
      simp only [Pi.sub_apply, Pi.add_apply]
      ring
    · intro h
      exact ⟨x - z + fun _ => (n : ℤ), (on_ball _ _).2 (by simpa using h), by abel⟩

/-- A line of cells, for the witnesses. -/
def line (l : List ℚ) : Arr Unit ℚ := ⟨fun _ => l.length, fun x => l.getD (x ()).toNat 0⟩

example : Binary (line [0, 1, 1, 1, 0]) ∧ Symmetric (line [1, 1, 1]) (fun _ => 1) ∧ On (line [0, 1, 1, 1, 0]) (fun _ => 2) := by
  refine ⟨?_, ⟨fun i => rfl, ?_⟩, ?_, rfl⟩
  · intro x hx
    have := (mem_box _ _).1 hx ()
    simp only [line, List.length_cons, List.length_nil, Nat.reduceAdd] at this ⊢
    obtain ⟨h1, h2⟩ := this
    have h3 : (x ()).toNat < 5 := by omega
    interval_cases (x ()).toNat <;> simp
  · rintro j ⟨hj, -⟩
    have := (mem_box _ _).1 hj ()
    simp only [line, List.length_cons, List.length_nil, Nat.reduceAdd] at this
    obtain ⟨h1, h2⟩ := this
    have h4 : ((1 : ℤ) + 1 - j ()).toNat < 3 := by omega
    refine ⟨(mem_box _ _).2 fun i => ?_, ?_⟩
    · have e : j i = j () := rfl
      simp only [line, List.length_cons, List.length_nil, Nat.reduceAdd, Pi.sub_apply, Pi.add_apply, e]
      exact ⟨by have := h2; push_cast at this; omega, by have := h1; push_cast; omega⟩
    · simp only [line, Pi.sub_apply, Pi.add_apply]
      interval_cases ((1 : ℤ) + 1 - j ()).toNat <;> rfl
  · refine (mem_box _ _).2 fun i => ⟨by norm_num, ?_⟩
    simp [line]

/-- **C39 is false for elements without a centre cell**: opening the two cells `1, 2` of a line with an element of two cells gives
the cells `2, 3`: a cell is added and one is lost; opening again moves on to `3, 4`. -/
theorem C39_false_even : ∃ o o', opening (line [0, 1, 1, 0, 0]) (some (line [1, 1])) = .ok o ∧
    opening o (some (line [1, 1])) = .ok o' ∧ (List.range 5).map (fun n => o.val fun _ => n) = [0, 0, 1, 1, 0] ∧
    (List.range 5).map (fun n => o'.val fun _ => n) = [0, 0, 0, 1, 1] := by
  refine ⟨_, _, opening_some _ _, opening_some _ _, ?_, ?_⟩ <;> decide +kernel

/-- **C39 is false for asymmetric elements**: with the element `1, 1, 0` the opened cells are displaced by one. -/
theorem C39_false_asymmetric : ∃ o, opening (line [0, 1, 1, 0, 0]) (some (line [1, 1, 0])) = .ok o ∧
    (List.range 5).map (fun n => o.val fun _ => n) = [1, 1, 0, 0, 0] := by
  refine ⟨_, opening_some _ _, ?_⟩
  decide +kernel

/-- **C39**: leaving out the structuring element, documented to select a cross-shaped one, is an error. -/
theorem C39_none (a : Arr ι ℚ) : opening a none = .error .dimensionality := rfl

/-! ## Areas -/

/-- Number of set cells. -/
noncomputable def cells (a : Arr ι ℚ) : ℕ := by
  classical exact ((box a.shape).filter fun x => a.val x = 1).card

lemma area_eq {a : Arr ι ℚ} (ha : Binary a) : area a = cells a := by
  classical
  rw [area, cells, Finset.card_eq_sum_ones, Finset.sum_filter]
  push_cast
  refine Finset.sum_congr rfl fun x hx => ?_
  rcases ha x hx with h | h <;> simp [h]

lemma cells_mono {a b : Arr ι ℚ} (h : ∀ x, On a x → On b x) : cells a ≤ cells b := by
  classical
  refine Finset.card_le_card fun x hx => ?_
  simp only [Finset.mem_filter] at hx ⊢
  exact h x hx

lemma cells_lt {a b : Arr ι ℚ} (h : ∀ x, On a x → On b x) (x : ι → ℤ) (hx : ¬ On a x) (hx' : On b x) : cells a < cells b := by
  classical
  refine Finset.card_lt_card (Finset.ssubset_iff_of_subset (fun x hx => ?_) |>.2 ⟨x, ?_, ?_⟩)
  · simp only [Finset.mem_filter] at hx ⊢
    exact h x hx
  · simp only [Finset.mem_filter]
    exact hx'
  · simp only [Finset.mem_filter]
    exact hx

lemma cells_eq_zero {a : Arr ι ℚ} : cells a = 0 ↔ ∀ x, ¬ On a x := by
  classical
  rw [cells, Finset.card_eq_zero, Finset.filter_eq_empty_iff]
  simp [On]

lemma on_open_ball {a : Arr ι ℚ} (ha : Binary a) (n : ℕ) (x : ι → ℤ) :
    On (dilation (erosion a (ball ι n)) (ball ι n)) x ↔ ∃ z ∈ box a.shape,
      (∀ y, ∑ i, (y i - z i) ^ 2 ≤ (n : ℤ) ^ 2 → On a y) ∧ ∑ i, (x i - z i) ^ 2 ≤ (n : ℤ) ^ 2 := by
  obtain ⟨o, ho, h⟩ := C39_ball a ha n
  rw [opening_some] at ho
  cases ho
  exact h x

lemma openedArea_eq (a : Arr ι ℚ) (n : ℕ) : openedArea a n = cells (dilation (erosion a (ball ι n)) (ball ι n)) :=
  area_eq (binary_dilation _ _)

lemma openedArea_le {a : Arr ι ℚ} (ha : Binary a) (n : ℕ) : openedArea a n ≤ area a := by
  rw [openedArea_eq, area_eq ha]
  refine Nat.cast_le.2 (cells_mono fun x hx => ?_)
  obtain ⟨z, -, h, hx⟩ := (on_open_ball ha n x).1 hx
  exact h x hx

lemma openedArea_zero {a : Arr ι ℚ} (ha : Binary a) : openedArea a 0 = area a := by
  refine le_antisymm (openedArea_le ha 0) ?_
  rw [openedArea_eq, area_eq ha]
  refine Nat.cast_le.2 (cells_mono fun x hx => (on_open_ball ha 0 x).2 ⟨x, hx.1, fun y hy => ?_, by simp⟩)
  have : y = x := by
    funext i
    have h1 : (y i - x i) ^ 2 ≤ 0 :=
      (Finset.single_le_sum (f := fun i => (y i - x i) ^ 2) (fun i _ => sq_nonneg _) (Finset.mem_univ i)).trans (by simpa using hy)
    have := pow_eq_zero_iff (two_ne_zero) |>.1 (le_antisymm h1 (sq_nonneg _))
    omega
  rwa [this]

/-- Once no ball of radius `n` fits, no larger one does. -/
lemma openedArea_zero_succ {a : Arr ι ℚ} (ha : Binary a) (n : ℕ) (h : openedArea a n = 0) : openedArea a (n + 1) = 0 := by
  rw [openedArea_eq, Nat.cast_eq_zero, cells_eq_zero] at h ⊢
  intro x hx
  obtain ⟨z, hz, hin, -⟩ := (on_open_ball ha _ x).1 hx
  refine h z ((on_open_ball ha n z).2 ⟨z, hz, fun y hy => hin y (hy.trans ?_), by simp⟩)
  push_cast
  nlinarith [Int.natCast_nonneg n]

lemma areaLoop_eq (f : ℕ → ℚ) (hf : ∀ n, f n = 0 → f (n + 1) = 0) (k n : ℕ) :
    areaLoop f k n = (List.range' n k).map f := by
  induction k generalizing n with
  | zero => rfl
  | succ k ih =>
    rw [areaLoop, List.range'_succ, List.map_cons]
    split
    · rename_i h
      have : ∀ m, f (n + m) = 0 := by
        intro m
        induction m with
        | zero => exact h
        | succ m ihm => exact hf _ ihm
      rw [List.replicate_succ, h]
      congr 1
      symm
      rw [List.eq_replicate_iff]
      refine ⟨by simp, fun b hb => ?_⟩
      obtain ⟨m, hm, rfl⟩ := List.mem_map.1 hb
      rw [List.mem_range'_1] at hm
      obtain ⟨d, rfl⟩ := Nat.exists_eq_add_of_le hm.1
      rw [add_assoc]
      exact this _
    · rw [ih]

/-! ## C40 -/

/-- Successive differences telescope. -/
lemma sum_diffs (c : ℚ) (l : List ℚ) (a : ℚ) :
    (List.zipWith (fun x y => (x - y) / c) (a :: l).dropLast (a :: l).tail).sum = (a - (a :: l).getLast (by simp)) / c := by
  induction l generalizing a with
  | nil => simp
  | cons b l ih =>
    have := ih b
    rw [List.dropLast_cons_cons, List.tail_cons, List.zipWith_cons_cons, List.sum_cons]
    rw [List.tail_cons] at this
    rw [this, List.getLast_cons (show b :: l ≠ [] by simp)]
    ring

/-- **C40**: for every list of opened areas with a positive first entry, the pattern spectrum has one entry per radius, ends with 0,
and adds up to the fraction of the area removed by the last opening. -/
theorem C40_telescopes (area : List ℚ) (a0 : ℚ) (h0 : area.head? = some a0) (hne : a0 ≠ 0) (an : ℚ)
    (hn : area.getLast? = some an) : ∃ p, spectrum area = .ok p ∧ p.length = area.length ∧ p.getLast? = some 0 ∧
      p.sum = (a0 - an) / a0 ∧ p.sum + an / a0 = 1 := by
  match area, h0 with
  | a :: l, h0 =>
    obtain rfl : a = a0 := by simpa using h0
    have hl : (a :: l).getLast (by simp) = an := by
      rw [List.getLast?_eq_getLast_of_ne_nil (by simp)] at hn
      exact Option.some.inj hn
    have hs : (List.zipWith (fun x y => (x - y) / a) (a :: l).dropLast (a :: l).tail ++ [0]).sum = (a - an) / a := by
      rw [List.sum_append, sum_diffs, hl]
      simp
    refine ⟨_, by simp only [spectrum]; rw [if_neg hne], by simp, by simp, hs, ?_⟩
    rw [hs]
    field_simp
    ring

example : spectrum [4, 3, 1] = .ok [1 / 4, 2 / 4, 0] := by decide +kernel

/-- **C40 for `_granulometry`**: for a 0/1 image with a set cell and sides of at least two cells, entry `n` of the areas is the area
of the opening with the ball of radius `n` (the early exit changes nothing), the first is the area of the image, and the spectrum
sums to the fraction removed by the largest opening. -/
theorem C40_granulometry (a : Arr ι ℚ) (ha : Binary a) (x : ι → ℤ) (hx : On a x) (hs : 2 ≤ maxSide a) :
    ∃ areas p, granulometry a = .ok (areas, p) ∧ areas.length = maxSide a / 2 ∧ p.length = maxSide a / 2 ∧
      (∀ n < maxSide a / 2, ∃ o, opening a (some (ball ι n)) = .ok o ∧ areas[n]? = some (cells o : ℚ)) ∧
      areas[0]? = some (cells a : ℚ) ∧
      (∀ n, n + 1 < maxSide a / 2 → ∃ u v, areas[n]? = some u ∧ areas[n + 1]? = some v ∧
        p[n]? = some ((u - v) / cells a)) ∧ p[maxSide a / 2 - 1]? = some 0 ∧
      ∃ last, areas[maxSide a / 2 - 1]? = some last ∧ p.sum = (cells a - last) / cells a ∧ p.sum + last / cells a = 1 := by
  obtain ⟨k, hk⟩ : ∃ k, maxSide a / 2 = k + 1 := ⟨maxSide a / 2 - 1, by omega⟩
  have hpos : (cells a : ℚ) ≠ 0 := by
    rw [Ne, Nat.cast_eq_zero, cells_eq_zero]
    exact fun h => h x hx
  have hareas : areaLoop (openedArea a) (maxSide a / 2) 0 = (List.range' 0 (k + 1)).map (openedArea a) := by
    rw [hk, areaLoop_eq _ (openedArea_zero_succ ha)]
  have h0 : openedArea a 0 = cells a := by rw [openedArea_zero ha, area_eq ha]
  have get : ∀ n < k + 1, ((List.range' 0 (k + 1)).map (openedArea a))[n]? = some (openedArea a n) := by
    intro n hn
    rw [List.getElem?_map, List.getElem?_range' (by omega)]
    simp
  obtain ⟨p, hp, hpl, hp0, hsum, hsum'⟩ := C40_telescopes ((List.range' 0 (k + 1)).map (openedArea a)) (cells a)
    (by rw [List.range'_succ, List.map_cons, List.head?_cons, h0]) hpos (openedArea a k)
    (by rw [List.getLast?_eq_getElem?, List.length_map, List.length_range', Nat.add_sub_cancel, get k (by omega)])
  rw [List.length_map, List.length_range'] at hpl
  refine ⟨(List.range' 0 (k + 1)).map (openedArea a), p, by simp only [granulometry, hareas, hp], by simp [hk], by rw [hpl, hk], ?_, ?_, ?_, ?_, openedArea a k, ?_, hsum, hsum'⟩
  · intro n hn
    refine ⟨_, opening_some _ _, ?_⟩
    rw [get n (by omega), openedArea_eq]
  · rw [get 0 (by omega), h0]
  · intro n hn
    refine ⟨_, _, get n (by omega), get (n + 1) (by omega), ?_⟩
    have : p = List.zipWith (fun x y => (x - y) / (cells a : ℚ)) ((List.range' 0 (k + 1)).map (openedArea a)).dropLast
        ((List.range' 0 (k + 1)).map (openedArea a)).tail ++ [0] := by
      rw [List.range'_succ, List.map_cons] at hp ⊢
      simp only [spectrum] at hp
      rw [if_neg (by rw [h0]; exact hpos), h0] at hp
      rw [h0]
      exact (Except.ok.inj hp).symm
    rw [this, List.getElem?_append_left (by simp; omega), List.getElem?_zipWith, List.getElem?_dropLast, List.getElem?_tail,
      get n (by omega), get (n + 1) (by omega), if_pos (by simp; omega)]
  · rw [List.getLast?_eq_getElem?, hpl] at hp0
    rw [hk]
    exact hp0
  · rw [hk, Nat.add_sub_cancel, get k (by omega)]

/-- **C40, remaining cases**: an image without a set cell has no spectrum (0/0), one whose sides are below two cells raises. -/
theorem C40_errors (a : Arr ι ℚ) (ha : Binary a) :
    (maxSide a < 2 → granulometry a = .error .index) ∧
    (2 ≤ maxSide a → (∀ x, ¬ On a x) → granulometry a = .error .nan) := by
  constructor
  · intro h
    have : maxSide a / 2 = 0 := by omega
    simp only [granulometry, this, areaLoop, spectrum]
  · intro h hx
    obtain ⟨k, hk⟩ : ∃ k, maxSide a / 2 = k + 1 := ⟨maxSide a / 2 - 1, by omega⟩
    have h0 : openedArea a 0 = 0 := by rw [openedArea_zero ha, area_eq ha, cells_eq_zero.2 hx]; rfl
    simp only [granulometry, hk, areaLoop, h0, if_true, List.replicate_succ, spectrum]

/-! ## C72: sign of the spectrum -/

/-- **C72, partial**: no opening exceeds the image, so every partial sum of the spectrum, up to any radius, lies in `[0, 1]`. -/
theorem C72_partial_sums_partial (a : Arr ι ℚ) (ha : Binary a) (x : ι → ℤ) (hx : On a x) (areas p : List ℚ)
    (h : granulometry a = .ok (areas, p)) (n : ℕ) : 0 ≤ (p.take n).sum ∧ (p.take n).sum ≤ 1 := by
  have hs : 2 ≤ maxSide a := by
    by_contra hc
    rw [(C40_errors a ha).1 (by omega)] at h
    cases h
  obtain ⟨areas', p', h', hl, hpl, har, h0, hdiff, hlast, last, hla, hsum, hsum'⟩ := C40_granulometry a ha x hx hs
  rw [h] at h'
  obtain ⟨rfl, rfl⟩ : areas = areas' ∧ p = p' := by simpa using h'
  have hpos : (0 : ℚ) < cells a := by
    rw [Nat.cast_pos, Nat.pos_iff_ne_zero, Ne, cells_eq_zero]
    exact fun h => h x hx
  have bound : ∀ m < maxSide a / 2, ∃ u : ℚ, areas[m]? = some u ∧ 0 ≤ u ∧ u ≤ cells a := by
    intro m hm
    obtain ⟨o, ho, hu⟩ := har m hm
    refine ⟨_, hu, Nat.cast_nonneg _, Nat.cast_le.2 (cells_mono fun y hy => ?_)⟩
    rw [opening_some] at ho
    cases ho
    obtain ⟨z, -, hz, hy⟩ := (on_open_ball ha m y).1 hy
    exact hz y hy
  have part : ∀ m < maxSide a / 2, ∃ u, areas[m]? = some u ∧ (p.take m).sum = (cells a - u) / cells a := by
    intro m
    induction m with
    | zero => exact fun _ => ⟨_, h0, by simp⟩
    | succ m ih =>
      intro hm
      obtain ⟨u, hu, hsu⟩ := ih (by omega)
      obtain ⟨u', v, hu', hv, hpm⟩ := hdiff m hm
      obtain rfl : u = u' := by simpa [hu] using hu'
      refine ⟨v, hv, ?_⟩
      rw [List.take_add_one, List.sum_append, hsu, hpm]
      simp only [Option.toList_some, List.sum_singleton]
      ring
  have fin : ∀ u : ℚ, 0 ≤ u → u ≤ cells a → 0 ≤ (cells a - u) / cells a ∧ (cells a - u) / cells a ≤ 1 := by
    intro u h1 h2
    rw [div_le_one hpos]
    exact ⟨div_nonneg (by linarith) hpos.le, by linarith⟩
  by_cases hn : n < maxSide a / 2
  · obtain ⟨u, hu, hsu⟩ := part n hn
    obtain ⟨u', hu', h1, h2⟩ := bound n hn
    obtain rfl : u = u' := by simpa [hu] using hu'
    rw [hsu]
    exact fin u h1 h2
  · rw [List.take_of_length_le (by omega), hsum]
    obtain ⟨u', hu', h1, h2⟩ := bound (maxSide a / 2 - 1) (by omega)
    obtain rfl : last = u' := by simpa [hla] using hu'
    exact fin last h1 h2

/-- A disc of radius 3 in a 9x9 image. -/
def disc9 : Arr (Fin 2) ℚ := ofMask (fun _ => 9) fun x => decide ((x 0 - 4) ^ 2 + (x 1 - 4) ^ 2 ≤ 9)

lemma on_disc9 (x : Fin 2 → ℤ) : On disc9 x ↔ (x 0 - 4) ^ 2 + (x 1 - 4) ^ 2 ≤ 9 := by
  rw [disc9, on_ofMask, decide_eq_true_iff, mem_box]
  refine ⟨fun h => h.2, fun h => ⟨fun i => ?_, h⟩⟩
  match i with
  | 0 =>
    have := abs_le_of_sq_le_sq' (show (x 0 - 4) ^ 2 ≤ (3 : ℤ) ^ 2 by nlinarith [sq_nonneg (x 1 - 4)]) (by norm_num)
    push_cast
    omega
  | 1 =>
    have := abs_le_of_sq_le_sq' (show (x 1 - 4) ^ 2 ≤ (3 : ℤ) ^ 2 by nlinarith [sq_nonneg (x 0 - 4)]) (by norm_num)
    push_cast
    omega

/-- **C72 is false**: a disc of radius 3 is not a union of discs of radius 2 (its cells `(2,2)` from the centre are lost), but it is a
disc of radius 3: the area grows from radius 2 to radius 3 and that entry of the pattern spectrum is negative. -/
theorem C72_false : ∃ areas p q, granulometry disc9 = .ok (areas, p) ∧ p[2]? = some q ∧ q < 0 := by
  have hb : Binary disc9 := binary_ofMask _ _
  have hm : maxSide disc9 = 9 := by decide
  obtain ⟨areas, p, h, -, -, har, -, hdiff, -⟩ := C40_granulometry disc9 hb (fun _ => 4) ((on_disc9 _).2 (by norm_num))
    (by rw [hm]; norm_num)
  rw [hm] at har hdiff
  obtain ⟨u, v, hu, hv, hp⟩ := hdiff 2 (by norm_num)
  obtain ⟨o2, ho2, h2⟩ := har 2 (by norm_num)
  obtain ⟨o3, ho3, h3⟩ := har 3 (by norm_num)
  rw [opening_some] at ho2 ho3
  cases ho2
  cases ho3
  rw [hu] at h2
  rw [hv] at h3
  cases h2
  cases h3
  refine ⟨areas, p, _, h, hp, ?_⟩
  have hpos : (0 : ℚ) < cells disc9 := by
    rw [Nat.cast_pos, Nat.pos_iff_ne_zero, Ne, cells_eq_zero]
    exact fun h => h (fun _ => 4) ((on_disc9 _).2 (by norm_num))
  refine div_neg_of_neg_of_pos (sub_neg.2 (Nat.cast_lt.2 (cells_lt ?_ (fun _ => 6) ?_ ?_))) hpos
  · intro x hx
    obtain ⟨z, -, hz, hxz⟩ := (on_open_ball hb 2 x).1 hx
    have hx := hz x hxz
    have hx' := (on_disc9 x).1 hx
    refine (on_open_ball hb 3 x).2 ⟨fun _ => 4, ?_, fun y hy => (on_disc9 y).2 ?_, ?_⟩
    · exact (mem_box _ _).2 fun i => ⟨by norm_num, by simp [disc9, ofMask]⟩
    · simpa [Fin.sum_univ_two] using hy
    · simpa [Fin.sum_univ_two] using hx'
  · intro hx
    obtain ⟨z, -, hz, hxz⟩ := (on_open_ball hb 2 _).1 hx
    simp only [Fin.sum_univ_two, on_disc9] at hz hxz
    have hb0 := abs_le_of_sq_le_sq' (show (6 - z 0) ^ 2 ≤ (2 : ℤ) ^ 2 by push_cast at hxz; nlinarith [sq_nonneg (6 - z 1)]) (by norm_num)
    have hb1 := abs_le_of_sq_le_sq' (show (6 - z 1) ^ 2 ≤ (2 : ℤ) ^ 2 by push_cast at hxz; nlinarith [sq_nonneg (6 - z 0)]) (by norm_num)
    have t1 := hz ![z 0 + 2, z 1] (by simp)
    have t2 := hz ![z 0, z 1 + 2] (by simp)
    have t3 := hz ![z 0 + 1, z 1 + 1] (by simp)
    simp only [Matrix.cons_val_zero, Matrix.cons_val_one] at t1 t2 t3
    generalize z 0 = a at *
    generalize z 1 = b at *
    obtain ⟨a1, a2⟩ := hb0
    obtain ⟨b1, b2⟩ := hb1
    have a3 : 4 ≤ a := by omega
    have a4 : a ≤ 8 := by omega
    have b3 : 4 ≤ b := by omega
    have b4 : b ≤ 8 := by omega
    interval_cases a <;> interval_cases b <;> simp at *
  · refine (on_open_ball hb 3 _).2 ⟨fun _ => 4, ?_, fun y hy => (on_disc9 y).2 ?_, ?_⟩
    · exact (mem_box _ _).2 fun i => ⟨by norm_num, by simp [disc9, ofMask]⟩
    · simpa [Fin.sum_univ_two] using hy
    · simp [Fin.sum_univ_two]

example : Binary disc9 ∧ On disc9 (fun _ => 4) ∧ maxSide disc9 = 9 :=
  ⟨binary_ofMask _ _, (on_disc9 _).2 (by norm_num), by decide⟩

/-! ## C73: order of `granulometry_CDF` -/

/-- **C73**: whatever order the shuffle produces, the opened areas are returned in increasing order of size. -/
theorem C73_sorted (f : ℕ → ℚ) (sizes shuffled sorted : List ℕ) (hsh : shuffled.Perm sizes) (hso : sorted.Perm sizes)
    (hle : sorted.Pairwise (· ≤ ·)) : granulometryCDF f shuffled = sorted.map f := by
  have hperm : ((List.range shuffled.length).insertionSort fun i j => shuffled.getD i 0 ≤ shuffled.getD j 0).Perm
      (List.range shuffled.length) := List.perm_insertionSort _ _
  have hmap : (List.range shuffled.length).map (fun i => shuffled.getD i 0) = shuffled := by
    apply List.ext_getElem (by simp)
    intro n h1 h2
    simp [List.getD_eq_getElem?_getD, h2]
  have hkey : ((List.range shuffled.length).insertionSort fun i j => shuffled.getD i 0 ≤ shuffled.getD j 0).map
      (fun i => shuffled.getD i 0) = sorted := by
    refine List.Perm.eq_of_pairwise (le := (· ≤ ·)) (fun a b _ _ h1 h2 => Nat.le_antisymm h1 h2) ?_ hle ?_
    · rw [List.pairwise_map]
      haveI : Std.Total fun i j => shuffled.getD i 0 ≤ shuffled.getD j 0 := ⟨fun i j => Nat.le_total _ _⟩
      haveI : IsTrans ℕ fun i j => shuffled.getD i 0 ≤ shuffled.getD j 0 := ⟨fun i j k h1 h2 => Nat.le_trans h1 h2⟩
      exact List.pairwise_insertionSort _ _
    · exact ((hperm.map _).trans ((List.Perm.of_eq hmap).trans hsh)).trans hso.symm
  rw [← hkey, List.map_map, granulometryCDF]
  refine List.map_congr_left fun i hi => ?_
  have hlt : i < shuffled.length := List.mem_range.1 ((hperm.mem_iff).1 hi)
  simp [List.getD_eq_getElem?_getD, hlt]

example : granulometryCDF (fun n => 10 - n) [5, 1, 3] = [9, 7, 5] := by decide +kernel

end Verif.Morphology
