import Verif.Model.BubbleModel
import Mathlib.Analysis.Real.Pi.Bounds
import Mathlib.Algebra.Order.BigOperators.Group.Finset
import Mathlib.Tactic.FieldSimp
import Mathlib.Tactic.Linarith
import Mathlib.Tactic.Positivity
import Mathlib.Tactic.NormNum
import Mathlib.Tactic.Ring
/-!
# C131: the model of spherical bubbles
-/

namespace Verif.BubbleModel

/-! ## Specification -/

/-- The cells of the periodic box within `r` of `p`. -/
def Ball (n r : ℕ) (p x : Cell) : Prop := ∃ t : Cell, ∑ j, (x j - p j + n * t j) ^ 2 ≤ (r : ℤ) ^ 2

/-- The ionised cells after adding bubbles around the centres of some batches. -/
def grow (n r : ℕ) (S : Cell → Prop) : List (List Cell) → Cell → Prop
  | [] => S
  | b :: bs => grow n r (fun x => S x ∨ ∃ p ∈ b, Ball n r p x) bs

/-- Every centre is chosen outside the region ionised before its batch. -/
def Fresh (n r : ℕ) (S : Cell → Prop) : List (List Cell) → Prop
  | [] => True
  | b :: bs => (∀ p ∈ b, p ∈ box n ∧ ¬ S p) ∧ Fresh n r (fun x => S x ∨ ∃ p ∈ b, Ball n r p x) bs

open Classical in
/-- The fraction of the box in a region. -/
noncomputable def filling (n : ℕ) (S : Cell → Prop) : ℝ := (((box n).filter fun x => S x).card : ℝ) / (n : ℝ) ^ 3

/-- The number of cells of a ball. -/
noncomputable def ballSize (r : ℕ) : ℕ :=
  ((Fintype.piFinset fun _ : Fin 3 => Finset.Icc (-(r : ℤ)) r).filter fun y => ∑ j, y j ^ 2 ≤ (r : ℤ) ^ 2).card

/-- The region of a cube of zeros and ones. -/
def Marks (n : ℕ) (c : Cube) (S : Cell → Prop) : Prop := ∀ x ∈ box n, (S x ∧ c x = 1) ∨ (¬ S x ∧ c x = 0)

/-- The centres of every batch are candidates, `batch` of them. -/
def Valid (mode : Mode) (n r batch : ℕ) (void : Cell → Prop) (choose : Choice) : Prop :=
  ∀ i c, (∃ x, Candidate mode n r void c x) → (choose i c).length = batch ∧ ∀ p ∈ choose i c, Candidate mode n r void c p

/-! ## Painting -/

theorem mem_box {n : ℕ} {x : Cell} : x ∈ box n ↔ ∀ j, 0 ≤ x j ∧ x j < n := by
  unfold box
  rw [Fintype.mem_piFinset]
  exact forall_congr' fun j => Finset.mem_Ico

theorem paintOne_eq {n : ℕ} (K : Cube) (k : ℕ) (c : Cube) (p : Cell) {x : Cell} (hx : x ∈ box n) :
    paintOne n K k c p x = 2 * c x + (if ∀ j, (x j - p j + (k / 2 : ℕ)) % n < k
      then K fun j => (x j - p j + (k / 2 : ℕ)) % n else 0) := by
  have hx' := mem_box.1 hx
  unfold paintOne addBlock roll
  simp only []
  generalize ((k / 2 : ℕ) : ℤ) = R
  have e : ∀ j, (x j - (p j - R)) % (n : ℤ) = (x j - p j + R) % n := fun j => by rw [← sub_add]
  have e2 : (fun j => ((x j - p j + R) % (n : ℤ) - (-p j + R)) % n) = x := by
    funext j
    rw [Int.emod_sub_emod, show x j - p j + R - (-p j + R) = x j by ring]
    exact Int.emod_eq_of_lt (hx' j).1 (hx' j).2
  simp only [e, e2]
  split_ifs <;> ring

/-- **C131, painting is false**: `paint_kernel` does not add the kernel to the cube but to twice the cube. -/
theorem C131_paint_false {n k : ℕ} (hk : k ≤ n) (K c : Cube) (p : Cell) :
    ∃ c', paintKernel n K k c [p] = .ok c' ∧ ∀ x ∈ box n, c' x = 2 * c x +
      (if ∀ j, (x j - p j + (k / 2 : ℕ)) % n < k then K fun j => (x j - p j + (k / 2 : ℕ)) % n else 0) := by
  refine ⟨paintOne n K k c p, ?_, fun x hx => paintOne_eq K k c p hx⟩
  unfold paintKernel
  rw [if_neg (by omega)]
  rfl

theorem ball_iff {n r : ℕ} (hr : 2 * r + 1 ≤ n) (p x : Cell) :
    (∑ j, ((x j - p j + ((2 * r + 1) / 2 : ℕ)) % (n : ℤ) - r) ^ 2 ≤ (r : ℤ) ^ 2) ↔ Ball n r p x := by
  have hr2 : (2 * r + 1) / 2 = r := by omega
  rw [hr2]
  constructor
  · intro h
    refine ⟨fun j => -((x j - p j + r) / n), ?_⟩
    refine le_of_eq_of_le (Finset.sum_congr rfl fun j _ => ?_) h
    have := Int.emod_add_mul_ediv (x j - p j + r) n
    have e : x j - p j + (n : ℤ) * -((x j - p j + r) / n) = (x j - p j + r) % n - r := by linarith
    rw [e]
  · rintro ⟨t, ht⟩
    refine le_of_eq_of_le (Finset.sum_congr rfl fun j _ => ?_) ht
    have hj : (x j - p j + n * t j) ^ 2 ≤ (r : ℤ) ^ 2 :=
      (Finset.single_le_sum (f := fun j => (x j - p j + n * t j) ^ 2) (fun i _ => sq_nonneg _) (Finset.mem_univ j)).trans ht
    have := abs_le_of_sq_le_sq' hj (by positivity)
    have e : (x j - p j + r) % (n : ℤ) = x j - p j + n * t j + r := by
      rw [← Int.add_mul_emod_self_left (x j - p j + r) n (t j)]
      rw [Int.emod_eq_of_lt (by linarith) (by have : (2 * r + 1 : ℤ) ≤ n := by exact_mod_cast hr
                                              linarith)]
      ring
    rw [e]
    ring

open Classical in
theorem paint_ball {n r : ℕ} (hr : 2 * r + 1 ≤ n) (c : Cube) (p : Cell) {x : Cell} (hx : x ∈ box n) :
    paintOne n (ball r) (2 * r + 1) c p x = 2 * c x + if Ball n r p x then 1 else 0 := by
  rw [paintOne_eq _ _ _ _ hx]
  congr 1
  have h := ball_iff hr p x
  unfold ball
  by_cases hB : Ball n r p x
  · have hB' := h.2 hB
    rw [if_pos hB, if_pos, if_pos hB']
    intro j
    have hj := (Finset.single_le_sum (f := fun j => ((x j - p j + ((2 * r + 1) / 2 : ℕ)) % (n : ℤ) - r) ^ 2)
      (fun i _ => sq_nonneg _) (Finset.mem_univ j)).trans hB'
    have := abs_le_of_sq_le_sq' hj (by positivity)
    push_cast at this ⊢
    linarith
  · rw [if_neg hB]
    split_ifs with h1 h2
    · exact absurd (h.1 h2) hB
    · rfl
    · rfl

theorem paint_fold {n r : ℕ} (hr : 2 * r + 1 ≤ n) (ps : List Cell) {x : Cell} (hx : x ∈ box n) (c : Cube)
    (hc : c x = 0 ∨ 1 ≤ c x) :
    let v := ps.foldl (paintOne n (ball r) (2 * r + 1)) c x
    (v = 0 ∧ c x = 0 ∧ ∀ p ∈ ps, ¬ Ball n r p x) ∨ (1 ≤ v ∧ (1 ≤ c x ∨ ∃ p ∈ ps, Ball n r p x)) := by
  classical
  induction ps generalizing c with
  | nil =>
    rcases hc with h | h
    · exact Or.inl ⟨h, h, by simp⟩
    · exact Or.inr ⟨h, Or.inl h⟩
  | cons p ps ih =>
    simp only [List.foldl_cons]
    have e := paint_ball hr c p hx
    have hc' : paintOne n (ball r) (2 * r + 1) c p x = 0 ∨ 1 ≤ paintOne n (ball r) (2 * r + 1) c p x := by
      rw [e]
      split_ifs
      · right
        rcases hc with h | h <;> linarith
      · rcases hc with h | h
        · left; linarith
        · right; linarith
    rcases ih _ hc' with ⟨h1, h2, h3⟩ | ⟨h1, h2⟩
    · left
      rw [e] at h2
      by_cases hB : Ball n r p x
      · rw [if_pos hB] at h2
        rcases hc with h | h <;> linarith
      · rw [if_neg hB] at h2
        refine ⟨h1, by linarith, fun q hq => ?_⟩
        rcases List.mem_cons.1 hq with rfl | hq
        · exact hB
        · exact h3 q hq
    · right
      refine ⟨h1, ?_⟩
      rcases h2 with h2 | ⟨q, hq, hB⟩
      · rw [e] at h2
        by_cases hB : Ball n r p x
        · exact Or.inr ⟨p, List.mem_cons_self, hB⟩
        · rw [if_neg hB] at h2
          left
          rcases hc with h | h <;> linarith
      · exact Or.inr ⟨q, List.mem_cons_of_mem p hq, hB⟩

/-- One iteration on a cube of zeros and ones. -/
theorem step_marks {n r : ℕ} (hr : 2 * r + 1 ≤ n) (ps : List Cell) {c : Cube} {S : Cell → Prop} (h : Marks n c S) :
    Marks n (threshold (ps.foldl (paintOne n (ball r) (2 * r + 1)) c)) fun x => S x ∨ ∃ p ∈ ps, Ball n r p x := by
  intro x hx
  have hc : c x = 0 ∨ 1 ≤ c x := by
    rcases h x hx with ⟨-, h⟩ | ⟨-, h⟩
    · right; exact h.ge
    · left; exact h
  unfold threshold
  rcases paint_fold hr ps hx c hc with ⟨h1, h2, h3⟩ | ⟨h1, h2⟩
  · right
    rw [if_neg (by rw [h1]; norm_num)]
    refine ⟨?_, rfl⟩
    rintro (hS | ⟨p, hp, hB⟩)
    · rcases h x hx with ⟨-, h'⟩ | ⟨h', -⟩
      · rw [h2] at h'
        norm_num at h'
      · exact h' hS
    · exact h3 p hp hB
  · left
    rw [if_pos (by linarith)]
    refine ⟨?_, rfl⟩
    rcases h2 with h2 | h2
    · left
      rcases h x hx with ⟨h', -⟩ | ⟨-, h'⟩
      · exact h'
      · rw [h'] at h2
        norm_num at h2
    · right; exact h2

theorem mean_filling {n : ℕ} {c : Cube} {S : Cell → Prop} (h : Marks n c S) : mean n c = filling n S := by
  classical
  unfold mean filling
  congr 1
  rw [Finset.card_filter]
  push_cast
  refine Finset.sum_congr rfl fun x hx => ?_
  rcases h x hx with ⟨h1, h2⟩ | ⟨h1, h2⟩
  · rw [if_pos h1, h2]
  · rw [if_neg h1, h2]

theorem candidate_fresh {mode : Mode} {n r : ℕ} {void : Cell → Prop} {c : Cube} {S : Cell → Prop} (h : Marks n c S)
    {p : Cell} (hp : Candidate mode n r void c p) : p ∈ box n ∧ ¬ S p := by
  refine ⟨hp.1, fun hS => ?_⟩
  have h1 : c p = 1 := by
    rcases h p hp.1 with ⟨-, h'⟩ | ⟨h', -⟩
    · exact h'
    · exact absurd hS h'
  cases mode with
  | poisson =>
    have h2 : c p = 0 := hp.2
    rw [h1] at h2
    norm_num at h2
  | anticlustered =>
    have h2 := hp.2.1 ⟨p, hp.1, h1⟩ p hp.1 h1
    simp at h2
    have : (0 : ℤ) ≤ (r : ℤ) ^ 2 := by positivity
    linarith

open Classical in
theorem loop_spec {mode : Mode} {n r batch : ℕ} (hr : 2 * r + 1 ≤ n) {void : Cell → Prop} {target : ℝ}
    {choose : Choice} (hv : Valid mode n r batch void choose) (m i : ℕ) {c : Cube} {S : Cell → Prop} (h : Marks n c S)
    (hlow : filling n S < target) {c' : Cube} (hc : loop mode n r void target choose m i c = .ok c') :
    ∃ bs : List (List Cell), Marks n c' (grow n r S bs) ∧ Fresh n r S bs ∧ (∀ b ∈ bs, b.length = batch) ∧ bs.length ≤ m ∧
      (bs.length < m → target ≤ filling n (grow n r S bs) ∨ mode = .anticlustered) ∧
      ∀ k < bs.length, filling n (grow n r S (bs.take k)) < target := by
  induction m generalizing i c S with
  | zero =>
    unfold loop at hc
    injection hc with hc
    subst hc
    exact ⟨[], h, trivial, by simp, by simp, by simp, by simp⟩
  | succ m ih =>
    unfold loop at hc
    by_cases hx : ∃ x, Candidate mode n r void c x
    · rw [if_pos hx] at hc
      unfold paintKernel at hc
      rw [if_neg (by omega)] at hc
      simp only [] at hc
      obtain ⟨hl, hcand⟩ := hv i c hx
      have hs := step_marks hr (choose i c) h
      have hfresh : ∀ p ∈ choose i c, p ∈ box n ∧ ¬ S p := fun p hp => candidate_fresh h (hcand p hp)
      by_cases ht : target ≤ mean n (threshold ((choose i c).foldl (paintOne n (ball r) (2 * r + 1)) c))
      · rw [if_pos ht] at hc
        injection hc with hc
        rw [mean_filling hs] at ht
        refine ⟨[choose i c], by rw [← hc]; exact hs, ⟨hfresh, trivial⟩, by simpa using hl, by simp, fun _ => Or.inl ht, ?_⟩
        intro k hk
        have hk0 : k = 0 := by simpa using hk
        rw [hk0]
        exact hlow
      · rw [if_neg ht] at hc
        rw [mean_filling hs, not_le] at ht
        obtain ⟨bs, h1, h2, h3, h4, h5, h6⟩ := ih (i + 1) hs ht hc
        refine ⟨choose i c :: bs, h1, ⟨hfresh, h2⟩, ?_, by simpa using h4, ?_, ?_⟩
        · intro b hb
          rcases List.mem_cons.1 hb with rfl | hb
          · exact hl
          · exact h3 b hb
        · intro hlt
          exact h5 (by simpa using hlt)
        · intro k hk
          cases k with
          | zero => exact hlow
          | succ k => exact h6 k (by simpa using hk)
    · rw [if_neg hx] at hc
      cases mode with
      | poisson => simp at hc
      | anticlustered =>
        injection hc with hc
        subst hc
        exact ⟨[], h, trivial, by simp, by simp, fun _ => Or.inr rfl, by simp⟩

theorem clip_marks {n : ℕ} {c : Cube} {S : Cell → Prop} (h : Marks n c S) : Marks n (clip c) S := by
  intro x hx
  have := h x hx
  unfold clip
  rcases this with ⟨h1, h2⟩ | ⟨h1, h2⟩
  · left
    rw [h2]
    norm_num
    exact h1
  · right
    rw [h2]
    norm_num
    exact h1

/-! ## The volume of a bubble -/

open Classical in
theorem ball_card {n r : ℕ} (hr : 2 * r + 1 ≤ n) (p : Cell) :
    ((box n).filter fun x => Ball n r p x).card ≤ ballSize r := by
  unfold ballSize
  refine Finset.card_le_card_of_injOn (fun x j => (x j - p j + ((2 * r + 1) / 2 : ℕ)) % (n : ℤ) - r) ?_ ?_
  · intro x hx
    have hx' := Finset.mem_filter.1 (Finset.mem_coe.1 hx)
    have hB := (ball_iff hr p x).2 hx'.2
    refine Finset.mem_coe.2 (Finset.mem_filter.2 ⟨Fintype.mem_piFinset.2 fun j => ?_, hB⟩)
    have hj := (Finset.single_le_sum (f := fun j => ((x j - p j + ((2 * r + 1) / 2 : ℕ)) % (n : ℤ) - r) ^ 2)
      (fun i _ => sq_nonneg _) (Finset.mem_univ j)).trans hB
    have := abs_le_of_sq_le_sq' hj (by positivity)
    exact Finset.mem_Icc.2 this
  · intro x hx y hy hxy
    have hx' := mem_box.1 (Finset.mem_filter.1 (Finset.mem_coe.1 hx)).1
    have hy' := mem_box.1 (Finset.mem_filter.1 (Finset.mem_coe.1 hy)).1
    funext j
    have h1 := congrFun hxy j
    simp only [sub_left_inj] at h1
    have h2 : (x j) % (n : ℤ) = (y j) % n := by
      have := Int.ModEq.sub_right (((2 * r + 1) / 2 : ℕ) - p j : ℤ) (show (x j - p j + ((2 * r + 1) / 2 : ℕ) : ℤ) ≡
        y j - p j + ((2 * r + 1) / 2 : ℕ) [ZMOD n] from h1)
      have e : ∀ z : ℤ, z - p j + ((2 * r + 1) / 2 : ℕ) - (((2 * r + 1) / 2 : ℕ) - p j) = z := fun z => by ring
      rw [e, e] at this
      exact this
    rwa [Int.emod_eq_of_lt (hx' j).1 (hx' j).2, Int.emod_eq_of_lt (hy' j).1 (hy' j).2] at h2

theorem filling_step {n r : ℕ} (hr : 2 * r + 1 ≤ n) (S : Cell → Prop) (b : List Cell) :
    filling n (fun x => S x ∨ ∃ p ∈ b, Ball n r p x) ≤ filling n S + b.length * ballSize r / (n : ℝ) ^ 3 := by
  classical
  have key : ((box n).filter fun x => S x ∨ ∃ p ∈ b, Ball n r p x).card ≤
      ((box n).filter fun x => S x).card + b.length * ballSize r := by
    induction b with
    | nil => simp
    | cons p b ih =>
      have hsub : ((box n).filter fun x => S x ∨ ∃ q ∈ p :: b, Ball n r q x) ⊆
          ((box n).filter fun x => S x ∨ ∃ q ∈ b, Ball n r q x) ∪ ((box n).filter fun x => Ball n r p x) := by
        intro x hx
        rw [Finset.mem_filter] at hx
        rw [Finset.mem_union, Finset.mem_filter, Finset.mem_filter]
        obtain ⟨h1, h2 | ⟨q, hq, hB⟩⟩ := hx
        · exact Or.inl ⟨h1, Or.inl h2⟩
        · rcases List.mem_cons.1 hq with rfl | hq
          · exact Or.inr ⟨h1, hB⟩
          · exact Or.inl ⟨h1, Or.inr ⟨q, hq, hB⟩⟩
      refine (Finset.card_le_card hsub).trans ((Finset.card_union_le _ _).trans ?_)
      have := ball_card hr p
      rw [List.length_cons, Nat.succ_mul]
      omega
  unfold filling
  rw [← add_div]
  refine div_le_div_of_nonneg_right ?_ (by positivity)
  have k2 := Nat.cast_le (α := ℝ) |>.2 key
  rw [Nat.cast_add, Nat.cast_mul] at k2
  convert k2
  rfl

theorem grow_take_last {n r : ℕ} (S : Cell → Prop) (bs : List (List Cell)) (b : List Cell) :
    grow n r S (bs ++ [b]) = fun x => grow n r S bs x ∨ ∃ p ∈ b, Ball n r p x := by
  induction bs generalizing S with
  | nil => rfl
  | cons a bs ih => exact ih _

/-! ## C131 -/

/-- **C131 (partial).** For a cube of zeros and ones, or none, and bubbles that fit into the box, the ionised region of the
result is that of the given cube and the periodic balls around the chosen centres, every centre outside what was ionised
before its batch. The loop stops at the first batch with which the target is reached, after `max_iter` batches or, for
bubbles that should not overlap, when there is no room; the target is exceeded by less than one batch. Missing: larger
bubbles (`C131_size_false`) and cubes with other values (`C131_grey_false`). -/
theorem C131_partial {mode : Mode} {n r batch maxIter : ℕ} (hr : 2 * r + 1 ≤ n) {void : Cell → Prop} {target : ℝ}
    {choose : Choice} (hv : Valid mode n r batch void choose) {cube : Option Cube} {S : Cell → Prop}
    (h : Marks n (cube.getD fun _ => 0) S)
    (hvol : 4 * Real.pi / 3 * (r : ℝ) ^ 3 < (target - filling n S) * (n : ℝ) ^ 3)
    (hvol2 : 4 * Real.pi / 3 * (r : ℝ) ^ 3 * batch < (target - filling n S) * (n : ℝ) ^ 3) {c : Cube}
    (hc : bubbleModel mode n r batch maxIter void target choose cube = .ok c) :
    ∃ bs : List (List Cell), Marks n c (grow n r S bs) ∧ Fresh n r S bs ∧ (∀ b ∈ bs, b.length = batch) ∧
      bs.length ≤ maxIter ∧ (bs.length < maxIter → target ≤ filling n (grow n r S bs) ∨ mode = .anticlustered) ∧
      (∀ k < bs.length, filling n (grow n r S (bs.take k)) < target) ∧
      filling n (grow n r S bs) < target + batch * ballSize r / (n : ℝ) ^ 3 := by
  unfold bubbleModel at hc
  simp only [] at hc
  rw [mean_filling h, if_neg (not_le.2 hvol), if_neg (not_le.2 hvol2)] at hc
  have hn : (0 : ℝ) < (n : ℝ) ^ 3 := by
    have : 0 < n := by omega
    positivity
  have hlow : filling n S < target := by
    have h0 : (0 : ℝ) ≤ 4 * Real.pi / 3 * (r : ℝ) ^ 3 := by positivity
    have := lt_of_le_of_lt h0 hvol
    have := pos_of_mul_pos_left this hn.le
    linarith
  generalize hl : loop mode n r void target choose maxIter 0 (cube.getD fun _ => 0) = l at hc
  cases l with
  | error e => simp at hc
  | ok c' =>
    simp only [Except.ok.injEq] at hc
    subst hc
    obtain ⟨bs, h1, h2, h3, h4, h5, h6⟩ := loop_spec hr hv maxIter 0 h hlow hl
    refine ⟨bs, clip_marks h1, h2, h3, h4, h5, h6, ?_⟩
    rcases List.eq_nil_or_concat bs with rfl | ⟨bs', b, rfl⟩
    · show filling n S < _
      have : (0 : ℝ) ≤ batch * ballSize r / (n : ℝ) ^ 3 := by positivity
      linarith
    · have hlast := h6 bs'.length (by simp)
      rw [List.concat_eq_append] at hlast h3 ⊢
      rw [List.take_left'] at hlast
      · rw [grow_take_last]
        have := filling_step hr (grow n r S bs') b
        rw [h3 b (by simp)] at this
        linarith
      · rfl

/-- **C131, small targets.** If one bubble or one batch is larger than what is missing, the cube is returned as it is. -/
theorem C131_small (mode : Mode) (n r batch maxIter : ℕ) (void : Cell → Prop) (target : ℝ) (choose : Choice) (c : Cube)
    {S : Cell → Prop} (h : Marks n c S)
    (hvol : (target - filling n S) * (n : ℝ) ^ 3 ≤ 4 * Real.pi / 3 * (r : ℝ) ^ 3 ∨
      (target - filling n S) * (n : ℝ) ^ 3 ≤ 4 * Real.pi / 3 * (r : ℝ) ^ 3 * batch) :
    bubbleModel mode n r batch maxIter void target choose (some c) = .ok c := by
  unfold bubbleModel
  simp only [Option.getD_some]
  rw [mean_filling h]
  rcases hvol with h | h
  · rw [if_pos h]
  · rw [if_pos h]
    split_ifs <;> rfl

/-- **C131, no overlap (partial).** A centre chosen for bubbles that should not overlap, at least `r` cells away from the
faces of the box, has a ball without ionised cells. Missing: other centres (`C131_overlap_false`). -/
theorem C131_overlap_partial {n r : ℕ} {void : Cell → Prop} {c : Cube} {S : Cell → Prop}
    (h : Marks n c S) {p : Cell} (hp : Candidate .anticlustered n r void c p) (hface : ∀ j, (r : ℤ) ≤ p j ∧ p j + r < n)
    {x : Cell} (hx : x ∈ box n) (hB : Ball n r p x) : ¬ S x := by
  intro hS
  have h1 : c x = 1 := by
    rcases h x hx with ⟨-, h'⟩ | ⟨h', -⟩
    · exact h'
    · exact absurd hS h'
  have h2 := hp.2.1 ⟨x, hx, h1⟩ x hx h1
  obtain ⟨t, ht⟩ := hB
  have hx' := mem_box.1 hx
  refine absurd ht (not_le.2 (lt_of_lt_of_eq h2 (Finset.sum_congr rfl fun j _ => ?_)))
  have hj : (x j - p j + n * t j) ^ 2 ≤ (r : ℤ) ^ 2 :=
    (Finset.single_le_sum (f := fun j => (x j - p j + n * t j) ^ 2) (fun i _ => sq_nonneg _) (Finset.mem_univ j)).trans ht
  have ha := abs_le_of_sq_le_sq' hj (by positivity)
  have t0 : t j = 0 := by
    have hf := hface j
    have hxj := hx' j
    by_contra hne
    rcases lt_or_gt_of_ne hne with hlt | hgt
    · have : (n : ℤ) * t j ≤ n * (-1) := mul_le_mul_of_nonneg_left (by omega) (by positivity)
      linarith
    · have : (n : ℤ) * 1 ≤ n * t j := mul_le_mul_of_nonneg_left (by omega) (by positivity)
      linarith
  rw [t0]
  ring

/-- **C131 is false for overlaps**: the distance to the ionised cells is not periodic but the bubbles are. With one ionised
cell in a corner of a box of ten cells, the opposite corner is chosen although its bubble covers the ionised cell. -/
theorem C131_overlap_false (void : Cell → Prop) :
    let c : Cube := fun x => if x = fun _ => 9 then 1 else 0
    Candidate .anticlustered 10 2 void c (fun _ => 0) ∧ Ball 10 2 (fun _ => 0) (fun _ => 9) := by
  intro c
  refine ⟨⟨mem_box.2 fun j => ⟨le_refl _, by norm_num⟩, fun _ y _ hy => ?_, fun hne => ?_⟩, fun _ => -1, by simp⟩
  · have hy' : y = fun _ => 9 := by
      by_contra hne
      simp only [c, if_neg hne] at hy
      norm_num at hy
    rw [hy']
    simp
  · exact absurd ⟨fun _ => 9, mem_box.2 fun j => ⟨by norm_num, by norm_num⟩, by simp [c]⟩ hne

/-- **C131 is false for large bubbles**, wider than the box but not larger than the target: the call raises. -/
theorem C131_size_false {mode : Mode} {n r batch maxIter : ℕ} (hr : n < 2 * r + 1) (hm : 0 < maxIter) (hb : 0 < batch)
    {void : Cell → Prop} {target : ℝ} {choose : Choice} (hv : Valid mode n r batch void choose)
    (hvol : 4 * Real.pi / 3 * (r : ℝ) ^ 3 * batch < target * (n : ℝ) ^ 3)
    (hcand : ∃ x, Candidate mode n r void (fun _ => 0) x) :
    bubbleModel mode n r batch maxIter void target choose none = .error .value := by
  unfold bubbleModel
  have hm0 : mean n (fun _ => 0) = 0 := by simp [mean]
  simp only [Option.getD_none]
  rw [hm0, sub_zero]
  have h1 : 4 * Real.pi / 3 * (r : ℝ) ^ 3 < target * (n : ℝ) ^ 3 := by
    refine lt_of_le_of_lt ?_ hvol
    have h0 : (0 : ℝ) ≤ 4 * Real.pi / 3 * (r : ℝ) ^ 3 := by positivity
    have h2 : (1 : ℝ) ≤ batch := by exact_mod_cast hb
    nlinarith
  rw [if_neg (not_le.2 h1), if_neg (not_le.2 hvol)]
  obtain ⟨m, rfl⟩ : ∃ m, maxIter = m + 1 := ⟨maxIter - 1, by omega⟩
  unfold loop
  rw [if_pos hcand]
  have hl := (hv 0 _ hcand).1
  unfold paintKernel
  rw [if_pos ⟨by intro h; rw [h] at hl; simp at hl; omega, hr⟩]

/-- **C131 is false for cubes with other values**: painting doubles them first, so that a cell between a quarter and a half,
outside all bubbles, becomes ionised with the first bubble. -/
theorem C131_grey_false {n r : ℕ} (hr : 2 * r + 1 ≤ n) (c : Cube) (p : Cell) {x : Cell} (hx : x ∈ box n)
    (h1 : 1 / 4 ≤ c x) (hB : ¬ Ball n r p x) :
    ∃ c', paintKernel n (ball r) (2 * r + 1) c [p] = .ok c' ∧ threshold c' x = 1 := by
  classical
  refine ⟨paintOne n (ball r) (2 * r + 1) c p, ?_, ?_⟩
  · unfold paintKernel
    rw [if_neg (by omega)]
    rfl
  · unfold threshold
    rw [paint_ball hr c p hx, if_neg hB, if_pos (by linarith)]

/-- **C131 is false for the argument**: the array given as `cube` is painted into; its ionised cells have the value two
after the first bubble, or more. -/
theorem C131_argument_false {n r : ℕ} (hr : 2 * r + 1 ≤ n) {choose : Choice} {c : Cube} {S : Cell → Prop}
    (h : Marks n c S) (p : Cell) (hp : choose 0 c = [p]) :
    ∃ c', argumentAfter n r choose c = .ok c' ∧ ∀ x ∈ box n, S x → 2 ≤ c' x := by
  classical
  refine ⟨paintOne n (ball r) (2 * r + 1) c p, ?_, fun x hx hS => ?_⟩
  · unfold argumentAfter paintKernel
    rw [hp, if_neg (by omega)]
    rfl
  · have h1 : c x = 1 := by
      rcases h x hx with ⟨-, h'⟩ | ⟨h', -⟩
      · exact h'
      · exact absurd hS h'
    rw [paint_ball hr c p hx, h1]
    split_ifs <;> norm_num

/-- **C131, errors**: without a cell of value zero the random choice of a centre raises, even where the target is not
reached; an unknown distribution is refused before anything else. -/
theorem C131_raises {n r batch m : ℕ} {void : Cell → Prop} {target : ℝ} {choose : Choice} {c : Cube}
    (h : ∀ x ∈ box n, c x ≠ 0) (hvol : 4 * Real.pi / 3 * (r : ℝ) ^ 3 < (target - mean n c) * (n : ℝ) ^ 3)
    (hvol2 : 4 * Real.pi / 3 * (r : ℝ) ^ 3 * batch < (target - mean n c) * (n : ℝ) ^ 3) :
    bubbleModel .poisson n r batch (m + 1) void target choose (some c) = .error .value ∧
    ∀ name : String, name ∉ ["poisson", "uniform-random", "anticlustered", "anti-clustered", "non-overlapping",
      "nonoverlapping"] → modeOf name = .error .assertion := by
  constructor
  · unfold bubbleModel
    simp only [Option.getD_some]
    rw [if_neg (not_le.2 hvol), if_neg (not_le.2 hvol2)]
    unfold loop
    rw [if_neg]
    rintro ⟨x, hx, h0⟩
    exact h x hx h0
  · intro name hn
    simp only [List.mem_cons, List.not_mem_nil, or_false, not_or] at hn
    unfold modeOf
    rw [if_neg (by tauto), if_neg (by tauto)]

/-- **C131, names**: the first two names choose among all neutral cells, the other four among those far from ionised ones. -/
theorem C131_names : modeOf "poisson" = .ok .poisson ∧ modeOf "uniform-random" = .ok .poisson ∧
    ∀ name ∈ ["anticlustered", "anti-clustered", "non-overlapping", "nonoverlapping"], modeOf name = .ok .anticlustered := by
  refine ⟨by simp [modeOf], by simp [modeOf], fun name h => ?_⟩
  simp only [List.mem_cons, List.not_mem_nil, or_false] at h
  rcases h with rfl | rfl | rfl | rfl <;> simp [modeOf]

/-! ## Examples -/

theorem marks_zero (n : ℕ) : Marks n (Option.getD none fun _ => 0) fun _ => False := fun _ _ => Or.inr ⟨not_false, rfl⟩

theorem filling_none (n : ℕ) : filling n (fun _ => False) = 0 := by simp [filling]

example : bubbleModel .poisson 10 2 1 100 (fun _ => True) 0.9 (fun _ _ => []) (some fun _ => 0.3) = .error .value ∧
    ∀ name : String, name ∉ ["poisson", "uniform-random", "anticlustered", "anti-clustered", "non-overlapping",
      "nonoverlapping"] → modeOf name = .error .assertion := by
  have hpi := Real.pi_lt_d2
  have hm : mean 10 (fun _ => 0.3) = 0.3 := by
    simp [mean, box]
    norm_num
  refine C131_raises (fun _ _ => by norm_num) ?_ ?_ <;> rw [hm] <;> norm_num <;> linarith

example : bubbleModel .poisson 10 10 1 100 (fun _ => True) 0.5 (fun _ _ => []) (some fun _ => 0) = .ok fun _ => 0 :=
  C131_small _ _ _ _ _ _ _ _ _ (marks_zero 10) (Or.inl (by rw [filling_none]; have := Real.pi_gt_three; norm_num; linarith))

theorem far_ball : ¬ Ball 10 1 (fun _ => 0) (fun _ => 5) := by
  rintro ⟨t, ht⟩
  have hj := (Finset.single_le_sum (f := fun j => ((5 : ℤ) - 0 + (10 : ℕ) * t j) ^ 2) (fun i _ => sq_nonneg _)
    (Finset.mem_univ 0)).trans ht
  have := abs_le_of_sq_le_sq' hj (by norm_num)
  push_cast at this
  omega

open Classical in
/-- Choices of the first candidate found. -/
noncomputable def someChoice (mode : Mode) (n r batch : ℕ) (void : Cell → Prop) : Choice := fun _ c =>
  if h : ∃ x, Candidate mode n r void c x then List.replicate batch h.choose else []

theorem someChoice_valid (mode : Mode) (n r batch : ℕ) (void : Cell → Prop) :
    Valid mode n r batch void (someChoice mode n r batch void) := by
  intro i c h
  unfold someChoice
  rw [dif_pos h]
  refine ⟨List.length_replicate, fun p hp => ?_⟩
  rw [List.eq_of_mem_replicate hp]
  exact h.choose_spec

theorem zero_candidate : ∃ x, Candidate .poisson 10 5 (fun _ => True) (fun _ => 0) x :=
  ⟨fun _ => 0, mem_box.2 fun _ => ⟨le_refl _, by norm_num⟩, rfl⟩

example : bubbleModel .poisson 10 5 1 100 (fun _ => True) 0.6 (someChoice .poisson 10 5 1 fun _ => True) none =
    .error .value :=
  C131_size_false (by norm_num) (by norm_num) (by norm_num) (someChoice_valid _ _ _ _ _)
    (by have := Real.pi_lt_d2; norm_num; linarith) zero_candidate

theorem loop_ok {mode : Mode} {n r : ℕ} (hr : 2 * r + 1 ≤ n) {void : Cell → Prop} {target : ℝ}
    {choose : Choice} (c : Cube) (h0 : ∃ x, Candidate mode n r void c x) : ∃ c', loop mode n r void target choose 1 0 c = .ok c' := by
  unfold loop
  rw [if_pos h0]
  unfold paintKernel
  rw [if_neg (by omega)]
  simp only []
  split_ifs
  · exact ⟨_, rfl⟩
  · exact ⟨_, rfl⟩

example : ∃ c, bubbleModel .poisson 10 1 1 1 (fun _ => True) 0.6 (someChoice .poisson 10 1 1 fun _ => True) none = .ok c ∧
    ∃ bs : List (List Cell), Marks 10 c (grow 10 1 (fun _ => False) bs) ∧ Fresh 10 1 (fun _ => False) bs ∧
      (∀ b ∈ bs, b.length = 1) ∧ bs.length ≤ 1 ∧
      (bs.length < 1 → (0.6 : ℝ) ≤ filling 10 (grow 10 1 (fun _ => False) bs) ∨ Mode.poisson = .anticlustered) ∧
      (∀ k < bs.length, filling 10 (grow 10 1 (fun _ => False) (bs.take k)) < 0.6) ∧
      filling 10 (grow 10 1 (fun _ => False) bs) < 0.6 + (1 : ℕ) * ballSize 1 / ((10 : ℕ) : ℝ) ^ 3 := by
  have hpi := Real.pi_lt_d2
  have hv : 4 * Real.pi / 3 * ((1 : ℕ) : ℝ) ^ 3 < (0.6 - filling 10 (fun _ => False)) * ((10 : ℕ) : ℝ) ^ 3 := by
    rw [filling_none]
    norm_num
    linarith
  have hv2 : 4 * Real.pi / 3 * ((1 : ℕ) : ℝ) ^ 3 * (1 : ℕ) < (0.6 - filling 10 (fun _ => False)) * ((10 : ℕ) : ℝ) ^ 3 := by
    rw [Nat.cast_one (R := ℝ), mul_one]
    simpa using hv
  obtain ⟨c', hc'⟩ := loop_ok (mode := .poisson) (n := 10) (r := 1) (by norm_num) (void := fun _ => True)
    (target := 0.6) (choose := someChoice .poisson 10 1 1 fun _ => True) (fun _ => 0)
    ⟨fun _ => 0, mem_box.2 fun _ => ⟨le_refl _, by norm_num⟩, rfl⟩
  have hok : bubbleModel .poisson 10 1 1 1 (fun _ => True) 0.6 (someChoice .poisson 10 1 1 fun _ => True) none =
      .ok (clip c') := by
    unfold bubbleModel
    simp only []
    rw [mean_filling (marks_zero 10), if_neg (not_le.2 hv), if_neg (not_le.2 hv2), Option.getD_none, hc']
  exact ⟨_, hok, C131_partial (by norm_num) (someChoice_valid _ _ _ _ _) (marks_zero 10) hv hv2 hok⟩

example : ∃ c', paintKernel 10 (ball 1) (2 * 1 + 1) (fun _ => 0.3) [fun _ => 0] = .ok c' ∧ threshold c' (fun _ => 5) = 1 :=
  C131_grey_false (by norm_num) _ _ (mem_box.2 fun _ => ⟨by norm_num, by norm_num⟩) (by norm_num) far_ball

example : ∃ c', paintKernel 10 (ball 1) 3 (fun _ => 1) [fun _ => 0] = .ok c' ∧ c' (fun _ => 5) = 2 := by
  obtain ⟨c', h, e⟩ := C131_paint_false (n := 10) (k := 3) (by norm_num) (ball 1) (fun _ => 1) fun _ => 0
  refine ⟨c', h, ?_⟩
  rw [e _ (mem_box.2 fun _ => ⟨by norm_num, by norm_num⟩), if_neg]
  · norm_num
  · intro h
    have := h 0
    norm_num at this

/-- A cube with one ionised corner. -/
noncomputable def corner : Cube := fun x => if x = fun _ => 0 then 1 else 0

theorem corner_marks (n : ℕ) : Marks n corner fun x => x = fun _ => 0 := by
  intro x _
  unfold corner
  by_cases h : x = fun _ => 0
  · exact Or.inl ⟨h, if_pos h⟩
  · exact Or.inr ⟨h, if_neg h⟩

example : ∃ c', argumentAfter 10 2 (fun _ _ => [fun _ => 5]) corner = .ok c' ∧ 2 ≤ c' fun _ => 0 := by
  obtain ⟨c', h, e⟩ := C131_argument_false (n := 10) (r := 2) (by norm_num) (choose := fun _ _ => [fun _ => 5])
    (corner_marks 10) (fun _ => 5) rfl
  exact ⟨c', h, e _ (mem_box.2 fun _ => ⟨by norm_num, by norm_num⟩) rfl⟩

example {x : Cell} (hx : x ∈ box 10) (hB : Ball 10 2 (fun _ => 5) x) : ¬ x = fun _ => 0 := by
  refine C131_overlap_partial (void := fun _ => False) (corner_marks 10) ⟨mem_box.2 fun _ => ⟨by norm_num, by norm_num⟩,
    fun _ y _ hy => ?_, fun hne => ?_⟩ (fun _ => ⟨by norm_num, by norm_num⟩) hx hB
  · have hy' : y = fun _ => 0 := by
      by_contra hne
      unfold corner at hy
      rw [if_neg hne] at hy
      norm_num at hy
    rw [hy']
    simp
  · exact absurd ⟨fun _ => 0, mem_box.2 fun j => ⟨by norm_num, by norm_num⟩, by simp [corner]⟩ hne

/-- **C131, range.** Whatever values the given cube has: a call that reaches the loop returns values between zero and one; without an
iteration, those of the cube with larger ones lowered to one and negative ones raised to zero. -/
theorem C131_range (mode : Mode) (n r batch maxIter : ℕ) (void : Cell → Prop) (target : ℝ) (choose : Choice) (cube : Cube)
    (hvol : 4 * Real.pi / 3 * (r : ℝ) ^ 3 < (target - (∑ x ∈ box n, cube x) / (n : ℝ) ^ 3) * (n : ℝ) ^ 3)
    (hvol2 : 4 * Real.pi / 3 * (r : ℝ) ^ 3 * batch < (target - (∑ x ∈ box n, cube x) / (n : ℝ) ^ 3) * (n : ℝ) ^ 3) :
    (∀ c, bubbleModel mode n r batch maxIter void target choose (some cube) = .ok c → ∀ x, 0 ≤ c x ∧ c x ≤ 1) ∧
    bubbleModel mode n r batch 0 void target choose (some cube) = .ok fun x => max 0 (min 1 (cube x)) := by
  have hb : ∀ k, bubbleModel mode n r batch k void target choose (some cube) =
      match loop mode n r void target choose k 0 cube with
      | .error e => .error e
      | .ok c' => .ok (clip c') := by
    intro k
    unfold bubbleModel
    simp only [Option.getD_some]
    have hm : mean n cube = (∑ x ∈ box n, cube x) / (n : ℝ) ^ 3 := rfl
    rw [hm, if_neg (not_le.2 hvol), if_neg (not_le.2 hvol2)]
    cases loop mode n r void target choose k 0 cube <;> rfl
  constructor
  · intro c hc x
    rw [hb] at hc
    cases hl : loop mode n r void target choose maxIter 0 cube with
    | error e => rw [hl] at hc; cases hc
    | ok c' =>
      rw [hl] at hc
      cases hc
      unfold clip
      split_ifs with h1 h2
      · norm_num
      · norm_num
      · exact ⟨not_lt.1 h2, not_lt.1 h1⟩
  · rw [hb]
    show Except.ok _ = _
    congr 1
    funext x
    unfold clip
    split_ifs with h1 h2
    · rw [min_eq_left h1.le]; norm_num
    · rw [min_eq_right (by linarith), max_eq_left h2.le]
    · rw [min_eq_right (not_lt.1 h1), max_eq_right (not_lt.1 h2)]

example : bubbleModel .poisson 10 1 1 0 (fun _ => True) 0.5 (fun _ _ => []) (some fun _ => -1) = .ok fun _ => 0 := by
  have hc : ∑ _x ∈ box 10, (-1 : ℝ) = -1000 := by
    rw [Finset.sum_const, box, Fintype.card_piFinset]
    simp
  have := Real.pi_lt_d2
  rw [(C131_range .poisson 10 1 1 0 (fun _ => True) 0.5 (fun _ _ => []) (fun _ => -1) (by rw [hc]; norm_num; linarith)
    (by rw [hc]; norm_num; linarith)).2]
  norm_num

end Verif.BubbleModel
