import Verif.Model.HTransform
import Mathlib.Algebra.Order.BigOperators.Group.Finset
import Mathlib.Data.Fintype.BigOperators
import Mathlib.Tactic.Linarith
import Mathlib.Tactic.Ring
import Mathlib.Tactic.NormNum
import Mathlib.Data.Fin.VecNotation
/-!
# The h-transform (C216)
-/

namespace Verif.HTransform

variable {ι : Type} [Fintype ι] [DecidableEq ι] {s : ι → ℕ}

/-! ## Specification -/

/-- Two different cells that touch, at least by a corner. -/
def Touch (x y : Cell s) : Prop := x ≠ y ∧ ∀ i, (x i : ℕ) ≤ y i + 1 ∧ (y i : ℕ) ≤ x i + 1

/-- A peak: all cells that touch it are lower. -/
def Peak (f : Cell s → ℝ) (x : Cell s) : Prop := ∀ y, Touch x y → f y < f x

/-- A peak that is to be smoothed out: one goes from it to a higher cell over a cell that is lower by less than `h`. -/
def Bump (f : Cell s → ℝ) (h : ℝ) (x : Cell s) : Prop := Peak f x ∧ ∃ y z, Touch x y ∧ Touch y z ∧ f x - h < f y ∧ f x < f z

/-! ## Lemmas -/

theorem mem_nbhd (x y : Cell s) : y ∈ nbhd x ↔ y = x ∨ Touch x y := by
  unfold nbhd Touch
  rw [Finset.mem_filter]
  constructor
  · rintro ⟨-, h⟩
    by_cases e : y = x
    · exact Or.inl e
    · refine Or.inr ⟨fun h => e h.symm, fun i => ?_⟩
      have := h i
      omega
  · rintro (rfl | ⟨-, h⟩)
    · exact ⟨Finset.mem_univ _, fun i => by simp⟩
    · refine ⟨Finset.mem_univ _, fun i => ?_⟩
      have := h i
      omega

theorem Touch.symm {x y : Cell s} (h : Touch x y) : Touch y x := ⟨h.1.symm, fun i => (h.2 i).symm⟩

theorem iter_succ (mask seed : Cell s → ℝ) (n : ℕ) : iter mask seed (n + 1) = step mask (iter mask seed n) := Function.iterate_succ_apply' _ _ _

theorem step_le_mask (mask r : Cell s → ℝ) (x : Cell s) : step mask r x ≤ mask x := min_le_left _ _

theorem le_step {mask r : Cell s → ℝ} (h : ∀ x, r x ≤ mask x) (x : Cell s) : r x ≤ step mask r x :=
  le_min (h x) (Finset.le_sup' r (self_mem x))

theorem iter_le_mask {mask seed : Cell s → ℝ} (h : ∀ x, seed x ≤ mask x) (n : ℕ) (x : Cell s) : iter mask seed n x ≤ mask x := by
  cases n with
  | zero => exact h x
  | succ n => rw [iter_succ]; exact step_le_mask _ _ _

theorem iter_mono {mask seed : Cell s → ℝ} (h : ∀ x, seed x ≤ mask x) (n : ℕ) (x : Cell s) : iter mask seed n x ≤ iter mask seed (n + 1) x := by
  rw [iter_succ]
  exact le_step (iter_le_mask h n) x

theorem seed_le_iter {mask seed : Cell s → ℝ} (h : ∀ x, seed x ≤ mask x) (n : ℕ) (x : Cell s) : seed x ≤ iter mask seed n x := by
  induction n with
  | zero => exact le_rfl
  | succ n ih => exact ih.trans (iter_mono h n x)

theorem iter_values (mask seed : Cell s → ℝ) (n : ℕ) (x : Cell s) :
    iter mask seed n x ∈ Finset.univ.image seed ∪ Finset.univ.image mask := by
  induction n generalizing x with
  | zero => exact Finset.mem_union_left _ (Finset.mem_image_of_mem _ (Finset.mem_univ x))
  | succ n ih =>
    rw [iter_succ]
    unfold step
    rcases min_choice (mask x) ((nbhd x).sup' ⟨x, self_mem x⟩ (iter mask seed n)) with e | e
    · rw [e]
      exact Finset.mem_union_right _ (Finset.mem_image_of_mem _ (Finset.mem_univ x))
    · rw [e]
      obtain ⟨y, -, hy⟩ := Finset.exists_mem_eq_sup' ⟨x, self_mem x⟩ (iter mask seed n)
      rw [hy]
      exact ih y

/-- The dilations come to an end. -/
theorem exists_stable {mask seed : Cell s → ℝ} (h : ∀ x, seed x ≤ mask x) : ∃ n, step mask (iter mask seed n) = iter mask seed n := by
  by_contra hn
  push Not at hn
  set V := Finset.univ.image seed ∪ Finset.univ.image mask with hV
  set rank : ℕ → ℕ := fun n => ∑ x : Cell s, (V.filter (· ≤ iter mask seed n x)).card with hr
  have hlt : ∀ n, rank n < rank (n + 1) := by
    intro n
    obtain ⟨x, hx⟩ := Function.ne_iff.1 (hn n)
    rw [← iter_succ] at hx
    refine Finset.sum_lt_sum (fun y _ => ?_) ⟨x, Finset.mem_univ x, ?_⟩
    · exact Finset.card_le_card (Finset.monotone_filter_right _ fun v _ hv => le_trans hv (iter_mono h n y))
    · refine Finset.card_lt_card ⟨Finset.monotone_filter_right _ fun v _ hv => le_trans hv (iter_mono h n x), fun hs => ?_⟩
      have hm := hs (Finset.mem_filter.2 ⟨iter_values mask seed (n + 1) x, le_rfl⟩)
      exact hx (le_antisymm (Finset.mem_filter.1 hm).2 (iter_mono h n x))
  have hge : ∀ n, n ≤ rank n := by
    intro n
    induction n with
    | zero => exact Nat.zero_le _
    | succ n ih => exact lt_of_le_of_lt ih (hlt n)
  have hle : ∀ n, rank n ≤ Fintype.card (Cell s) * V.card := by
    intro n
    refine (Finset.sum_le_card_nsmul _ _ V.card fun x _ => Finset.card_filter_le _ _).trans ?_
    simp
  have h1 := hge (Fintype.card (Cell s) * V.card + 1)
  have h2 := hle (Fintype.card (Cell s) * V.card + 1)
  omega

theorem iter_stable {mask seed : Cell s → ℝ} {n : ℕ} (h : step mask (iter mask seed n) = iter mask seed n) (k : ℕ) :
    iter mask seed (n + k) = iter mask seed n := by
  induction k with
  | zero => rfl
  | succ k ih => rw [← Nat.add_assoc, iter_succ, ih, h]

/-- What the reconstruction is: the last of the dilations. -/
theorem reconstruction_ok {mask seed : Cell s → ℝ} (h : ∀ x, seed x ≤ mask x) {n : ℕ} (hn : step mask (iter mask seed n) = iter mask seed n) :
    reconstruction seed mask = .ok (iter mask seed n) := by
  classical
  unfold reconstruction
  have he : ∃ n, step mask (iter mask seed n) = iter mask seed n := ⟨n, hn⟩
  rw [if_neg (by push Not; exact h), dif_pos he]
  obtain ⟨k, hk⟩ := Nat.exists_eq_add_of_le (Nat.find_min' he hn)
  have hf := Nat.find_spec he
  rw [hk]
  congr 1
  exact (iter_stable hf k).symm

theorem hTransform_ok [Nonempty (Cell s)] (f : Cell s → ℝ) {h : ℝ} (hh : 0 ≤ h) : ∃ n,
    step f (iter f (fun x => f x - h) n) = iter f (fun x => f x - h) n ∧ hTransform f h = .ok fun x => f x - iter f (fun x => f x - h) n x := by
  have hs : ∀ x, f x - h ≤ f x := fun x => by linarith
  obtain ⟨n, hn⟩ := exists_stable hs
  refine ⟨n, hn, ?_⟩
  unfold hTransform
  rw [if_neg (not_isEmpty_of_nonempty _), reconstruction_ok hs hn]

theorem iter_shift (mask seed : Cell s → ℝ) (c : ℝ) (n : ℕ) (x : Cell s) :
    iter (fun y => mask y + c) (fun y => seed y + c) n x = iter mask seed n x + c := by
  induction n generalizing x with
  | zero => rfl
  | succ n ih =>
    rw [iter_succ, iter_succ]
    unfold step
    rw [← min_add_add_right]
    congr 1
    refine le_antisymm (Finset.sup'_le _ _ fun y hy => ?_) ?_
    · rw [ih y]
      linarith [Finset.le_sup' (iter mask seed n) hy]
    · obtain ⟨y, hy, e⟩ := Finset.exists_mem_eq_sup' ⟨x, self_mem x⟩ (iter mask seed n)
      rw [e, ← ih y]
      exact Finset.le_sup' (iter (fun y => mask y + c) (fun y => seed y + c) n) hy

/-! ## C216 -/

/-- **C216** (partial).  The transform exists for `h ≥ 0`; its values are between 0 and `h`, and equal to `h` at the highest cells; a constant added to the image
does not change it.  Missing: that it has no peaks where the image only has bumps (`C216_false`). -/
theorem C216_partial [Nonempty (Cell s)] (f : Cell s → ℝ) {h : ℝ} (hh : 0 ≤ h) : ∃ d, hTransform f h = .ok d ∧ (∀ x, 0 ≤ d x ∧ d x ≤ h) ∧
    (∀ x, (∀ y, f y ≤ f x) → d x = h) ∧ ∀ c, hTransform (fun x => f x + c) h = .ok d := by
  have hs : ∀ x, f x - h ≤ f x := fun x => by linarith
  obtain ⟨n, hn, hd⟩ := hTransform_ok f hh
  refine ⟨_, hd, fun x => ⟨?_, ?_⟩, fun x hx => ?_, fun c => ?_⟩
  · linarith [iter_le_mask hs n x]
  · linarith [seed_le_iter hs n x]
  · have key : ∀ k y, iter f (fun x => f x - h) k y ≤ f x - h := by
      intro k
      induction k with
      | zero =>
        intro y
        show f y - h ≤ _
        linarith [hx y]
      | succ k ih =>
        intro y
        rw [iter_succ]
        exact (min_le_right _ _).trans (Finset.sup'_le _ _ fun z _ => ih z)
    linarith [key n x, seed_le_iter hs n x]
  · have e : (fun x => f x + c - h) = fun x => (f x - h) + c := funext fun x => by ring
    have hs' : ∀ x, f x - h + c ≤ f x + c := fun x => by linarith
    have hn' : step (fun y => f y + c) (iter (fun y => f y + c) (fun y => f y - h + c) n) = iter (fun y => f y + c) (fun y => f y - h + c) n := by
      rw [← iter_succ]
      funext x
      rw [iter_shift f (fun y => f y - h), iter_shift f (fun y => f y - h), iter_succ, hn]
    unfold hTransform
    rw [if_neg (not_isEmpty_of_nonempty _), e, reconstruction_ok hs' hn']
    dsimp only
    congr 1
    funext x
    rw [iter_shift f (fun y => f y - h)]
    ring

/-- Every peak of the image is one of the transform, for every positive `h`: no peak is smoothed out. -/
theorem C216_peaks [Nonempty (Cell s)] (f : Cell s → ℝ) {h : ℝ} (hh : 0 < h) : ∃ d, hTransform f h = .ok d ∧ ∀ x, Peak f x → Peak d x := by
  have hs : ∀ x, f x - h ≤ f x := fun x => by linarith
  obtain ⟨n, hn, hd⟩ := hTransform_ok f hh.le
  refine ⟨_, hd, fun x hx y hy => ?_⟩
  have hp : ∀ k, iter f (fun x => f x - h) k x < f x := by
    intro k
    induction k with
    | zero =>
      show f x - h < f x
      linarith
    | succ k ih =>
      rw [iter_succ]
      refine (min_le_right _ _).trans_lt ((Finset.sup'_lt_iff _).2 fun z hz => ?_)
      rcases (mem_nbhd x z).1 hz with rfl | hz
      · exact ih
      · exact (iter_le_mask hs k z).trans_lt (hx z hz)
  have hxn := hp n
  have hyx := hx y hy
  have hq : min (f y) (iter f (fun x => f x - h) n x) ≤ iter f (fun x => f x - h) n y := by
    conv_rhs => rw [← hn]
    exact min_le_min le_rfl (Finset.le_sup' _ ((mem_nbhd y x).2 (Or.inr hy.symm)))
  show f y - iter f (fun x => f x - h) n y < f x - iter f (fun x => f x - h) n x
  rcases min_le_iff.1 hq with h1 | h1 <;> linarith

/-- A peak of height one next to a higher one is still there for `h = 3`. -/
theorem C216_false : ∃ (f : Cell (fun _ : Fin 1 => 4) → ℝ) (d : Cell (fun _ : Fin 1 => 4) → ℝ) (x : Cell (fun _ : Fin 1 => 4)),
    Bump f 3 x ∧ hTransform f 3 = .ok d ∧ Peak d x := by
  let f : Cell (fun _ : Fin 1 => 4) → ℝ := fun x => ![10, 4, 5, 0] (x 0)
  have hP : Peak f (fun _ => 2) := by
    rintro y ⟨h1, h2⟩
    have := h2 0
    have hy : y = fun _ => y 0 := funext fun i => by rw [Subsingleton.elim i 0]
    generalize y 0 = k at hy this
    subst hy
    match k with
    | 0 => simp at this
    | 1 => show (4 : ℝ) < 5; norm_num
    | 2 => exact absurd rfl h1
    | 3 => show (0 : ℝ) < 5; norm_num
  have : Nonempty (Cell (fun _ : Fin 1 => 4)) := ⟨fun _ => 2⟩
  obtain ⟨d, hd, hp⟩ := C216_peaks f (h := 3) (by norm_num)
  refine ⟨f, d, fun _ => 2, ⟨hP, fun _ => 1, fun _ => 0, ⟨?_, fun _ => ⟨(by decide : (2 : ℕ) ≤ 1 + 1), (by decide : (1 : ℕ) ≤ 2 + 1)⟩⟩,
    ⟨?_, fun _ => ⟨(by decide : (1 : ℕ) ≤ 0 + 1), (by decide : (0 : ℕ) ≤ 1 + 1)⟩⟩, ?_, ?_⟩, hd, hp _ hP⟩
  · intro h
    exact absurd (congrFun h 0) (by decide)
  · intro h
    exact absurd (congrFun h 0) (by decide)
  · show (5 : ℝ) - 3 < 4
    norm_num
  · show (5 : ℝ) < 10
    norm_num

/-- A negative `h` and an array without cells raise. -/
theorem C216_raises (f : Cell s → ℝ) (h : ℝ) : (h < 0 → hTransform f h = .error .value) ∧ (IsEmpty (Cell s) → hTransform f h = .error .value) := by
  refine ⟨fun hh => ?_, fun he => if_pos he⟩
  by_cases he : IsEmpty (Cell s)
  · exact if_pos he
  · obtain ⟨x⟩ := not_isEmpty_iff.1 he
    unfold hTransform reconstruction
    rw [if_neg he, if_pos ⟨x, by linarith⟩]

example : Nonempty (Cell (fun _ : Fin 3 => 5)) ∧ (0 : ℝ) < 1 / 2 := ⟨⟨fun _ => 0⟩, by norm_num⟩

end Verif.HTransform
