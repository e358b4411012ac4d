import Verif.Model.Thresholds
import Mathlib.Data.List.GetD
import Mathlib.Data.Rat.Defs
import Mathlib.Algebra.Order.Ring.Rat
import Mathlib.Tactic.Linarith
import Mathlib.Tactic.NormNum
import Mathlib.Tactic.FinCases
import Mathlib.Data.Fintype.Basic
import Mathlib.Algebra.BigOperators.Group.List.Basic
/-!
# Specification and theorems for C193: regions below or above a threshold
-/

namespace Verif.Thresholds

variable {K : Type} [Field K] [LinearOrder K]

/-! ## Specification -/

/-- `v` is the value number `r`, counted from 0, of the values `xs` in increasing order. -/
def IsOrder (xs : List K) (r : ℕ) (v : K) : Prop :=
  v ∈ xs ∧ (xs.countP fun x => decide (x < v)) ≤ r ∧ r < xs.countP fun x => decide (x ≤ v)

/-- `t` is the median of `xs`: halfway between the two values in the middle, which are the same for an odd number. -/
def IsMedian (xs : List K) (t : K) : Prop :=
  ∃ lo hi, IsOrder xs ((xs.length - 1) / 2) lo ∧ IsOrder xs (xs.length / 2) hi ∧ t = (lo + hi) / 2

/-- The values of the slice number `i` perpendicular to the axis `a`, in the order of memory. -/
def sliceOf (data : Cube K) (a : Fin 3) (i : ℕ) : List K :=
  match a with
  | 0 => (List.range data.d1).flatMap fun j => (List.range data.d2).map fun k => data.at_ i j k
  | 1 => (List.range data.d0).flatMap fun j => (List.range data.d2).map fun k => data.at_ j i k
  | 2 => (List.range data.d0).flatMap fun j => (List.range data.d1).map fun k => data.at_ j k i

/-- The length of the axis `a`. -/
def len (data : Cube K) (a : Fin 3) : ℕ :=
  match a with
  | 0 => data.d0
  | 1 => data.d1
  | 2 => data.d2

/-- Python's names of an axis of a cube: 0, 1, 2 or -3, -2, -1. -/
def Names (l : ℤ) (a : Fin 3) : Prop := l = (a : ℕ) ∨ l = (a : ℕ) - 3

/-- The marked cells of a cube of the same shape are those at most (at least) the threshold. -/
def Regions (data : Cube K) (r : Cube Bool) (upper : Bool) (t : K) : Prop :=
  (r.d0, r.d1, r.d2) = (data.d0, data.d1, data.d2) ∧
    ∀ i j k, r.at_ i j k = true ↔ if upper then data.at_ i j k ≤ t else t ≤ data.at_ i j k

/-- The cube with its values changed. -/
def Cube.map {L : Type} (f : K → L) (data : Cube K) : Cube L :=
  { d0 := data.d0, d1 := data.d1, d2 := data.d2, at_ := fun i j k => f (data.at_ i j k) }

/-- The cube with the first and the last axis exchanged. -/
def Cube.swap02 {L : Type} (data : Cube L) : Cube L :=
  { d0 := data.d2, d1 := data.d1, d2 := data.d0, at_ := fun i j k => data.at_ k j i }

/-! ## Order statistics -/

theorem isOrder_sorted (xs s : List K) (hp : s.Perm xs) (hs : s.Pairwise (· ≤ ·)) (r : ℕ) (hr : r < s.length) :
    IsOrder xs r (s.getD r 0) := by
  rw [List.getD_eq_getElem _ _ hr]
  obtain ⟨v, hv⟩ : ∃ v, v = s[r] := ⟨_, rfl⟩
  rw [← hv]
  have hm : v ∈ s := hv ▸ List.getElem_mem hr
  refine ⟨hp.mem_iff.1 hm, ?_, ?_⟩
  · rw [← hp.countP_eq]
    conv_lhs => rw [← List.take_append_drop r s]
    rw [List.countP_append]
    have h0 : (s.drop r).countP (fun x => decide (x < v)) = 0 := by
      rw [List.countP_eq_zero]
      intro x hx
      obtain ⟨i, hi, rfl⟩ := List.mem_iff_getElem.1 hx
      rw [List.getElem_drop]
      simp only [decide_eq_true_eq, not_lt, hv]
      rcases Nat.eq_zero_or_pos i with rfl | h
      · simp
      · exact (List.pairwise_iff_getElem.1 hs) r (r + i) hr (by simpa [Nat.add_comm] using (by
          rw [List.length_drop] at hi; omega : r + i < s.length)) (by omega)
    rw [h0, Nat.add_zero]
    exact (List.countP_le_length).trans (by rw [List.length_take]; exact Nat.min_le_left _ _)
  · rw [← hp.countP_eq]
    conv_rhs => rw [← List.take_append_drop (r + 1) s]
    rw [List.countP_append]
    have h1 : (s.take (r + 1)).countP (fun x => decide (x ≤ v)) = r + 1 := by
      have : (s.take (r + 1)).length = r + 1 := by rw [List.length_take]; omega
      refine (List.countP_eq_length.2 ?_).trans this
      intro x hx
      obtain ⟨i, hi, rfl⟩ := List.mem_iff_getElem.1 hx
      rw [List.getElem_take]
      simp only [decide_eq_true_eq, hv]
      rcases Nat.lt_or_ge i r with h | h
      · exact (List.pairwise_iff_getElem.1 hs) i r _ hr h
      · rw [List.length_take] at hi
        have : i = r := by omega
        subst this; exact le_rfl
    omega

theorem median_isMedian (xs : List K) (h : xs ≠ []) : IsMedian xs (median xs) := by
  have hp := List.perm_insertionSort (· ≤ ·) xs
  have hs : (xs.insertionSort (· ≤ ·)).Pairwise (· ≤ ·) := List.pairwise_insertionSort _ _
  have hl : 0 < xs.length := List.length_pos_iff.2 h
  refine ⟨_, _, isOrder_sorted xs _ hp hs _ ?_, isOrder_sorted xs _ hp hs _ ?_, ?_⟩
  · rw [hp.length_eq]; omega
  · rw [hp.length_eq]; omega
  · simp only [median, hp.length_eq]

theorem isOrder_unique (xs : List K) (r : ℕ) (v w : K) (hv : IsOrder xs r v) (hw : IsOrder xs r w) : v = w := by
  have key : ∀ a b : K, IsOrder xs r a → IsOrder xs r b → ¬ a < b := by
    intro a b ha hb hab
    have : (xs.countP fun x => decide (x ≤ a)) ≤ xs.countP fun x => decide (x < b) :=
      List.countP_mono_left fun x _ hx => by
        simp only [decide_eq_true_eq] at hx ⊢
        exact lt_of_le_of_lt hx hab
    have h1 := ha.2.2
    have h2 := hb.2.1
    omega
  exact le_antisymm (not_lt.1 (key w v hw hv)) (not_lt.1 (key v w hv hw))

theorem isMedian_unique (xs : List K) (s t : K) (hs : IsMedian xs s) (ht : IsMedian xs t) : s = t := by
  obtain ⟨a, b, ha, hb, rfl⟩ := hs
  obtain ⟨c, d, hc, hd, rfl⟩ := ht
  rw [isOrder_unique xs _ a c ha hc, isOrder_unique xs _ b d hb hd]

theorem regions_mark (data : Cube K) (t : K) (upper : Bool) : Regions data (mark data t upper) upper t := by
  refine ⟨rfl, fun i j k => ?_⟩
  cases upper <;> simp [mark]

theorem slices_eq (data : Cube K) (l : ℤ) (a : Fin 3) (h : Names l a) :
    slices data l = (List.range (len data a)).map (sliceOf data a) := by
  fin_cases a <;> rcases h with h | h <;> norm_num at h <;> subst h <;> rfl

/-! ## C193 -/

/-- A fixed threshold marks the cells at most (at least) the threshold; a cell is marked for one of the two senses at least,
for both just if it is equal to the threshold; and a larger threshold marks more cells below it, fewer above it. -/
theorem C193_fixed (data : Cube K) (t t' : K) (upper : Bool) (h : t ≤ t') (i j k : ℕ) :
    Regions data (fixedThreshold data t upper) upper t ∧
      ((fixedThreshold data t true).at_ i j k = true ∨ (fixedThreshold data t false).at_ i j k = true) ∧
      ((fixedThreshold data t true).at_ i j k = true ∧ (fixedThreshold data t false).at_ i j k = true ↔
        data.at_ i j k = t) ∧
      ((fixedThreshold data t true).at_ i j k = true → (fixedThreshold data t' true).at_ i j k = true) ∧
      ((fixedThreshold data t' false).at_ i j k = true → (fixedThreshold data t false).at_ i j k = true) := by
  have hr := fun s u => (regions_mark data s u).2 i j k
  have h1 := hr t true
  have h2 := hr t false
  have h3 := hr t' true
  have h4 := hr t' false
  simp only [if_true, Bool.false_eq_true, if_false] at h1 h2 h3 h4
  unfold fixedThreshold
  refine ⟨regions_mark _ _ _, ?_, ?_, ?_, ?_⟩
  · rw [h1, h2]; exact le_total _ _
  · rw [h1, h2]; exact le_antisymm_iff.symm
  · rw [h1, h3]; exact fun x => x.trans h
  · rw [h2, h4]; exact fun x => h.trans x

/-- The three dimensional method marks the cells at most (at least) the threshold of all values of the cube. -/
theorem C193_cube (tri : ℕ → List K → K) (data : Cube K) (upper : Bool) (nbins : ℕ) :
    Regions data (triangle3D tri data upper nbins) upper
      (tri nbins ((List.range (len data 0)).flatMap (sliceOf data 0))) :=
  regions_mark _ _ _

/-- The two dimensional method marks the cells at most (at least) the median of the thresholds of the slices perpendicular to
the named axis. -/
theorem C193_partial (tri : ℕ → List K → K) (data : Cube K) (upper : Bool) (nbins : ℕ) (l : ℤ) (a : Fin 3)
    (hl : Names l a) (hpos : 0 < len data a) :
    ∃ t, IsMedian ((List.range (len data a)).map fun i => tri nbins (sliceOf data a i)) t ∧
      Regions data (triangle2D tri data upper nbins l) upper t := by
  refine ⟨_, median_isMedian _ ?_, ?_⟩
  · simpa using hpos.ne'
  · unfold triangle2D
    rw [slices_eq data l a hl, List.map_map]
    exact regions_mark _ _ _

/-- Which axis is the first does not matter: the slices along the last axis of the cube with the first and the last axis
exchanged give the exchanged regions, whatever the threshold of a slice is, as long as it does not depend on the order of the
values. -/
theorem C193_axes (tri : ℕ → List K → K) (htri : ∀ n x y, x.Perm y → tri n x = tri n y) (data : Cube K) (upper : Bool)
    (nbins : ℕ) (i j k : ℕ) :
    (triangle2D tri data.swap02 upper nbins 2).at_ k j i = (triangle2D tri data upper nbins 0).at_ i j k := by
  have key : (slices data.swap02 2).map (tri nbins) = (slices data 0).map (tri nbins) := by
    simp only [slices, Cube.swap02]
    norm_num
    intro a _
    refine htri _ _ _ ?_
    -- the double loop in the other order
    have : ∀ (m n : ℕ) (f : ℕ → ℕ → K),
        ((List.range m).flatMap fun x => (List.range n).map fun y => f x y).Perm
          ((List.range n).flatMap fun y => (List.range m).map fun x => f x y) := by
      intro m
      induction m with
      | zero => intro n f; simp
      | succ m ih =>
        intro n f
        rw [List.range_succ, List.flatMap_append]
        simp only [List.flatMap_singleton, List.map_append, List.map_cons, List.map_nil]
        refine ((ih n f).append_right _).trans ?_
        clear ih
        induction n with
        | zero => simp
        | succ n ih =>
          rw [List.range_succ, List.flatMap_append, List.flatMap_append, List.map_append]
          simp only [List.flatMap_singleton, List.map_cons, List.map_nil]
          refine List.Perm.trans ?_ (ih.append_right _)
          simp only [List.append_assoc]
          refine List.Perm.append_left _ ?_
          rw [← List.append_assoc, ← List.append_assoc]
          exact List.Perm.append_right _ List.perm_append_comm
    exact this _ _ _
  simp only [triangle2D, key]
  rfl

/-- An axis that the cube does not have is not an error: it means the last one. -/
theorem C193_false (tri : ℕ → List K → K) (data : Cube K) (upper : Bool) (nbins : ℕ) (l : ℤ)
    (hl : ∀ a : Fin 3, ¬ Names l a) :
    triangle2D tri data upper nbins l = triangle2D tri data upper nbins 2 := by
  have h0 := hl 0
  have h1 := hl 1
  simp only [Names] at h0 h1
  norm_num at h0 h1
  have h0' : ¬ (l = 0 ∨ l = -3) := by tauto
  have h1' : ¬ (l = 1 ∨ l = -2) := by tauto
  unfold triangle2D slices
  rw [if_neg h0', if_neg h1']
  rfl

/-- The regions above and below a threshold are not the complements of each other: a cell at the threshold is in both. -/
theorem C193_false_both : ∃ data : Cube ℚ, (fixedThreshold data 0 true).at_ 0 0 0 = true ∧
    (fixedThreshold data 0 false).at_ 0 0 0 = true :=
  ⟨⟨1, 1, 1, fun _ _ _ => 0⟩, by decide, by decide⟩

/-! ## Examples -/

/-- A cube of three slices along the last axis with the values 1, 5 and 2. -/
def exCube : Cube ℚ := ⟨1, 1, 3, fun _ _ k => if k = 0 then 1 else if k = 1 then 5 else 2⟩

example : ∃ t, IsMedian ((List.range (len exCube 2)).map fun i => (sliceOf exCube 2 i).getD 0 0) t ∧
    Regions exCube (triangle2D (fun _ x => x.getD 0 0) exCube true 256 2) true t :=
  C193_partial (fun _ x => x.getD 0 0) exCube true 256 2 2 (by norm_num [Names]) (by decide)

example : (triangle2D (fun _ x => x.getD 0 0) exCube true 256 2).at_ 0 0 2 = true ∧
    (triangle2D (fun _ x => x.getD 0 0) exCube true 256 2).at_ 0 0 1 = false ∧
    (triangle2D (fun _ x => x.getD 0 0) exCube true 256 0).at_ 0 0 2 = false := by
  refine ⟨?_, ?_, ?_⟩ <;> decide +kernel

example : ∀ n (x y : List ℚ), x.Perm y → (fun (_ : ℕ) (l : List ℚ) => l.sum) n x = (fun _ l => l.sum) n y :=
  fun _ _ _ h => h.sum_eq

example : (triangle2D (fun _ l => l.sum) exCube.swap02 true 256 2).at_ 1 0 0 =
    (triangle2D (fun _ l => l.sum) exCube true 256 0).at_ 0 0 1 :=
  C193_axes _ (fun _ _ _ h => h.sum_eq) exCube true 256 0 0 1

example : triangle2D (fun _ l => l.sum) exCube true 256 7 = triangle2D (fun _ l => l.sum) exCube true 256 2 :=
  C193_false _ _ _ _ _ fun a => by fin_cases a <;> norm_num [Names]

example : Regions exCube (triangle3D (fun _ l => l.sum / 3) exCube false 10) false (8 / 3) := by
  have := C193_cube (fun _ l => l.sum / 3) exCube false 10
  have h : ((List.range (len exCube 0)).flatMap (sliceOf exCube 0)).sum / 3 = 8 / 3 := by decide +kernel
  rwa [h] at this

example (i j k : ℕ) := C193_fixed exCube 1 2 true (by norm_num) i j k

end Verif.Thresholds
