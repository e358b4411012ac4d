import Verif.Model.UVDaily
import Verif.Props.UVGrid
import Mathlib.Data.Multiset.Basic
import Mathlib.Data.Multiset.MapFold
import Mathlib.Tactic.Abel
/-!
# C248: the UV map knows the positions of the antennas only relative to each other and without their order
-/

namespace Verif.UVDaily

open Verif.UVGrid

/-! ## Specification -/

/-- The antennas in another order give the same map. -/
def OrderFree (n : ℕ) (lam theta total int decl : ℝ) (mirror : Bool) : Prop :=
  ∀ xs ys : List V3, xs.Perm ys →
    daily n lam theta total int decl mirror xs = daily n lam theta total int decl mirror ys

/-- The cell of the opposite baseline on a periodic grid. -/
def opposite (n : ℕ) (i : ℤ) : ℤ := (-i) % n

/-! ## Proofs -/

theorem pairs_map {α β : Type} (f : α → β) (l : List α) : pairs (l.map f) = (pairs l).map fun p => (f p.1, f p.2) := by
  induction l with
  | nil => rfl
  | cons a l ih =>
    simp only [List.map_cons, pairs, List.map_append, List.map_map, ih]
    rfl

/-- Moving the whole array of antennas changes nothing. -/
theorem C248_moved (n : ℕ) (lam theta total int decl : ℝ) (mirror : Bool) (t : V3) (xs : List V3) :
    daily n lam theta total int decl mirror (xs.map (· + t)) = daily n lam theta total int decl mirror xs := by
  have h : baselines lam (xs.map (· + t)) = baselines lam xs := by
    unfold baselines
    rw [pairs_map, List.map_map]
    refine List.map_congr_left fun p _ => ?_
    funext j
    simp only [Function.comp, Pi.add_apply]
    ring
  unfold daily
  rw [h, List.length_map]

/-- All pairs in both orders. -/
def both {α : Type} (l : List α) : List (α × α) := pairs l ++ (pairs l).map Prod.swap

theorem both_perm {α : Type} {l m : List α} (h : l.Perm m) : (both l).Perm (both m) := by
  unfold both
  induction h with
  | nil => exact .refl _
  | @cons a l m h ih =>
    have e : (l.map fun b => (a, b)).Perm (m.map fun b => (a, b)) := h.map _
    have e' := e.map Prod.swap
    rw [← Multiset.coe_eq_coe] at *
    simp only [pairs, List.map_append, ← Multiset.coe_add] at *
    rw [e, e']
    calc _ = (↑(m.map fun b => (a, b)) + ↑((m.map fun b => (a, b)).map Prod.swap) : Multiset _) +
          (↑(pairs l) + ↑((pairs l).map Prod.swap)) := by abel
      _ = _ := by rw [ih]; abel
  | swap a b l =>
    rw [← Multiset.coe_eq_coe]
    simp only [pairs, List.map_append, List.map_cons, List.cons_append, ← Multiset.coe_add, ← Multiset.cons_coe,
      ← Multiset.singleton_add, Prod.swap_prod_mk]
    abel
  | trans _ _ h1 h2 => exact h1.trans h2

theorem pairs_length_perm {α : Type} {l m : List α} (h : l.Perm m) : (pairs l).length = (pairs m).length := by
  have := (both_perm h).length_eq
  unfold both at this
  simp only [List.length_append, List.length_map] at this
  omega

theorem earthRotation_neg (H d : ℝ) (b : V3) : earthRotation H d (-b) = -earthRotation H d b := by
  funext j
  fin_cases j <;> simp [earthRotation] <;> ring

theorem gridUV_perm {n : ℕ} {a b : List (ℤ × ℤ)} (h : a.Perm b) (i j : ℤ) : gridUV n a i j = gridUV n b i j := by
  unfold gridUV fftshift flat
  exact (h.filter _).countP_eq _

/-- The rotated baselines with their mirror images are all pairs in both orders. -/
theorem mirrored_eq (int total decl lam : ℝ) (s : ℕ) (xs : List V3) :
    rotated int total decl s (baselines lam xs) ++ (rotated int total decl s (baselines lam xs)).map (fun b => -b) =
      (both xs).map fun p => earthRotation (hourAngle s int total * Real.pi / 180) (decl * Real.pi / 180)
        (fun j => (p.1 j - p.2 j) / lam) := by
  unfold rotated baselines both
  rw [List.map_append, List.map_map, List.map_map, List.map_map]
  congr 1
  refine List.map_congr_left fun p _ => ?_
  simp only [Function.comp, ← earthRotation_neg]
  congr 1
  funext j
  simp only [Pi.neg_apply, Prod.fst_swap, Prod.snd_swap]
  ring

/-- With mirrored baselines the order of the antennas does not matter. -/
theorem C248_mirror (n : ℕ) (lam theta total int decl : ℝ) : OrderFree n lam theta total int decl true := by
  intro xs ys h
  have hl : (baselines lam xs).length = (baselines lam ys).length := by
    unfold baselines
    rw [List.length_map, List.length_map, pairs_length_perm h]
  have hs : ∀ t i j, snapshot n theta true (rotated int total decl t (baselines lam xs)) i j =
      snapshot n theta true (rotated int total decl t (baselines lam ys)) i j := by
    intro t i j
    unfold snapshot
    simp only [if_true, mirrored_eq]
    rw [gridUV_perm (((both_perm h).map _).map _)]
  unfold daily
  simp only [hl, hs, h.length_eq]

/-- Three antennas on a line in two orders. -/
example : ([![0, 0, 0], ![0, 1, 0], ![0, 3, 0]] : List V3).Perm [![0, 3, 0], ![0, 1, 0], ![0, 0, 0]] :=
  (List.reverse_perm _).symm

theorem roundEven_neg (x : ℝ) : Binning.roundEven (-x) = -Binning.roundEven x := by
  have h0 := Int.floor_le x
  have h1 := Int.lt_floor_add_one x
  by_cases hi : x = ⌊x⌋
  · generalize ⌊x⌋ = f at hi
    subst hi
    have e : ⌊-(f : ℝ)⌋ = -f := by rw [← Int.cast_neg, Int.floor_intCast]
    unfold Binning.roundEven
    rw [e, Int.floor_intCast, if_pos (by push_cast; norm_num), if_pos (by norm_num)]
  · have hlt : (⌊x⌋ : ℝ) < x := lt_of_le_of_ne h0 fun q => hi q.symm
    have e : ⌊-x⌋ = -⌊x⌋ - 1 := by
      rw [Int.floor_eq_iff]
      push_cast
      constructor <;> linarith
    unfold Binning.roundEven
    rw [e]
    push_cast
    have ev : Even (-⌊x⌋ - 1) ↔ ¬ Even ⌊x⌋ := by
      rw [Int.even_sub_one, even_neg]
    split_ifs <;> first
      | omega
      | (exfalso; linarith)
      | (exfalso; tauto)

theorem cellOf_neg (theta : ℝ) (b : V3) : cellOf theta (-b) = (-(cellOf theta b).1, -(cellOf theta b).2) := by
  unfold cellOf
  simp only [Pi.neg_apply, neg_mul, roundEven_neg]

/-- On an even grid the mirrored map is the mean of the map at a cell and at the opposite one. -/
theorem snapshot_mean {n : ℕ} (he : n % 2 = 0) (theta : ℝ) (bs : List V3) {i j : ℤ} (hi0 : 0 ≤ i) (hi : i < n)
    (hj0 : 0 ≤ j) (hj : j < n) (hi2 : 2 * i ≠ n) (hj2 : 2 * j ≠ n) :
    snapshot n theta false bs i j + snapshot n theta false bs (opposite n i) (opposite n j) =
      2 * snapshot n theta true bs i j := by
  have hn : 0 < n := by omega
  have hn' : (0 : ℤ) < n := by exact_mod_cast hn
  have h := (C65_partial n hn he (bs.map (cellOf theta)) i j hi0 hi hj0 hj hi2 hj2).2
  have hm : (bs.map fun b => -b).map (cellOf theta) = (bs.map (cellOf theta)).map fun b => (-b.1, -b.2) := by
    rw [List.map_map, List.map_map]
    exact List.map_congr_left fun b _ => cellOf_neg theta b
  unfold snapshot
  simp only [if_true, Bool.false_eq_true, if_false, List.map_append, hm]
  unfold gridUVMirror at h
  unfold opposite
  rw [h, C29_partial n hn he _ i j hi0 hi hj0 hj, C29_partial n hn he _ _ _ (Int.emod_nonneg _ hn'.ne')
    (Int.emod_lt_of_pos _ hn') (Int.emod_nonneg _ hn'.ne') (Int.emod_lt_of_pos _ hn')]
  ring

/-- Without mirrored baselines, which is the default, the order of the antennas decides only which of two opposite cells
counts a baseline: the same calls fail, and on even grids the counts of a cell and the opposite one together do not depend on
the order.  Missing: the counts of the cells themselves (`C248_false`). -/
theorem C248_partial {n : ℕ} (he : n % 2 = 0) (lam theta total int decl : ℝ) {xs ys : List V3} (h : xs.Perm ys) :
    (∃ e, daily n lam theta total int decl false xs = .error e ∧ daily n lam theta total int decl false ys = .error e) ∨
    ∃ A B, daily n lam theta total int decl false xs = .ok (A, xs.length) ∧
      daily n lam theta total int decl false ys = .ok (B, xs.length) ∧
      ∀ i j : ℤ, 0 ≤ i → i < n → 0 ≤ j → j < n → 2 * i ≠ n → 2 * j ≠ n →
        A i j + A (opposite n i) (opposite n j) = B i j + B (opposite n i) (opposite n j) := by
  have hl : (baselines lam xs).length = (baselines lam ys).length := by
    unfold baselines
    rw [List.length_map, List.length_map, pairs_length_perm h]
  have hs : ∀ t i j, snapshot n theta true (rotated int total decl t (baselines lam xs)) i j =
      snapshot n theta true (rotated int total decl t (baselines lam ys)) i j := by
    intro t i j
    unfold snapshot
    simp only [if_true, mirrored_eq]
    rw [gridUV_perm (((both_perm h).map _).map _)]
  unfold daily
  rw [← hl, ← h.length_eq]
  by_cases h1 : int = 0
  · simp only [if_pos h1]
    exact .inl ⟨_, rfl, rfl⟩
  simp only [if_neg h1]
  by_cases h2 : Conversions.trunc (total * 3600 / int) = 0
  · simp only [if_pos h2]
    exact .inl ⟨_, rfl, rfl⟩
  simp only [if_neg h2]
  by_cases h3 : Conversions.trunc (total * 3600 / int) < 0
  · simp only [if_pos h3]
    exact .inr ⟨_, _, rfl, rfl, fun _ _ _ _ _ _ _ _ => rfl⟩
  simp only [if_neg h3]
  by_cases h4 : (baselines lam xs).length = 0 ∨ (baselines lam xs).length = 1
  · simp only [and_true, if_pos h4]
    exact .inl ⟨_, rfl, rfl⟩
  simp only [and_true, if_neg h4]
  refine .inr ⟨_, _, rfl, rfl, fun i j hi0 hi hj0 hj hi2 hj2 => ?_⟩
  rw [← add_div, ← add_div, ← List.sum_map_add, ← List.sum_map_add]
  simp only [snapshot_mean he theta _ hi0 hi hj0 hj hi2 hj2, hs]

theorem roundEven_int (k : ℤ) : Binning.roundEven k = k := by
  unfold Binning.roundEven
  rw [Int.floor_intCast, if_pos (by norm_num)]

/-- Twelve hours after the meridian, on the equator. -/
theorem rotated_half (bs : List V3) :
    (rotated 86400 24 0 1 bs).map (cellOf 1) = bs.map fun b => (Binning.roundEven (-b 1), Binning.roundEven (b 2)) := by
  unfold rotated
  rw [List.map_map]
  refine List.map_congr_left fun b _ => ?_
  have e : hourAngle 1 86400 24 * Real.pi / 180 = Real.pi := by
    unfold hourAngle
    norm_num
  simp only [Function.comp, e, cellOf]
  simp [earthRotation]

/-- By default the map depends on the order of the antennas: three antennas in a row, in opposite orders. -/
theorem C248_false : ¬ ∀ (n : ℕ) (lam theta total int decl : ℝ), 0 < lam → 0 < theta → 0 < total → 0 < int →
    OrderFree n lam theta total int decl false := by
  intro h
  have h1 := h 8 1 1 24 86400 0 one_pos one_pos (by norm_num) (by norm_num)
    [![0, 0, 0], ![0, 1, 0], ![0, 3, 0]] [![0, 3, 0], ![0, 1, 0], ![0, 0, 0]] (List.reverse_perm _).symm
  have ht : Conversions.trunc (24 * 3600 / 86400) = 1 := by
    unfold Conversions.trunc
    norm_num
  unfold daily at h1
  simp only [ht] at h1
  have hl : (baselines 1 [![0, 0, 0], ![0, 1, 0], ![0, 3, 0]]).length = 3 := rfl
  have hl' : (baselines 1 [![0, 3, 0], ![0, 1, 0], ![0, 0, 0]]).length = 3 := rfl
  rw [hl, hl', if_neg (by norm_num), if_neg (by norm_num), if_neg (by norm_num), if_neg (by norm_num),
    if_neg (by norm_num), if_neg (by norm_num), if_neg (by norm_num), if_neg (by norm_num)] at h1
  have h2 := congrFun (congrFun (Prod.mk.inj (Except.ok.inj h1)).1 1) 0
  simp only [Int.toNat_one, List.range_one, List.map_cons, List.map_nil, List.sum_cons, List.sum_nil, Nat.cast_one, div_one,
    add_zero, Nat.zero_add, snapshot, Bool.false_eq_true, if_false, rotated_half, baselines, pairs, List.map_append,
    List.nil_append, List.cons_append] at h2
  have r : ∀ (k : ℤ) (x : ℝ), x = k → Binning.roundEven x = k := fun k x h => h ▸ roundEven_int k
  have c2 : ∀ x y z : ℝ, (![x, y, z] : V3) 2 = z := fun _ _ _ => rfl
  have c1 : ∀ x y z : ℝ, (![x, y, z] : V3) 1 = y := fun _ _ _ => rfl
  simp only [c1, c2] at h2
  rw [r 1 (-(0 - 1)) (by norm_num), r 0 (0 - 0) (by norm_num), r 3 (-(0 - 3)) (by norm_num),
    r 2 (-(1 - 3)) (by norm_num), r (-2) (-(3 - 1)) (by norm_num), r (-3) (-(3 - 0)) (by norm_num),
    r (-1) (-(1 - 0)) (by norm_num)] at h2
  exact absurd h2 (by
    rw [show gridUV 8 [(1, 0), (3, 0), (2, 0)] 1 0 = 1 by decide +kernel,
      show gridUV 8 [(-2, 0), (-3, 0), (-1, 0)] 1 0 = 0 by decide +kernel]
    norm_num)

/-- C248, when the map exists: an observation with at least one time slice needs three antennas, or two with mirrored baselines, and
counts the antennas. -/
theorem C248_runs (n : ℕ) (lam theta total int decl : ℝ) (mirror : Bool) (xs : List V3) (hi : 0 < int) (ht : int ≤ total * 3600) :
    (3 ≤ xs.length ∨ (xs.length = 2 ∧ mirror = true) → ∃ A, daily n lam theta total int decl mirror xs = .ok (A, xs.length)) ∧
    (xs.length ≤ 1 ∨ (xs.length = 2 ∧ mirror = false) → daily n lam theta total int decl mirror xs = .error "IndexError") := by
  have h1 : 1 ≤ total * 3600 / int := by rwa [le_div_iff₀ hi, one_mul]
  have hT : 0 < Conversions.trunc (total * 3600 / int) := by
    unfold Conversions.trunc
    rw [if_pos (by linarith)]
    exact Int.floor_pos.2 h1
  have hp := pairs_length xs
  have hb : (baselines lam xs).length = (pairs xs).length := by unfold baselines; rw [List.length_map]
  unfold daily
  rw [if_neg hi.ne', if_neg hT.ne', if_neg (by omega), hb]
  generalize xs.length = m at hp
  constructor
  · rintro (h | ⟨rfl, rfl⟩)
    · obtain ⟨k, rfl⟩ := Nat.exists_eq_add_of_le h
      have : 2 * (pairs xs).length ≥ 6 := by
        rw [hp, show 3 + k - 1 = 2 + k by omega]
        nlinarith
      rw [if_neg (by omega)]
      exact ⟨_, rfl⟩
    · rw [if_neg (by rintro (h | ⟨-, h⟩) <;> [omega; cases h])]
      exact ⟨_, rfl⟩
  · rintro (h | ⟨rfl, rfl⟩)
    · have : m = 0 ∨ m = 1 := by omega
      rcases this with rfl | rfl <;> rw [if_pos (.inl (by omega))]
    · rw [if_pos (.inr ⟨by omega, rfl⟩)]

example : (0 : ℝ) < 60 ∧ (60 : ℝ) ≤ 6 * 3600 ∧ ([![0, 0, 0], ![0, 1, 0]] : List V3).length = 2 := by norm_num

end Verif.UVDaily
