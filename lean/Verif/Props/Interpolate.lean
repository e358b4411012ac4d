import Verif.Model.Interpolate
import Verif.Lemmas.Convolve
import Mathlib.Algebra.Order.Floor.Ring
import Mathlib.Data.Fin.VecNotation
import Mathlib.Tactic.Linarith
import Mathlib.Tactic.NormNum
import Mathlib.Tactic.FieldSimp
import Mathlib.Data.List.GetD
/-!
# Properties of `interpolate2d` and `interpolate3d` (C162)
-/

namespace Verif.Interpolate
open Verif.Convolve

/-! ## Specification -/

/-- A function of the coordinates is the multilinear interpolation of the array: it has the values of the cells at integer
coordinates, and along every axis it is linear between two neighbouring cells. -/
structure Multilinear {d : ℕ} (a : Arr (Fin d) ℝ) (f : (Fin d → ℝ) → ℝ) : Prop where
  cell : ∀ i ∈ box a.shape, f (fun j => i j) = a.val i
  line : ∀ (c : Fin d → ℝ) (j : Fin d) (i : ℤ) (t : ℝ), (∀ l, 0 ≤ c l ∧ c l ≤ a.shape l - 1) → 0 ≤ i → i + 1 < a.shape j →
    0 ≤ t → t ≤ 1 → f (Function.update c j (i + t)) = (1 - t) * f (Function.update c j i) + t * f (Function.update c j (i + 1))

/-- The value at one point. -/
noncomputable def at' {d : ℕ} (order : Order) (a : Arr (Fin d) ℝ) (c : Fin d → ℝ) : ℝ := (interpolate order a fun j => [c j]).val 0

/-! ## Lemmas -/

theorem wrap_inside {n : ℕ} {c : ℝ} (h0 : 0 ≤ c) (h1 : c ≤ n - 1) : wrap n c = c := by
  unfold wrap
  rw [if_neg (not_lt.2 h0), if_neg (not_lt.2 h1)]

theorem at_eq {d : ℕ} (order : Order) (a : Arr (Fin d) ℝ) (c : Fin d → ℝ) :
    at' order a c = spline order a.val fun j => wrap (a.shape j) (c j) := by
  unfold at' interpolate
  simp

theorem at_inside {d : ℕ} (order : Order) (a : Arr (Fin d) ℝ) (c : Fin d → ℝ) (hc : ∀ j, 0 ≤ c j ∧ c j ≤ a.shape j - 1) :
    at' order a c = spline order a.val c := by
  rw [at_eq]
  congr 1
  funext j
  exact wrap_inside (hc j).1 (hc j).2

theorem spline_int {d : ℕ} (order : Order) (a : (Fin d → ℤ) → ℝ) (i : Fin d → ℤ) : spline order a (fun j => (i j : ℝ)) = a i := by
  cases order with
  | zero =>
    unfold spline
    simp only []
    congr 1
    funext j
    rw [Int.floor_intCast_add]
    norm_num
  | one =>
    unfold spline
    simp only [Int.fract_intCast, sub_zero, Int.floor_intCast]
    rw [Finset.sum_eq_single 0]
    · simp
    · intro e _ he
      obtain ⟨j, hj⟩ : ∃ j, e j ≠ 0 := by
        by_contra h
        push Not at h
        exact he (funext h)
      rw [Finset.prod_eq_zero (Finset.mem_univ j) (by rw [if_neg hj]), zero_mul]
    · simp

/-- One axis taken out of the sum. -/
theorem spline_axis {d : ℕ} (a : (Fin (d + 1) → ℤ) → ℝ) (c : Fin (d + 1) → ℝ) (j : Fin (d + 1)) (x : ℝ) :
    spline .one a (Function.update c j x) =
      ∑ e : Fin d → Fin 2, (∏ l, if e l = 0 then 1 - Int.fract (c (j.succAbove l)) else Int.fract (c (j.succAbove l))) *
        ((1 - Int.fract x) * a (j.insertNth ⌊x⌋ fun l => ⌊c (j.succAbove l)⌋ + (e l : ℕ)) +
          Int.fract x * a (j.insertNth (⌊x⌋ + 1) fun l => ⌊c (j.succAbove l)⌋ + (e l : ℕ))) := by
  unfold spline
  simp only []
  rw [← (Fin.insertNthEquiv (fun _ => Fin 2) j).sum_comp, Fintype.sum_prod_type, Finset.sum_comm]
  refine Finset.sum_congr rfl fun e _ => ?_
  have hins : ∀ b : Fin 2, (fun l => ⌊Function.update c j x l⌋ + (((Fin.insertNthEquiv (fun _ => Fin 2) j) (b, e) l : Fin 2) : ℕ) : Fin (d + 1) → ℤ) =
      j.insertNth (⌊x⌋ + (b : ℕ)) fun l => ⌊c (j.succAbove l)⌋ + (e l : ℕ) := by
    intro b
    rw [Fin.eq_insertNth_iff]
    constructor
    · simp
    · funext l
      simp [Fin.removeNth, Fin.succAbove_ne]
  rw [Fin.sum_univ_two, hins, hins, Fin.prod_univ_succAbove _ j, Fin.prod_univ_succAbove _ j]
  simp [Fin.succAbove_ne]
  ring

theorem fract_between {i : ℤ} {t : ℝ} (h0 : 0 ≤ t) (h1 : t < 1) : ⌊(i : ℝ) + t⌋ = i ∧ Int.fract ((i : ℝ) + t) = t := by
  have : ⌊(i : ℝ) + t⌋ = i := by
    rw [Int.floor_eq_iff]
    constructor <;> linarith
  refine ⟨this, ?_⟩
  unfold Int.fract
  rw [this]
  ring

theorem spline_line {d : ℕ} (a : (Fin (d + 1) → ℤ) → ℝ) (c : Fin (d + 1) → ℝ) (j : Fin (d + 1)) (i : ℤ) (t : ℝ) (h0 : 0 ≤ t)
    (h1 : t ≤ 1) : spline .one a (Function.update c j (i + t)) =
      (1 - t) * spline .one a (Function.update c j i) + t * spline .one a (Function.update c j (i + 1)) := by
  rcases h1.eq_or_lt with rfl | h1
  · simp
  · obtain ⟨e1, e2⟩ := fract_between (i := i) h0 h1
    have e3 : (i : ℝ) + 1 = ((i + 1 : ℤ) : ℝ) := by push_cast; rfl
    rw [e3, spline_axis, spline_axis, spline_axis, e1, e2]
    simp only [Int.fract_intCast, Int.floor_intCast, sub_zero, one_mul, zero_mul, add_zero]
    rw [Finset.mul_sum, Finset.mul_sum, ← Finset.sum_add_distrib]
    refine Finset.sum_congr rfl fun e _ => ?_
    ring

/-! ## C162 -/

/-- **C162, partial**: with `order=1` the result inside the box is the multilinear interpolation.  The full property: also across the
edges of the periodic box, and by default. -/
theorem C162_partial {d : ℕ} (a : Arr (Fin d) ℝ) : Multilinear a (at' .one a) where
  cell i hi := by
    rw [at_inside, spline_int]
    intro j
    have := (mem_box _ _).1 hi j
    have h1 : i j + 1 ≤ a.shape j := by omega
    have h2 : ((i j : ℝ) + 1) ≤ a.shape j := by exact_mod_cast h1
    exact ⟨by exact_mod_cast this.1, by linarith⟩
  line c j i t hc hi hn h0 h1 := by
    cases d with
    | zero => exact j.elim0
    | succ d =>
      have hin : ∀ s : ℝ, 0 ≤ s → s ≤ 1 → ∀ l, 0 ≤ Function.update c j (i + s) l ∧ Function.update c j (i + s) l ≤ a.shape l - 1 := by
        intro s hs hs' l
        by_cases hl : l = j
        · subst hl
          have : ((i : ℝ) + 2) ≤ a.shape l := by exact_mod_cast (by omega : i + 2 ≤ a.shape l)
          have : (0 : ℝ) ≤ i := by exact_mod_cast hi
          simp only [Function.update_self]
          constructor <;> linarith
        · simp only [Function.update_of_ne hl]
          exact hc l
      have e0 : (i : ℝ) = i + 0 := (add_zero _).symm
      rw [at_inside _ _ _ (hin t h0 h1), at_inside _ _ _ (hin 1 zero_le_one le_rfl), spline_line a.val c j i t h0 h1]
      have := at_inside .one a _ (hin 0 le_rfl zero_le_one)
      rw [add_zero] at this
      rw [this]

/-- Every coordinate of the result is interpolated on its own, and the shape is that of the lists of coordinates. -/
theorem C162_grid {d : ℕ} (order : Order) (a : Arr (Fin d) ℝ) (coords : Fin d → List ℝ) :
    (∀ j, (interpolate order a coords).shape j = (coords j).length) ∧
      ∀ i : Fin d → ℕ, (interpolate order a coords).val (fun j => i j) = at' order a fun j => (coords j).getD (i j) 0 := by
  refine ⟨fun _ => rfl, fun i => ?_⟩
  rw [at_eq]
  unfold interpolate
  simp

/-- A line of cells with the values of their indices. -/
def ramp (n : ℕ) : Arr (Fin 1) ℝ := ⟨fun _ => n, fun i => i 0⟩

/-- By default the value of the nearest cell is returned (of the upper one half way). -/
theorem C162_nearest {d : ℕ} (a : Arr (Fin d) ℝ) (c : Fin d → ℝ) (i : Fin d → ℤ) (hc : ∀ j, 0 ≤ c j ∧ c j ≤ a.shape j - 1)
    (hi : ∀ j, -(1 / 2) ≤ c j - i j ∧ c j - i j < 1 / 2) : at' defaultOrder a c = a.val i := by
  rw [at_inside _ _ _ hc]
  show a.val _ = a.val i
  congr 1
  funext j
  rw [Int.floor_eq_iff]
  have := hi j
  constructor <;> linarith

/-- **C162 is false** by default: `order=0` is not the linear interpolation that the documentation promises. -/
theorem C162_default_false : ∃ a : Arr (Fin 1) ℝ, ¬ Multilinear a (at' defaultOrder a) := by
  refine ⟨ramp 2, fun h => ?_⟩
  have h1 := h.line (fun _ => 0) 0 0 (1 / 4) (by intro l; simp [ramp]) le_rfl (by simp [ramp]) (by norm_num) (by norm_num)
  have v : ∀ (x : ℝ) (i : ℤ), 0 ≤ x → x ≤ 1 → -(1 / 2) ≤ x - i → x - i < 1 / 2 →
      at' defaultOrder (ramp 2) (Function.update (fun _ => 0) 0 x) = i := by
    intro x i h0 h1 h2 h3
    have hu : Function.update (fun _ : Fin 1 => (0 : ℝ)) 0 x = fun _ => x := by
      funext l
      rw [Subsingleton.elim l 0, Function.update_self]
    rw [hu, C162_nearest (ramp 2) (fun _ => x) (fun _ => i) ?_ (fun _ => ⟨h2, h3⟩)]
    · rfl
    · intro l
      refine ⟨h0, ?_⟩
      simp only [ramp]
      norm_num
      exact h1
  rw [v _ 0 (by norm_num) (by norm_num) (by norm_num) (by norm_num), v _ 0 (by norm_num) (by norm_num) (by norm_num) (by norm_num),
    v _ 1 (by norm_num) (by norm_num) (by norm_num) (by norm_num)] at h1
  norm_num at h1

/-- Beyond the last cell the coordinates repeat with one cell less than the period of the box. -/
theorem C162_wrap (n : ℕ) (hn : 2 ≤ n) (c : ℝ) (h0 : (n : ℝ) - 1 < c) (h1 : c < 2 * (n - 1)) (order : Order) (v : (Fin 1 → ℤ) → ℝ) :
    at' order ⟨fun _ => n, v⟩ (fun _ => c) = at' order ⟨fun _ => n, v⟩ (fun _ => c - (n - 1)) := by
  have hn' : (2 : ℝ) ≤ n := by exact_mod_cast hn
  rw [at_eq, at_eq]
  congr 1
  funext _
  show wrap n c = wrap n (c - (n - 1))
  rw [wrap_inside (n := n) (c := c - (n - 1)) (by linarith) (by linarith)]
  have hf : ⌊c / ((n : ℝ) - 1)⌋ = 1 := by
    rw [Int.floor_eq_iff, le_div_iff₀ (by linarith), div_lt_iff₀ (by linarith)]
    push_cast
    constructor <;> linarith
  unfold wrap
  rw [if_neg (by linarith), if_pos h0, if_neg (by omega), hf]
  push_cast
  ring

/-- Outside of the box, on either side and along any axis, coordinates are moved into it by a multiple of one cell less than its length; an axis
of one cell has one value. -/
theorem C162_outside {d : ℕ} (order : Order) (a : Arr (Fin d) ℝ) (c : Fin d → ℝ) (j : Fin d) :
    (2 ≤ a.shape j → ∀ k : ℤ, (c j < 0 ∧ 0 < c j + k * (a.shape j - 1) ∧ c j + k * (a.shape j - 1) ≤ a.shape j - 1) ∨
        ((a.shape j : ℝ) - 1 < c j ∧ 0 ≤ c j + k * (a.shape j - 1) ∧ c j + k * (a.shape j - 1) < a.shape j - 1) →
      at' order a c = at' order a (Function.update c j (c j + k * (a.shape j - 1)))) ∧
    (a.shape j = 1 → at' order a c = at' order a (Function.update c j 0)) := by
  have key : ∀ t, wrap (a.shape j) (c j) = wrap (a.shape j) t → at' order a c = at' order a (Function.update c j t) := by
    intro t ht
    rw [at_eq, at_eq]
    congr 1
    funext l
    by_cases hl : l = j
    · subst hl
      rw [Function.update_self, ht]
    · rw [Function.update_of_ne hl]
  constructor
  · intro hn k hk
    apply key
    have hn' : (2 : ℝ) ≤ a.shape j := by exact_mod_cast hn
    rcases hk with ⟨h0, h1, h2⟩ | ⟨h0, h1, h2⟩
    · rw [wrap_inside h1.le h2]
      have hf : ⌊-c j / ((a.shape j : ℝ) - 1)⌋ = k - 1 := by
        rw [Int.floor_eq_iff, le_div_iff₀ (by linarith), div_lt_iff₀ (by linarith)]
        push_cast
        constructor <;> linarith
      unfold wrap
      rw [if_pos h0, if_neg (by omega), hf]
      push_cast
      ring
    · rw [wrap_inside h1 h2.le]
      have hf : ⌊c j / ((a.shape j : ℝ) - 1)⌋ = -k := by
        rw [Int.floor_eq_iff, le_div_iff₀ (by linarith), div_lt_iff₀ (by linarith)]
        push_cast
        constructor <;> linarith
      unfold wrap
      rw [if_neg (by linarith), if_pos h0, if_neg (by omega), hf]
      push_cast
      ring
  · intro h1
    apply key
    rw [wrap_inside le_rfl (by rw [h1]; norm_num), h1]
    unfold wrap
    split
    · simp
    · split
      · simp
      · rename_i h2 h3
        push_cast at h3
        linarith

example : at' .one (ramp 4) (fun _ => -7 / 2) = at' .one (ramp 4) (fun _ => 5 / 2) := by
  have h := (C162_outside .one (ramp 4) (fun _ => -7 / 2) 0).1 (by simp [ramp]) 2 (by left; simp [ramp]; norm_num)
  rw [h]
  congr 1
  funext l
  rw [Subsingleton.elim l 0, Function.update_self]
  simp [ramp]
  norm_num

/-- **C162 is false** across the edge: one whole period beyond cell 0 is cell 1, with both orders. -/
theorem C162_periodic_false (order : Order) : ∃ (a : Arr (Fin 1) ℝ), at' order a (fun _ => (0 : ℝ) + a.shape 0) ≠ at' order a (fun _ => 0) := by
  refine ⟨ramp 3, ?_⟩
  have e : ∀ i : ℤ, 0 ≤ i → i ≤ 2 → at' order (ramp 3) (fun _ => (i : ℝ)) = i := by
    intro i h0 h2
    rw [at_inside, spline_int order (ramp 3).val (fun _ => i)]
    · rfl
    · intro j
      have : (i : ℝ) ≤ 2 := by exact_mod_cast h2
      refine ⟨by exact_mod_cast h0, ?_⟩
      simp only [ramp]
      push_cast
      linarith
  have w := C162_wrap 3 (by norm_num) 3 (by norm_num) (by norm_num) order (ramp 3).val
  have h0 := e 0 (by norm_num) (by norm_num)
  have h1 := e 1 (by norm_num) (by norm_num)
  have s : ((0 : ℝ) + ((ramp 3).shape 0 : ℕ)) = 3 := by simp [ramp]
  rw [s]
  have w' : at' order (ramp 3) (fun _ => (3 : ℝ)) = at' order (ramp 3) (fun _ => ((1 : ℤ) : ℝ)) := by
    have t : (fun _ : Fin 1 => (3 : ℝ) - ((3 : ℕ) - 1)) = fun _ => ((1 : ℤ) : ℝ) := by funext _; norm_num
    rw [t] at w
    exact w
  have h0' : at' order (ramp 3) (fun _ => (0 : ℝ)) = 0 := by simpa using h0
  rw [w', h1, h0']
  norm_num

/-! ## Examples -/

/-- Half way between the first two of four cells. -/
example : at' .one (ramp 4) (Function.update (fun _ => 0) 0 (((0 : ℤ) : ℝ) + 1 / 2)) =
    (1 - 1 / 2) * at' .one (ramp 4) (Function.update (fun _ => 0) 0 ((0 : ℤ) : ℝ)) +
      1 / 2 * at' .one (ramp 4) (Function.update (fun _ => 0) 0 (((0 : ℤ) : ℝ) + 1)) :=
  (C162_partial (ramp 4)).line _ 0 0 (1 / 2) (by intro l; simp [ramp]) le_rfl (by simp [ramp]) (by norm_num) (by norm_num)

example : at' defaultOrder (ramp 4) (fun _ => 7 / 4) = 2 :=
  (C162_nearest (ramp 4) (fun _ => 7 / 4) (fun _ => 2) (by intro j; simp only [ramp]; norm_num) (by intro j; norm_num)).trans
    (by simp [ramp])

example : at' .one ⟨fun _ => 4, (ramp 4).val⟩ (fun _ => 7 / 2) = at' .one ⟨fun _ => 4, (ramp 4).val⟩ (fun _ => 7 / 2 - ((4 : ℕ) - 1)) :=
  C162_wrap 4 (by norm_num) (7 / 2) (by norm_num) (by norm_num) .one _

example : (interpolate .one (ramp 4) fun _ => [1 / 2, 2]).shape 0 = 2 := (C162_grid .one (ramp 4) fun _ => [1 / 2, 2]).1 0

end Verif.Interpolate
