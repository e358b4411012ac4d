import Verif.Model.SlideBoxes
import Verif.Props.SubBoxes
/-!
# Sliding sub-boxes of the position-dependent power spectrum (C205)
-/

namespace Verif.SlideBoxes
open Verif.SubBoxes

/-! ## Specification -/

/-- The cells of a sub-box of `S` cells along each axis that begins at the cell `s`. -/
def Within (S : ℕ) (s c : Fin 3 → ℕ) : Prop := ∀ d, s d ≤ c d ∧ c d < s d + S

instance (S : ℕ) (s c : Fin 3 → ℕ) : Decidable (Within S s c) := by unfold Within; infer_instance

/-- The cube without what lies outside of a sub-box. -/
def restrict (cube : Cube) (S : ℕ) (s : Fin 3 → ℕ) : Cube := ⟨cube.shape, fun c => if Within S s c then cube.val c else 0⟩

/-- The mean over a sub-box. -/
def boxMean (cube : Cube) (S : ℕ) (s : Fin 3 → ℕ) : ℚ :=
  (∑ c ∈ (cells cube.shape).filter (Within S s), cube.val c) / (S : ℚ) ^ 3

/-- The sum over the sub-boxes that begin at multiples of `t`, `n` along each axis. -/
def overBoxes (n t : ℕ) (f : (Fin 3 → ℕ) → ℚ) : ℚ :=
  ∑ i ∈ Finset.range n, ∑ j ∈ Finset.range n, ∑ k ∈ Finset.range n, f ![i * t, j * t, k * t]

/-! ## Lemmas -/

theorem roundQ_int (x : ℚ) (k : ℤ) (h : x = k) : roundQ x = k := by
  subst h
  unfold roundQ
  rw [Int.floor_intCast, if_pos (by norm_num)]

theorem roundQ_near {x : ℚ} {k : ℤ} (h : |x - k| < 1 / 2) : roundQ x = k := by
  rw [abs_lt] at h
  have h0 := Int.floor_le x
  have h1 := Int.lt_floor_add_one x
  have a1 : ((⌊x⌋ : ℤ) : ℚ) < k + 1 := by linarith
  have a2 : (k : ℚ) < ⌊x⌋ + 2 := by linarith
  have b1 : ⌊x⌋ < k + 1 := by exact_mod_cast a1
  have b2 : k < ⌊x⌋ + 2 := by exact_mod_cast a2
  unfold roundQ
  rcases (by omega : ⌊x⌋ = k ∨ ⌊x⌋ = k - 1) with e | e
  · rw [e] at *
    rw [if_pos (by linarith)]
  · rw [e] at *
    push_cast at *
    rw [if_neg (by linarith), if_pos (by linarith)]
    ring

theorem toInt_int (n : ℤ) : toInt (n : ℚ) = n := by
  unfold toInt
  split_ifs <;> simp

/-- One axis: the window from `i` times the step. -/
theorem axis_slide {L S t i c : ℕ} (shift : ℤ) (ht : (S : ℤ) - shift = t) (hc : c < L) :
    (bound L (toInt ((S : ℚ) * (1 / 2) + ((S : ℚ) - shift) * i - (S : ℚ) / 2)) ≤ c ∧
      (c : ℤ) < bound L (toInt ((S : ℚ) * (1 / 2) + ((S : ℚ) - shift) * i + (S : ℚ) / 2))) ↔ i * t ≤ c ∧ c < i * t + S := by
  have ht' : (S : ℚ) - shift = t := by exact_mod_cast ht
  rw [ht', show (S : ℚ) * (1 / 2) + t * i - S / 2 = ((i * t : ℕ) : ℚ) by push_cast; ring,
    show (S : ℚ) * (1 / 2) + t * i + S / 2 = ((i * t + S : ℕ) : ℚ) by push_cast; ring, toInt_nat, toInt_nat]
  unfold bound
  rw [if_neg (by omega), if_neg (by omega)]
  generalize i * t = p
  rw [min_le_iff, lt_min_iff]
  omega

theorem window_slide {shape : Fin 3 → ℕ} {S t : ℕ} (shift : ℤ) (ht : (S : ℤ) - shift = t) (i j k : ℕ) {c : Fin 3 → ℕ} (hc : c ∈ cells shape) :
    window shape ![(S : ℚ) * (1 / 2) + ((S : ℚ) - shift) * i, (S : ℚ) * (1 / 2) + ((S : ℚ) - shift) * j,
      (S : ℚ) * (1 / 2) + ((S : ℚ) - shift) * k] (fun _ => (S : ℚ)) c = if Within S ![i * t, j * t, k * t] c then 1 else 0 := by
  rw [mem_cells] at hc
  unfold window
  refine if_congr ?_ rfl rfl
  unfold Within
  refine forall_congr' fun d => ?_
  match d with
  | 0 => exact axis_slide shift ht (hc 0)
  | 1 => exact axis_slide shift ht (hc 1)
  | 2 => exact axis_slide shift ht (hc 2)

theorem sum_slide (S : ℕ) (shift : ℤ) (n : ℕ) (f : (Fin 3 → ℚ) → ℚ) :
    ((slideCentres S shift n).map f).sum = ∑ i ∈ Finset.range n, ∑ j ∈ Finset.range n, ∑ k ∈ Finset.range n,
      f ![(S : ℚ) * (1 / 2) + ((S : ℚ) - shift) * i, (S : ℚ) * (1 / 2) + ((S : ℚ) - shift) * j, (S : ℚ) * (1 / 2) + ((S : ℚ) - shift) * k] := by
  simp only [slideCentres]
  rw [sum_flatMap_range]
  refine Finset.sum_congr rfl fun i _ => ?_
  rw [sum_flatMap_range]
  refine Finset.sum_congr rfl fun j _ => ?_
  rw [List.map_map]
  rfl

theorem length_slide (S : ℕ) (shift : ℤ) (n : ℕ) : (slideCentres S shift n).length = n ^ 3 := by
  simp only [slideCentres, List.length_flatMap, List.length_map, List.length_range, List.map_const', List.sum_replicate, smul_eq_mul]
  ring

theorem mean_slide (cube : Cube) {S t : ℕ} (shift : ℤ) (ht : (S : ℤ) - shift = t) (i j k : ℕ) :
    slideMean cube S ![(S : ℚ) * (1 / 2) + ((S : ℚ) - shift) * i, (S : ℚ) * (1 / 2) + ((S : ℚ) - shift) * j,
      (S : ℚ) * (1 / 2) + ((S : ℚ) - shift) * k] = boxMean cube S ![i * t, j * t, k * t] := by
  unfold slideMean boxMean
  rw [show (S : ℚ) * S * S = (S : ℚ) ^ 3 by ring, Finset.sum_filter]
  congr 1
  refine Finset.sum_congr rfl fun c hc => ?_
  show cube.val c * window cube.shape _ _ c = _
  rw [window_slide shift ht i j k hc]
  split_ifs <;> simp

/-- The power spectrum depends on the values of the cells only. -/
def OnCells {κ : Type*} (pk : Cube → κ → ℚ) : Prop :=
  ∀ (s : Fin 3 → ℕ) (f g : (Fin 3 → ℕ) → ℚ), (∀ c ∈ cells s, f c = g c) → pk ⟨s, f⟩ = pk ⟨s, g⟩

theorem cut_slide {κ : Type*} {pk : Cube → κ → ℚ} (hp : OnCells pk) (cube : Cube) {S t : ℕ} (shift : ℤ) (ht : (S : ℤ) - shift = t) (i j k : ℕ) :
    pk (cut cube S ![(S : ℚ) * (1 / 2) + ((S : ℚ) - shift) * i, (S : ℚ) * (1 / 2) + ((S : ℚ) - shift) * j,
      (S : ℚ) * (1 / 2) + ((S : ℚ) - shift) * k]) = pk (restrict cube S ![i * t, j * t, k * t]) := by
  refine hp _ _ _ fun c hc => ?_
  show cube.val c * window cube.shape _ _ c = _
  rw [window_slide shift ht i j k hc]
  split_ifs <;> simp

/-- The result for a given number of sub-boxes and a given step. -/
theorem crossSlide_ok {κ : Type*} {pk : Cube → κ → ℚ} (hp : OnCells pk) (cube1 cube2 : Cube) (h12 : cube1.shape = cube2.shape) {S : ℕ}
    {overlap : ℚ} (h0 : (S : ℚ) - overlap * S ≠ 0) {n : ℕ} (hn : 2 ≤ n) (hnum : number (cube1.shape 0) S overlap = n) {t : ℕ}
    (ht : (S : ℤ) - slide (cube1.shape 0) S n = t) (normalize : Bool) :
    crossSlide pk cube1 cube2 S overlap normalize = .ok (if normalize then
      fun q => (overBoxes n t fun s => pk (restrict cube1 S s) q * boxMean cube2 S s) / (n : ℚ) ^ 3 /
        ((overBoxes n t fun s => pk (restrict cube1 S s) q) / (n : ℚ) ^ 3) / ((overBoxes n t fun s => boxMean cube2 S s ^ 2) / (n : ℚ) ^ 3)
      else fun q => (overBoxes n t fun s => pk (restrict cube1 S s) q * boxMean cube2 S s) / (n : ℚ) ^ 3) := by
  unfold crossSlide
  rw [if_neg (not_not.2 h12)]
  dsimp only
  rw [if_neg h0, hnum, if_neg (by omega), Int.toNat_natCast]
  simp only [length_slide, sum_slide, cut_slide hp cube1 _ ht, mean_slide cube2 _ ht]
  unfold overBoxes
  push_cast
  rfl

/-! ## C205 -/

/-- **C205** (partial).  If the number of sub-boxes along an axis, rounded, divides what the first one leaves of the cube, the result is the average,
over the sub-boxes, of the power spectrum of the first cube times the mean of the second; with steps no longer than a sub-box, every cell is in
one of them, and all of them are in the cube.  In general see `C205_false`. -/
theorem C205_partial {κ : Type*} {pk : Cube → κ → ℚ} (hp : OnCells pk) (cube1 cube2 : Cube) (h12 : cube1.shape = cube2.shape) {L S t m : ℕ}
    (hL : cube1.shape = fun _ => L) (hS : 0 < S) (hm : 0 < m) (hdiv : L = S + m * t) {overlap : ℚ} (ho : overlap < 1)
    (hround : |((L : ℚ) - S) / (S * (1 - overlap)) - m| < 1 / 2) :
    (∃ r, crossSlide pk cube1 cube2 S overlap false = .ok r ∧
      ∀ q, r q = (overBoxes (m + 1) t fun s => pk (restrict cube1 S s) q * boxMean cube2 S s) / ((m : ℚ) + 1) ^ 3) ∧
    (∃ r, crossSlide pk cube1 cube2 S overlap true = .ok r ∧
      ∀ q, r q = ((overBoxes (m + 1) t fun s => pk (restrict cube1 S s) q * boxMean cube2 S s) / ((m : ℚ) + 1) ^ 3) /
        ((overBoxes (m + 1) t fun s => pk (restrict cube1 S s) q) / ((m : ℚ) + 1) ^ 3) /
        ((overBoxes (m + 1) t fun s => boxMean cube2 S s ^ 2) / ((m : ℚ) + 1) ^ 3)) ∧
    (∀ i, i < m + 1 → i * t + S ≤ L) ∧
    (t ≤ S → ∀ c : Fin 3 → ℕ, (∀ d, c d < L) → ∃ s : Fin 3 → ℕ, (∀ d, s d < m + 1) ∧ Within S (fun d => s d * t) c) := by
  have hS' : (0 : ℚ) < S := by exact_mod_cast hS
  have h0 : (S : ℚ) - overlap * S ≠ 0 := by
    have : 0 < (S : ℚ) * (1 - overlap) := mul_pos hS' (by linarith)
    intro h
    rw [show (S : ℚ) * (1 - overlap) = S - overlap * S by ring, h] at this
    exact lt_irrefl _ this
  have hL0 : cube1.shape 0 = L := by rw [hL]
  have hnum : number (cube1.shape 0) S overlap = ((m + 1 : ℕ) : ℤ) := by
    unfold number
    rw [hL0]
    apply roundQ_near
    rw [show (S : ℚ) - overlap * S = S * (1 - overlap) by ring]
    push_cast
    rw [add_sub_add_right_eq_sub]
    exact hround
  have hm' : (m : ℚ) ≠ 0 := by exact_mod_cast hm.ne'
  have hsl : slide (cube1.shape 0) S ((m + 1 : ℕ) : ℤ) = (S : ℤ) - t := by
    unfold slide
    rw [hL0]
    apply roundQ_int
    rw [hdiv]
    push_cast
    rw [show ((S : ℚ) + m * t - S) / (m + 1 - 1) = t by
      rw [add_sub_cancel_left, add_sub_cancel_right, mul_div_cancel_left₀ _ hm']]
  have ht : (S : ℤ) - slide (cube1.shape 0) S ((m + 1 : ℕ) : ℤ) = t := by rw [hsl]; ring
  have key := crossSlide_ok hp cube1 cube2 h12 h0 (n := m + 1) (by omega) hnum ht
  refine ⟨⟨_, key false, fun q => by simp⟩, ⟨_, key true, fun q => by simp⟩, fun i hi => ?_, fun hts c hc => ?_⟩
  · have : i * t ≤ m * t := Nat.mul_le_mul_right _ (by omega)
    omega
  · have ax : ∀ x, x < L → ∃ i, i < m + 1 ∧ i * t ≤ x ∧ x < i * t + S := by
      intro x hx
      by_cases h : m * t ≤ x
      · exact ⟨m, by omega, h, by omega⟩
      · have htp : 0 < t := by
          rcases Nat.eq_zero_or_pos t with e | e
          · rw [e] at h; simp at h
          · exact e
        have hd := Nat.div_add_mod x t
        have hr := Nat.mod_lt x htp
        refine ⟨x / t, ?_, ?_, ?_⟩
        · have : x / t < m := Nat.div_lt_of_lt_mul (by rw [mul_comm]; omega)
          omega
        · rw [mul_comm]; omega
        · rw [mul_comm]; omega
    choose s hs1 hs2 using fun d => ax (c d) (hc d)
    exact ⟨s, hs1, fun d => hs2 d⟩

/-- Three sub-boxes of 4 cells along each axis of a cube of 8, overlapping by half. -/
example : (8 : ℕ) = 4 + 2 * 2 ∧ |(((8 : ℕ) : ℚ) - (4 : ℕ)) / ((4 : ℕ) * (1 - 1 / 2)) - (2 : ℕ)| < 1 / 2 := by norm_num

/-- A power spectrum that depends on the cells only: the sum of the squares. -/
example : OnCells fun (c : Cube) (_ : Unit) => ∑ x ∈ cells c.shape, c.val x ^ 2 := by
  intro s f g h
  funext _
  exact Finset.sum_congr rfl fun c hc => congrArg (· ^ 2) (h c hc)

/-- Sub-boxes of 4 cells in a cube of 11: the last cells along each axis are in none of them, and their values do not matter. -/
theorem C205_false {κ : Type*} {pk : Cube → κ → ℚ} (hp : OnCells pk) (f g f' g' : (Fin 3 → ℕ) → ℚ)
    (hf : ∀ c, (∀ d, c d < 10) → f c = f' c) (hg : ∀ c, (∀ d, c d < 10) → g c = g' c) (normalize : Bool) :
    crossSlide pk ⟨fun _ => 11, f⟩ ⟨fun _ => 11, g⟩ 4 (1 / 2) normalize =
      crossSlide pk ⟨fun _ => 11, f'⟩ ⟨fun _ => 11, g'⟩ 4 (1 / 2) normalize := by
  have hnum : number 11 4 (1 / 2) = ((4 : ℕ) : ℤ) := by decide +kernel
  have ht : ((4 : ℕ) : ℤ) - slide 11 4 ((4 : ℕ) : ℤ) = ((2 : ℕ) : ℤ) := by decide +kernel
  have h0 : (((4 : ℕ) : ℚ)) - 1 / 2 * (4 : ℕ) ≠ 0 := by norm_num
  rw [crossSlide_ok hp ⟨fun _ => 11, f⟩ ⟨fun _ => 11, g⟩ rfl h0 (n := 4) (by norm_num) hnum ht,
    crossSlide_ok hp ⟨fun _ => 11, f'⟩ ⟨fun _ => 11, g'⟩ rfl h0 (n := 4) (by norm_num) hnum ht]
  have inside : ∀ i j k : ℕ, i < 4 → j < 4 → k < 4 → ∀ c, Within 4 ![i * 2, j * 2, k * 2] c → ∀ d, c d < 10 := by
    intro i j k hi hj hk c h d
    have := h d
    match d with
    | 0 => have := h 0; simp at this; omega
    | 1 => have := h 1; simp at this; omega
    | 2 => have := h 2; simp at this; omega
  have e1 : ∀ i j k : ℕ, i < 4 → j < 4 → k < 4 → restrict ⟨fun _ => 11, f⟩ 4 ![i * 2, j * 2, k * 2] = restrict ⟨fun _ => 11, f'⟩ 4 ![i * 2, j * 2, k * 2] := by
    intro i j k hi hj hk
    unfold restrict
    congr 1
    funext c
    split_ifs with h
    · exact hf c (inside i j k hi hj hk c h)
    · rfl
  have e2 : ∀ i j k : ℕ, i < 4 → j < 4 → k < 4 → boxMean ⟨fun _ => 11, g⟩ 4 ![i * 2, j * 2, k * 2] = boxMean ⟨fun _ => 11, g'⟩ 4 ![i * 2, j * 2, k * 2] := by
    intro i j k hi hj hk
    unfold boxMean
    congr 1
    exact Finset.sum_congr rfl fun c hc => hg c (inside i j k hi hj hk c (Finset.mem_filter.1 hc).2)
  have eo : ∀ F G : (Fin 3 → ℕ) → ℚ, (∀ i j k : ℕ, i < 4 → j < 4 → k < 4 → F ![i * 2, j * 2, k * 2] = G ![i * 2, j * 2, k * 2]) →
      overBoxes 4 2 F = overBoxes 4 2 G := by
    intro F G h
    unfold overBoxes
    exact Finset.sum_congr rfl fun i hi => Finset.sum_congr rfl fun j hj => Finset.sum_congr rfl fun k hk =>
      h i j k (Finset.mem_range.1 hi) (Finset.mem_range.1 hj) (Finset.mem_range.1 hk)
  have a1 : (fun q => overBoxes 4 2 fun s => pk (restrict ⟨fun _ => 11, f⟩ 4 s) q * boxMean ⟨fun _ => 11, g⟩ 4 s) =
      fun q => overBoxes 4 2 fun s => pk (restrict ⟨fun _ => 11, f'⟩ 4 s) q * boxMean ⟨fun _ => 11, g'⟩ 4 s :=
    funext fun q => eo _ _ fun i j k hi hj hk => by rw [e1 i j k hi hj hk, e2 i j k hi hj hk]
  have a2 : (fun q => overBoxes 4 2 fun s => pk (restrict ⟨fun _ => 11, f⟩ 4 s) q) =
      fun q => overBoxes 4 2 fun s => pk (restrict ⟨fun _ => 11, f'⟩ 4 s) q :=
    funext fun q => eo _ _ fun i j k hi hj hk => by rw [e1 i j k hi hj hk]
  have a3 : (overBoxes 4 2 fun s => boxMean ⟨fun _ => 11, g⟩ 4 s ^ 2) = overBoxes 4 2 fun s => boxMean ⟨fun _ => 11, g'⟩ 4 s ^ 2 :=
    eo _ _ fun i j k hi hj hk => by rw [e2 i j k hi hj hk]
  congr 1
  cases normalize
  · funext q
    have := congrFun a1 q
    simp only at this
    simp [this]
  · funext q
    have b1 := congrFun a1 q
    have b2 := congrFun a2 q
    simp only at b1 b2
    simp [b1, b2, a3]

/-- Cubes of different shapes are refused; a single sub-box as large as the cube divides by zero. -/
theorem C205_raises {κ : Type*} (pk : Cube → κ → ℚ) (cube1 cube2 : Cube) (S : ℕ) (overlap : ℚ) (normalize : Bool) :
    (cube1.shape ≠ cube2.shape → crossSlide pk cube1 cube2 S overlap normalize = .error "AssertionError") ∧
    (cube1.shape = cube2.shape → S = cube1.shape 0 → crossSlide pk cube1 cube2 S overlap normalize = .error "ZeroDivisionError") ∧
    (cube1.shape = cube2.shape → crossSlide pk cube1 cube2 S 1 normalize = .error "ZeroDivisionError") := by
  refine ⟨fun h => ?_, fun h hS => ?_, fun h => ?_⟩
  · unfold crossSlide
    rw [if_pos h]
  · unfold crossSlide
    rw [if_neg (not_not.2 h)]
    dsimp only
    split_ifs with h0 h1
    · rfl
    · rfl
    · exfalso
      apply h1
      left
      unfold number
      rw [hS]
      exact roundQ_int _ 1 (by simp)
  · unfold crossSlide
    rw [if_neg (not_not.2 h)]
    dsimp only
    rw [if_pos (by ring)]

/-- Two cubes of different shapes. -/
example : (⟨fun _ => 2, fun _ => 0⟩ : Cube).shape ≠ (⟨fun _ => 3, fun _ => 0⟩ : Cube).shape := fun h => by
  have := congrFun h 0
  simp at this

end Verif.SlideBoxes
