import Verif.Model.PadCone
import Mathlib.Algebra.Order.Field.Basic
import Mathlib.Algebra.BigOperators.Group.Finset.Basic
import Mathlib.Algebra.BigOperators.Field
import Mathlib.Algebra.BigOperators.Group.Finset.Sigma
import Mathlib.Order.Bounds.Basic
import Mathlib.Tactic.Ring
import Mathlib.Tactic.FieldSimp
import Mathlib.Tactic.Linarith
/-! # Lemmas on the padding of lightcones -/

namespace Verif.PadCone

theorem emod_of {a b q r : ℤ} (h : r + b * q = a) (h0 : 0 ≤ r) (h1 : r < b) : a % b = r :=
  ((Int.ediv_emod_unique (by omega)).mpr ⟨h, h0, h1⟩).2

theorem wrap_of (n a : ℕ) (t : ℤ) (ha : a < n) (h : (n : ℤ) ∣ t - a) : repeated .wrap n t = a := by
  obtain ⟨q, hq⟩ := h
  have : t % n = a := emod_of (q := q) (by omega) (by omega) (by omega)
  simp [repeated, this]

theorem symm_flip (n : ℕ) (hn : 0 < n) (t : ℤ) : repeated .symmetric n (-1 - t) = repeated .symmetric n t ∧
    repeated .symmetric n (2 * n - 1 - t) = repeated .symmetric n t := by
  have h0 := Int.emod_nonneg t (show (2 * n : ℤ) ≠ 0 by omega)
  have h1 := Int.emod_lt_of_pos t (show (0 : ℤ) < 2 * n by omega)
  have hd := Int.emod_add_mul_ediv t (2 * n)
  have e1 : (-1 - t) % (2 * n) = 2 * n - 1 - t % (2 * n) := emod_of (q := -1 - t / (2 * n)) (by linarith) (by omega) (by omega)
  have e2 : (2 * n - 1 - t) % (2 * n) = 2 * n - 1 - t % (2 * n) := emod_of (q := - (t / (2 * n))) (by linarith) (by omega) (by omega)
  simp only [repeated, e1, e2, and_self]
  split_ifs <;> omega

theorem refl_flip (n : ℕ) (hn : 0 < n) (t : ℤ) : repeated .reflect n (-t) = repeated .reflect n t ∧
    repeated .reflect n (2 * n - 2 - t) = repeated .reflect n t := by
  by_cases h1n : n = 1
  · simp [repeated, h1n]
  have h0 := Int.emod_nonneg t (show (2 * n - 2 : ℤ) ≠ 0 by omega)
  have h1 := Int.emod_lt_of_pos t (show (0 : ℤ) < 2 * n - 2 by omega)
  have hd := Int.emod_add_mul_ediv t (2 * n - 2)
  by_cases hz : t % (2 * n - 2) = 0
  · have e1 : (-t) % (2 * n - 2) = 0 := emod_of (q := - (t / (2 * n - 2))) (by linarith) (by omega) (by omega)
    have e2 : (2 * n - 2 - t) % (2 * n - 2) = 0 := emod_of (q := 1 - (t / (2 * n - 2))) (by linarith) (by omega) (by omega)
    simp only [repeated, e1, e2, hz, and_self]
  · have e1 : (-t) % (2 * n - 2) = 2 * n - 2 - t % (2 * n - 2) :=
      emod_of (q := -1 - (t / (2 * n - 2))) (by linarith) (by omega) (by omega)
    have e2 : (2 * n - 2 - t) % (2 * n - 2) = 2 * n - 2 - t % (2 * n - 2) :=
      emod_of (q := - (t / (2 * n - 2))) (by linarith) (by omega) (by omega)
    simp only [repeated, e1, e2, if_neg h1n, and_self]
    split_ifs <;> omega

theorem rep_inside (m : Mode) (n a : ℕ) (ha : a < n) : repeated m n a = a := by
  have hw : (a : ℤ) % n = a := Int.emod_eq_of_lt (by omega) (by omega)
  cases m <;> simp only [repeated, hw, Int.toNat_natCast]
  · by_cases h1 : n = 1
    · rw [if_pos h1]; omega
    · rw [if_neg h1, Int.emod_eq_of_lt (by omega) (by omega), if_pos (by omega)]; omega
  · have : (a : ℤ) % (2 * n) = a := Int.emod_eq_of_lt (by omega) (by omega)
    rw [this, if_pos (by omega)]; omega

variable {R : Type*} [Field R] [LinearOrder R]

theorem line_inside (m : Mode) (p n : ℕ) (f : ℕ → R) (a : ℕ) (ha : a < n) : line m p n f (a + p) = f a := by
  rw [line.eq_def, if_pos (by omega)]; congr 1; omega

theorem line_rep (m : Mode) (hm : m = .reflect ∨ m = .symmetric ∨ m = .wrap) (p n : ℕ) (f : ℕ → R) (i : ℕ) :
    line m p n f i = f (repeated m n ((i : ℤ) - p)) := by
  rw [line.eq_def]
  by_cases h : p ≤ i ∧ i < n + p
  · have : ((i : ℤ) - p) = ((i - p : ℕ) : ℤ) := by omega
    rw [if_pos h, this, rep_inside m n _ (by omega)]
  · rw [if_neg h]
    rcases hm with rfl | rfl | rfl <;> rfl

theorem line_out (m : Mode) (p n : ℕ) (f : ℕ → R) (i : ℕ) (h : i < p ∨ n + p ≤ i) : line m p n f i =
    match m with
    | .constant => 0
    | .edge => if i < p then f 0 else f (n - 1)
    | .linearRamp => if i < p then f 0 * (i / p) else f (n - 1) * ((n + 2 * p - 1 - i : ℕ) / p)
    | .maximum => (List.range n).foldl (fun x a => max x (f a)) (f 0)
    | .minimum => (List.range n).foldl (fun x a => min x (f a)) (f 0)
    | .mean => ((List.range n).map f).sum / n
    | .reflect | .symmetric | .wrap => f (repeated m n ((i : ℤ) - p)) := by
  rw [line.eq_def, if_neg (by omega)]
  cases m <;> rfl

theorem foldMax (l : List ℕ) (f : ℕ → R) (x : R) : x ≤ l.foldl (fun x a => max x (f a)) x ∧
    (∀ a ∈ l, f a ≤ l.foldl (fun x a => max x (f a)) x) ∧
    (l.foldl (fun x a => max x (f a)) x = x ∨ ∃ a ∈ l, l.foldl (fun x a => max x (f a)) x = f a) := by
  induction l generalizing x with
  | nil => simp
  | cons b l ih =>
    obtain ⟨h1, h2, h3⟩ := ih (max x (f b))
    simp only [List.foldl_cons]
    refine ⟨le_trans (le_max_left _ _) h1, fun a ha => ?_, ?_⟩
    · rcases List.mem_cons.mp ha with rfl | ha
      · exact le_trans (le_max_right _ _) h1
      · exact h2 a ha
    · rcases h3 with h3 | ⟨a, ha, h3⟩
      · rcases max_choice x (f b) with hc | hc
        · exact Or.inl (h3.trans hc)
        · exact Or.inr ⟨b, List.mem_cons_self, h3.trans hc⟩
      · exact Or.inr ⟨a, List.mem_cons_of_mem _ ha, h3⟩

theorem foldMin (l : List ℕ) (f : ℕ → R) (x : R) : l.foldl (fun x a => min x (f a)) x ≤ x ∧
    (∀ a ∈ l, l.foldl (fun x a => min x (f a)) x ≤ f a) ∧
    (l.foldl (fun x a => min x (f a)) x = x ∨ ∃ a ∈ l, l.foldl (fun x a => min x (f a)) x = f a) := by
  induction l generalizing x with
  | nil => simp
  | cons b l ih =>
    obtain ⟨h1, h2, h3⟩ := ih (min x (f b))
    simp only [List.foldl_cons]
    refine ⟨le_trans h1 (min_le_left _ _), fun a ha => ?_, ?_⟩
    · rcases List.mem_cons.mp ha with rfl | ha
      · exact le_trans h1 (min_le_right _ _)
      · exact h2 a ha
    · rcases h3 with h3 | ⟨a, ha, h3⟩
      · rcases min_choice x (f b) with hc | hc
        · exact Or.inl (h3.trans hc)
        · exact Or.inr ⟨b, List.mem_cons_self, h3.trans hc⟩
      · exact Or.inr ⟨a, List.mem_cons_of_mem _ ha, h3⟩

theorem line_max (p n : ℕ) (hn : 0 < n) (f : ℕ → R) (i : ℕ) (h : i < p ∨ n + p ≤ i) :
    (∀ a < n, f a ≤ line .maximum p n f i) ∧ ∃ a < n, line .maximum p n f i = f a := by
  rw [line_out _ p n f i h]
  obtain ⟨-, h2, h3⟩ := foldMax (List.range n) f (f 0)
  refine ⟨fun a ha => h2 a (List.mem_range.mpr ha), ?_⟩
  rcases h3 with h3 | ⟨a, ha, h3⟩
  · exact ⟨0, hn, h3⟩
  · exact ⟨a, List.mem_range.mp ha, h3⟩

theorem line_min (p n : ℕ) (hn : 0 < n) (f : ℕ → R) (i : ℕ) (h : i < p ∨ n + p ≤ i) :
    (∀ a < n, line .minimum p n f i ≤ f a) ∧ ∃ a < n, line .minimum p n f i = f a := by
  rw [line_out _ p n f i h]
  obtain ⟨-, h2, h3⟩ := foldMin (List.range n) f (f 0)
  refine ⟨fun a ha => h2 a (List.mem_range.mpr ha), ?_⟩
  rcases h3 with h3 | ⟨a, ha, h3⟩
  · exact ⟨0, hn, h3⟩
  · exact ⟨a, List.mem_range.mp ha, h3⟩

theorem sum_range (n : ℕ) (f : ℕ → R) : ((List.range n).map f).sum = ∑ a ∈ Finset.range n, f a := by
  induction n with
  | zero => simp
  | succ n ih => rw [List.range_succ, List.map_append, List.sum_append, ih, Finset.sum_range_succ]; simp

theorem line_mean [IsStrictOrderedRing R] (p n : ℕ) (hn : 0 < n) (f : ℕ → R) (i : ℕ) (h : i < p ∨ n + p ≤ i) :
    line .mean p n f i * n = ∑ a ∈ Finset.range n, f a := by
  rw [line_out _ p n f i h]
  have h0 : (n : R) ≠ 0 := by exact_mod_cast hn.ne'
  simp only
  rw [div_mul_cancel₀ _ h0, sum_range]

theorem line_edge (p n : ℕ) (f : ℕ → R) (i a : ℕ) (ha : a < n)
    (hnear : ∀ b < n, |(i : ℤ) - p - a| ≤ |(i : ℤ) - p - b|) : line .edge p n f i = f a := by
  by_cases h : p ≤ i ∧ i < n + p
  · have h1 := hnear (i - p) (by omega)
    have h2 : (i : ℤ) - p - (i - p : ℕ) = 0 := by omega
    rw [h2, abs_zero] at h1
    have h3 := abs_eq_zero.mp (le_antisymm h1 (abs_nonneg _))
    have : i = a + p := by omega
    rw [this, line_inside _ _ _ _ _ ha]
  · rw [line_out _ p n f i (by omega)]
    by_cases hi : i < p
    · have h1 := hnear 0 (by omega)
      rw [abs_of_nonpos (by omega), abs_of_nonpos (by omega)] at h1
      have : a = 0 := by omega
      simp only [if_pos hi, this]
    · have h1 := hnear (n - 1) (by omega)
      rw [abs_of_nonneg (by omega), abs_of_nonneg (by omega)] at h1
      have : a = n - 1 := by omega
      simp only [if_neg hi, this]

theorem line_ramp [IsStrictOrderedRing R] (p n : ℕ) (hn : 0 < n) (f : ℕ → R) (d : ℕ) (hd : d < p) :
    line .linearRamp p n f d * p = f 0 * d ∧ line .linearRamp p n f (n + 2 * p - 1 - d) * p = f (n - 1) * d := by
  have h0 : (p : R) ≠ 0 := by exact_mod_cast (show p ≠ 0 by omega)
  rw [line_out _ p n f d (by omega), line_out _ p n f (n + 2 * p - 1 - d) (by omega)]
  simp only
  rw [if_pos hd, if_neg (by omega), show n + 2 * p - 1 - (n + 2 * p - 1 - d) = d by omega]
  constructor <;> field_simp

theorem line_congr (m : Mode) (p n : ℕ) (f g : ℕ → R) (h : ∀ a, f a = g a) (i : ℕ) : line m p n f i = line m p n g i := by
  rw [funext h]

theorem ramp_smul (p n : ℕ) (f : ℕ → R) (c : R) (i : ℕ) : line .linearRamp p n (fun a => f a * c) i = line .linearRamp p n f i * c := by
  rw [line.eq_def, line.eq_def]
  by_cases h : p ≤ i ∧ i < n + p
  · rw [if_pos h, if_pos h]
  · rw [if_neg h, if_neg h]
    simp only
    split_ifs <;> ring

end Verif.PadCone
