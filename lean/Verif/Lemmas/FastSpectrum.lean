import Verif.Model.FastSpectrum
import Verif.Props.PowerSpectrum
/-!
# Lemmas on the model of `power_spect_fast.py`
-/

namespace Verif.FastSpectrum
open Verif.Convolve Verif.PowerSpectrum

theorem mem_sorted (s : Fin 3 → ℕ) (x : Ix → ℝ) (v : ℝ) : v ∈ sorted s x ↔ ∃ i ∈ box s, x i = v := by
  unfold sorted
  rw [Multiset.mem_sort, Multiset.mem_map]
  rfl

theorem sorted_pairwise (s : Fin 3 → ℕ) (x : Ix → ℝ) : (sorted s x).Pairwise (· ≤ ·) := Multiset.pairwise_sort _ _

theorem box_nonempty {s : Fin 3 → ℕ} (hs : ∀ j, 0 < s j) : ∃ i, i ∈ box s :=
  ⟨0, (mem_box s 0).2 fun j => ⟨le_rfl, Int.natCast_pos.2 (hs j)⟩⟩

theorem sorted_ne {s : Fin 3 → ℕ} (hs : ∀ j, 0 < s j) (x : Ix → ℝ) : sorted s x ≠ [] := by
  obtain ⟨i, hi⟩ := box_nonempty hs
  exact List.ne_nil_of_mem ((mem_sorted s x (x i)).2 ⟨i, hi, rfl⟩)

theorem least_spec {s : Fin 3 → ℕ} (hs : ∀ j, 0 < s j) (x : Ix → ℝ) : (∃ i ∈ box s, x i = least s x) ∧ ∀ i ∈ box s, least s x ≤ x i := by
  have hp := sorted_pairwise s x
  have hm := mem_sorted s x
  unfold least
  cases h : sorted s x with
  | nil => exact absurd h (sorted_ne hs x)
  | cons v l =>
    rw [h] at hp hm
    refine ⟨(hm v).1 (by simp), fun i hi => ?_⟩
    rcases List.mem_cons.1 ((hm (x i)).2 ⟨i, hi, rfl⟩) with e | e
    · exact e.ge
    · exact (List.pairwise_cons.1 hp).1 _ e

theorem most_spec {s : Fin 3 → ℕ} (hs : ∀ j, 0 < s j) (x : Ix → ℝ) : (∃ i ∈ box s, x i = most s x) ∧ ∀ i ∈ box s, x i ≤ most s x := by
  have hp := sorted_pairwise s x
  have hm := mem_sorted s x
  unfold most
  rcases List.eq_nil_or_concat (sorted s x) with h | ⟨l, v, h⟩
  · exact absurd h (sorted_ne hs x)
  · rw [h] at hp hm ⊢
    have hl : (l ++ [v]).getLastD 0 = v := by simp
    rw [List.concat_eq_append] at hp hm ⊢
    rw [hl]
    refine ⟨(hm v).1 (by simp), fun i hi => ?_⟩
    rcases List.mem_append.1 ((hm (x i)).2 ⟨i, hi, rfl⟩) with e | e
    · exact (List.pairwise_append.1 hp).2.2 _ e v (by simp)
    · exact (List.mem_singleton.1 e).le

theorem linspace_getD (a b : ℝ) (n i : ℕ) (hi : i ≤ n) : (linspace a b n).getD i 0 = a + (i : ℝ) * ((b - a) / n) := by
  rw [List.getD_eq_getElem?_getD, linspace_get a b n i (by omega)]
  rfl

theorem centre_eq (a b : ℝ) (n i : ℕ) (hi : i < n) : centre a b n i = a + ((i : ℝ) + 1 / 2) * ((b - a) / n) := by
  unfold centre
  rw [linspace_getD _ _ _ _ hi.le, linspace_getD _ _ _ _ hi]
  push_cast
  ring

theorem lower_eq (a b : ℝ) (n i : ℕ) (lo : WithBot ℝ) (h0 : 0 < i) (hi : i < n) :
    lower (centre a b n) lo i = ((a + (i : ℝ) * ((b - a) / n) : ℝ) : WithBot ℝ) := by
  obtain ⟨m, rfl⟩ : ∃ m, i = m + 1 := ⟨i - 1, by omega⟩
  unfold lower
  rw [if_neg (by omega), Nat.add_sub_cancel, centre_eq _ _ _ _ (by omega), centre_eq _ _ _ _ hi]
  congr 1
  push_cast
  ring

theorem upper_eq (a b : ℝ) (n i : ℕ) (hi : i < n) : upper n (centre a b n) b i = a + ((i : ℝ) + 1) * ((b - a) / n) := by
  unfold upper
  by_cases h : i + 1 < n
  · rw [if_pos h, centre_eq _ _ _ _ hi, centre_eq _ _ _ _ h]
    push_cast
    ring
  · rw [if_neg h]
    have hn : n = i + 1 := by omega
    subst hn
    have : ((i : ℝ) + 1) ≠ 0 := by positivity
    push_cast
    field_simp
    ring

/-- Which values are in a bin after the first. -/
theorem near_bin (a b : ℝ) (n i : ℕ) (lo : WithBot ℝ) (h0 : 0 < i) (hi : i < n) (x : ℝ) :
    near (centre a b n i) (lower (centre a b n) lo i) (upper n (centre a b n) b i) (x : WithBot ℝ) ↔
      a + (i : ℝ) * ((b - a) / n) ≤ x ∧ x ≤ a + ((i : ℝ) + 1) * ((b - a) / n) := by
  rw [lower_eq _ _ _ _ _ h0 hi, upper_eq _ _ _ _ hi, centre_eq _ _ _ _ hi]
  show |x - _| ≤ (_ - _) / 2 ↔ _
  rw [abs_le]
  generalize (b - a) / (n : ℝ) = w
  constructor
  · rintro ⟨h1, h2⟩
    constructor <;> linarith
  · rintro ⟨h1, h2⟩
    constructor <;> linarith

theorem near_bot (a b : ℝ) (n i : ℕ) (lo : WithBot ℝ) (h0 : 0 < i) (hi : i < n) :
    ¬ near (centre a b n i) (lower (centre a b n) lo i) (upper n (centre a b n) b i) ⊥ := by
  rw [lower_eq _ _ _ _ _ h0 hi]
  exact fun h => h

theorem log10_pos {x : ℝ} (hx : 0 < x) : log10 x = ((Real.logb 10 x : ℝ) : WithBot ℝ) := if_neg hx.ne'

theorem log10_zero : log10 0 = ⊥ := if_pos rfl

theorem kMag_nonneg (s : Fin 3 → ℕ) (L : Fin 3 → ℝ) (i : Ix) : 0 ≤ kMag s L i := Real.sqrt_nonneg _

end Verif.FastSpectrum
