import Verif.Model.Distort
import Verif.Props.Distances
import Mathlib.Algebra.BigOperators.Intervals
import Mathlib.Tactic.Linarith
import Mathlib.Tactic.Ring
import Mathlib.Tactic.FieldSimp
import Mathlib.Tactic.NormNum
import Mathlib.Tactic.Positivity
import Mathlib.Tactic.IntervalCases
/-!
# Redshift-space distortions

C44: `get_distorted_dt` keeps the summed temperature of every skewer and is the identity for
vanishing velocities.
C86: a uniform velocity translates the box.
-/

set_option linter.unusedSectionVars false
set_option linter.unusedVariables false

namespace Verif.Distort

open Verif.Constants Verif.Conversions

/-! ### Bins -/

theorem edge_eq (D : ℝ) (G g : ℕ) (hG : 1 ≤ G) : node D (G + 1) g = g * (D / G) := by
  unfold node
  rw [if_neg (by omega)]
  push_cast
  rw [add_sub_cancel_right]

/-- A position inside the half-open cell `b` is counted there and nowhere else. -/
theorem inBin_iff {D : ℝ} {G b g : ℕ} {p : ℝ} (hD : 0 < D) (hG : 1 ≤ G) (hb : b < G) (hg : g < G)
    (h1 : b * (D / G) ≤ p) (h2 : p < (b + 1) * (D / G)) : InBin D G g p ↔ b = g := by
  have hw : 0 < D / G := by positivity
  unfold InBin
  rw [edge_eq D G g hG, edge_eq D G (g + 1) hG]
  push_cast
  constructor
  · rintro ⟨h3, h4⟩
    have h5 : p ≤ (g + 1) * (D / G) := by
      rcases h4 with h4 | h4
      · exact h4.le
      · exact h4.2.le
    have h6 : (b : ℝ) ≤ (g : ℝ) + 1 := le_of_mul_le_mul_right (h1.trans h5) hw
    have h7 : (g : ℝ) < b + 1 := lt_of_mul_lt_mul_right (h3.trans_lt h2) hw.le
    have h6' : b ≤ g + 1 := by exact_mod_cast h6
    have h7' : g < b + 1 := by exact_mod_cast h7
    by_contra hne
    have hbg : b = g + 1 := by omega
    subst hbg
    push_cast at h1
    rcases h4 with h4 | h4
    · linarith
    · omega
  · rintro rfl
    exact ⟨h1, Or.inl h2⟩

/-- The far edge belongs to the last cell. -/
theorem inBin_last {D : ℝ} {G g : ℕ} (hD : 0 < D) (hG : 1 ≤ G) (hg : g < G) :
    InBin D G g D ↔ G - 1 = g := by
  have hw : 0 < D / G := by positivity
  have hG' : (0 : ℝ) < G := by exact_mod_cast hG
  have e : (G : ℝ) * (D / G) = D := by field_simp
  unfold InBin
  rw [edge_eq D G g hG, edge_eq D G (g + 1) hG]
  push_cast
  constructor
  · rintro ⟨h3, h4⟩
    rcases h4 with h4 | h4
    · have : (G : ℝ) * (D / G) < (g + 1) * (D / G) := by rw [e]; exact h4
      have := lt_of_mul_lt_mul_right this hw.le
      have : G < g + 1 := by exact_mod_cast this
      omega
    · omega
  · rintro rfl
    have e2 : ((G - 1 : ℕ) : ℝ) + 1 = G := by rw [Nat.cast_sub hG]; push_cast; ring
    refine ⟨?_, Or.inr ⟨by omega, ?_⟩⟩
    · have : ((G - 1 : ℕ) : ℝ) ≤ G := by exact_mod_cast Nat.sub_le G 1
      calc ((G - 1 : ℕ) : ℝ) * (D / G) ≤ G * (D / G) := by gcongr
        _ = D := e
    · rw [e2, e]

/-- Positions in the box are counted once. -/
theorem exists_bin {D : ℝ} {G : ℕ} {p : ℝ} (hD : 0 < D) (hG : 1 ≤ G) (h0 : 0 ≤ p) (h1 : p ≤ D) :
    ∃ b < G, ∀ g < G, (InBin D G g p ↔ b = g) := by
  have hG' : (0 : ℝ) < G := by exact_mod_cast hG
  have hw : 0 < D / G := by positivity
  rcases h1.lt_or_eq with h1 | rfl
  · have h2 : p / (D / G) < G := by
      rw [div_lt_iff₀ hw]
      field_simp
      exact h1
    refine ⟨⌊p / (D / G)⌋₊, ?_, fun g hg => ?_⟩
    · exact (Nat.floor_lt (by positivity)).mpr h2
    · refine inBin_iff hD hG ((Nat.floor_lt (by positivity)).mpr h2) hg ?_ ?_
      · rw [← le_div_iff₀ hw]; exact Nat.floor_le (by positivity)
      · rw [← div_lt_iff₀ hw]; exact Nat.lt_floor_add_one _
  · exact ⟨G - 1, by omega, fun g hg => inBin_last hD hG hg⟩

/-- Positions outside the box are not counted. -/
theorem not_inBin {D : ℝ} {G g : ℕ} {p : ℝ} (hD : 0 < D) (hG : 1 ≤ G) (hg : g < G)
    (h : p < 0 ∨ D < p) : ¬ InBin D G g p := by
  have hG' : (0 : ℝ) < G := by exact_mod_cast hG
  have hw : 0 < D / G := by positivity
  unfold InBin
  rw [edge_eq D G g hG, edge_eq D G (g + 1) hG]
  push_cast
  rintro ⟨h3, h4⟩
  have h5 : 0 ≤ (g : ℝ) * (D / G) := by positivity
  have h6 : ((g : ℝ) + 1) * (D / G) ≤ D := by
    have : ((g : ℝ) + 1) ≤ G := by exact_mod_cast hg
    calc ((g : ℝ) + 1) * (D / G) ≤ G * (D / G) := by gcongr
      _ = D := by field_simp
  rcases h with h | h
  · linarith
  · rcases h4 with h4 | h4
    · linarith
    · linarith [h4.2]

/-! ### Particles -/

theorem sum_cells (G P : ℕ) (f : ℕ → ℝ) :
    ∑ k ∈ Finset.range (G * P), f (k / P) = ∑ m ∈ Finset.range G, P * f m := by
  induction G with
  | zero => simp
  | succ G ih =>
    rw [Nat.succ_mul, Finset.sum_range_add, ih, Finset.sum_range_succ]
    congr 1
    rcases Nat.eq_zero_or_pos P with rfl | hP
    · simp
    · rw [Finset.sum_congr rfl (g := fun _ => f G)]
      · simp
      · intro r hr
        have hr' := Finset.mem_range.mp hr
        rw [show G * P + r = r + G * P by ring, Nat.add_mul_div_right _ _ hP,
          Nat.div_eq_of_lt hr', zero_add]

theorem particle_cell {D : ℝ} {G P k : ℕ} (hD : 0 < D) (hG : 2 ≤ G) (hP : 1 ≤ P)
    (hk : k + 1 < G * P) :
    ((k / P : ℕ) : ℝ) * (D / G) ≤ node D (G * P) k ∧
      node D (G * P) k < (((k / P : ℕ) : ℝ) + 1) * (D / G) ∧
      (0 < k / P → ((k / P : ℕ) : ℝ) * (D / G) < node D (G * P) k) := by
  have hG' : (0 : ℝ) < G := by exact_mod_cast (by omega : 0 < G)
  have hn : 1 < G * P := by omega
  have hn' : (0 : ℝ) < ((G * P : ℕ) : ℝ) - 1 := by
    have : (1 : ℝ) < ((G * P : ℕ) : ℝ) := by exact_mod_cast hn
    linarith
  unfold node
  rw [if_neg (by omega)]
  set m := k / P with hm
  have hkm : m * P + k % P = k := by rw [mul_comm]; exact Nat.div_add_mod k P
  have hr : k % P < P := Nat.mod_lt _ hP
  have hmG : m < G := by
    rw [hm, Nat.div_lt_iff_lt_mul hP]; omega
  have hmk : m * P ≤ k := Nat.le.intro hkm
  have i0 : m * (G * P) ≤ k * G := by
    calc m * (G * P) = m * P * G := by ring
      _ ≤ k * G := Nat.mul_le_mul_right G hmk
  have i1 : m * (G * P) ≤ k * G + m := i0.trans (Nat.le_add_right _ _)
  have i2 : k * G + (m + 1) < (m + 1) * (G * P) := by
    by_cases hl : m + 1 = G
    · have h3 : (m + 1) * (G * P) = G * (G * P) := by rw [hl]
      rw [h3, hl]
      nlinarith
    · have h4 : m + 1 < G := by omega
      have h5 : k + 1 ≤ (m + 1) * P := by nlinarith
      nlinarith
  have i3 : 0 < m → m * (G * P) < k * G + m := by
    intro h0
    exact lt_of_le_of_lt i0 (Nat.lt_add_of_pos_right h0)
  have c1 : (m : ℝ) * ((G * P : ℕ) : ℝ) ≤ k * G + m := by exact_mod_cast i1
  have c2 : (k : ℝ) * G + (m + 1) < (m + 1) * ((G * P : ℕ) : ℝ) := by exact_mod_cast i2
  have key : ∀ x : ℝ, x * (D / G) = x * (((G * P : ℕ) : ℝ) - 1) * (D / (G * (((G * P : ℕ) : ℝ) - 1))) := by
    intro x
    field_simp
  have key2 : (k : ℝ) * (D / (((G * P : ℕ) : ℝ) - 1)) =
      k * G * (D / (G * (((G * P : ℕ) : ℝ) - 1))) := by
    field_simp
  have hq : 0 < D / (G * (((G * P : ℕ) : ℝ) - 1)) := by positivity
  rw [key, key, key2]
  refine ⟨mul_le_mul_of_nonneg_right (by linarith) hq.le, mul_lt_mul_of_pos_right (by linarith) hq,
    fun h0 => mul_lt_mul_of_pos_right ?_ hq⟩
  have c3 : (m : ℝ) * ((G * P : ℕ) : ℝ) < k * G + m := by exact_mod_cast i3 h0
  linarith

theorem last_particle {D : ℝ} {n : ℕ} (hn : 2 ≤ n) : node D n (n - 1) = D := by
  unfold node
  rw [if_neg (by omega)]
  have : (2 : ℝ) ≤ n := by exact_mod_cast hn
  have h2 : (n : ℝ) - 1 ≠ 0 := by linarith
  rw [Nat.cast_sub (by omega)]
  push_cast
  field_simp

theorem node_range {D : ℝ} {n k : ℕ} (hD : 0 ≤ D) (hk : k < n) : 0 ≤ node D n k ∧ node D n k ≤ D := by
  unfold node
  split_ifs with h
  · exact ⟨le_refl 0, hD⟩
  · have h1 : (2 : ℝ) ≤ n := by exact_mod_cast (by omega : 2 ≤ n)
    have h2 : 0 < (n : ℝ) - 1 := by linarith
    have h3 : (k : ℝ) ≤ n - 1 := by
      have : (k : ℝ) + 1 ≤ n := by exact_mod_cast hk
      linarith
    refine ⟨by positivity, ?_⟩
    calc (k : ℝ) * (D / (n - 1)) ≤ (n - 1) * (D / (n - 1)) := by gcongr
      _ = D := by field_simp

theorem interpolated_const (G : ℕ) (s : ℝ) (n k : ℕ) : interpolated G (fun _ => s) n k = s := by
  simp [interpolated]

/-- Linear interpolation stays between the largest and the smallest value. -/
theorem interpolated_bound {G : ℕ} {y : ℕ → ℝ} {B : ℝ} (hG : 2 ≤ G) (n k : ℕ) (hk : k < n)
    (h : ∀ m < G, |y m| ≤ B) : |interpolated G y n k| ≤ B := by
  obtain ⟨h1, h2⟩ := node_range (D := 1) (by norm_num) hk
  have hG' : (2 : ℝ) ≤ G := by exact_mod_cast hG
  unfold interpolated
  simp only
  set t := node 1 n k * ((G : ℝ) - 1) with ht
  have t0 : 0 ≤ t := mul_nonneg h1 (by linarith)
  have t1 : t ≤ G - 1 := by
    calc t ≤ 1 * ((G : ℝ) - 1) := mul_le_mul_of_nonneg_right h2 (by linarith)
      _ = G - 1 := one_mul _
  set m := min ⌊t⌋₊ (G - 2) with hm
  have hmG : m + 1 < G := by omega
  have m1 : (m : ℝ) ≤ t := le_trans (by exact_mod_cast min_le_left _ _) (Nat.floor_le t0)
  have m2 : t - m ≤ 1 := by
    rcases le_or_gt ⌊t⌋₊ (G - 2) with h | h
    · have : m = ⌊t⌋₊ := min_eq_left h
      rw [this]
      have := Nat.lt_floor_add_one t
      linarith
    · have : m = G - 2 := min_eq_right h.le
      rw [this, Nat.cast_sub hG]
      push_cast
      linarith
  have a := abs_le.mp (h m (by omega))
  have b := abs_le.mp (h (m + 1) hmG)
  rw [abs_le]
  have l : 0 ≤ t - m := by linarith
  constructor
  · nlinarith [mul_nonneg l (by linarith [b.1] : 0 ≤ y (m + 1) + B),
      mul_nonneg (by linarith : 0 ≤ 1 - (t - m)) (by linarith [a.1] : 0 ≤ y m + B)]
  · nlinarith [mul_nonneg l (by linarith [b.2] : 0 ≤ B - y (m + 1)),
      mul_nonneg (by linarith : 0 ≤ 1 - (t - m)) (by linarith [a.2] : 0 ≤ B - y m)]

/-! ### Conservation on a skewer -/

/-- All particles inside: the sum is kept. -/
theorem sum_skewer {D : ℝ} {G P : ℕ} (hD : 0 < D) (hG : 1 ≤ G) (hP : 1 ≤ P) (periodic : Bool)
    (dT dr : ℕ → ℝ) (h : ∀ k < G * P, 0 ≤ position D G P periodic dr k ∧
      position D G P periodic dr k ≤ D) :
    ∑ g ∈ Finset.range G, skewer D G P periodic dT dr g = ∑ m ∈ Finset.range G, dT m := by
  classical
  unfold skewer
  rw [Finset.sum_comm]
  have e : ∀ k ∈ Finset.range (G * P), (∑ g ∈ Finset.range G,
      if InBin D G g (position D G P periodic dr k) then dT (k / P) / P else 0) =
      dT (k / P) / P := by
    intro k hk
    obtain ⟨h0, h1⟩ := h k (Finset.mem_range.mp hk)
    obtain ⟨b, hb, hbg⟩ := exists_bin hD hG h0 h1
    rw [Finset.sum_congr rfl (g := fun g => if b = g then dT (k / P) / P else 0)]
    · simp [hb]
    · intro g hg
      simp only [hbg g (Finset.mem_range.mp hg)]
  have hP' : (P : ℝ) ≠ 0 := by exact_mod_cast (by omega : P ≠ 0)
  have e2 := Finset.sum_congr rfl e
  have e3 := sum_cells G P fun m => dT m / P
  refine Eq.trans ?_ (e2.trans (e3.trans ?_))
  · refine Finset.sum_congr rfl fun k _ => Finset.sum_congr rfl fun g _ => ?_
    congr
  · refine Finset.sum_congr rfl fun m _ => ?_
    field_simp

theorem wrap_range {D p : ℝ} (h1 : -D ≤ p) (h2 : p ≤ 2 * D) (hD : 0 < D) :
    0 ≤ wrap D p ∧ wrap D p ≤ D := by
  unfold wrap
  simp only
  split_ifs <;> constructor <;> linarith

/-- Displacements by less than a box length with periodic boundaries keep the sum. -/
theorem skewer_conserved {D : ℝ} {G P : ℕ} (hD : 0 < D) (hG : 2 ≤ G) (hP : 1 ≤ P)
    (dT dr : ℕ → ℝ) (h : ∀ m < G, |dr m| ≤ D) :
    ∑ g ∈ Finset.range G, skewer D G P true dT dr g = ∑ m ∈ Finset.range G, dT m := by
  refine sum_skewer hD (by omega) hP true dT dr fun k hk => ?_
  unfold position
  simp only [if_true]
  obtain ⟨h1, h2⟩ := node_range hD.le hk
  have h3 := abs_le.mp (interpolated_bound hG (G * P) k hk h)
  exact wrap_range (by linarith [h3.1]) (by linarith [h3.2]) hD

/-! ### Uniform displacements -/

/-- The cell a particle ends in after a displacement by `s` cells. -/
theorem bin_shifted {D : ℝ} {G P s k g : ℕ} (hD : 0 < D) (hG : 2 ≤ G) (hP : 1 ≤ P) (hs : s < G)
    (hk : k + 1 < G * P) (hg : g < G) :
    InBin D G g (position D G P true (fun _ => s * (D / G)) k) ↔ (k / P + s) % G = g := by
  have hG' : (0 : ℝ) < G := by exact_mod_cast (by omega : 0 < G)
  have hw : 0 < D / G := by positivity
  have e : (G : ℝ) * (D / G) = D := by field_simp
  obtain ⟨h1, h2, h3⟩ := particle_cell hD hG hP hk
  have hm : k / P < G := by rw [Nat.div_lt_iff_lt_mul hP]; omega
  unfold position
  simp only [if_true, interpolated_const]
  set x := node D (G * P) k
  set m := k / P
  have l : ((m + s : ℕ) : ℝ) * (D / G) ≤ x + s * (D / G) := by push_cast; nlinarith
  have u : x + s * (D / G) < (((m + s : ℕ) : ℝ) + 1) * (D / G) := by push_cast; nlinarith
  have nn : 0 ≤ x + s * (D / G) := le_trans (by positivity) l
  unfold wrap
  simp only
  rw [if_neg (not_lt.mpr nn)]
  by_cases hc : m + s < G
  · have hle : x + s * (D / G) < D := by
      refine u.trans_le ?_
      have : ((m + s : ℕ) : ℝ) + 1 ≤ G := by exact_mod_cast hc
      calc (((m + s : ℕ) : ℝ) + 1) * (D / G) ≤ G * (D / G) := by gcongr
        _ = D := e
    rw [if_neg (not_lt.mpr hle.le), Nat.mod_eq_of_lt hc]
    exact inBin_iff hD (by omega) hc hg l u
  · have hgt : D < x + s * (D / G) := by
      have hm0 : 0 < m := by omega
      have h4 := h3 hm0
      have : (G : ℝ) ≤ ((m + s : ℕ) : ℝ) := by exact_mod_cast not_lt.mp hc
      calc D = G * (D / G) := e.symm
        _ ≤ ((m + s : ℕ) : ℝ) * (D / G) := by gcongr
        _ < x + s * (D / G) := by push_cast; nlinarith
    rw [if_pos hgt, Nat.mod_eq_sub_mod (not_lt.mp hc), Nat.mod_eq_of_lt (by omega)]
    have hcast : ((m + s - G : ℕ) : ℝ) = ((m + s : ℕ) : ℝ) - G := Nat.cast_sub (not_lt.mp hc)
    refine inBin_iff hD (by omega) (by omega) hg ?_ ?_
    · rw [hcast, sub_mul, e]; linarith
    · rw [hcast, sub_add_eq_add_sub, sub_mul, e]; linarith

theorem bin_last {D : ℝ} {G P s g : ℕ} (hD : 0 < D) (hG : 2 ≤ G) (hP : 1 ≤ P) (hs : s < G)
    (hg : g < G) :
    InBin D G g (position D G P true (fun _ => s * (D / G)) (G * P - 1)) ↔
      (if s = 0 then G - 1 else s) = g := by
  have hG' : (0 : ℝ) < G := by exact_mod_cast (by omega : 0 < G)
  have hw : 0 < D / G := by positivity
  have hn : 2 ≤ G * P := by nlinarith
  unfold position
  simp only [if_true, interpolated_const, last_particle hn]
  have nn : 0 ≤ D + s * (D / G) := by positivity
  unfold wrap
  simp only
  rw [if_neg (not_lt.mpr nn)]
  by_cases h0 : s = 0
  · subst h0
    simp only [Nat.cast_zero, zero_mul, add_zero, lt_irrefl, if_false, if_true]
    exact inBin_last hD (by omega) hg
  · have hs' : (0 : ℝ) < s := by exact_mod_cast Nat.pos_of_ne_zero h0
    rw [if_pos (by nlinarith [mul_pos hs' hw]), if_neg h0, add_sub_cancel_left]
    exact inBin_iff hD (by omega) hs hg (le_refl _) (by nlinarith)

/-- A displacement by `s` cells moves all particles by `s` cells, except that the last particle
(at the far edge of the box) ends in cell `s` instead of `s - 1`. -/
theorem skewer_shift {D : ℝ} {G P s g : ℕ} (hD : 0 < D) (hG : 2 ≤ G) (hP : 1 ≤ P) (hs : s < G)
    (hg : g < G) (dT : ℕ → ℝ) :
    skewer D G P true dT (fun _ => s * (D / G)) g =
      dT ((g + (G - s)) % G) +
        (if s = 0 then 0 else if g = s then dT (G - 1) / P else if g + 1 = s then -(dT (G - 1) / P)
          else 0) := by
  classical
  have hn : 2 ≤ G * P := by nlinarith
  have hP' : (P : ℝ) ≠ 0 := by exact_mod_cast (by omega : P ≠ 0)
  have hlast : (G * P - 1) / P = G - 1 := by
    obtain ⟨G', rfl⟩ : ∃ G', G = G' + 1 := ⟨G - 1, by omega⟩
    rw [Nat.add_sub_cancel, Nat.div_eq_iff hP, Nat.succ_mul]
    constructor <;> omega
  have e1 : skewer D G P true dT (fun _ => s * (D / G)) g =
      (∑ k ∈ Finset.range (G * P), if (k / P + s) % G = g then dT (k / P) / P else 0) +
        ((if (if s = 0 then G - 1 else s) = g then dT (G - 1) / P else 0) -
          if (G - 1 + s) % G = g then dT (G - 1) / P else 0) := by
    unfold skewer
    obtain ⟨n, hnn⟩ : ∃ n, G * P = n + 1 := ⟨G * P - 1, by omega⟩
    rw [hnn, Finset.sum_range_succ, Finset.sum_range_succ]
    have hl : n = G * P - 1 := by omega
    have e3 : n / P = G - 1 := by rw [hl]; exact hlast
    rw [e3]
    have e4 : ∑ k ∈ Finset.range n, (if InBin D G g (position D G P true (fun _ => s * (D / G)) k)
        then dT (k / P) / P else 0) =
        ∑ k ∈ Finset.range n, if (k / P + s) % G = g then dT (k / P) / (P : ℝ) else 0 := by
      refine Finset.sum_congr rfl fun k hk => ?_
      have hk' := Finset.mem_range.mp hk
      simp only [bin_shifted hD hG hP hs (show k + 1 < G * P by omega) hg]
    have e5 : (if InBin D G g (position D G P true (fun _ => s * (D / G)) n)
        then dT (G - 1) / (P : ℝ) else 0) =
        if (if s = 0 then G - 1 else s) = g then dT (G - 1) / P else 0 := by
      rw [hl]
      simp only [bin_last hD hG hP hs hg]
    have e6 : ∀ A B : ℝ, (∑ k ∈ Finset.range n, (open Classical in
        if InBin D G g (position D G P true (fun _ => s * (D / G)) k)
        then dT (k / P) / (P : ℝ) else 0)) = A → (open Classical in
        if InBin D G g (position D G P true (fun _ => s * (D / G)) n)
        then dT (G - 1) / (P : ℝ) else 0) = B → (∑ k ∈ Finset.range n, (open Classical in
        if InBin D G g (position D G P true (fun _ => s * (D / G)) k)
        then dT (k / P) / (P : ℝ) else 0)) + (open Classical in
        if InBin D G g (position D G P true (fun _ => s * (D / G)) n)
        then dT (G - 1) / (P : ℝ) else 0) = A + B := by
      rintro A B rfl rfl; rfl
    refine (e6 _ _ (Eq.trans ?_ e4) (Eq.trans ?_ e5)).trans ?_
    · refine Finset.sum_congr rfl fun k _ => ?_
      congr
    · congr
    · ring
  rw [e1, sum_cells G P fun m => if (m + s) % G = g then dT m / (P : ℝ) else 0]
  have hone : ∀ m < G, ((m + s) % G = g ↔ m = (g + (G - s)) % G) := by
    intro m hm
    constructor
    · rintro rfl
      by_cases h : m + s < G
      · rw [Nat.mod_eq_of_lt h, show m + s + (G - s) = m + G by omega, Nat.add_mod_right,
          Nat.mod_eq_of_lt hm]
      · rw [Nat.mod_eq_sub_mod (not_lt.mp h), Nat.mod_eq_of_lt (by omega : m + s - G < G),
          show m + s - G + (G - s) = m by omega, Nat.mod_eq_of_lt hm]
    · rintro rfl
      by_cases h : g + (G - s) < G
      · rw [Nat.mod_eq_of_lt h, show g + (G - s) + s = g + G by omega, Nat.add_mod_right,
          Nat.mod_eq_of_lt hg]
      · rw [Nat.mod_eq_sub_mod (not_lt.mp h), Nat.mod_eq_of_lt (by omega : g + (G - s) - G < G),
          show g + (G - s) - G + s = g by omega, Nat.mod_eq_of_lt hg]
  have e2 : ∑ m ∈ Finset.range G, (P : ℝ) * (if (m + s) % G = g then dT m / (P : ℝ) else 0) =
      dT ((g + (G - s)) % G) := by
    rw [Finset.sum_eq_single ((g + (G - s)) % G)]
    · rw [if_pos ((hone _ (Nat.mod_lt _ (by omega))).mpr rfl)]
      field_simp
    · intro m hm hne
      rw [if_neg fun h => hne ((hone m (Finset.mem_range.mp hm)).mp h), mul_zero]
    · intro h
      exact absurd (Finset.mem_range.mpr (Nat.mod_lt _ (by omega))) h
  rw [e2]
  congr 1
  by_cases h0 : s = 0
  · subst h0
    simp only [if_true, add_zero]
    rw [Nat.mod_eq_of_lt (by omega), sub_self]
  · rw [if_neg h0, if_neg h0, show G - 1 + s = s - 1 + G by omega, Nat.add_mod_right,
      Nat.mod_eq_of_lt (by omega)]
    by_cases h1 : g = s
    · rw [if_pos h1.symm, if_pos h1, if_neg (by omega), sub_zero]
    · rw [if_neg (Ne.symm h1), if_neg h1]
      by_cases h2 : g + 1 = s
      · rw [if_pos h2, if_pos (by omega), zero_sub]
      · rw [if_neg h2, if_neg (by omega), sub_zero]

/-! ## The box -/

/-- The velocity that the code turns into the displacement `d` at redshift `z`:
`d = (1 + z_obs) v / H(z_obs)` with the Doppler-shifted redshift `z_obs`. -/
structure Displaces (k : Const) (z v d : ℝ) : Prop where
  subluminal : v < c
  displacement : ∃ zObs, (1 + zObs) * (1 - v / c) = 1 + z ∧
    d * hubble_parameter k zObs = (1 + zObs) * v ∧ 0 < hubble_parameter k zObs

theorem shift_eq {k : Const} {z v d : ℝ} (h : Displaces k z v d) : shift k z v = d := by
  obtain ⟨zo, h1, h2, h3⟩ := h.displacement
  have hc : (0 : ℝ) < c := c_pos
  have hv : 0 < 1 - v / c := by
    rw [sub_pos, div_lt_one hc]; exact h.subluminal
  have e : (1 + z) / (1 - v / c) - 1 = zo := by
    rw [← h1, mul_div_assoc, div_self hv.ne']
    ring
  unfold shift
  simp only
  rw [e, ← h2]
  field_simp

theorem hubble_pos {k : Const} (p : Physical k) {z : ℝ} (hz : -1 < z) :
    0 < hubble_parameter k z :=
  mul_pos p.hubble' (Real.sqrt_pos.mpr (rate_pos p hz))

theorem displaces_zero {k : Const} (p : Physical k) {z : ℝ} (hz : -1 < z) :
    Displaces k z 0 0 :=
  ⟨c_pos, z, by simp, by simp, hubble_pos p hz⟩

/-- Box with equal sides `w` across the line of sight and depth `G`. -/
def Column (b : Box) (los : Fin 3) (G w : ℕ) : Prop :=
  b.shape los = G ∧ b.shape (los + 1) = w ∧ b.shape (los + 2) = w

theorem column_assert {b : Box} {los : Fin 3} {G w : ℕ} (h : Column b los G w) :
    b.shape 0 = b.shape 1 ∨ b.shape 1 = b.shape 2 ∨ b.shape 0 = b.shape 2 := by
  obtain ⟨_, h2, h3⟩ := h
  have e := h2.trans h3.symm
  match los with
  | 0 => exact Or.inr (Or.inl e)
  | 1 => exact Or.inr (Or.inr e.symm)
  | 2 => exact Or.inl e

theorem cell_los (los : Fin 3) (i j m : ℕ) : cell los i j m los = m := by
  match los with
  | 0 => rfl
  | 1 => rfl
  | 2 => rfl

theorem perp_cell (los : Fin 3) (i j m : ℕ) : perp los (cell los i j m) = (i, j) := by
  match los with
  | 0 => rfl
  | 1 => rfl
  | 2 => rfl

/-- What the code stores in one cell. -/
theorem distorted_column (k : Const) (LB : ℝ) (b : Box) (v : (Fin 3 → ℕ) → ℝ) (z : ℕ → ℝ)
    (los : Fin 3) (P : ℕ) (periodic : Bool) {G w : ℕ} (hb : Column b los G w) (hG : 2 ≤ G)
    (hw : 1 ≤ w) :
    ∃ out, distorted k LB b v z los P periodic = .ok out ∧ out.shape = b.shape ∧
      ∀ i < w, ∀ j < w, ∀ m, out.val (cell los i j m) =
        store b.isInt (skewer (G * (LB / w)) G P periodic (fun m => b.val (cell los i j m))
          (fun m => shift k (z (cell los i j m 2)) (v (cell los i j m))) m) := by
  obtain ⟨h1, h2, h3⟩ := hb
  unfold distorted
  simp only
  rw [if_neg (not_not.mpr (column_assert ⟨h1, h2, h3⟩)), h1, h2, h3, if_neg (by omega),
    if_neg (by omega), if_neg (lt_irrefl w)]
  refine ⟨_, rfl, rfl, fun i hi j hj m => ?_⟩
  simp only [perp_cell, cell_los]
  rw [if_pos ⟨hi, hj⟩]

/-! ## C44 -/

/-- Without velocities the box does not change, integer or not, periodic or not. -/
theorem C44_identity (k : Const) (p : Physical k) (LB : ℝ) (hLB : 0 < LB) (b : Box) (z : ℕ → ℝ)
    (hz : ∀ i, -1 < z i) (los : Fin 3) (P : ℕ) (hP : 1 ≤ P) (periodic : Bool) {G w : ℕ}
    (hb : Column b los G w) (hG : 2 ≤ G) (hw : 1 ≤ w)
    (hint : b.isInt = true → ∀ c, ∃ n : ℤ, b.val c = n) :
    ∃ out, distorted k LB b (fun _ => 0) z los P periodic = .ok out ∧ out.shape = b.shape ∧
      ∀ i < w, ∀ j < w, ∀ m < G, out.val (cell los i j m) = b.val (cell los i j m) := by
  obtain ⟨out, h1, h2, h3⟩ := distorted_column k LB b (fun _ => 0) z los P periodic hb hG hw
  refine ⟨out, h1, h2, fun i hi j hj m hm => ?_⟩
  have hw' : (0 : ℝ) < w := by exact_mod_cast hw
  have hG' : (0 : ℝ) < G := by exact_mod_cast (by omega : 0 < G)
  have hD : 0 < (G : ℝ) * (LB / w) := by positivity
  rw [h3 i hi j hj m]
  have e : (fun m => shift k (z (cell los i j m 2)) 0) = fun _ => ((0 : ℕ) : ℝ) * (G * (LB / w) / G) := by
    funext m
    rw [shift_eq (displaces_zero p (hz _))]
    simp
  have e2 : skewer (G * (LB / w)) G P periodic (fun m => b.val (cell los i j m))
      (fun m => shift k (z (cell los i j m 2)) 0) m = b.val (cell los i j m) := by
    have key := skewer_shift hD hG hP (show 0 < G by omega) hm (fun m => b.val (cell los i j m))
    rw [if_pos rfl, add_zero, Nat.sub_zero, Nat.add_mod_right, Nat.mod_eq_of_lt hm] at key
    rw [e]
    cases periodic with
    | true => exact key
    | false =>
      rw [← key]
      unfold skewer
      refine Finset.sum_congr rfl fun n hn => ?_
      obtain ⟨r1, r2⟩ := node_range hD.le (Finset.mem_range.mp hn)
      have : position (G * (LB / w)) G P false (fun _ => ((0 : ℕ) : ℝ) * (G * (LB / w) / G)) n =
          position (G * (LB / w)) G P true (fun _ => ((0 : ℕ) : ℝ) * (G * (LB / w) / G)) n := by
        unfold position wrap
        simp only [interpolated_const, Nat.cast_zero, zero_mul, add_zero, if_true]
        rw [if_neg (not_lt.mpr r1), if_neg (not_lt.mpr r2)]
        simp
      rw [this]
  rw [e2]
  unfold store
  split_ifs with hi
  · obtain ⟨n, hn⟩ := hint hi (cell los i j m)
    rw [hn]
    unfold trunc
    simp
  · rfl

/-- With periodic boundaries and displacements up to one box length the summed temperature of
every skewer is kept. -/
theorem C44_partial (k : Const) (LB : ℝ) (hLB : 0 < LB) (b : Box) (hf : b.isInt = false)
    (v : (Fin 3 → ℕ) → ℝ) (z : ℕ → ℝ) (los : Fin 3) (P : ℕ) (hP : 1 ≤ P) {G w : ℕ}
    (hb : Column b los G w) (hG : 2 ≤ G) (hw : 1 ≤ w)
    (hv : ∀ x, ∃ d, Displaces k (z (x 2)) (v x) d ∧ |d| ≤ G * (LB / w)) :
    ∃ out, distorted k LB b v z los P true = .ok out ∧ out.shape = b.shape ∧
      ∀ i < w, ∀ j < w, ∑ m ∈ Finset.range G, out.val (cell los i j m) =
        ∑ m ∈ Finset.range G, b.val (cell los i j m) := by
  obtain ⟨out, h1, h2, h3⟩ := distorted_column k LB b v z los P true hb hG hw
  refine ⟨out, h1, h2, fun i hi j hj => ?_⟩
  have hw' : (0 : ℝ) < w := by exact_mod_cast hw
  have hG' : (0 : ℝ) < G := by exact_mod_cast (by omega : 0 < G)
  have hD : 0 < (G : ℝ) * (LB / w) := by positivity
  rw [Finset.sum_congr rfl fun m _ => h3 i hi j hj m]
  rw [hf]
  simp only [store, Bool.false_eq_true, if_false]
  refine skewer_conserved hD hG hP _ _ fun m _ => ?_
  obtain ⟨d, hd, hle⟩ := hv (cell los i j m)
  rw [shift_eq hd]
  exact hle

/-- Every velocity below that of light is a displacement. -/
theorem displaces {k : Const} (p : Physical k) {z v : ℝ} (hz : -1 < z) (hv : v < c) :
    Displaces k z v (shift k z v) := by
  have hv' : 0 < 1 - v / c := by
    rw [sub_pos, div_lt_one c_pos]; exact hv
  have hzo : -1 < (1 + z) / (1 - v / c) - 1 := by
    have : 0 < (1 + z) / (1 - v / c) := div_pos (by linarith) hv'
    linarith
  have hH := hubble_pos p hzo
  refine ⟨hv, (1 + z) / (1 - v / c) - 1, ?_, ?_, hH⟩
  · rw [add_sub_cancel, div_mul_cancel₀ _ hv'.ne']
  · unfold shift
    simp only
    rw [div_mul_cancel₀ _ hH.ne']

theorem shift_pos {k : Const} (p : Physical k) {z v : ℝ} (hz : -1 < z) (h0 : 0 < v) (hv : v < c) :
    0 < shift k z v := by
  have hv' : 0 < 1 - v / c := by
    rw [sub_pos, div_lt_one c_pos]; exact hv
  have h1 : 0 < (1 + z) / (1 - v / c) := div_pos (by linarith) hv'
  have hH := hubble_pos p (z := (1 + z) / (1 - v / c) - 1) (by linarith)
  unfold shift
  simp only
  have e : 1 + ((1 + z) / (1 - v / c) - 1) = (1 + z) / (1 - v / c) := by ring
  rw [e]
  positivity

/-- Hypotheses of `C44_partial`: a box of 1000 Mpc would do, here one is chosen from the
velocities. -/
example : ∃ LB : ℝ, 0 < LB ∧ ∃ v, v < c ∧ v ≠ 0 ∧ ∃ d, Displaces (Const.init 3) 8 v d ∧
    |d| ≤ (4 : ℕ) * (LB / (4 : ℕ)) := by
  refine ⟨shift (Const.init 3) 8 1, shift_pos physical_init (by norm_num) one_pos
    (by norm_num [c]), 1, by norm_num [c], one_ne_zero, _,
    displaces physical_init (by norm_num) (by norm_num [c]), ?_⟩
  have h := shift_pos physical_init (z := 8) (by norm_num) one_pos (by norm_num [c])
  rw [abs_of_pos h]
  apply le_of_eq
  push_cast
  ring

/-- A cube of side two holding `1` in the first cell of every skewer. -/
def cube (isInt : Bool) : Box := ⟨fun _ => 2, isInt, fun c => if c 0 = 0 then 1 else 0⟩

theorem cube_column (isInt : Bool) : Column (cube isInt) 0 2 2 := ⟨rfl, rfl, rfl⟩

/-- Displacements beyond the box lose the signal: after three box lengths nothing is left. -/
theorem C44_false_far : ∃ LB : ℝ, 0 < LB ∧ ∃ v, 0 < v ∧ v < c ∧ ∃ out,
    distorted (Const.init 3) LB (cube false) (fun _ => v) (fun _ => 8) 0 1 true = .ok out ∧
      ∑ m ∈ Finset.range 2, (cube false).val (cell 0 0 0 m) = 1 ∧
      ∑ m ∈ Finset.range 2, out.val (cell 0 0 0 m) = 0 := by
  have hs := shift_pos physical_init (z := 8) (by norm_num) one_pos (by norm_num [c])
  refine ⟨shift (Const.init 3) 8 1 / 3, by positivity, 1, one_pos, by norm_num [c], ?_⟩
  obtain ⟨out, h1, h2, h3⟩ := distorted_column (Const.init 3) (shift (Const.init 3) 8 1 / 3)
    (cube false) (fun _ => 1) (fun _ => 8) 0 1 true (cube_column false) (by norm_num) (by norm_num)
  refine ⟨out, h1, by simp [Finset.sum_range_succ, cube, cell], ?_⟩
  refine Finset.sum_eq_zero fun m hm => ?_
  rw [h3 0 (by norm_num) 0 (by norm_num) m]
  simp only [cube, store, Bool.false_eq_true, if_false]
  unfold skewer
  refine Finset.sum_eq_zero fun n hn => if_neg ?_
  set S := shift (Const.init 3) 8 1
  have hD : ((2 : ℕ) : ℝ) * (S / 3 / ((2 : ℕ) : ℝ)) = S / 3 := by push_cast; ring
  rw [hD]
  refine not_inBin (by positivity) (by norm_num) (Finset.mem_range.mp hm) (Or.inr ?_)
  obtain ⟨r1, r2⟩ := node_range (D := S / 3) (n := 2 * 1) (by positivity) (Finset.mem_range.mp hn)
  unfold position wrap
  simp only [interpolated_const, if_true]
  rw [if_neg (show ¬ node (S / 3) (2 * 1) n + S < 0 by linarith),
    if_pos (show S / 3 < node (S / 3) (2 * 1) n + S by linarith)]
  linarith

/-- Without periodic boundaries (as advised for lightcones) the signal shifted out is lost. -/
theorem C44_false_open : ∃ LB : ℝ, 0 < LB ∧ ∃ v, 0 < v ∧ v < c ∧ ∃ out,
    distorted (Const.init 3) LB (cube false) (fun _ => v) (fun _ => 8) 0 1 false = .ok out ∧
      ∑ m ∈ Finset.range 2, (cube false).val (cell 0 0 0 m) = 1 ∧
      ∑ m ∈ Finset.range 2, out.val (cell 0 0 0 m) = 0 := by
  have hs := shift_pos physical_init (z := 8) (by norm_num) one_pos (by norm_num [c])
  refine ⟨shift (Const.init 3) 8 1 / 3, by positivity, 1, one_pos, by norm_num [c], ?_⟩
  obtain ⟨out, h1, h2, h3⟩ := distorted_column (Const.init 3) (shift (Const.init 3) 8 1 / 3)
    (cube false) (fun _ => 1) (fun _ => 8) 0 1 false (cube_column false) (by norm_num) (by norm_num)
  refine ⟨out, h1, by simp [Finset.sum_range_succ, cube, cell], ?_⟩
  refine Finset.sum_eq_zero fun m hm => ?_
  rw [h3 0 (by norm_num) 0 (by norm_num) m]
  simp only [cube, store, Bool.false_eq_true, if_false]
  unfold skewer
  refine Finset.sum_eq_zero fun n hn => if_neg ?_
  set S := shift (Const.init 3) 8 1
  have hD : ((2 : ℕ) : ℝ) * (S / 3 / ((2 : ℕ) : ℝ)) = S / 3 := by push_cast; ring
  rw [hD]
  refine not_inBin (by positivity) (by norm_num) (Finset.mem_range.mp hm) (Or.inr ?_)
  obtain ⟨r1, r2⟩ := node_range (D := S / 3) (n := 2 * 1) (by positivity) (Finset.mem_range.mp hn)
  unfold position
  simp only [interpolated_const, Bool.false_eq_true, if_false]
  linarith

/-- An integer box is truncated: two halves become zero. -/
theorem C44_false_int : ∃ LB : ℝ, 0 < LB ∧ ∃ v, 0 < v ∧ v < c ∧ ∃ out,
    distorted (Const.init 3) LB (cube true) (fun _ => v) (fun _ => 8) 0 2 true = .ok out ∧
      ∑ m ∈ Finset.range 2, (cube true).val (cell 0 0 0 m) = 1 ∧
      ∑ m ∈ Finset.range 2, out.val (cell 0 0 0 m) = 0 := by
  have hs := shift_pos physical_init (z := 8) (by norm_num) one_pos (by norm_num [c])
  refine ⟨4 * shift (Const.init 3) 8 1, by positivity, 1, one_pos, by norm_num [c], ?_⟩
  obtain ⟨out, h1, h2, h3⟩ := distorted_column (Const.init 3) (4 * shift (Const.init 3) 8 1)
    (cube true) (fun _ => 1) (fun _ => 8) 0 2 true (cube_column true) (by norm_num) (by norm_num)
  refine ⟨out, h1, by simp [Finset.sum_range_succ, cube, cell], ?_⟩
  refine Finset.sum_eq_zero fun m hm => ?_
  rw [h3 0 (by norm_num) 0 (by norm_num) m]
  simp only [cube, store, if_true]
  set S := shift (Const.init 3) 8 1
  have hD : ((2 : ℕ) : ℝ) * (4 * S / ((2 : ℕ) : ℝ)) = 4 * S := by push_cast; ring
  rw [hD]
  have hm' := Finset.mem_range.mp hm
  have e : skewer (4 * S) 2 2 true (fun m => if (cell 0 0 0 m : Fin 3 → ℕ) 0 = 0 then (1 : ℝ) else 0)
      (fun _ => S) m = 1 / 2 := by
    have p0 : position (4 * S) 2 2 true (fun _ => S) 0 = S := by
      unfold position wrap node
      simp only [interpolated_const, if_true]
      norm_num
      rw [if_neg (show ¬ S < 0 by linarith), if_neg (show ¬ 4 * S < S by linarith)]
    have p1 : position (4 * S) 2 2 true (fun _ => S) 1 = 7 / 3 * S := by
      unfold position wrap node
      simp only [interpolated_const, if_true]
      norm_num
      rw [if_neg (show ¬ 4 * S / 3 + S < 0 by linarith),
        if_neg (show ¬ 4 * S < 4 * S / 3 + S by linarith)]
      ring
    have b0 : InBin (4 * S) 2 m (position (4 * S) 2 2 true (fun _ => S) 0) ↔ 0 = m := by
      rw [p0]
      exact inBin_iff (by positivity) (by norm_num) (by norm_num) hm' (by push_cast; linarith)
        (by push_cast; linarith)
    have b1 : InBin (4 * S) 2 m (position (4 * S) 2 2 true (fun _ => S) 1) ↔ 1 = m := by
      rw [p1]
      exact inBin_iff (by positivity) (by norm_num) (by norm_num) hm' (by push_cast; linarith)
        (by push_cast; linarith)
    unfold skewer
    simp only [show 2 * 2 = 4 by rfl, Finset.sum_range_succ, Finset.sum_range_zero, b0, b1, cell]
    interval_cases m <;> norm_num
  rw [e]
  unfold trunc
  norm_num

/-- The documented requirement of equal sides across the line of sight is not checked: with
unequal sides part of the box is zero even without velocities ... -/
theorem C44_false_sides : ∃ out, distorted (Const.init 3) 100 ⟨![4, 2, 4], false, fun _ => 1⟩
    (fun _ => 0) (fun _ => 8) 0 1 true = .ok out ∧ out.val ![0, 0, 3] = 0 := by
  unfold distorted
  simp only
  rw [if_neg (by simp), if_neg (by simp), if_neg (by simp), if_neg (by decide)]
  refine ⟨_, rfl, ?_⟩
  simp [perp]

/-- ... or the call raises. -/
theorem C44_raises (k : Const) (LB : ℝ) (b : Box) (v : (Fin 3 → ℕ) → ℝ) (z : ℕ → ℝ) (los : Fin 3)
    (P : ℕ) (periodic : Bool)
    (h : b.shape (los + 2) < b.shape (los + 1) ∨ b.shape los < 2 ∨
      (b.shape 0 ≠ b.shape 1 ∧ b.shape 1 ≠ b.shape 2 ∧ b.shape 0 ≠ b.shape 2)) :
    ∃ e, distorted k LB b v z los P periodic = .error e := by
  unfold distorted
  simp only
  by_cases h1 : b.shape 0 = b.shape 1 ∨ b.shape 1 = b.shape 2 ∨ b.shape 0 = b.shape 2
  · rw [if_neg (not_not.mpr h1)]
    by_cases h2 : b.shape (los + 1) = 0
    · exact ⟨_, if_pos h2⟩
    · rw [if_neg h2]
      by_cases h3 : b.shape los < 2
      · exact ⟨_, if_pos h3⟩
      · rw [if_neg h3]
        rcases h with h | h | h
        · exact ⟨_, if_pos h⟩
        · exact absurd h h3
        · rcases h1 with h1 | h1 | h1
          · exact absurd h1 h.1
          · exact absurd h1 h.2.1
          · exact absurd h1 h.2.2
  · exact ⟨_, if_pos h1⟩

example : (![4, 4, 2] : Fin 3 → ℕ) (0 + 2) < (![4, 4, 2] : Fin 3 → ℕ) (0 + 1) := by decide

/-! ## C86 -/

/-- A velocity field that displaces everything by `s` cells moves the box by `s` cells, up to
one particle per skewer: of the last cell, one of the `P` parts goes a cell too far. -/
theorem C86_partial (k : Const) (LB : ℝ) (hLB : 0 < LB) (b : Box) (hf : b.isInt = false)
    (v : (Fin 3 → ℕ) → ℝ) (z : ℕ → ℝ) (los : Fin 3) (P : ℕ) (hP : 1 ≤ P) {G w s : ℕ}
    (hb : Column b los G w) (hG : 2 ≤ G) (hw : 1 ≤ w) (hs : s < G)
    (hv : ∀ x, Displaces k (z (x 2)) (v x) (s * (LB / w))) :
    ∃ out, distorted k LB b v z los P true = .ok out ∧
      ∀ i < w, ∀ j < w, ∀ g < G, out.val (cell los i j g) =
        b.val (cell los i j ((g + (G - s)) % G)) +
          (if s = 0 then 0 else if g = s then b.val (cell los i j (G - 1)) / P
            else if g + 1 = s then -(b.val (cell los i j (G - 1)) / P) else 0) := by
  obtain ⟨out, h1, h2, h3⟩ := distorted_column k LB b v z los P true hb hG hw
  refine ⟨out, h1, fun i hi j hj g hg => ?_⟩
  have hw' : (0 : ℝ) < w := by exact_mod_cast hw
  have hG' : (0 : ℝ) < G := by exact_mod_cast (by omega : 0 < G)
  have hD : 0 < (G : ℝ) * (LB / w) := by positivity
  have e : (fun m => shift k (z (cell los i j m 2)) (v (cell los i j m))) =
      fun _ => (s : ℝ) * (G * (LB / w) / G) := by
    funext m
    rw [shift_eq (hv (cell los i j m))]
    field_simp
  rw [h3 i hi j hj g, hf, e]
  simp only [store, Bool.false_eq_true, if_false]
  exact skewer_shift hD hG hP hs hg _

example : ∃ LB : ℝ, 0 < LB ∧ Displaces (Const.init 3) 8 1 ((2 : ℕ) * (LB / (4 : ℕ))) := by
  have h := shift_pos physical_init (z := 8) (by norm_num) one_pos (by norm_num [c])
  refine ⟨2 * shift (Const.init 3) 8 1, by positivity, ?_⟩
  have := displaces physical_init (z := 8) (v := 1) (by norm_num) (by norm_num [c])
  convert this using 1
  push_cast
  ring

/-- Claim of C86: a displacement by whole cells is a periodic translation.  False. -/
theorem C86_false : ¬ ∀ (k : Const) (LB : ℝ), 0 < LB → ∀ (b : Box), b.isInt = false →
    ∀ (v : (Fin 3 → ℕ) → ℝ) (z : ℕ → ℝ) (los : Fin 3) (P : ℕ), 1 ≤ P → ∀ (G w s : ℕ),
    Column b los G w → 2 ≤ G → 1 ≤ w → s < G → (∀ x, Displaces k (z (x 2)) (v x) (s * (LB / w))) →
    ∃ out, distorted k LB b v z los P true = .ok out ∧
      ∀ i < w, ∀ j < w, ∀ g < G, out.val (cell los i j g) =
        b.val (cell los i j ((g + (G - s)) % G)) := by
  intro h
  have hs := shift_pos physical_init (z := 8) (by norm_num) one_pos (by norm_num [c])
  have hd : ∀ x : Fin 3 → ℕ, Displaces (Const.init 3) 8 1
      ((1 : ℕ) * (2 * shift (Const.init 3) 8 1 / (2 : ℕ))) := by
    intro x
    have := displaces physical_init (z := 8) (v := 1) (by norm_num) (by norm_num [c])
    convert this using 1
    push_cast
    ring
  have hb : Column (⟨fun _ => 2, false, fun _ => 1⟩ : Box) 0 2 2 := ⟨rfl, rfl, rfl⟩
  obtain ⟨out, h1, h2⟩ := h (Const.init 3) (2 * shift (Const.init 3) 8 1) (by positivity)
    ⟨fun _ => 2, false, fun _ => 1⟩ rfl (fun _ => 1) (fun _ => 8) 0 10 (by norm_num) 2 2 1 hb
    (by norm_num) (by norm_num) (by norm_num) hd
  obtain ⟨out', h1', h2'⟩ := C86_partial (Const.init 3) (2 * shift (Const.init 3) 8 1) (by positivity)
    ⟨fun _ => 2, false, fun _ => 1⟩ rfl (fun _ => 1) (fun _ => 8) 0 10 (by norm_num) hb
    (by norm_num) (by norm_num) (s := 1) (by norm_num) hd
  rw [h1] at h1'
  obtain rfl : out = out' := by simpa using h1'
  have a := h2 0 (by norm_num) 0 (by norm_num) 1 (by norm_num)
  have a' := h2' 0 (by norm_num) 0 (by norm_num) 1 (by norm_num)
  rw [a] at a'
  norm_num at a'

end Verif.Distort
