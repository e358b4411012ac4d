import Verif.Props.FastSpectrum
/-!
# Cylindrical spectra of `power_spect_fast.py` (C177) and their windows (C178)
-/

namespace Verif.FastSpectrum
open Verif.Convolve Verif.PowerSpectrum

/-! ## Specification -/

/-- Component `j` of the wave vector of the mode at the index `i`. -/
noncomputable def vector (s : Fin 3 → ℕ) (L : Fin 3 → ℝ) (j : Fin 3) (i : Ix) : ℝ := 2 * Real.pi * ((i j : ℝ) - (s j / 2 : ℕ)) / L j

/-- The wave number along the axis `los`. -/
noncomputable def along (s : Fin 3 → ℕ) (L : Fin 3 → ℝ) (los : Fin 3) (i : Ix) : ℝ := |vector s L los i|

/-- The wave number perpendicular to the axis `los`. -/
noncomputable def perpendicular (s : Fin 3 → ℕ) (L : Fin 3 → ℝ) (los : Fin 3) (i : Ix) : ℝ :=
  Real.sqrt (∑ j ∈ Finset.univ.erase los, vector s L j i ^ 2)

/-- `p` is the smallest value that is not zero and `P` the largest. -/
def Range (s : Fin 3 → ℕ) (q : Ix → ℝ) (p P : ℝ) : Prop :=
  (∃ i ∈ box s, q i ≠ 0 ∧ q i = p) ∧ (∀ i ∈ box s, q i ≠ 0 → p ≤ q i) ∧ (∃ i ∈ box s, q i = P) ∧ ∀ i ∈ box s, q i ≤ P

/-- The entry of a table. -/
def entry {α : Type} (t : List (List α)) (i j : ℕ) : Option α := (t[i]?).bind fun r => r[j]?

/-! ## C177 -/

theorem kComp_odd {s : Fin 3 → ℕ} (hs : ∀ j, s j % 2 = 1) (L : Fin 3 → ℝ) (j : Fin 3) (i : Ix) : kComp s L j i = vector s L j i := by
  unfold kComp vector
  rw [odd_half (hs j)]

theorem kPar_odd {s : Fin 3 → ℕ} (hs : ∀ j, s j % 2 = 1) (L : Fin 3 → ℝ) (los : Fin 3) : kPar s L los = along s L los := by
  funext i
  unfold kPar along
  rw [kComp_odd hs]

theorem kPer_odd {s : Fin 3 → ℕ} (hs : ∀ j, s j % 2 = 1) (L : Fin 3 → ℝ) (los : Fin 3) : kPer s L los = perpendicular s L los := by
  funext i
  unfold kPer perpendicular
  rw [kComp_odd hs, kComp_odd hs]
  congr 1
  match los with
  | 0 =>
    have : (Finset.univ : Finset (Fin 3)).erase 0 = {1, 2} := by decide
    rw [this, Finset.sum_pair (by decide)]
    rfl
  | 1 =>
    have : (Finset.univ : Finset (Fin 3)).erase 1 = {0, 2} := by decide
    rw [this, Finset.sum_pair (by decide)]
    rfl
  | 2 =>
    have : (Finset.univ : Finset (Fin 3)).erase 2 = {0, 1} := by decide
    rw [this, Finset.sum_pair (by decide)]
    rfl

theorem leastNonzero_ok {s : Fin 3 → ℕ} {q : Ix → ℝ} (h0 : ∀ i, 0 ≤ q i) (h : ∃ i ∈ box s, q i ≠ 0) :
    ∃ p, leastNonzero s q = .ok p ∧ 0 < p ∧ Range s q p (most s q) := by
  classical
  obtain ⟨i, hi, hq⟩ := h
  have hne : (((box s).filter fun i => q i ≠ 0).image fun i => |q i|).Nonempty := ⟨|q i|, Finset.mem_image.2 ⟨i, Finset.mem_filter.2 ⟨hi, hq⟩, rfl⟩⟩
  obtain ⟨p, hp⟩ := Finset.min_of_nonempty hne
  obtain ⟨k, hk, he⟩ := Finset.mem_image.1 (Finset.mem_of_min hp)
  have hk' := Finset.mem_filter.1 hk
  rw [abs_of_nonneg (h0 k)] at he
  have hs : ∀ j, 0 < s j := fun j => by
    have := (mem_box s i).1 hi j
    have : (0 : ℤ) < s j := lt_of_le_of_lt this.1 this.2
    exact_mod_cast this
  refine ⟨p, ?_, he ▸ lt_of_le_of_ne (h0 k) (Ne.symm hk'.2), ⟨k, hk'.1, hk'.2, he⟩, ?_, (most_spec hs q).1, (most_spec hs q).2⟩
  · unfold leastNonzero
    rw [show ((((box s).filter fun i => q i ≠ 0).image fun i => |q i|)).min = some p from hp]
  · intro j hj hjq
    have := Finset.min_le_of_eq (Finset.mem_image.2 ⟨j, Finset.mem_filter.2 ⟨hj, hjq⟩, rfl⟩) hp
    rwa [abs_of_nonneg (h0 j)] at this

theorem leastNonzero_err {s : Fin 3 → ℕ} {q : Ix → ℝ} (h : ∀ i ∈ box s, q i = 0) : leastNonzero s q = .error .value := by
  classical
  unfold leastNonzero
  have : ((box s).filter fun i => q i ≠ 0) = ∅ := Finset.filter_eq_empty_iff.2 fun i hi => not_not.2 (h i hi)
  rw [this, Finset.image_empty, Finset.min_empty]

theorem near_linear {a b : ℝ} {n i : ℕ} (hi : i < n) (x : ℝ) :
    near (((linspace a b n).getD i 0 + (linspace a b n).getD (i + 1) 0) / 2) ((0 : ℝ) : WithBot ℝ)
      ((linspace a b n).getD 1 0 - (linspace a b n).getD 0 0) (x : WithBot ℝ) ↔ edgeAt false a b n i ≤ x ∧ x ≤ edgeAt false a b n (i + 1) := by
  rw [linspace_getD _ _ _ _ hi.le, linspace_getD _ _ _ _ hi, linspace_getD _ _ _ _ (by omega), linspace_getD _ _ _ _ (by omega),
    ← edge_linear, ← edge_linear]
  show |x - _| ≤ (_ - 0) / 2 ↔ _
  rw [abs_le]
  push_cast
  generalize (b - a) / (n : ℝ) = w
  constructor
  · rintro ⟨h1, h2⟩
    constructor <;> linarith
  · rintro ⟨h1, h2⟩
    constructor <;> linarith

theorem near_log {a b : ℝ} (ha : 0 < a) (hb : 0 < b) {n i : ℕ} (hi : i < n) {x : ℝ} (hx : 0 ≤ x) :
    near (((linspace (Real.logb 10 a) (Real.logb 10 b) n).getD i 0 + (linspace (Real.logb 10 a) (Real.logb 10 b) n).getD (i + 1) 0) / 2)
      ((0 : ℝ) : WithBot ℝ) ((linspace (Real.logb 10 a) (Real.logb 10 b) n).getD 1 0 - (linspace (Real.logb 10 a) (Real.logb 10 b) n).getD 0 0)
      (log10 x) ↔ edgeAt true a b n i ≤ x ∧ x ≤ edgeAt true a b n (i + 1) := by
  have e1 := edge_log ha hb n i
  have e2 := edge_log ha hb n (i + 1)
  rcases hx.eq_or_lt with hx | hx
  · rw [← hx, log10_zero]
    exact iff_of_false (fun h => h) fun h => absurd e1.2 (not_lt.2 h.1)
  · rw [log10_pos hx, near_linear hi, ← edge_linear, ← edge_linear, e1.1, e2.1, Real.logb_le_logb (by norm_num) e1.2 hx,
      Real.logb_le_logb (by norm_num) hx e2.2]

theorem entry_table {α : Type} (n m : ℕ) (f : ℕ → ℕ → α) {i j : ℕ} (hi : i < n) (hj : j < m) :
    entry ((List.range n).map fun i => (List.range m).map fun j => f i j) i j = some (f i j) := by
  unfold entry
  rw [List.getElem?_map, List.getElem?_range hi]
  simp only [Option.map_some, Option.bind_some]
  rw [List.getElem?_map, List.getElem?_range hj]
  rfl

/-- The axis of a number. -/
def axisOf (los : Fin 3) : ℤ := (los : ℕ)

theorem axis_some (los : Fin 3) :
    (if axisOf los = 0 then some (0 : Fin 3) else if axisOf los = 1 then some 1 else if axisOf los = 2 then some 2 else none) = some los := by
  match los with
  | 0 | 1 | 2 => rfl

theorem along_nonneg (s : Fin 3 → ℕ) (L : Fin 3 → ℝ) (los : Fin 3) (i : Ix) : 0 ≤ along s L los i := abs_nonneg _

theorem perpendicular_nonneg (s : Fin 3 → ℕ) (L : Fin 3 → ℝ) (los : Fin 3) (i : Ix) : 0 ≤ perpendicular s L los i := Real.sqrt_nonneg _

/-- The modes in a range of both wave numbers. -/
noncomputable def cell (s : Fin 3 → ℕ) (L : Fin 3 → ℝ) (los : Fin 3) (x x' y y' : ℝ) : Finset Ix :=
  between s (perpendicular s L los) x x' ∩ between s (along s L los) y y'

theorem grid_ok (s : Fin 3 → ℕ) {n m : ℕ} (hn : 1 ≤ n) (hm : 1 ≤ m) (a b c d : ℝ) (x y : Ix → WithBot ℝ) (v : Ix → ℝ) (back : ℝ → ℝ)
    (S : ℕ → ℕ → Finset Ix)
    (hS : ∀ i j, i < n → j < m → both s x y (((linspace a b n).getD i 0 + (linspace a b n).getD (i + 1) 0) / 2)
      ((linspace a b n).getD 1 0 - (linspace a b n).getD 0 0) (((linspace c d m).getD j 0 + (linspace c d m).getD (j + 1) 0) / 2)
      ((linspace c d m).getD 1 0 - (linspace c d m).getD 0 0) = S i j) :
    ∃ r, grid s n m (linspace a b n) (linspace c d m) x y v back = .ok r ∧
      (∀ i j, i < n → j < m → entry r.ps i j = some (average (S i j) v) ∧ entry r.modes i j = some (S i j).card) ∧
      r.first = ((List.range n).map fun (i : ℕ) => back (centre a b n i)) ∧ r.second = ((List.range m).map fun (i : ℕ) => back (centre c d m i)) := by
  unfold grid
  rw [if_neg (by rw [linspace_length, linspace_length]; omega)]
  dsimp only
  refine ⟨_, rfl, ?_, ?_, ?_⟩
  · intro i j hi hj
    dsimp only
    rw [entry_table _ _ _ hi hj, entry_table _ _ _ hi hj, if_pos (by rw [linspace_length, linspace_length]; omega), hS i j hi hj, mean_eq]
    exact ⟨rfl, rfl⟩
  · dsimp only
    rw [linspace_length]
    rfl
  · dsimp only
    rw [linspace_length]
    rfl

/-- **C177** (partial).  For odd numbers of cells, if there are modes along and across the line of sight: each bin has the average of the power over
all modes whose wave numbers are between its edges, among equal steps or ratios from the smallest wave number that is not zero to the largest.
Missing: modes with one of the wave numbers zero (`C177_false`), even numbers of cells (as in `C176_even_false`), given edges. -/
theorem C177_partial (a : Arr (Fin 3) ℝ) (hs : ∀ j, a.shape j % 2 = 1) (B : Box) {n m : ℕ} (hn : 1 ≤ n) (hm : 1 ≤ m) (log : Bool) (los : Fin 3)
    (h1 : ∃ i ∈ box a.shape, perpendicular a.shape B.sides los i ≠ 0) (h2 : ∃ i ∈ box a.shape, along a.shape B.sides los i ≠ 0) :
    ∃ r p P q Q, cylinder a B (.counts n m) (if log then .log else .linear) (axisOf los) = .ok r ∧
      Range a.shape (perpendicular a.shape B.sides los) p P ∧ Range a.shape (along a.shape B.sides los) q Q ∧
      (∀ i j, i < n → j < m →
        let S := cell a.shape B.sides los (edgeAt log p P n i) (edgeAt log p P n (i + 1)) (edgeAt log q Q m j) (edgeAt log q Q m (j + 1))
        entry r.ps i j = some (average S (value B.sides a)) ∧ entry r.modes i j = some S.card) ∧
      (∀ i, i < n → r.first[i]? = some (middle log (edgeAt log p P n i) (edgeAt log p P n (i + 1)))) ∧
      ∀ j, j < m → r.second[j]? = some (middle log (edgeAt log q Q m j) (edgeAt log q Q m (j + 1))) := by
  obtain ⟨p, hp, hp0, hpR⟩ := leastNonzero_ok (perpendicular_nonneg a.shape B.sides los) h1
  obtain ⟨q, hq, hq0, hqR⟩ := leastNonzero_ok (along_nonneg a.shape B.sides los) h2
  have hv : power B.sides a = value B.sides a := rfl
  have hP0 : 0 < most a.shape (perpendicular a.shape B.sides los) := by
    obtain ⟨i, hi, _, he⟩ := hpR.1
    exact lt_of_lt_of_le hp0 (he ▸ hpR.2.2.2 i hi)
  have hQ0 : 0 < most a.shape (along a.shape B.sides los) := by
    obtain ⟨i, hi, _, he⟩ := hqR.1
    exact lt_of_lt_of_le hq0 (he ▸ hqR.2.2.2 i hi)
  unfold cylinder
  dsimp only
  rw [if_neg (not_empty hs), axis_some]
  dsimp only
  rw [kPer_odd hs, kPar_odd hs, hp, hq, hv]
  generalize most a.shape (perpendicular a.shape B.sides los) = P at *
  generalize most a.shape (along a.shape B.sides los) = Q at *
  have hmid : ∀ {x y : ℝ} {n i : ℕ}, 0 < x → 0 < y → i < n →
      (log = false → centre x y n i = middle log (edgeAt log x y n i) (edgeAt log x y n (i + 1))) ∧
      (log = true → (10 : ℝ) ^ centre (Real.logb 10 x) (Real.logb 10 y) n i = middle log (edgeAt log x y n i) (edgeAt log x y n (i + 1))) := by
    intro x y n i hx hy hi
    constructor
    · rintro rfl
      rw [centre_eq _ _ _ _ hi]
      unfold middle
      rw [if_neg (by decide), ← edge_linear, ← edge_linear]
      push_cast
      ring
    · rintro rfl
      rw [centre_eq _ _ _ _ hi]
      unfold middle
      rw [if_pos rfl]
      have e1 := edge_log hx hy n i
      have e2 := edge_log hx hy n (i + 1)
      have hprod := mul_pos e1.2 e2.2
      have : Real.logb 10 x + ((i : ℝ) + 1 / 2) * ((Real.logb 10 y - Real.logb 10 x) / n) =
          Real.logb 10 (Real.sqrt (edgeAt true x y n i * edgeAt true x y n (i + 1))) := by
        rw [Real.sqrt_eq_rpow, Real.logb_rpow_eq_mul_logb_of_pos hprod, Real.logb_mul e1.2.ne' e2.2.ne', ← e1.1, ← e2.1]
        push_cast
        ring
      rw [this]
      exact Real.rpow_logb (by norm_num) (by norm_num) (Real.sqrt_pos.2 hprod)
  cases log with
  | false =>
    obtain ⟨r, hr, hps, hf, hg⟩ := grid_ok a.shape hn hm p P q Q (fun i => ((perpendicular a.shape B.sides los i : ℝ) : WithBot ℝ))
      (fun i => ((along a.shape B.sides los i : ℝ) : WithBot ℝ)) (value B.sides a) id
      (fun i j => cell a.shape B.sides los (edgeAt false p P n i) (edgeAt false p P n (i + 1)) (edgeAt false q Q m j) (edgeAt false q Q m (j + 1))) (by
        intro i j hi hj
        ext x
        simp only [both, cell, between, Finset.mem_inter, Finset.mem_filter]
        rw [near_linear hi, near_linear hj]
        tauto)
    refine ⟨r, p, P, q, Q, hr, hpR, hqR, hps, ?_, ?_⟩
    · intro i hi
      rw [hf, List.getElem?_map, List.getElem?_range hi]
      exact congrArg some ((hmid hp0 hP0 hi).1 rfl)
    · intro i hi
      rw [hg, List.getElem?_map, List.getElem?_range hi]
      exact congrArg some ((hmid hq0 hQ0 hi).1 rfl)
  | true =>
    obtain ⟨r, hr, hps, hf, hg⟩ := grid_ok a.shape hn hm (Real.logb 10 p) (Real.logb 10 P) (Real.logb 10 q) (Real.logb 10 Q)
      (fun i => log10 (perpendicular a.shape B.sides los i)) (fun i => log10 (along a.shape B.sides los i)) (value B.sides a) (fun x => (10 : ℝ) ^ x)
      (fun i j => cell a.shape B.sides los (edgeAt true p P n i) (edgeAt true p P n (i + 1)) (edgeAt true q Q m j) (edgeAt true q Q m (j + 1))) (by
        intro i j hi hj
        ext x
        simp only [both, cell, between, Finset.mem_inter, Finset.mem_filter]
        rw [near_log hp0 hP0 hi (perpendicular_nonneg _ _ _ _), near_log hq0 hQ0 hj (along_nonneg _ _ _ _)]
        tauto)
    refine ⟨r, p, P, q, Q, hr, hpR, hqR, hps, ?_, ?_⟩
    · intro i hi
      rw [hf, List.getElem?_map, List.getElem?_range hi]
      exact congrArg some ((hmid hp0 hP0 hi).2 rfl)
    · intro i hi
      rw [hg, List.getElem?_map, List.getElem?_range hi]
      exact congrArg some ((hmid hq0 hQ0 hi).2 rfl)

/-- An axis with three cells: modes along and across. -/
theorem modes_exist : ∃ i ∈ box (![3, 3, 3] : Fin 3 → ℕ), along ![3, 3, 3] (fun _ => 1) 2 i ≠ 0 ∧ perpendicular ![3, 3, 3] (fun _ => 1) 2 i ≠ 0 := by
  refine ⟨![0, 0, 0], by decide +kernel, ?_, ?_⟩
  · have : vector ![3, 3, 3] (fun _ => 1) 2 ![0, 0, 0] ≠ 0 := by
      unfold vector
      have := Real.pi_pos
      have e : ((![3, 3, 3] : Fin 3 → ℕ) 2 / 2 : ℕ) = 1 := rfl
      have e' : (![0, 0, 0] : Ix) 2 = 0 := rfl
      rw [e, e']
      norm_num
    exact abs_ne_zero.2 this
  · unfold perpendicular
    refine (Real.sqrt_pos.2 ?_).ne'
    have e : (Finset.univ : Finset (Fin 3)).erase 2 = {0, 1} := by decide
    rw [e, Finset.sum_pair (by decide)]
    have : vector ![3, 3, 3] (fun _ => 1) 0 ![0, 0, 0] ≠ 0 := by
      unfold vector
      have := Real.pi_pos
      have e : ((![3, 3, 3] : Fin 3 → ℕ) 0 / 2 : ℕ) = 1 := rfl
      have e' : (![0, 0, 0] : Ix) 0 = 0 := rfl
      rw [e, e']
      norm_num
    positivity

theorem edge_zero (log : Bool) {lo : ℝ} (hi : ℝ) (n : ℕ) : edgeAt log lo hi n 0 = lo := by
  unfold edgeAt
  cases log <;> simp

theorem edge_end (log : Bool) {lo hi : ℝ} (h0 : 0 < lo) {n : ℕ} (hn : 1 ≤ n) : edgeAt log lo hi n n = hi := by
  have hn' : (n : ℝ) ≠ 0 := by positivity
  unfold edgeAt
  rw [div_self hn']
  cases log
  · simp
  · rw [if_pos rfl, Real.rpow_one]
    field_simp

theorem edge_ge (log : Bool) {lo hi : ℝ} (h0 : 0 < lo) (h : lo ≤ hi) (n i : ℕ) : lo ≤ edgeAt log lo hi n i := by
  unfold edgeAt
  have hx : (0 : ℝ) ≤ (i : ℝ) / n := by positivity
  cases log
  · rw [if_neg (by decide)]
    have := mul_nonneg hx (sub_nonneg.2 h)
    linarith
  · rw [if_pos rfl]
    have := Real.one_le_rpow ((one_le_div h0).2 h) hx
    nlinarith

theorem find_bin (f : ℕ → ℝ) (x : ℝ) : ∀ n, 1 ≤ n → f 0 ≤ x → x ≤ f n → ∃ b, b < n ∧ f b ≤ x ∧ x ≤ f (b + 1)
  | 0, h, _, _ => absurd h (by omega)
  | 1, _, h0, h1 => ⟨0, by omega, h0, h1⟩
  | n + 2, _, h0, h1 => by
    rcases le_or_gt (f (n + 1)) x with h | h
    · exact ⟨n + 1, by omega, h, h1⟩
    · obtain ⟨b, hb, h2⟩ := find_bin f x (n + 1) (by omega) h0 h.le
      exact ⟨b, by omega, h2⟩

theorem range_pos {s : Fin 3 → ℕ} {q : Ix → ℝ} (h0 : ∀ i, 0 ≤ q i) {p P : ℝ} (h : Range s q p P) : 0 < p ∧ p ≤ P := by
  obtain ⟨⟨i, hi, hne, he⟩, _, _, h4⟩ := h
  exact ⟨he ▸ lt_of_le_of_ne (h0 i) (Ne.symm hne), he ▸ h4 i hi⟩

/-- Which modes are in some bin: those with both wave numbers different from zero. -/
theorem C177_modes (s : Fin 3 → ℕ) (L : Fin 3 → ℝ) (los : Fin 3) {p P q Q : ℝ} (hp : Range s (perpendicular s L los) p P)
    (hq : Range s (along s L los) q Q) {n m : ℕ} (hn : 1 ≤ n) (hm : 1 ≤ m) (log : Bool) {i : Ix} (hi : i ∈ box s) :
    (∃ b c, b < n ∧ c < m ∧ i ∈ cell s L los (edgeAt log p P n b) (edgeAt log p P n (b + 1)) (edgeAt log q Q m c) (edgeAt log q Q m (c + 1))) ↔
      perpendicular s L los i ≠ 0 ∧ along s L los i ≠ 0 := by
  obtain ⟨p0, pP⟩ := range_pos (perpendicular_nonneg s L los) hp
  obtain ⟨q0, qQ⟩ := range_pos (along_nonneg s L los) hq
  constructor
  · rintro ⟨b, c, _, _, h⟩
    simp only [cell, between, Finset.mem_inter, Finset.mem_filter] at h
    exact ⟨(lt_of_lt_of_le p0 ((edge_ge log p0 pP n b).trans h.1.2.1)).ne', (lt_of_lt_of_le q0 ((edge_ge log q0 qQ m c).trans h.2.2.1)).ne'⟩
  · rintro ⟨h1, h2⟩
    obtain ⟨b, hb, hb'⟩ := find_bin (edgeAt log p P n) (perpendicular s L los i) n hn ((edge_zero log P n).le.trans (hp.2.1 i hi h1))
      ((hp.2.2.2 i hi).trans (edge_end log p0 hn).ge)
    obtain ⟨c, hc, hc'⟩ := find_bin (edgeAt log q Q m) (along s L los i) m hm ((edge_zero log Q m).le.trans (hq.2.1 i hi h2))
      ((hq.2.2.2 i hi).trans (edge_end log q0 hm).ge)
    refine ⟨b, c, hb, hc, ?_⟩
    simp only [cell, between, Finset.mem_inter, Finset.mem_filter]
    exact ⟨⟨hi, hb'⟩, hi, hc'⟩

/-- The modes along the line of sight are in no bin, although their wave number is not zero. -/
theorem C177_false (s : Fin 3 → ℕ) (L : Fin 3 → ℝ) (los : Fin 3) {p P q Q : ℝ} (hp : Range s (perpendicular s L los) p P)
    (hq : Range s (along s L los) q Q) {n m : ℕ} (hn : 1 ≤ n) (hm : 1 ≤ m) (log : Bool) :
    ∃ i ∈ box s, along s L los i ≠ 0 ∧ ∀ b c, b < n → c < m →
      i ∉ cell s L los (edgeAt log p P n b) (edgeAt log p P n (b + 1)) (edgeAt log q Q m c) (edgeAt log q Q m (c + 1)) := by
  obtain ⟨k, hk, hk0, _⟩ := hq.1
  have hkm := (mem_box s k).1 hk
  have hi : (fun j => if j = los then k j else ((s j / 2 : ℕ) : ℤ)) ∈ box s := by
    refine (mem_box s _).2 fun j => ?_
    by_cases h : j = los
    · rw [if_pos h]
      exact hkm j
    · rw [if_neg h]
      have h1 := hkm j
      have h2 : (0 : ℤ) < s j := lt_of_le_of_lt h1.1 h1.2
      omega
  refine ⟨_, hi, ?_, fun b c hb hc h => ?_⟩
  · unfold along vector at hk0 ⊢
    dsimp only
    rwa [if_pos rfl]
  · refine ((C177_modes s L los hp hq hn hm log hi).1 ⟨b, c, hb, hc, h⟩).1 ?_
    unfold perpendicular
    rw [Finset.sum_eq_zero, Real.sqrt_zero]
    intro j hj
    unfold vector
    dsimp only
    rw [if_neg (Finset.ne_of_mem_erase hj)]
    generalize s j / 2 = t
    rw [Int.cast_natCast, sub_self, mul_zero, zero_div, zero_pow (by decide)]

/-- Given edges: the table has as many rows and columns as edges, of which the last are not numbers, and each bin is as wide as the first. -/
theorem C177_edges (a : Arr (Fin 3) ℝ) (hs : ∀ j, a.shape j % 2 = 1) (B : Box) (e f : List ℝ) (he : 2 ≤ e.length) (hf : 2 ≤ f.length) (b : Scale)
    (los : Fin 3) : ∃ r, cylinder a B (.edges e f) b (axisOf los) = .ok r ∧ r.ps.length = e.length ∧
      (∀ j, j < f.length → entry r.ps (e.length - 1) j = some none) ∧ (∀ i, i < e.length → entry r.ps i (f.length - 1) = some none) ∧
      ∀ i j, i + 1 < e.length → j + 1 < f.length →
        let c := (e.getD i 0 + e.getD (i + 1) 0) / 2
        let d := (f.getD j 0 + f.getD (j + 1) 0) / 2
        let w := (e.getD 1 0 - e.getD 0 0) / 2
        let u := (f.getD 1 0 - f.getD 0 0) / 2
        entry r.ps i j = some (average (cell a.shape B.sides los (c - w) (c + w) (d - u) (d + u)) (value B.sides a)) := by
  have hv : power B.sides a = value B.sides a := rfl
  unfold cylinder
  dsimp only
  rw [if_neg (not_empty hs), axis_some]
  dsimp only
  rw [kPer_odd hs, kPar_odd hs, hv]
  unfold grid
  rw [if_neg (by omega)]
  dsimp only
  refine ⟨_, rfl, by simp, ?_, ?_, ?_⟩
  · intro j hj
    dsimp only
    rw [entry_table _ _ _ (by omega) hj, if_neg (by omega)]
    rfl
  · intro i hi
    dsimp only
    rw [entry_table _ _ _ hi (by omega), if_neg (by omega)]
    rfl
  · intro i j hi hj
    dsimp only
    rw [entry_table _ _ _ (by omega) (by omega), if_pos ⟨hi, hj⟩, mean_eq]
    congr 2
    ext x
    simp only [both, cell, between, Finset.mem_inter, Finset.mem_filter]
    have key : ∀ y c w : ℝ, near c ((0 : ℝ) : WithBot ℝ) w (y : WithBot ℝ) ↔ c - w / 2 ≤ y ∧ y ≤ c + w / 2 := by
      intro y c w
      show |y - c| ≤ (w - 0) / 2 ↔ _
      rw [abs_le]
      constructor
      · rintro ⟨h1, h2⟩
        constructor <;> linarith
      · rintro ⟨h1, h2⟩
        constructor <;> linarith
    rw [key, key]
    tauto

example := C177_edges ⟨fun _ => 3, fun x => x 0⟩ (fun _ => by norm_num) (.number 1) [1, 2, 3] [1, 5] (by norm_num) (by norm_num) .log 1

/-- What raises: names of binnings other than `log` and `linear`, among them the documented `mixed`; axes counted from the end; a line of sight or a
plane of one cell. -/
theorem C177_raises (a : Arr (Fin 3) ℝ) (hs : ∀ j, a.shape j % 2 = 1) (B : Box) (n m : ℕ) (b : Scale) :
    (∀ los, b ≠ .log → b ≠ .linear → cylinder a B (.counts n m) b (axisOf los) = .error .unbound) ∧
    (∀ (K : Bins) (axis : ℤ), axis < 0 ∨ 2 < axis → cylinder a B K b axis = .error .key) ∧
    ∀ los, b = .log ∨ b = .linear → a.shape los = 1 ∨ (∀ j, j ≠ los → a.shape j = 1) →
      cylinder a B (.counts n m) b (axisOf los) = .error .value := by
  unfold cylinder
  dsimp only
  refine ⟨?_, ?_, ?_⟩
  · intro los h1 h2
    rw [if_neg (not_empty hs), axis_some]
    cases b
    · exact absurd rfl h1
    · exact absurd rfl h2
    · rfl
    · rfl
  · intro K axis h
    rw [if_neg (not_empty hs), if_neg (by omega), if_neg (by omega), if_neg (by omega)]
  · intro los hb h
    rw [if_neg (not_empty hs), axis_some]
    dsimp only
    rw [kPer_odd hs, kPar_odd hs]
    have hz : ∀ j, a.shape j = 1 → ∀ i ∈ box a.shape, vector a.shape B.sides j i = 0 := by
      intro j hj i hi
      have := (mem_box _ _).1 hi j
      rw [hj] at this
      have h0 : i j = 0 := by omega
      unfold vector
      rw [hj, h0]
      simp
    rcases h with h | h
    · have h2 : leastNonzero a.shape (along a.shape B.sides los) = .error .value :=
        leastNonzero_err fun i hi => abs_eq_zero.2 (hz los h i hi)
      rw [h2]
      rcases hb with rfl | rfl
      · cases hl : leastNonzero a.shape (perpendicular a.shape B.sides los) with
        | ok p => rfl
        | error x =>
          have : x = .value := by
            unfold leastNonzero at hl
            split at hl
            · exact absurd hl (by simp)
            · exact (Except.error.inj hl).symm
          rw [this]
          rfl
      · cases hl : leastNonzero a.shape (perpendicular a.shape B.sides los) with
        | ok p => rfl
        | error x =>
          have : x = .value := by
            unfold leastNonzero at hl
            split at hl
            · exact absurd hl (by simp)
            · exact (Except.error.inj hl).symm
          rw [this]
          rfl
    · have h2 : leastNonzero a.shape (perpendicular a.shape B.sides los) = .error .value := by
        refine leastNonzero_err fun i hi => ?_
        unfold perpendicular
        rw [Finset.sum_eq_zero, Real.sqrt_zero]
        intro j hj
        rw [hz j (h j (Finset.ne_of_mem_erase hj)) i hi, zero_pow (by decide)]
      rw [h2]
      rcases hb with rfl | rfl <;> rfl

example : cylinder ⟨![3, 3, 1], fun x => x 0⟩ (.number 1) (.counts 4 4) .log (axisOf 2) = .error .value :=
  (C177_raises ⟨![3, 3, 1], fun x => x 0⟩ (by decide) (.number 1) 4 4 .log).2.2 2 (.inl rfl) (.inl rfl)

/-! ## C178 -/

/-- The data multiplied with a window along the axis `los`. -/
noncomputable def tapered (w : ℕ → ℤ → ℝ) (los : Fin 3) (a : Arr (Fin 3) ℝ) : Arr (Fin 3) ℝ := ⟨a.shape, fun i => a.val i * w (a.shape los) (i los)⟩

/-- **C178** (partial).  With a named window and the last axis as the line of sight the result is that of the tapered data without a window.
Missing: other axes (`C178_axis_false`), windows given as arrays (`C178_array_false`), data that are left alone (`C178_false`). -/
theorem C178_partial (bh tk : ℕ → ℤ → ℝ) (a : Arr (Fin 3) ℝ) (B : Box) (K : Bins) (b : Scale) :
    (spect2d bh tk a B K b 2 .blackmanharris).map Prod.fst = (spect2d bh tk (tapered bh 2 a) B K b 2 .none).map Prod.fst ∧
    (spect2d bh tk a B K b 2 .tukey).map Prod.fst = (spect2d bh tk (tapered tk 2 a) B K b 2 .none).map Prod.fst := ⟨rfl, rfl⟩

theorem range_unique {s : Fin 3 → ℕ} {q : Ix → ℝ} {p P p' P' : ℝ} (h : Range s q p P) (h' : Range s q p' P') : p = p' ∧ P = P' := by
  obtain ⟨⟨i, hi, hi0, rfl⟩, h2, ⟨j, hj, rfl⟩, h4⟩ := h
  obtain ⟨⟨i', hi', hi0', rfl⟩, h2', ⟨j', hj', rfl⟩, h4'⟩ := h'
  exact ⟨le_antisymm (h2 _ hi' hi0') (h2' _ hi hi0), le_antisymm (h4' _ hj) (h4 _ hj')⟩

/-- The values of the bins: averages of the power of the data multiplied with the window, over the modes of the bin. -/
theorem C178_values (bh tk : ℕ → ℤ → ℝ) (a : Arr (Fin 3) ℝ) (hs : ∀ j, a.shape j % 2 = 1) (B : Box) {n m : ℕ} (hn : 1 ≤ n) (hm : 1 ≤ m) (log : Bool)
    (h1 : ∃ i ∈ box a.shape, perpendicular a.shape B.sides 2 i ≠ 0) (h2 : ∃ i ∈ box a.shape, along a.shape B.sides 2 i ≠ 0) :
    ∃ r c r' c' p P q Q, spect2d bh tk a B (.counts n m) (if log then .log else .linear) 2 .blackmanharris = .ok (r, c) ∧
      spect2d bh tk a B (.counts n m) (if log then .log else .linear) 2 .tukey = .ok (r', c') ∧
      Range a.shape (perpendicular a.shape B.sides 2) p P ∧ Range a.shape (along a.shape B.sides 2) q Q ∧
      ∀ i j, i < n → j < m →
        let S := cell a.shape B.sides 2 (edgeAt log p P n i) (edgeAt log p P n (i + 1)) (edgeAt log q Q m j) (edgeAt log q Q m (j + 1))
        entry r.ps i j = some (average S (value B.sides ⟨a.shape, fun x => bh (a.shape 2) (x 2) * a.val x⟩)) ∧
        entry r'.ps i j = some (average S (value B.sides ⟨a.shape, fun x => tk (a.shape 2) (x 2) * a.val x⟩)) ∧
        entry r.modes i j = some S.card ∧ entry r'.modes i j = some S.card := by
  have key : ∀ w : ℕ → ℤ → ℝ, tapered w 2 a = ⟨a.shape, fun x => w (a.shape 2) (x 2) * a.val x⟩ := fun w => by
    unfold tapered
    congr 1
    exact funext fun x => mul_comm _ _
  obtain ⟨r, p, P, q, Q, hr, hp, hq, hv, -⟩ := C177_partial (tapered bh 2 a) hs B hn hm log 2 h1 h2
  obtain ⟨r', p', P', q', Q', hr', hp', hq', hv', -⟩ := C177_partial (tapered tk 2 a) hs B hn hm log 2 h1 h2
  obtain ⟨e1, e2⟩ := range_unique hp hp'
  obtain ⟨e3, e4⟩ := range_unique hq hq'
  subst e1 e2 e3 e4
  have e : axisOf 2 = 2 := rfl
  rw [e] at hr hr'
  refine ⟨r, tapered bh 2 a, r', tapered tk 2 a, p, P, q, Q, ?_, ?_, hp, hq, fun i j hi hj => ?_⟩
  · unfold spect2d
    dsimp only
    show Except.map _ (cylinder (tapered bh 2 a) _ _ _ _) = _
    rw [hr]
    rfl
  · unfold spect2d
    dsimp only
    show Except.map _ (cylinder (tapered tk 2 a) _ _ _ _) = _
    rw [hr']
    rfl
  · have g := hv i j hi hj
    have g' := hv' i j hi hj
    rw [key bh] at g
    rw [key tk] at g'
    exact ⟨g.1, g'.1, g.2, g'.2⟩

example (bh tk : ℕ → ℤ → ℝ) (log : Bool) :=
  C178_values bh tk ⟨![3, 3, 3], fun x => x 0 + x 2⟩ (by decide) (.number 1) (n := 4) (m := 3) (by norm_num) (by norm_num) log
    (modes_exist.imp fun _ h => ⟨h.1, h.2.2⟩) (modes_exist.imp fun _ h => ⟨h.1, h.2.1⟩)

/-- The data of the caller are changed wherever the window is not one. -/
theorem C178_false (bh tk : ℕ → ℤ → ℝ) (a : Arr (Fin 3) ℝ) (B : Box) (K : Bins) (b : Scale) (axis : ℤ) {r : Two} {c : Arr (Fin 3) ℝ}
    (h : spect2d bh tk a B K b axis .blackmanharris = .ok (r, c)) (i : Ix) (hi : a.val i ≠ 0) : c.val i = a.val i ↔ bh (a.shape 2) (i 2) = 1 := by
  unfold spect2d at h
  dsimp only at h
  generalize hc : cylinder _ B K b axis = z at h
  cases z with
  | error e => exact absurd h (by simp [Except.map])
  | ok t =>
    have := (Prod.mk.inj (Except.ok.inj h)).2
    rw [← this]
    show a.val i * _ = a.val i ↔ _
    exact mul_eq_left₀ hi

/-- A cube of ones. -/
noncomputable def flat : Arr (Fin 3) ℝ := ⟨![3, 3, 3], fun _ => 1⟩

/-- Along the first axis the data are still tapered along the last one: the array is not the data tapered along the line of sight. -/
theorem C178_axis_false (bh tk : ℕ → ℤ → ℝ) (hw : bh 3 0 ≠ bh 3 1) (B : Box) (b : Scale) :
    ∃ a r c, spect2d bh tk a B (.edges [1, 2] [1, 2]) b 0 .blackmanharris = .ok (r, c) ∧ c = tapered bh 2 a ∧ c ≠ tapered bh 0 a := by
  have hs : ∀ j, (tapered bh 2 flat).shape j % 2 = 1 := by
    intro j
    show flat.shape j % 2 = 1
    unfold flat
    match j with
    | 0 => rfl
    | 1 => rfl
    | 2 => rfl
  obtain ⟨r, hr, -⟩ := C177_edges (tapered bh 2 flat) hs B [1, 2] [1, 2] le_rfl le_rfl b 0
  refine ⟨flat, r, tapered bh 2 flat, ?_, rfl, ?_⟩
  · rw [show axisOf 0 = 0 from rfl] at hr
    unfold spect2d
    dsimp only
    rw [show (⟨flat.shape, fun i => flat.val i * bh (flat.shape 2) (i 2)⟩ : Arr (Fin 3) ℝ) = tapered bh 2 flat from rfl, hr]
    rfl
  · intro h
    have h1 : (tapered bh 2 flat).val ![0, 0, 1] = (tapered bh 0 flat).val ![0, 0, 1] := by rw [h]
    have h2 : (1 : ℝ) * bh 3 1 = 1 * bh 3 0 := h1
    rw [one_mul, one_mul] at h2
    exact hw h2.symm

/-- A window given as an array raises, whatever it is; without a window the data are left alone. -/
theorem C178_array_false (bh tk : ℕ → ℤ → ℝ) (a : Arr (Fin 3) ℝ) (B : Box) (K : Bins) (b : Scale) (axis : ℤ) :
    (∀ w, spect2d bh tk a B K b axis (.array w) = .error .attribute) ∧
    ∀ r c, spect2d bh tk a B K b axis .none = .ok (r, c) → c = a := by
  refine ⟨fun _ => rfl, fun r c h => ?_⟩
  unfold spect2d at h
  dsimp only at h
  generalize cylinder _ B K b axis = z at h
  cases z with
  | error e => exact absurd h (by simp [Except.map])
  | ok t => exact (Prod.mk.inj (Except.ok.inj h)).2.symm

end Verif.FastSpectrum
