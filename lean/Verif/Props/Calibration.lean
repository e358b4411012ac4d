import Verif.Model.Calibration
import Verif.Props.UVGrid
import Mathlib.Algebra.Order.Group.Abs
import Mathlib.Analysis.SpecialFunctions.Trigonometric.Basic
import Mathlib.Tactic.Ring
import Mathlib.Tactic.Linarith
import Mathlib.Tactic.NormNum
import Mathlib.Tactic.FieldSimp
import Mathlib.Tactic.Positivity
/-!
# Gains and antenna stamps (C33, C69, C70, C71), chunks (C34), baseline cut (C35)
-/

namespace Verif.Calibration

open Verif.UVGrid

set_option linter.unusedSectionVars false

/-! ## C34 -/

theorem range_chunks (s D k : ℕ) :
    ((List.range k).map fun i => (s * i, min (s * i + s) D)).flatMap pyRange = List.range (min (s * k) D) := by
  induction k with
  | zero => simp
  | succ k ih =>
    rw [List.range_succ, List.map_append, List.flatMap_append, ih]
    simp only [List.map_cons, List.map_nil, List.flatMap_cons, List.flatMap_nil, List.append_nil, pyRange]
    rw [Nat.mul_succ]
    rcases Nat.le_total D (s * k) with h | h
    · rw [Nat.min_eq_right h, Nat.min_eq_right (by omega)]
      rw [Nat.sub_eq_zero_of_le (by omega)]
      simp
    · rw [Nat.min_eq_left h, List.range_eq_range', List.range_eq_range']
      have e := List.range'_append_1 (s := 0) (m := s * k) (n := min (s * k + s) D - s * k)
      rw [Nat.zero_add] at e
      rw [e]
      congr 1
      omega

/-- **C34, time chunks.** With at least one time step per job, the chunks into which the time steps `0..T-1` are split
cover each step once and in order, and none is empty. Missing: more jobs than steps (`C34_false`). -/
theorem C34_partial (T nJobs : ℕ) (h0 : 0 < nJobs) (h : nJobs ≤ T) :
    ∃ l, timeChunks T nJobs = .ok l ∧ l.flatMap pyRange = List.range T ∧ ∀ c ∈ l, c.1 < c.2 := by
  have hpos : 0 < T / nJobs := Nat.div_pos h h0
  have e : ((T : ℤ) / (nJobs : ℤ)) = ((T / nJobs : ℕ) : ℤ) := by push_cast; rfl
  refine ⟨_, by
    rw [timeChunks, if_neg (by omega), e]
    simp only
    rw [if_neg (by omega), if_neg (by omega), Int.toNat_natCast], ?_, ?_⟩
  · rw [range_chunks]
    congr 1
    apply Nat.min_eq_right
    generalize T / nJobs = s at hpos
    have := Nat.lt_div_mul_add hpos (a := T + s - 1)
    rw [Nat.mul_comm]
    omega
  · intro c hc
    rw [List.mem_map] at hc
    obtain ⟨k, hk, rfl⟩ := hc
    rw [List.mem_range] at hk
    generalize T / nJobs = s at *
    have : s * k < T := by
      have h1 : (k + 1) * s ≤ T + s - 1 := (Nat.le_div_iff_mul_le hpos).1 hk
      rw [Nat.add_mul, Nat.one_mul, Nat.mul_comm] at h1
      omega
    simp only [lt_min_iff]
    omega

example : timeChunks 10 4 = .ok [(0, 2), (2, 4), (4, 6), (6, 8), (8, 10)] := rfl

/-- **C34 is false for more jobs than time steps**: the chunk size is 0 and the call raises, for every positive number
of time steps and every larger number of jobs. -/
theorem C34_false (T nJobs : ℕ) (h : T < nJobs) : timeChunks T nJobs = .error "ValueError: step" := by
  have e : ((T : ℤ) / (nJobs : ℤ)) = 0 := by
    rw [Int.ediv_eq_zero_of_lt] <;> omega
  rw [timeChunks, if_neg (by omega), e]
  simp only
  rw [if_neg (by omega), if_pos trivial]

example : timeChunks 3 4 = .error "ValueError: step" := C34_false 3 4 (by norm_num)

/-- **C34, `CubeMap_joblib`.** For every domain size and every positive number of jobs the chunks cover each index once and
in order. -/
theorem C34_cube (D nJobs : ℕ) (h0 : 0 < nJobs) : (cubeChunks D nJobs).flatMap pyRange = List.range D := by
  have := range_chunks ((D + nJobs - 1) / nJobs) D nJobs
  rw [Nat.min_eq_right] at this
  · rw [← this, cubeChunks]
    congr 1
    apply List.map_congr_left
    intro i _
    rw [Nat.add_mul, Nat.one_mul, Nat.mul_comm]
  · have h2 := Nat.lt_div_mul_add h0 (a := D + nJobs - 1)
    omega

example : cubeChunks 5 4 = [(0, 2), (2, 4), (4, 5), (6, 5)] := rfl

/-! ## C33 -/

/-- Specification: the position of a baseline, `none` (NaN) outside the grid `[-n/2, n/2)²`. -/
def position (n : ℕ) (b : ℤ × ℤ) : Option (ℤ × ℤ) :=
  if -(n : ℤ) ≤ 2 * b.1 ∧ 2 * b.1 < n ∧ -(n : ℤ) ≤ 2 * b.2 ∧ 2 * b.2 < n then some b else none

theorem position_eq (n : ℕ) (b : ℤ × ℤ) : position n b = if inGrid n b = true then some b else none := by
  simp only [position, inGrid_iff]

/-- **C33, baselines before the first one outside.** The position array has one row per baseline, and row `k` is right as
long as no baseline up to `k` is outside the grid. Missing: all later rows (`C33_false`). -/
theorem C33_partial (n : ℕ) (bs : List (ℤ × ℤ)) :
    (gridLagrangian n bs).length = bs.length ∧
    ∀ a c, bs = a ++ c → (∀ b ∈ a, position n b ≠ none) →
      (gridLagrangian n bs).take a.length = a.map (position n) := by
  refine ⟨?_, ?_⟩
  · have := List.length_filter_le (inGrid n) bs
    simp only [gridLagrangian, List.length_append, List.length_map, List.length_replicate]
    omega
  · rintro a c rfl ha
    have hf : a.filter (inGrid n) = a := by
      rw [List.filter_eq_self]
      intro b hb
      have := ha b hb
      rw [position_eq] at this
      by_contra h
      exact this (if_neg h)
    simp only [gridLagrangian, List.filter_append, hf, List.map_append, List.append_assoc]
    rw [List.take_append_of_le_length (by simp), List.take_of_length_le (by simp)]
    apply List.map_congr_left
    intro b hb
    have := ha b hb
    rw [position_eq] at this ⊢
    by_cases h : inGrid n b = true
    · rw [if_pos h]
    · exact absurd (if_neg h) this

example : position 4 (1, -2) = some (1, -2) ∧ position 4 (2, 0) = none := by decide +kernel

/-- **C33 is false after a baseline outside the grid**: the position of the next baseline inside is stored in the row
of the baseline outside, and its own row is NaN. -/
theorem C33_false (n : ℕ) (a b : ℤ × ℤ) (ha : position n a = none) (hb : position n b = some b) :
    gridLagrangian n [a, b] = [some b, none] ∧ [a, b].map (position n) = [none, some b] := by
  refine ⟨?_, by simp [ha, hb]⟩
  rw [position_eq] at ha hb
  have h1 : inGrid n a = false := by
    by_contra h
    rw [Bool.not_eq_false] at h
    rw [if_pos h] at ha; cases ha
  have h2 : inGrid n b = true := by
    by_contra h
    rw [if_neg h] at hb; cases hb
  simp [gridLagrangian, h1, h2]

example : gridLagrangian 4 [(5, 0), (1, -2)] = [some (1, -2), none] := by decide +kernel

/-! ## C69: gains -/

/-- In the grid, Python's negative indices are the Fourier layout. -/
theorem pyIndex_eq (n : ℕ) (x : ℤ) (h1 : -(n : ℤ) ≤ x) (h2 : x < n) : pyIndex n x = x % n := by
  unfold pyIndex
  split_ifs with h
  · rw [← Int.add_emod_right, Int.emod_eq_of_lt] <;> omega
  · rw [Int.emod_eq_of_lt] <;> omega

/-- Specification: does the baseline contribute to cell `(p, q)`: it is inside the grid `[-n/2, n/2)²` and its Fourier cell is
`(p, q)`. -/
def InCell (n : ℕ) (b : ℤ × ℤ) (p q : ℤ) : Prop :=
  -(n : ℤ) ≤ 2 * b.1 ∧ 2 * b.1 < n ∧ -(n : ℤ) ≤ 2 * b.2 ∧ 2 * b.2 < n ∧ b.1 % n = p ∧ b.2 % n = q

/-- The same for the mirror image of a baseline that is inside the grid. -/
def InCellMirror (n : ℕ) (b : ℤ × ℤ) (p q : ℤ) : Prop :=
  -(n : ℤ) ≤ 2 * b.1 ∧ 2 * b.1 < n ∧ -(n : ℤ) ≤ 2 * b.2 ∧ 2 * b.2 < n ∧ (-b.1) % n = p ∧ (-b.2) % n = q

instance (n : ℕ) (b : ℤ × ℤ) (p q : ℤ) : Decidable (InCell n b p q) := by unfold InCell; infer_instance

instance (n : ℕ) (b : ℤ × ℤ) (p q : ℤ) : Decidable (InCellMirror n b p q) := by unfold InCellMirror; infer_instance

/-- What a baseline adds to channel `c`: one hit and the four gain products. -/
def weight {R : Type} [Semiring R] (g : Fin 4 → R) : Fin 5 → R := ![1, g 0, g 1, g 2, g 3]

theorem weight_eq {R : Type} [Semiring R] (g : Fin 4 → R) (c : Fin 5) :
    (if h : c = 0 then (1 : R) else g (c.pred h)) = weight g c := by
  match c with
  | 0 => rfl
  | 1 => rfl
  | 2 => rfl
  | 3 => rfl
  | 4 => rfl

theorem gridGains_eq {R : Type} [Semiring R] (n : ℕ) (mirror : Bool) (m : GainMap R)
    (bs : List ((ℤ × ℤ) × (Fin 4 → R))) (p q : ℤ) (c : Fin 5) :
    gridGains n mirror m bs p q c = m p q c
      + (bs.map fun b => (if InCell n b.1 p q then weight b.2 c else 0)
        + if mirror = true ∧ InCellMirror n b.1 p q then weight b.2 c else 0).sum := by
  induction bs generalizing m with
  | nil => simp [gridGains]
  | cons b bs ih =>
    by_cases hb : inGrid n b.1 = true
    · have hin := (inGrid_iff n b.1).1 hb
      have hx := pyIndex_eq n b.1.1 (by omega) (by omega)
      have hy := pyIndex_eq n b.1.2 (by omega) (by omega)
      have hpos : 0 < n := by omega
      have hx' := pyIndex_eq n (-b.1.1) (by omega) (by omega)
      have hy' := pyIndex_eq n (-b.1.2) (by omega) (by omega)
      have step : gridGains n mirror m (b :: bs) = gridGains n mirror
          (let m := addAt n b.1.1 b.1.2 b.2 m
            if mirror = true then addAt n (-b.1.1) (-b.1.2) b.2 m else m) bs := by
        simp only [gridGains, List.filter_cons, hb, if_true, List.foldl_cons]
      rw [step, ih, List.map_cons, List.sum_cons, ← add_assoc, ← add_assoc]
      congr 1
      have i1 : InCell n b.1 p q ↔ p = b.1.1 % n ∧ q = b.1.2 % n := by
        unfold InCell
        constructor
        · rintro ⟨_, _, _, _, rfl, rfl⟩; exact ⟨rfl, rfl⟩
        · rintro ⟨rfl, rfl⟩; exact ⟨hin.1, hin.2.1, hin.2.2.1, hin.2.2.2, rfl, rfl⟩
      have i2 : InCellMirror n b.1 p q ↔ p = (-b.1.1) % n ∧ q = (-b.1.2) % n := by
        unfold InCellMirror
        constructor
        · rintro ⟨_, _, _, _, rfl, rfl⟩; exact ⟨rfl, rfl⟩
        · rintro ⟨rfl, rfl⟩; exact ⟨hin.1, hin.2.1, hin.2.2.1, hin.2.2.2, rfl, rfl⟩
      simp only [i1, i2]
      cases mirror with
      | false =>
        simp only [Bool.false_eq_true, if_false, false_and, add_zero, addAt, hx, hy, weight_eq]
        split_ifs <;> simp
      | true =>
        simp only [if_true, true_and, addAt, hx, hy, hx', hy', weight_eq]
        split_ifs <;> simp
    · have step : gridGains n mirror m (b :: bs) = gridGains n mirror m bs := by
        simp [gridGains, List.filter_cons, hb]
      have hnot : ¬ (-(n : ℤ) ≤ 2 * b.1.1 ∧ 2 * b.1.1 < n ∧ -(n : ℤ) ≤ 2 * b.1.2 ∧ 2 * b.1.2 < n) := by
        rw [← inGrid_iff]; exact hb
      rw [step, ih, List.map_cons, List.sum_cons, if_neg, if_neg]
      · simp
      · rintro ⟨_, h⟩; exact hnot ⟨h.1, h.2.1, h.2.2.1, h.2.2.2.1⟩
      · intro h; exact hnot ⟨h.1, h.2.1, h.2.2.1, h.2.2.2.1⟩

/-- **C69, hits and gains.** On every grid, even or odd, channel 0 of the gain map grows by the number of baselines in
each Fourier cell `(u mod n, v mod n)` and channels 1-4 by the sums of their gain products; nothing else changes. -/
theorem C69_gains {R : Type} [Semiring R] (n : ℕ) (m : GainMap R) (bs : List ((ℤ × ℤ) × (Fin 4 → R))) (p q : ℤ) :
    gridGains n false m bs p q 0 = m p q 0 + (cellCount n (bs.map Prod.fst) p q : R) ∧
    ∀ c : Fin 4, gridGains n false m bs p q c.succ
      = m p q c.succ + ((bs.filter fun b => decide (InCell n b.1 p q)).map fun b => b.2 c).sum := by
  constructor
  · rw [gridGains_eq]
    congr 1
    induction bs with
    | nil => simp [cellCount]
    | cons b bs ih =>
      have e : cellCount n ((b :: bs).map Prod.fst) p q
          = cellCount n (bs.map Prod.fst) p q + if InCell n b.1 p q then 1 else 0 := by
        rw [List.map_cons, cellCount, cellCount, List.countP_cons]
        simp only [decide_eq_true_eq, InCell]
      rw [List.map_cons, List.sum_cons, ih, e]
      by_cases h : InCell n b.1 p q
      · simp [h, weight, add_comm]
      · simp [h]
  · intro c
    rw [gridGains_eq]
    congr 1
    induction bs with
    | nil => simp
    | cons b bs ih =>
      rw [List.map_cons, List.sum_cons, ih, List.filter_cons]
      have hw : weight b.2 c.succ = b.2 c := by
        match c with
        | 0 => rfl
        | 1 => rfl
        | 2 => rfl
        | 3 => rfl
      by_cases h : InCell n b.1 p q
      · simp [h, hw]
      · simp [h]

example : gridGains 5 false (fun _ _ _ => (0 : ℚ)) [((-1, 2), ![1, 2, 3, 4]), ((-1, 2), ![10, 0, 0, 0]), ((3, 0), ![1, 1, 1, 1])]
    4 2 0 = 2 ∧ gridGains 5 false (fun _ _ _ => (0 : ℚ)) [((-1, 2), ![1, 2, 3, 4]), ((-1, 2), ![10, 0, 0, 0]),
      ((3, 0), ![1, 1, 1, 1])] 4 2 1 = 11 := by decide +kernel

/-- **C69, mirrored.** With mirrored baselines the gain map stays symmetric under `(p, q) → (-p, -q) mod n`, on every grid
including the Nyquist cells (unlike `grid_uv_tracks`, `C65_false_nyquist`). -/
theorem C69_mirror {R : Type} [CommSemiring R] (n : ℕ) (m : GainMap R) (bs : List ((ℤ × ℤ) × (Fin 4 → R))) (p q : ℤ)
    (hp0 : 0 ≤ p) (hp : p < n) (hq0 : 0 ≤ q) (hq : q < n) (c : Fin 5) (hm : m p q c = m ((-p) % n) ((-q) % n) c) :
    gridGains n true m bs p q c = gridGains n true m bs ((-p) % n) ((-q) % n) c := by
  have flip : ∀ x p : ℤ, 0 ≤ p → p < n → ((-x) % n = p ↔ x % n = (-p) % n) := by
    intro x p hp0 hp
    rw [← Int.emod_eq_of_lt hp0 hp, Int.emod_eq_emod_iff_emod_sub_eq_zero, ← Int.dvd_iff_emod_eq_zero,
      Int.emod_eq_of_lt hp0 hp, Int.emod_eq_emod_iff_emod_sub_eq_zero, ← Int.dvd_iff_emod_eq_zero,
      show x - -p = -(-x - p) by ring, Int.dvd_neg]
  have flip' : ∀ x p : ℤ, 0 ≤ p → p < n → (x % n = p ↔ (-x) % n = (-p) % n) := by
    intro x p hp0 hp
    conv_lhs => rw [← Int.emod_eq_of_lt hp0 hp]
    rw [Int.emod_eq_emod_iff_emod_sub_eq_zero, ← Int.dvd_iff_emod_eq_zero,
      Int.emod_eq_emod_iff_emod_sub_eq_zero, ← Int.dvd_iff_emod_eq_zero,
      show -x - -p = -(x - p) by ring, Int.dvd_neg]
  rw [gridGains_eq, gridGains_eq, hm]
  congr 2
  apply List.map_congr_left
  intro b _
  have h1 : InCell n b.1 p q ↔ InCellMirror n b.1 ((-p) % n) ((-q) % n) := by
    unfold InCell InCellMirror
    rw [flip' _ _ hp0 hp, flip' _ _ hq0 hq]
  have h2 : InCellMirror n b.1 p q ↔ InCell n b.1 ((-p) % n) ((-q) % n) := by
    unfold InCell InCellMirror
    rw [flip _ _ hp0 hp, flip _ _ hq0 hq]
  simp only [h1, h2, true_and]
  rw [add_comm]

example : gridGains 4 true (fun _ _ _ => (0 : ℚ)) [((-2, 1), ![1, 2, 3, 4])] 2 1 0 = 1 ∧
    gridGains 4 true (fun _ _ _ => (0 : ℚ)) [((-2, 1), ![1, 2, 3, 4])] 2 3 0 = 1 := by decide +kernel

/-! ## C70: the declination argument -/

/-- Degrees to radians. -/
noncomputable def rad (x : ℝ) : ℝ := x * Real.pi / 180

/-- Specification: the rotation of an observation of `total` hours at declination `decl` degrees, time step `t`: the hour
angle in degrees runs from `-15 total / 2` in steps of `15 intTime / 3600`. -/
noncomputable def documentedRotation (t : ℕ) (intTime total decl : ℝ) (b : V3) : V3 :=
  earthRotation (rad (-(15 * total / 2) + 15 * t * intTime / 3600)) (rad decl) b

/-- **C70 is false**: the declination has no effect on the baseline along the Earth's axis, whose `v` is always
`cos 30°` instead of the cosine of the declination. -/
theorem C70_false_declination (t : ℕ) (intTime total decl : ℝ) :
    calibrationRotation t intTime decl ![0, 0, 1] 1 = Real.cos (rad 30) ∧
    documentedRotation t intTime total decl ![0, 0, 1] 1 = Real.cos (rad decl) := by
  constructor
  · simp only [calibrationRotation, earthRotation, rad]
    simp only [Matrix.cons_val_zero, Matrix.cons_val_one, Matrix.cons_val]
    rw [show (-30 * Real.pi / 180 : ℝ) = -(30 * Real.pi / 180) by ring, Real.cos_neg]
    ring
  · simp only [documentedRotation, earthRotation, rad]
    simp only [Matrix.cons_val_zero, Matrix.cons_val_one, Matrix.cons_val]
    ring

example : Real.cos (rad 0) = 1 ∧ Real.cos (rad 30) ≠ 1 := by
  constructor
  · simp [rad]
  · have : rad 30 = Real.pi / 6 := by rw [rad]; ring
    rw [this, Real.cos_pi_div_six]
    intro h
    have h3 : Real.sqrt 3 = 2 := by linarith
    have := Real.sq_sqrt (show (0 : ℝ) ≤ 3 by norm_num)
    rw [h3] at this
    norm_num at this

/-- **C70 is false at the default declination too**: the declination is used as the length of the observation, so that the
default observation (6 hours, declination -30°) starts at hour angle 225° instead of -45°. -/
theorem C70_false_default :
    calibrationRotation 0 10 (-30) ![0, 1, 0] 0 = -(Real.sqrt 2 / 2) ∧
    documentedRotation 0 10 6 (-30) ![0, 1, 0] 0 = Real.sqrt 2 / 2 := by
  constructor
  · simp only [calibrationRotation, earthRotation, hourAngle]
    simp only [Matrix.cons_val_zero, Matrix.cons_val_one, Matrix.cons_val]
    rw [show (15 * (-0.5 * -30 * 3600 + ((0 : ℕ) : ℝ) * 10) / 3600 * Real.pi / 180 : ℝ) = Real.pi / 4 + Real.pi by
      norm_num; ring, Real.cos_add_pi, Real.cos_pi_div_four]
    ring
  · simp only [documentedRotation, earthRotation, rad]
    simp only [Matrix.cons_val_zero, Matrix.cons_val_one, Matrix.cons_val]
    rw [show ((-(15 * 6 / 2) + 15 * ((0 : ℕ) : ℝ) * 10 / 3600) * Real.pi / 180 : ℝ) = -(Real.pi / 4) by
      norm_num; ring, Real.cos_neg, Real.cos_pi_div_four]
    ring

/-- What remains of C70: the rotation of the calibration functions is still rigid. -/
theorem C70_partial (t : ℕ) (intTime decl : ℝ) (a b : V3) :
    dot (calibrationRotation t intTime decl a) (calibrationRotation t intTime decl b) = dot a b :=
  (C30_earth _ _ a b a).1

example : dot ![0, 3, 4] ![0, 3, 4] = 25 := by simp [dot]; norm_num

/-! ## C71: antenna stamps -/

/-- **C71, stamps.** On every grid, cell `(p, q)` receives the stamps of exactly the baselines of that Fourier cell, in the
order of the baselines. -/
theorem C71_stamps {α : Type} (n : ℕ) (m : ℤ → ℤ → List α) (bs : List ((ℤ × ℤ) × α)) (p q : ℤ) :
    gridStamps n m bs p q = m p q ++ (bs.filter fun b => decide (InCell n b.1 p q)).map Prod.snd := by
  induction bs generalizing m with
  | nil => simp [gridStamps]
  | cons b bs ih =>
    by_cases hb : inGrid n b.1 = true
    · have hin := (inGrid_iff n b.1).1 hb
      have hx := pyIndex_eq n b.1.1 (by omega) (by omega)
      have hy := pyIndex_eq n b.1.2 (by omega) (by omega)
      have step : gridStamps n m (b :: bs) = gridStamps n (fun p q =>
          if p = pyIndex n b.1.1 ∧ q = pyIndex n b.1.2 then m p q ++ [b.2] else m p q) bs := by
        simp only [gridStamps, List.filter_cons, hb, if_true, List.foldl_cons]
      have i1 : InCell n b.1 p q ↔ p = b.1.1 % n ∧ q = b.1.2 % n := by
        unfold InCell
        constructor
        · rintro ⟨_, _, _, _, rfl, rfl⟩; exact ⟨rfl, rfl⟩
        · rintro ⟨rfl, rfl⟩; exact ⟨hin.1, hin.2.1, hin.2.2.1, hin.2.2.2, rfl, rfl⟩
      rw [step, ih, List.filter_cons, hx, hy]
      by_cases h : InCell n b.1 p q
      · rw [if_pos (i1.1 h)]; simp [h]
      · rw [if_neg (fun h' => h (i1.2 h'))]; simp [h]
    · have step : gridStamps n m (b :: bs) = gridStamps n m bs := by
        simp [gridStamps, List.filter_cons, hb]
      have hnot : ¬ InCell n b.1 p q := by
        intro h
        exact hb ((inGrid_iff n b.1).2 ⟨h.1, h.2.1, h.2.2.1, h.2.2.2.1⟩)
      rw [step, ih, List.filter_cons, if_neg (by simpa using hnot)]

/-- **C71, conversion to a UV map.** The UV map obtained from the stamps counts, over all time steps, the baselines in each
Fourier cell, on even and odd grids. -/
theorem C71_counts {α : Type} (n : ℕ) (steps : List (List ((ℤ × ℤ) × α))) (p q : ℤ) :
    stampsToUV (steps.map (gridStamps n fun _ _ => [])) p q
      = (steps.map fun bs => cellCount n (bs.map Prod.fst) p q).sum := by
  simp only [stampsToUV, List.map_map]
  congr 1
  apply List.map_congr_left
  intro bs _
  simp only [Function.comp_apply, C71_stamps, List.nil_append, List.length_map, cellCount, List.countP_map]
  rw [List.countP_eq_length_filter]
  congr 1

example : stampsToUV ([[((-1, 0), (1, 2)), ((2, 2), (1, 3))], [((-1, 0), (1, 2))]].map (gridStamps 5 fun _ _ => [])) 4 0
    = 2 := by decide +kernel

/-! ## C35 -/

theorem kAxis_bounds (n : ℕ) (hn : 2 ≤ n) (u : ℤ) (h1 : -(n : ℤ) ≤ 2 * u) (h2 : 2 * u + 2 ≤ n) (he : n % 2 = 0) :
    (u : ℚ) ≤ kAxis n (u + n / 2) ∧ kAxis n (u + n / 2) ≤ u + 1 := by
  rw [kAxis, if_neg (by omega)]
  have hn' : (0 : ℚ) < n - 1 := by
    have : (2 : ℚ) ≤ n := by exact_mod_cast hn
    linarith
  have e : ((u + (n : ℤ) / 2 : ℤ) : ℚ) = u + n / 2 := by
    have : ((n : ℤ) / 2) * 2 = n := by omega
    have h3 : (((n : ℤ) / 2 : ℤ) : ℚ) * 2 = n := by exact_mod_cast this
    push_cast [Int.cast_add]
    linarith
  rw [e]
  have a1 : -(n : ℚ) ≤ 2 * u := by exact_mod_cast h1
  have a2 : 2 * (u : ℚ) + 2 ≤ n := by exact_mod_cast h2
  have key : -(n : ℚ) / 2 + (u + n / 2) * n / (n - 1) = u + (2 * u + n) / (2 * (n - 1)) := by
    field_simp
    ring
  rw [key]
  constructor
  · have : 0 ≤ (2 * (u : ℚ) + n) / (2 * (n - 1)) := div_nonneg (by linarith) (by linarith)
    linarith
  · have : (2 * (u : ℚ) + n) / (2 * (n - 1)) ≤ 1 := by
      rw [div_le_one (by linarith)]; linarith
    linarith

theorem cutUV_even (n : ℕ) (hn : 2 ≤ n) (he : n % 2 = 0) (cut : ℚ) (m : ℤ → ℤ → ℚ) (u v : ℤ)
    (hu1 : -(n : ℤ) ≤ 2 * u) (hu2 : 2 * u < n) (hv1 : -(n : ℤ) ≤ 2 * v) (hv2 : 2 * v < n) :
    cutUV n cut m (u % n) (v % n)
      = if cut ^ 2 < kAxis n (v + n / 2) ^ 2 + kAxis n (u + n / 2) ^ 2 then 0 else m (u % n) (v % n) := by
  have sh : ∀ u : ℤ, -(n : ℤ) ≤ 2 * u → 2 * u < n →
      (u % n - (n : ℤ) / 2) % n = u + n / 2 ∧ (u + (n : ℤ) / 2 - n / 2) % n = u % n := by
    intro u h1 h2
    constructor
    · rw [Int.sub_emod, Int.emod_emod, ← Int.sub_emod]
      have : u - (n : ℤ) / 2 = u + n / 2 - n := by omega
      rw [this, Int.sub_emod_right, Int.emod_eq_of_lt] <;> omega
    · rw [show u + (n : ℤ) / 2 - n / 2 = u by ring]
  have su := sh u hu1 hu2
  have sv := sh v hv1 hv2
  simp only [cutUV, fftshift]
  rw [su.1, sv.1, su.2, sv.2]

/-- **C35, even grids.** The cut leaves every cell where it is: the value of the cell `(u mod n, v mod n)` is unchanged or
set to zero. It is unchanged if `(|u|+1)² + (|v|+1)²` is at most the square of the cut and zero if
`(|u|-1)² + (|v|-1)²` is larger (`|u|, |v| ≥ 1`). Missing: odd grids (`C35_false_odd`) and the cells within one cell of the
cut (`C35_false_cut`). -/
theorem C35_partial (n : ℕ) (hn : 2 ≤ n) (he : n % 2 = 0) (cut : ℚ) (m : ℤ → ℤ → ℚ) (u v : ℤ)
    (hu1 : -(n : ℤ) ≤ 2 * u) (hu2 : 2 * u < n) (hv1 : -(n : ℤ) ≤ 2 * v) (hv2 : 2 * v < n) :
    (cutUV n cut m (u % n) (v % n) = m (u % n) (v % n) ∨ cutUV n cut m (u % n) (v % n) = 0) ∧
    ((|(u : ℚ)| + 1) ^ 2 + (|(v : ℚ)| + 1) ^ 2 ≤ cut ^ 2 → cutUV n cut m (u % n) (v % n) = m (u % n) (v % n)) ∧
    (1 ≤ |(u : ℚ)| → 1 ≤ |(v : ℚ)| → cut ^ 2 < (|(u : ℚ)| - 1) ^ 2 + (|(v : ℚ)| - 1) ^ 2 →
      cutUV n cut m (u % n) (v % n) = 0) := by
  rw [cutUV_even n hn he cut m u v hu1 hu2 hv1 hv2]
  obtain ⟨a1, a2⟩ := kAxis_bounds n hn u hu1 (by omega) he
  obtain ⟨b1, b2⟩ := kAxis_bounds n hn v hv1 (by omega) he
  have up : ∀ x k : ℚ, x ≤ k → k ≤ x + 1 → k ^ 2 ≤ (|x| + 1) ^ 2 := by
    intro x k h1 h2
    apply sq_le_sq'
    · have := neg_abs_le x; linarith
    · have := le_abs_self x; linarith
  have down : ∀ x k : ℚ, x ≤ k → k ≤ x + 1 → 1 ≤ |x| → (|x| - 1) ^ 2 ≤ k ^ 2 := by
    intro x k h1 h2 h
    apply sq_le_sq.2
    rw [abs_of_nonneg (by linarith : (0 : ℚ) ≤ |x| - 1)]
    rcases abs_cases x with ⟨hx, _⟩ | ⟨hx, _⟩
    · have := le_abs_self k; linarith
    · have := neg_abs_le k; linarith
  refine ⟨?_, ?_, ?_⟩
  · split_ifs
    · exact Or.inr rfl
    · exact Or.inl rfl
  · intro h
    rw [if_neg]
    have := up _ _ a1 a2
    have := up _ _ b1 b2
    linarith
  · intro h1 h2 h
    rw [if_pos]
    have := down _ _ a1 a2 h1
    have := down _ _ b1 b2 h2
    linarith

example : (|((1 : ℤ) : ℚ)| + 1) ^ 2 + (|((-1 : ℤ) : ℚ)| + 1) ^ 2 ≤ (3 : ℚ) ^ 2 := by norm_num

/-- **C35 is false on odd grids**: without any cell beyond the cut the map is still displaced by one cell in each
direction. -/
theorem C35_false_odd (n : ℕ) (hn : n % 2 = 1) (cut : ℚ) (hcut : ∀ p q : ℤ, 0 ≤ p → p < n → 0 ≤ q → q < n →
    kAxis n q ^ 2 + kAxis n p ^ 2 ≤ cut ^ 2) (m : ℤ → ℤ → ℚ) (i j : ℤ) (hi0 : 0 ≤ i) (hi : i < n) (hj0 : 0 ≤ j) (hj : j < n) :
    cutUV n cut m i j = m ((i + 1) % n) ((j + 1) % n) := by
  have hn' : (0 : ℤ) < n := by omega
  have h1 := Int.emod_nonneg (i - n / 2) hn'.ne'
  have h2 := Int.emod_lt_of_pos (i - n / 2) hn'
  have h3 := Int.emod_nonneg (j - n / 2) hn'.ne'
  have h4 := Int.emod_lt_of_pos (j - n / 2) hn'
  have sh : ∀ i : ℤ, ((i - (n : ℤ) / 2) % n - n / 2) % n = (i + 1) % n := by
    intro i
    rw [Int.sub_emod, Int.emod_emod, ← Int.sub_emod, show i - (n : ℤ) / 2 - n / 2 = i + 1 - n by omega,
      Int.sub_emod_right]
  simp only [cutUV, fftshift]
  rw [if_neg, sh, sh]
  exact not_lt.2 (hcut _ _ h1 h2 h3 h4)

example : cutUV 3 10 (fun i j => if i = 0 ∧ j = 0 then 1 else 0) 2 2 = 1 := by decide +kernel

/-- **C35 is false near the cut**: on a grid of 4 cells with the cut at 1.5 cells, the cell `u = 1, v = 0` inside the cut is
removed (its mirror image `u = -1` is not), and with the cut at 0.95 cells the cell `u = -1, v = 0` beyond the cut is kept. -/
theorem C35_false_cut (m : ℤ → ℤ → ℚ) :
    cutUV 4 (3 / 2) m 1 0 = 0 ∧ cutUV 4 (3 / 2) m 3 0 = m 3 0 ∧ cutUV 4 (19 / 20) m 3 0 = m 3 0 := by
  refine ⟨?_, ?_, ?_⟩
  · have := cutUV_even 4 (by norm_num) (by norm_num) (3 / 2) m 1 0 (by norm_num) (by norm_num) (by norm_num) (by norm_num)
    norm_num [kAxis] at this
    exact this
  · have := cutUV_even 4 (by norm_num) (by norm_num) (3 / 2) m (-1) 0 (by norm_num) (by norm_num) (by norm_num)
      (by norm_num)
    norm_num [kAxis] at this
    exact this
  · have := cutUV_even 4 (by norm_num) (by norm_num) (19 / 20) m (-1) 0 (by norm_num) (by norm_num) (by norm_num)
      (by norm_num)
    norm_num [kAxis] at this
    exact this

end Verif.Calibration
