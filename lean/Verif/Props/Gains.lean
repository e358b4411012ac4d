import Verif.Model.Gains
import Verif.Props.Calibration
import Verif.Props.UVResponse
import Verif.Lemmas.Binning
/-!
# Gains of antennas (C185-C188)
-/

namespace Verif.Gains
open Verif.UVGrid Verif.Calibration Verif.Convolve Verif.PowerSpectrum Verif.UVResponse Complex

/-! ## C187: the lines of the table of baselines -/

/-- The gain of an antenna. -/
noncomputable def gain (r i : ℝ) : ℂ := r + i * I

/-- The line of a table that belongs to two antennas: positions in wavelengths and the products, from which the visibility `g conj(h)` of the two
gains follows. -/
structure LineOf (lam : ℝ) (x y : V3) (g h : ℂ) (l : Row) : Prop where
  position : ∀ j, l.1 j * lam = x j - y j
  real : l.2 0 + l.2 1 = (g * (starRingEnd ℂ) h).re
  imag : l.2 3 - l.2 2 = (g * (starRingEnd ℂ) h).im
  parts : l.2 0 = g.re * h.re ∧ l.2 1 = g.im * h.im

theorem pairs_range (N : ℕ) (p : ℕ × ℕ) : p ∈ pairs (List.range N) ↔ p.1 < p.2 ∧ p.2 < N := by
  rw [mem_pairs]
  constructor
  · rintro ⟨a, b, h, h1, h2⟩
    simp only [List.getElem?_eq_some_iff, List.length_range, List.getElem_range] at h1 h2
    obtain ⟨_, h1⟩ := h1
    obtain ⟨h3, h2⟩ := h2
    omega
  · rintro ⟨h1, h2⟩
    exact ⟨p.1, p.2, h1, List.getElem?_range (by omega), List.getElem?_range h2⟩

theorem products_ok {r i : List ℝ} {a b : ℕ} (ha : a < r.length) (hb : b < r.length) (ha' : a < i.length) (hb' : b < i.length) :
    products r i a b = .ok ![r.getD a 0 * r.getD b 0, i.getD a 0 * i.getD b 0, r.getD a 0 * i.getD b 0, i.getD a 0 * r.getD b 0] := by
  unfold products
  simp only [List.getElem?_eq_getElem ha, List.getElem?_eq_getElem hb, List.getElem?_eq_getElem ha', List.getElem?_eq_getElem hb', List.getD_eq_getElem?_getD,
    Option.getD_some]

/-- The products of all pairs. -/
noncomputable def rowOf (lam : ℝ) (x : List V3) (r i : List ℝ) (p : ℕ × ℕ) : Row :=
  (baseline lam (x.getD p.1 0) (x.getD p.2 0),
    ![r.getD p.1 0 * r.getD p.2 0, i.getD p.1 0 * i.getD p.2 0, r.getD p.1 0 * i.getD p.2 0, i.getD p.1 0 * r.getD p.2 0])

theorem withGains_ok {g : GainModel} {lam : ℝ} {x : List V3} {r i : List ℝ} (hg : gains g x.length = .ok (some (r, i))) (hr : x.length ≤ r.length)
    (hi : x.length ≤ i.length) : withGains g lam x = .ok (some ((pairs (List.range x.length)).map (rowOf lam x r i))) := by
  unfold withGains
  rw [hg]
  show (do
    let rows ← (pairs (List.range x.length)).mapM _
    Except.ok (some rows)) = _
  rw [mapM_ok' _ (rowOf lam x r i)]
  · rfl
  · intro p hp
    rw [pairs_range] at hp
    rw [products_ok (by omega) (by omega) (by omega) (by omega)]
    rfl

theorem lineOf_rowOf {lam : ℝ} (hl : lam ≠ 0) (x : List V3) (r i : List ℝ) (p : ℕ × ℕ) :
    LineOf lam (x.getD p.1 0) (x.getD p.2 0) (gain (r.getD p.1 0) (i.getD p.1 0)) (gain (r.getD p.2 0) (i.getD p.2 0)) (rowOf lam x r i p) := by
  constructor
  · intro j
    exact div_mul_cancel₀ _ hl
  · simp [rowOf, gain]
  · simp [rowOf, gain]
    ring
  · simp [rowOf, gain]

/-- **C187** (partial).  Gains given by their real and imaginary parts, as functions, as an array with two columns or drawn at random: one line for
each pair of antennas, from which the visibility of the two gains can be read.  Missing: amplitudes and phases (`C187_false`) and complex arrays
(`C187_raises`). -/
theorem C187_partial {lam : ℝ} (hl : lam ≠ 0) (x : List V3) (r i : List ℝ) (hr : r.length = x.length) (hi : i.length = x.length) (g : GainModel)
    (hg : g = .realImag r i ∨ g = .table (r.zip i) ∨ g = .random (fun k => r.getD k 0) (fun k => i.getD k 0)) :
    ∃ rows, withGains g lam x = .ok (some rows) ∧ 2 * rows.length = x.length * (x.length - 1) ∧
      (∀ a b, a < b → b < x.length → ∃ l ∈ rows, LineOf lam (x.getD a 0) (x.getD b 0) (gain (r.getD a 0) (i.getD a 0)) (gain (r.getD b 0) (i.getD b 0)) l) ∧
      ∀ l ∈ rows, ∃ a b, a < b ∧ b < x.length ∧
        LineOf lam (x.getD a 0) (x.getD b 0) (gain (r.getD a 0) (i.getD a 0)) (gain (r.getD b 0) (i.getD b 0)) l := by
  have hgains : gains g x.length = .ok (some (r, i)) := by
    have hrange : ∀ l : List ℝ, l.length = x.length → (List.range x.length).map (fun k => l.getD k 0) = l := by
      intro l hlen
      apply List.ext_getElem
      · rw [List.length_map, List.length_range, hlen]
      · intro k h1 h2
        rw [List.getElem_map, List.getElem_range, List.getD_eq_getElem?_getD, List.getElem?_eq_getElem h2, Option.getD_some]
    rcases hg with rfl | rfl | rfl
    · rfl
    · show Except.ok (some ((r.zip i).map Prod.fst, (r.zip i).map Prod.snd)) = _
      rw [List.map_fst_zip (by omega), List.map_snd_zip (by omega)]
    · show Except.ok (some (_, _)) = _
      rw [hrange r hr, hrange i hi]
  refine ⟨_, withGains_ok hgains hr.ge hi.ge, ?_, ?_, ?_⟩
  · rw [List.length_map]
    exact (C67_pairs x.length).1
  · intro a b hab hb
    exact ⟨_, List.mem_map_of_mem ((pairs_range _ (a, b)).2 ⟨hab, hb⟩), lineOf_rowOf hl x r i (a, b)⟩
  · intro l h
    obtain ⟨p, hp, rfl⟩ := List.mem_map.1 h
    rw [pairs_range] at hp
    exact ⟨p.1, p.2, hp.1, hp.2, lineOf_rowOf hl x r i p⟩

example : ([1, 2] : List ℝ).length = ([![0, 0, 0], ![3, 0, 0]] : List V3).length := rfl

/-- Two antennas with the amplitude 1 and the phase `pi`: their visibility is 1, but that of the table is `1 + pi^2`, since amplitudes and phases are
taken for real and imaginary parts. -/
theorem C187_false (lam : ℝ) (x y : V3) : ∃ l, withGains (.amplitudePhase [1, 1] [Real.pi, Real.pi]) lam [x, y] = .ok (some [l]) ∧
    l.2 0 + l.2 1 = 1 + Real.pi ^ 2 ∧
    let g := (1 : ℂ) * exp (Real.pi * I)
    (g * (starRingEnd ℂ) g).re = 1 := by
  refine ⟨_, withGains_ok (g := .amplitudePhase [1, 1] [Real.pi, Real.pi]) (r := [1, 1]) (i := [Real.pi, Real.pi]) (x := [x, y]) rfl (by simp) (by simp), ?_, ?_⟩
  · simp [rowOf]
    ring
  · rw [exp_pi_mul_I]
    simp

/-- What raises or returns nothing: unknown names, complex arrays, lists that are too short, and other dictionaries. -/
theorem C187_raises (lam : ℝ) (x : List V3) : withGains .unknownName lam x = .error .unbound ∧ (∀ g, withGains (.complexArray g) lam x = .error .index) ∧
    withGains .otherKeys lam x = .ok none ∧ ∀ i, 2 ≤ x.length → withGains (.realImag [] i) lam x = .error .index := by
  refine ⟨rfl, fun _ => rfl, rfl, fun i hx => ?_⟩
  unfold withGains
  show (do
    let rows ← (pairs (List.range x.length)).mapM _
    Except.ok (some rows)) = _
  rw [mapM_err _ Raise.index]
  · rfl
  · intro h
    have : ((0, 1) : ℕ × ℕ) ∈ pairs (List.range x.length) := (pairs_range _ _).2 ⟨by decide, hx⟩
    rw [h] at this
    exact absurd this (by simp)
  · intro p _
    rfl

/-! ## C186: the time steps -/

/-- A time scale is over at some time after `a` and not after `b`. -/
def Elapsed (scales : List ℚ) (a b : ℚ) : Prop := ∃ s ∈ scales, ∃ k : ℤ, a < k * s ∧ k * s ≤ b

open Classical in
/-- What the baselines of one time step add to a cell. -/
noncomputable def stepSum (n : ℕ) (mirror : Bool) (coord : V3 → ℤ × ℤ) (rows : List Row) (p q : ℤ) (c : Fin 5) : ℝ :=
  (rows.map fun r => (if InCell n (coord r.1) p q then weight r.2 c else 0) + if mirror = true ∧ InCellMirror n (coord r.1) p q then weight r.2 c else 0).sum

/-- Draw number of a step: how many steps up to it are fresh, less one. -/
def epoch (F : ℕ → Bool) (t : ℕ) : ℕ := (List.range (t + 1)).countP F - 1

theorem loop_ok {n : ℕ} {mirror : Bool} {coord : ℕ → V3 → ℤ × ℤ} {F : ℕ → Bool} (h0 : F 0 = true) {draw : ℕ → Except Raise (Option (List Row))}
    {rows : ℕ → List Row} (hd : ∀ k, draw k = .ok (some (rows k))) (hl : ∀ k, 2 ≤ (rows k).length) (T : ℕ) :
    ∃ s, loop n mirror coord (fun t => .ok (F t)) draw T = .ok s ∧ s.draws = (List.range T).countP F ∧
      (0 < T → s.rows = some (rows (epoch F (T - 1)))) ∧
      ∀ p q c, s.map p q c = ∑ t ∈ Finset.range T, stepSum n mirror (coord t) (rows (epoch F t)) p q c := by
  induction T with
  | zero => exact ⟨_, rfl, rfl, fun h => absurd h (by decide), fun _ _ _ => rfl⟩
  | succ T ih =>
    obtain ⟨s, hs, hk, hr, hm⟩ := ih
    have hcount : (List.range (T + 1)).countP F = (List.range T).countP F + if F T = true then 1 else 0 := by
      rw [List.range_succ, List.countP_append, List.countP_singleton]
    have key : ∀ (R : List Row) (k : ℕ), R = rows (epoch F T) → k = (List.range (T + 1)).countP F → ∃ s',
        (if R.length < 2 then Except.error Raise.index
          else Except.ok (State.mk (some R) k (gridGains n mirror s.map (R.map fun r => (coord T r.1, r.2))))) = .ok s' ∧
        s'.draws = (List.range (T + 1)).countP F ∧ (0 < T + 1 → s'.rows = some (rows (epoch F (T + 1 - 1)))) ∧
        ∀ p q c, s'.map p q c = ∑ t ∈ Finset.range (T + 1), stepSum n mirror (coord t) (rows (epoch F t)) p q c := by
      rintro R k rfl rfl
      refine ⟨_, if_neg (by have := hl (epoch F T); omega), rfl, fun _ => rfl, fun p q c => ?_⟩
      show gridGains n mirror s.map _ p q c = _
      rw [gridGains_eq, hm, Finset.sum_range_succ]
      congr 1
      unfold stepSum
      rw [List.map_map]
      congr 1
    unfold loop
    rw [hs]
    by_cases hf : F T = true
    · have he : s.draws = epoch F T := by
        unfold epoch
        rw [hcount, if_pos hf, hk]
        omega
      simp only [hf, bind, Except.bind, if_true]
      rw [hd]
      exact key _ _ (by rw [he]) (by rw [hcount, if_pos hf, hk])
    · have hT : 0 < T := by
        rcases Nat.eq_zero_or_pos T with rfl | h
        · exact absurd h0 hf
        · exact h
      have he : epoch F (T - 1) = epoch F T := by
        unfold epoch
        rw [hcount, if_neg hf, Nat.sub_add_cancel hT]
        rfl
      simp only [hf, bind, Except.bind, if_false, Bool.false_eq_true]
      rw [hr hT]
      exact key _ _ (by rw [he]) (by rw [hcount, if_neg hf, hk]; rfl)

theorem den_one (x s : ℚ) (hs : s ≠ 0) : (x / s).den = 1 ↔ ∃ k : ℤ, x = k * s := by
  constructor
  · intro h
    refine ⟨(x / s).num, ?_⟩
    rw [← div_eq_iff hs]
    exact (Rat.den_eq_one_iff _).1 h |>.symm
  · rintro ⟨k, rfl⟩
    rw [mul_div_assoc, div_self hs, mul_one]
    rfl

/-- Whether a step is fresh. -/
def isFresh (dt : ℚ) (scales : List ℚ) (t : ℕ) : Bool := scales.any fun s => decide (((t : ℚ) * dt / s).den = 1)

theorem renew_ok {dt : ℚ} {scales : List ℚ} (hs : ∀ s ∈ scales, s ≠ 0) : renew dt scales = fun t => .ok (isFresh dt scales t) := by
  funext t
  unfold renew
  rw [if_neg]
  · rfl
  · intro h
    obtain ⟨s, hm, h0⟩ := List.any_eq_true.1 h
    exact hs s hm (by simpa using h0)

theorem isFresh_iff {dt : ℚ} {scales : List ℚ} (hs : ∀ s ∈ scales, s ≠ 0) (t : ℕ) :
    isFresh dt scales t = true ↔ ∃ s ∈ scales, ∃ k : ℤ, (t : ℚ) * dt = k * s := by
  unfold isFresh
  rw [List.any_eq_true]
  constructor
  · rintro ⟨s, hm, h⟩
    exact ⟨s, hm, (den_one _ _ (hs s hm)).1 (of_decide_eq_true h)⟩
  · rintro ⟨s, hm, h⟩
    exact ⟨s, hm, decide_eq_true ((den_one _ _ (hs s hm)).2 h)⟩

theorem fresh_zero {dt : ℚ} {scales : List ℚ} (hs : ∀ s ∈ scales, s ≠ 0) (hne : scales ≠ []) : isFresh dt scales 0 = true := by
  obtain ⟨s, hm⟩ := List.exists_mem_of_ne_nil _ hne
  exact (isFresh_iff hs 0).2 ⟨s, hm, 0, by simp⟩

theorem epoch_succ {F : ℕ → Bool} (h0 : F 0 = true) (t : ℕ) : epoch F (t + 1) = epoch F t + if F (t + 1) = true then 1 else 0 := by
  have h1 : 0 < (List.range (t + 1)).countP F := List.countP_pos_iff.2 ⟨0, by simp, h0⟩
  unfold epoch
  rw [List.range_succ (n := t + 1), List.countP_append, List.countP_singleton]
  omega

theorem epoch_eq {F : ℕ → Bool} (h0 : F 0 = true) (a d : ℕ) : epoch F a ≤ epoch F (a + d) ∧
    (epoch F a = epoch F (a + d) ↔ ¬ ∃ t, a < t ∧ t ≤ a + d ∧ F t = true) := by
  induction d with
  | zero => exact ⟨le_rfl, iff_of_true rfl fun ⟨t, h1, h2, _⟩ => by omega⟩
  | succ d ih =>
    rw [← Nat.add_assoc, epoch_succ h0]
    by_cases h : F (a + d + 1) = true
    · rw [if_pos h]
      refine ⟨by omega, iff_of_false (by omega) ?_⟩
      exact not_not.2 ⟨a + d + 1, by omega, le_rfl, h⟩
    · rw [if_neg h, add_zero]
      refine ⟨ih.1, ih.2.trans (not_congr ⟨?_, ?_⟩)⟩
      · rintro ⟨t, h1, h2, h3⟩
        exact ⟨t, h1, by omega, h3⟩
      · rintro ⟨t, h1, h2, h3⟩
        refine ⟨t, h1, ?_, h3⟩
        rcases Nat.lt_or_ge (a + d) t with h4 | h4
        · obtain rfl : t = a + d + 1 := by omega
          exact absurd h3 h
        · exact h4

theorem uvMap_ok {n : ℕ} {mirror : Bool} {theta decl : ℝ} {dt : ℚ} {scales : List ℚ} (hne : scales ≠ []) (hs : ∀ s ∈ scales, s ≠ 0)
    {draw : ℕ → Except Raise (Option (List Row))} {rows : ℕ → List Row} (hd : ∀ k, draw k = .ok (some (rows k))) (hl : ∀ k, 2 ≤ (rows k).length)
    (T : ℕ) : ∃ m, uvMapWithGains n mirror theta decl dt scales T draw = .ok m ∧
      ∀ p q c, m p q c = ∑ t ∈ Finset.range T, stepSum n mirror (coordinates theta dt decl t) (rows (epoch (isFresh dt scales) t)) p q c := by
  obtain ⟨s, h1, -, -, h2⟩ := loop_ok (n := n) (mirror := mirror) (coord := coordinates theta dt decl) (fresh_zero (dt := dt) hs hne) hd hl T
  refine ⟨s.map, ?_, h2⟩
  unfold uvMapWithGains
  rw [renew_ok hs, h1]
  rfl

/-- The cell of a baseline at a time step: nearest to the rotated baseline times the size of the box. -/
def NearestCell (theta decl : ℝ) (dt : ℚ) (t : ℕ) (b : V3) (c : ℤ × ℤ) : Prop :=
  |(c.1 : ℝ) - calibrationRotation t dt decl b 0 * theta| ≤ 1 / 2 ∧ |(c.2 : ℝ) - calibrationRotation t dt decl b 1 * theta| ≤ 1 / 2

theorem nearestCell (theta decl : ℝ) (dt : ℚ) (t : ℕ) (b : V3) : NearestCell theta decl dt t b (coordinates theta dt decl t b) :=
  ⟨Verif.Binning.roundEven_near _, Verif.Binning.roundEven_near _⟩

/-- **C186** (partial).  If the time scales are multiples of the integration time, then each step is gridded with the gains drawn last, and the gains
are the same at two times if and only if no multiple of a time scale lies between them.  Missing: other time scales (`C186_false`). -/
theorem C186_partial (n : ℕ) (mirror : Bool) (theta decl : ℝ) {dt : ℚ} (hdt : 0 < dt) {scales : List ℚ} (hne : scales ≠ [])
    (hs : ∀ s ∈ scales, ∃ k : ℕ, 0 < k ∧ s = k * dt) (draw : ℕ → Except Raise (Option (List Row))) (rows : ℕ → List Row)
    (hd : ∀ k, draw k = .ok (some (rows k))) (hl : ∀ k, 2 ≤ (rows k).length) (T : ℕ) :
    ∃ (m : GainMap ℝ) (e : ℕ → ℕ) (cell : ℕ → V3 → ℤ × ℤ), uvMapWithGains n mirror theta decl dt scales T draw = .ok m ∧
      (∀ t b, NearestCell theta decl dt t b (cell t b)) ∧
      (e 0 = 0 ∧ ∀ t, e t ≤ e (t + 1) ∧ e (t + 1) ≤ e t + 1) ∧
      (∀ a b : ℕ, a ≤ b → (e a = e b ↔ ¬ Elapsed scales (a * dt) (b * dt))) ∧
      ∀ p q c, m p q c = ∑ t ∈ Finset.range T, stepSum n mirror (cell t) (rows (e t)) p q c := by
  have hs0 : ∀ s ∈ scales, s ≠ 0 := by
    intro s hm
    obtain ⟨k, hk, rfl⟩ := hs s hm
    have : (0 : ℚ) < k := by exact_mod_cast hk
    positivity
  have h0 := fresh_zero (dt := dt) hs0 hne
  obtain ⟨m, hm, hsum⟩ := uvMap_ok (n := n) (mirror := mirror) (theta := theta) (decl := decl) (dt := dt) hne hs0 hd hl T
  refine ⟨m, epoch (isFresh dt scales), coordinates theta dt decl, hm, fun t b => nearestCell theta decl dt t b, ⟨?_, fun t => ?_⟩, ?_, hsum⟩
  · show (List.range 1).countP (isFresh dt scales) - 1 = 0
    have := List.countP_le_length (p := isFresh dt scales) (l := List.range 1)
    rw [List.length_range] at this
    omega
  · rw [epoch_succ h0]
    split_ifs <;> omega
  · intro a b hab
    obtain ⟨d, rfl⟩ := Nat.exists_eq_add_of_le hab
    rw [(epoch_eq h0 a d).2]
    refine not_congr ⟨?_, ?_⟩
    · rintro ⟨t, h1, h2, h3⟩
      obtain ⟨s, hm, k, hk⟩ := (isFresh_iff hs0 t).1 h3
      refine ⟨s, hm, k, ?_, ?_⟩
      · rw [← hk]
        exact mul_lt_mul_of_pos_right (by exact_mod_cast h1) hdt
      · rw [← hk]
        exact mul_le_mul_of_nonneg_right (by exact_mod_cast h2) hdt.le
    · rintro ⟨s, hm, k, h1, h2⟩
      obtain ⟨j, hj, rfl⟩ := hs s hm
      rw [← mul_assoc] at h1 h2
      have h1' : ((a : ℤ) : ℚ) < ((k * j : ℤ) : ℚ) := by
        push_cast
        exact lt_of_mul_lt_mul_right h1 hdt.le
      have h2' : ((k * j : ℤ) : ℚ) ≤ ((a + d : ℤ) : ℚ) := by
        push_cast
        push_cast at h2
        exact le_of_mul_le_mul_right h2 hdt
      rw [Int.cast_lt] at h1'
      rw [Int.cast_le] at h2'
      refine ⟨(k * j).toNat, by omega, by omega, (isFresh_iff hs0 _).2 ⟨_, hm, k, ?_⟩⟩
      rw [show (((k * j).toNat : ℕ) : ℚ) = ((k * j : ℤ) : ℚ) by
        rw [← Int.cast_natCast, Int.toNat_of_nonneg (by omega)]]
      push_cast
      ring

example : ∀ s ∈ ([10, 60] : List ℚ), ∃ k : ℕ, 0 < k ∧ s = k * 10 := by
  intro s hs
  rcases List.mem_cons.1 hs with rfl | hs
  · exact ⟨1, by norm_num, by norm_num⟩
  · rw [List.mem_singleton.1 hs]
    exact ⟨6, by norm_num, by norm_num⟩

/-- With an integration time of 7 s and the time scale of 10 s the gains at 14 s are still those of the start, whatever is drawn. -/
theorem C186_false (n : ℕ) (mirror : Bool) (theta decl : ℝ) (draw : ℕ → Except Raise (Option (List Row))) (rows : ℕ → List Row)
    (hd : ∀ k, draw k = .ok (some (rows k))) (hl : ∀ k, 2 ≤ (rows k).length) :
    Elapsed [10] 0 (2 * 7) ∧ ∃ (m : GainMap ℝ) (cell : ℕ → V3 → ℤ × ℤ), uvMapWithGains n mirror theta decl 7 [10] 3 draw = .ok m ∧
      (∀ t b, NearestCell theta decl 7 t b (cell t b)) ∧
      ∀ p q c, m p q c = ∑ t ∈ Finset.range 3, stepSum n mirror (cell t) (rows 0) p q c := by
  have hs0 : ∀ s ∈ ([10] : List ℚ), s ≠ 0 := by simp
  refine ⟨⟨10, by simp, 1, by norm_num, by norm_num⟩, ?_⟩
  obtain ⟨m, hm, hsum⟩ := uvMap_ok (n := n) (mirror := mirror) (theta := theta) (decl := decl) (dt := 7) (scales := [10]) (by simp) hs0 hd hl 3
  refine ⟨m, _, hm, fun t b => nearestCell theta decl 7 t b, fun p q c => ?_⟩
  rw [hsum]
  refine Finset.sum_congr rfl fun t ht => ?_
  have h0 := fresh_zero (dt := 7) hs0 (by simp)
  have he : epoch (isFresh 7 [10]) 0 = epoch (isFresh 7 [10]) (0 + t) := by
    rw [(epoch_eq h0 0 t).2]
    rintro ⟨u, h1, h2, h3⟩
    obtain ⟨s, hm, k, hk⟩ := (isFresh_iff hs0 u).1 h3
    rw [List.mem_singleton.1 hm] at hk
    have hk' : ((u * 7 : ℤ) : ℚ) = ((k * 10 : ℤ) : ℚ) := by
      push_cast
      exact hk
    rw [Int.cast_inj] at hk'
    have := Finset.mem_range.1 ht
    omega
  have hz : epoch (isFresh 7 [10]) 0 = 0 := by
    have := List.countP_le_length (p := isFresh 7 [10]) (l := List.range 1)
    rw [List.length_range] at this
    show (List.range 1).countP (isFresh 7 [10]) - 1 = 0
    omega
  rw [zero_add] at he
  rw [← he, hz]

theorem loop_err {n : ℕ} {mirror : Bool} {coord : ℕ → V3 → ℤ × ℤ} {fresh : ℕ → Except Raise Bool} {draw : ℕ → Except Raise (Option (List Row))} {e : Raise}
    (h : loop n mirror coord fresh draw 1 = .error e) (T : ℕ) (hT : 0 < T) : loop n mirror coord fresh draw T = .error e := by
  obtain ⟨T, rfl⟩ := Nat.exists_eq_add_of_le hT
  induction T with
  | zero => exact h
  | succ T ih =>
    rw [← Nat.add_assoc]
    unfold loop
    rw [ih (by omega)]
    rfl

/-- What raises: no time scale, a time scale of zero, fewer than two baselines, a dictionary with other keys. -/
theorem C186_raises (n : ℕ) (mirror : Bool) (theta decl : ℝ) (dt : ℚ) (scales : List ℚ) (draw : ℕ → Except Raise (Option (List Row))) (T : ℕ) (hT : 0 < T) :
    uvMapWithGains n mirror theta decl dt [] T draw = .error .unbound ∧
    ((0 : ℚ) ∈ scales → uvMapWithGains n mirror theta decl dt scales T draw = .error .zeroDivision) ∧
    (scales ≠ [] → (∀ s ∈ scales, s ≠ 0) →
      (∀ rows, rows.length < 2 → draw 0 = .ok (some rows) → uvMapWithGains n mirror theta decl dt scales T draw = .error .index) ∧
      (draw 0 = .ok none → uvMapWithGains n mirror theta decl dt scales T draw = .error .type) ∧
      ∀ e, draw 0 = .error e → uvMapWithGains n mirror theta decl dt scales T draw = .error e) := by
  have key : ∀ (sc : List ℚ) (e : Raise), loop n mirror (coordinates theta dt decl) (renew dt sc) draw 1 = .error e →
      uvMapWithGains n mirror theta decl dt sc T draw = .error e := by
    intro sc e h
    unfold uvMapWithGains
    rw [loop_err h T hT]
    rfl
  refine ⟨key _ _ rfl, fun h => key _ _ ?_, fun hne hs => ?_⟩
  · unfold loop loop renew
    rw [if_pos (List.any_eq_true.2 ⟨0, h, by simp⟩)]
    rfl
  · have hf := fresh_zero (dt := dt) hs hne
    refine ⟨fun rows hl hd => key _ _ ?_, fun hd => key _ _ ?_, fun e hd => key _ _ ?_⟩
    all_goals
      rw [renew_ok hs]
      unfold loop loop
      simp only [bind, Except.bind, hf, if_true, hd]
    rw [if_pos hl]

example (n : ℕ) (draw : ℕ → Except Raise (Option (List Row))) : uvMapWithGains n true 1 0 10 [10, 0] 6 draw = .error .zeroDivision :=
  (C186_raises n true 1 0 10 [10, 0] draw 6 (by norm_num)).2.1 (by simp)

/-! ## C185: images -/

/-- Every cell of a map has been seen with one real gain `g` in all antennas. -/
def RealGain (g : ℝ) (m : GainMap ℝ) : Prop :=
  ∀ p q, m p q 1 = g * g * m p q 0 ∧ m p q 2 = 0

/-- **C185.** Lines of a table whose antennas all have the gain `r + i I`: the sums of the products of the real and of the imaginary parts. -/
theorem C185_constant (n : ℕ) (mirror : Bool) (cell : ℕ → V3 → ℤ × ℤ) (rows : ℕ → List Row) (r i : ℝ)
    (h : ∀ k, ∀ l ∈ rows k, l.2 0 = r * r ∧ l.2 1 = i * i) (T : ℕ) (p q : ℤ) :
    ∑ t ∈ Finset.range T, stepSum n mirror (cell t) (rows t) p q 1 = r * r * ∑ t ∈ Finset.range T, stepSum n mirror (cell t) (rows t) p q 0 ∧
    ∑ t ∈ Finset.range T, stepSum n mirror (cell t) (rows t) p q 2 = i * i * ∑ t ∈ Finset.range T, stepSum n mirror (cell t) (rows t) p q 0 := by
  rw [Finset.mul_sum, Finset.mul_sum]
  constructor
  all_goals
    refine Finset.sum_congr rfl fun t _ => ?_
    unfold stepSum
    rw [← List.sum_map_mul_left]
    congr 1
    refine List.map_congr_left fun l hl => ?_
    obtain ⟨h1, h2⟩ := h t l hl
    simp only [weight, Matrix.cons_val_zero, Matrix.cons_val_one, Matrix.cons_val, h1, h2, mul_add, mul_ite, mul_one, mul_zero]

example := C185_constant 4 true (fun _ _ => (1, 2)) (fun _ => [(![1, 2, 3], ![2 * 2, 3 * 3, 4, 9])]) 2 3 (by simp) 5 1 2

theorem factor_real {g : ℝ} {m : GainMap ℝ} (h : RealGain g m) (i : Fin 2 → ℤ) :
    factor m i = if m (i 0) (i 1) 0 = 0 then 0 else ((|g| : ℝ) : ℂ) := by
  unfold factor
  by_cases h0 : m (i 0) (i 1) 0 = 0
  · rw [if_pos h0, if_pos h0]
  · rw [if_neg h0, if_neg h0, (h _ _).1, (h _ _).2]
    have hc : (m (i 0) (i 1) 0 : ℂ) ≠ 0 := by exact_mod_cast h0
    have e : (((g * g * m (i 0) (i 1) 0 : ℝ) : ℂ) + I * ((0 : ℝ) : ℂ)) / (m (i 0) (i 1) 0 : ℂ) = ((g * g : ℝ) : ℂ) := by
      rw [div_eq_iff hc]
      push_cast
      ring
    rw [e, show (1 / 2 : ℂ) = ((1 / 2 : ℝ) : ℂ) by push_cast; rfl, ← Complex.ofReal_cpow (mul_self_nonneg g), ← Real.sqrt_eq_rpow, Real.sqrt_mul_self_eq_abs]

theorem fftn_smul (s : Fin 2 → ℕ) (c : ℝ) (a : (Fin 2 → ℤ) → ℝ) (i : Fin 2 → ℤ) :
    fftn s (fun y => ((c * a y : ℝ) : ℂ)) i = fftn s (fun y => (a y : ℂ)) i * (c : ℂ) := by
  rw [← mode_eq, ← mode_eq]
  unfold mode
  rw [Finset.sum_mul]
  refine Finset.sum_congr rfl fun x _ => ?_
  push_cast
  ring

/-- With one real gain in all antennas: the image is seen through the map of hits, times the absolute value of the gain. -/
theorem C185_real {g : ℝ} (a : Arr (Fin 2) ℝ) (n : ℕ) (hn : 0 < n) (ha : a.shape = fun _ => n) (m : GainMap ℝ) (h : RealGain g m) :
    ∃ r, applyGains a n m = .ok r ∧ r.shape = a.shape ∧ Seen a.shape (fun i => m (i 0) (i 1) 0) (fun x => |g| * a.val x) r.val := by
  refine ⟨_, if_pos ha, rfl, ?_⟩
  have := seen_of a.shape (by rw [ha]; exact fun _ => hn) (fun i => m (i 0) (i 1) 0) (fun x => |g| * a.val x)
  convert this using 5 with x i
  rw [factor_real h, fftn_smul]
  split_ifs
  · rw [mul_zero]
  · rfl

/-- **C185** (partial).  Perfect gains leave the image as it is seen through the map of hits.  Missing: other gains (`C185_false`). -/
theorem C185_partial (a : Arr (Fin 2) ℝ) (n : ℕ) (hn : 0 < n) (ha : a.shape = fun _ => n) (m : GainMap ℝ) (h : RealGain 1 m) :
    ∃ r, applyGains a n m = .ok r ∧ r.shape = a.shape ∧ Seen a.shape (fun i => m (i 0) (i 1) 0) a.val r.val := by
  obtain ⟨r, h1, h2, h3⟩ := C185_real a n hn ha m h
  refine ⟨r, h1, h2, ?_⟩
  simpa using h3

example : RealGain 1 (fun _ _ => ![3, 3, 0, 0, 0]) := fun p q => by simp

/-- Images of another shape raise. -/
theorem C185_raises (a : Arr (Fin 2) ℝ) (n : ℕ) (m : GainMap ℝ) (j : Fin 2) (h : a.shape j ≠ n) : applyGains a n m = .error .assertion :=
  if_neg fun e => h (by rw [e])

theorem apply_one (v : ℝ) (m : GainMap ℝ) : ∃ r, applyGains ⟨fun _ => 1, fun _ => v⟩ 1 m = .ok r ∧ r.val 0 = ((v : ℂ) * factor m 0).re := by
  refine ⟨_, if_pos rfl, ?_⟩
  have hbox : box (fun _ : Fin 2 => 1) = {0} := by decide +kernel
  show (ifftn (fun _ : Fin 2 => 1) (fun i => fftn (fun _ : Fin 2 => 1) (fun _ => (v : ℂ)) i * factor m i) 0).re = _
  unfold ifftn fftn
  rw [hbox]
  simp

/-- Two antennas with the gain 2: the visibility is 4 times that of the sky, but the image is seen with the factor 2.  Two antennas with the gain `i`:
the visibility is that of the sky, but the image is seen with the factor `sqrt 2 / 2`. -/
theorem C185_false : (∃ r, applyGains ⟨fun _ => 1, fun _ => 1⟩ 1 (fun _ _ => ![1, 2 * 2, 0 * 0, 2 * 0, 0 * 2]) = .ok r ∧ r.val 0 = 2) ∧
    (∃ r, applyGains ⟨fun _ => 1, fun _ => 1⟩ 1 (fun _ _ => ![1, 0 * 0, 1 * 1, 0 * 1, 1 * 0]) = .ok r ∧ r.val 0 = Real.sqrt 2 / 2) ∧
    (gain 2 0 * (starRingEnd ℂ) (gain 2 0) = 4 ∧ gain 0 1 * (starRingEnd ℂ) (gain 0 1) = 1) := by
  refine ⟨?_, ?_, ?_, ?_⟩
  · obtain ⟨r, h1, h2⟩ := apply_one 1 (fun _ _ => ![1, 2 * 2, 0 * 0, 2 * 0, 0 * 2])
    refine ⟨r, h1, ?_⟩
    rw [h2, factor_real (g := 2) (fun p q => by simp)]
    simp
  · obtain ⟨r, h1, h2⟩ := apply_one 1 (fun _ _ => ![1, 0 * 0, 1 * 1, 0 * 1, 1 * 0])
    refine ⟨r, h1, ?_⟩
    have : factor (fun _ _ => ![1, 0 * 0, 1 * 1, 0 * 1, 1 * 0]) 0 = I ^ (1 / 2 : ℂ) := by
      unfold factor
      rw [if_neg (by simp)]
      simp
    rw [h2, this, cpow_def_of_ne_zero I_ne_zero, log_I, show (Real.pi / 2 * I * (1 / 2) : ℂ) = ((Real.pi / 4 : ℝ) : ℂ) * I by push_cast; ring, ofReal_one,
      one_mul, exp_ofReal_mul_I_re, Real.cos_pi_div_four]
  · unfold gain
    simp only [ofReal_zero, zero_mul, add_zero, conj_ofReal]
    norm_num
  · unfold gain
    simp

/-! ## C188: antenna stamps -/

/-- **C188** (partial).  The map of each time step lists in every cell the antennas, counted from one, of exactly the baselines in it, each once.
Missing: more jobs than time steps (`C188_false`). -/
theorem C188_partial (n : ℕ) (coord : ℕ → V3 → ℤ × ℤ) (T : ℕ) (nJobs : ℤ) (cpus : ℕ)
    (hj : (1 ≤ nJobs ∧ nJobs ≤ T) ∨ (nJobs = -1 ∧ 1 ≤ cpus ∧ cpus ≤ T)) {lam : ℝ} (x : List V3) (hx : 3 ≤ x.length) :
    ∃ maps, fullStamps n coord T nJobs cpus (withStamps lam x) = .ok maps ∧ maps.length = T ∧
      ∀ t, t < T → ∃ M, maps[t]? = some M ∧ ∀ p q, (M p q).Nodup ∧
        ∀ a b, (a, b) ∈ M p q ↔ 1 ≤ a ∧ a < b ∧ b ≤ x.length ∧
          InCell n (coord t fun j => (x.getD (a - 1) 0 j - x.getD (b - 1) 0 j) / lam) p q := by
  obtain ⟨J, hJ, hJ1, hJT⟩ : ∃ J : ℕ, (if nJobs = -1 then (cpus : ℤ) else nJobs) = J ∧ 0 < J ∧ J ≤ T := by
    rcases hj with ⟨h1, h2⟩ | ⟨h1, h2, h3⟩
    · exact ⟨nJobs.toNat, by rw [if_neg (by omega)]; omega, by omega, by omega⟩
    · exact ⟨cpus, if_pos h1, h2, h3⟩
  obtain ⟨l, hl, hr, -⟩ := C34_partial T J hJ1 hJT
  have hlen : ¬ (withStamps lam x).length < 2 := by
    unfold withStamps
    rw [List.length_map]
    have := (C67_pairs x.length).1
    have h3 : 3 * 2 ≤ x.length * (x.length - 1) := Nat.mul_le_mul hx (by omega)
    omega
  have hflat : ∀ f : ℕ → ℤ → ℤ → List (ℕ × ℕ), (l.flatMap fun c => (pyRange c).map f) = (List.range T).map f := by
    intro f
    rw [← hr, List.map_flatMap]
  refine ⟨_, by
    unfold fullStamps
    rw [hJ, hl]
    simp only
    rw [if_neg hlen, hflat], ?_, ?_⟩
  · rw [List.length_map, List.length_range]
  · intro t ht
    refine ⟨_, by rw [List.getElem?_map, List.getElem?_range ht]; rfl, fun p q => ?_⟩
    simp only
    rw [C71_stamps, List.nil_append, List.filter_map, List.map_map]
    unfold withStamps
    rw [List.filter_map, List.map_map]
    constructor
    · refine List.Nodup.map ?_ ((C67_pairs x.length).2.1.filter _)
      rintro ⟨a, b⟩ ⟨c, d⟩ h
      simp only [Function.comp, Prod.mk.injEq] at h ⊢
      omega
    · intro a b
      simp only [List.mem_map, List.mem_filter, pairs_range, Function.comp, decide_eq_true_eq, Prod.mk.injEq]
      constructor
      · rintro ⟨⟨c, d⟩, ⟨⟨h1, h2⟩, h3⟩, rfl, rfl⟩
        exact ⟨by omega, by omega, by omega, h3⟩
      · rintro ⟨h1, h2, h3, h4⟩
        exact ⟨(a - 1, b - 1), ⟨⟨by omega, by omega⟩, h4⟩, by omega, by omega⟩

example : (1 ≤ (4 : ℤ) ∧ (4 : ℤ) ≤ (2160 : ℕ)) ∨ ((4 : ℤ) = -1 ∧ 1 ≤ 8 ∧ 8 ≤ 2160) := by norm_num

/-- With more jobs than time steps the call raises, as it does by default with more processors than time steps. -/
theorem C188_false (n : ℕ) (coord : ℕ → V3 → ℤ × ℤ) (T cpus : ℕ) (h : T < cpus) (rows : List (V3 × ℕ × ℕ)) :
    fullStamps n coord T (-1) cpus rows = .error "ValueError: step" ∧ ∀ c, fullStamps n coord T cpus c rows = .error "ValueError: step" := by
  constructor
  · unfold fullStamps
    rw [if_pos rfl, C34_false T cpus h]
  · intro c
    unfold fullStamps
    rw [if_neg (by omega), C34_false T cpus h]

end Verif.Gains
