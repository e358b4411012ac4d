import Verif.Props.FastCylinder
/-!
# Spectra in bins of the wave number and the cosine from `power_spect_fast.py` (C179)
-/

namespace Verif.FastSpectrum
open Verif.Convolve Verif.PowerSpectrum

/-! ## Specification -/

/-- Component `j` of the wave vector half a step from the mode, in the middle of the array. -/
noncomputable def halfway (s : Fin 3 → ℕ) (L : Fin 3 → ℝ) (j : Fin 3) (i : Ix) : ℝ := 2 * Real.pi * ((i j : ℝ) - ((s j : ℝ) - 1) / 2) / L j

/-- Its length. -/
noncomputable def size (s : Fin 3 → ℕ) (L : Fin 3 → ℝ) (i : Ix) : ℝ := Real.sqrt (∑ j, halfway s L j i ^ 2)

/-- The cosine of its angle with the axis. -/
noncomputable def angle (s : Fin 3 → ℕ) (L : Fin 3 → ℝ) (los : Fin 3) (i : Ix) : ℝ := |halfway s L los i| / size s L i

/-! ## C179 -/

theorem mem_modes (s : Fin 3 → ℕ) (i : Ix) : i ∈ modes s ↔ i ∈ box s := by
  unfold modes
  rw [mem_box]
  simp only [List.mem_flatMap, List.mem_range, List.mem_map]
  constructor
  · rintro ⟨x, hx, y, hy, z, hz, rfl⟩ j
    match j with
    | 0 => exact ⟨Int.natCast_nonneg x, Int.ofNat_lt.2 hx⟩
    | 1 => exact ⟨Int.natCast_nonneg y, Int.ofNat_lt.2 hy⟩
    | 2 => exact ⟨Int.natCast_nonneg z, Int.ofNat_lt.2 hz⟩
  · intro h
    refine ⟨(i 0).toNat, by have := h 0; omega, (i 1).toNat, by have := h 1; omega, (i 2).toNat, by have := h 2; omega, ?_⟩
    funext j
    match j with
    | 0 => exact Int.toNat_of_nonneg (h 0).1
    | 1 => exact Int.toNat_of_nonneg (h 1).1
    | 2 => exact Int.toNat_of_nonneg (h 2).1

theorem modes_nodup (s : Fin 3 → ℕ) : (modes s).Nodup := by
  unfold modes
  rw [List.nodup_flatMap]
  refine ⟨fun x _ => ?_, ?_⟩
  · rw [List.nodup_flatMap]
    refine ⟨fun y _ => ?_, ?_⟩
    · refine List.Nodup.map ?_ List.nodup_range
      intro z z' h
      have := congrFun h 2
      exact Int.ofNat.inj this
    · refine List.pairwise_lt_range.imp fun {y y'} hy => ?_
      rw [Function.onFun, List.disjoint_left]
      rintro i h1 h2
      obtain ⟨z, _, rfl⟩ := List.mem_map.1 h1
      obtain ⟨z', _, e⟩ := List.mem_map.1 h2
      have : y' = y := Int.ofNat.inj (congrFun e 1)
      omega
  · refine List.pairwise_lt_range.imp fun {x x'} hx => ?_
    rw [Function.onFun, List.disjoint_left]
    rintro i h1 h2
    obtain ⟨y, _, h1⟩ := List.mem_flatMap.1 h1
    obtain ⟨y', _, h2⟩ := List.mem_flatMap.1 h2
    obtain ⟨z, _, rfl⟩ := List.mem_map.1 h1
    obtain ⟨z', _, e⟩ := List.mem_map.1 h2
    have : x' = x := Int.ofNat.inj (congrFun e 0)
    omega

theorem range_getD {α : Type} (d : α) (l : List α) : (List.range l.length).map (fun j => l.getD j d) = l := by
  apply List.ext_getElem?
  intro i
  by_cases hi : i < l.length
  · rw [List.getElem?_map, List.getElem?_range hi, List.getElem?_eq_getElem hi]
    simp [List.getD_eq_getElem?_getD, hi]
  · rw [List.getElem?_eq_none (by simp; omega), List.getElem?_eq_none (by omega)]

open Classical in
/-- Where all cosines are finite the positions are those of the modes. -/
theorem args_eq (s : Fin 3 → ℕ) (k : Ix → WithBot ℝ) (m : Ix → Option ℝ) (c : Ix → ℝ) (hm : ∀ i ∈ box s, m i = some (c i)) (a wa b wb : ℝ) :
    (args s k m a wa b wb).map (fun p => (modes s).getD p 0) =
      (modes s).filter fun i => decide (near a (0 : ℝ) wa (k i) ∧ |c i - b| ≤ wb / 2) := by
  have hf : (modes s).filterMap m = (modes s).map c := by
    rw [← List.filterMap_eq_map]
    refine List.filterMap_congr fun i hi => ?_
    rw [hm i ((mem_modes s i).1 hi)]
    rfl
  conv_rhs => rw [← range_getD 0 (modes s)]
  rw [List.filter_map]
  unfold args
  rw [hf]
  congr 1
  refine List.filter_congr fun p hp => ?_
  have hp' := List.mem_range.1 hp
  rw [List.getElem?_eq_getElem hp', List.getElem?_map, List.getElem?_eq_getElem hp']
  simp only [Function.comp_apply, List.getD_eq_getElem?_getD, List.getElem?_eq_getElem hp', Option.getD_some, Option.map_some, Option.some.injEq,
    exists_eq_left']

open Classical in
theorem meanAt_eq (s : Fin 3 → ℕ) (l : List ℕ) (v : Ix → ℝ) (P : Ix → Prop)
    (h : l.map (fun p => (modes s).getD p 0) = (modes s).filter fun i => decide (P i)) :
    meanAt s l v = average ((box s).filter P) v ∧ l.length = ((box s).filter P).card := by
  have hS : ((modes s).filter fun i => decide (P i)).toFinset = (box s).filter P := by
    ext i
    rw [List.mem_toFinset, List.mem_filter, Finset.mem_filter, mem_modes, decide_eq_true_iff]
  have hnd : ((modes s).filter fun i => decide (P i)).Nodup := (modes_nodup s).filter _
  have hlen : l.length = ((box s).filter P).card := by
    rw [← hS, List.toFinset_card_of_nodup hnd, ← h, List.length_map]
  refine ⟨?_, hlen⟩
  unfold meanAt average
  by_cases h0 : (box s).filter P = ∅
  · rw [if_pos h0, if_pos (by rw [hlen, h0]; rfl)]
  · rw [if_neg h0, if_neg (by rw [hlen]; exact fun e => h0 (Finset.card_eq_zero.1 e)), hlen]
    congr 2
    rw [← hS, List.sum_toFinset v hnd, ← h, List.map_map]
    rfl

open Classical in
theorem bin_eq (s : Fin 3 → ℕ) (k : Ix → WithBot ℝ) (m : Ix → Option ℝ) (c : Ix → ℝ) (hm : ∀ i ∈ box s, m i = some (c i)) (a wa b wb : ℝ) (v : Ix → ℝ)
    (S : Finset Ix) (hS : ((box s).filter fun i => near a (0 : ℝ) wa (k i) ∧ |c i - b| ≤ wb / 2) = S) :
    meanAt s (args s k m a wa b wb) v = average S v ∧ (args s k m a wa b wb).length = S.card := by
  have h := meanAt_eq s (args s k m a wa b wb) v (fun i => near a (0 : ℝ) wa (k i) ∧ |c i - b| ≤ wb / 2) (by
    rw [args_eq s k m c hm]
    refine List.filter_congr fun i _ => ?_
    exact decide_eq_decide.2 Iff.rfl)
  have hS' : ((box s).filter fun i => near a (0 : ℝ) wa (k i) ∧ |c i - b| ≤ wb / 2) = S := hS
  rw [← hS']
  convert h

theorem size_eq (s : Fin 3 → ℕ) (L : Fin 3 → ℝ) : kMag s L = size s L := by
  funext i
  unfold kMag size
  rw [Fin.sum_univ_three]
  rfl

theorem size_nonneg (s : Fin 3 → ℕ) (L : Fin 3 → ℝ) (i : Ix) : 0 ≤ size s L i := Real.sqrt_nonneg _

theorem angle_eq (s : Fin 3 → ℕ) (L : Fin 3 → ℝ) (los : Fin 3) (i : Ix) : |kComp s L los i / size s L i| = angle s L los i := by
  unfold angle
  rw [abs_div, abs_of_nonneg (size_nonneg s L i)]
  rfl

theorem angle_nonneg (s : Fin 3 → ℕ) (L : Fin 3 → ℝ) (los : Fin 3) (i : Ix) : 0 ≤ angle s L los i := div_nonneg (abs_nonneg _) (size_nonneg _ _ _)

theorem halfway_ne {s : Fin 3 → ℕ} {L : Fin 3 → ℝ} (hL : ∀ j, 0 < L j) {j : Fin 3} (hj : s j % 2 = 0) (i : Ix) : halfway s L j i ≠ 0 := by
  unfold halfway
  refine div_ne_zero (mul_ne_zero (by positivity) ?_) (hL j).ne'
  obtain ⟨m, hm⟩ : ∃ m : ℕ, s j = 2 * m := ⟨s j / 2, by omega⟩
  rw [hm]
  push_cast
  intro h
  have h2 : (2 * i j : ℝ) = 2 * m - 1 := by linarith
  have h3 : 2 * i j = 2 * (m : ℤ) - 1 := by exact_mod_cast h2
  omega

theorem size_pos {s : Fin 3 → ℕ} {L : Fin 3 → ℝ} (hL : ∀ j, 0 < L j) (hj : ∃ j, s j % 2 = 0) (i : Ix) : 0 < size s L i := by
  obtain ⟨j, hj⟩ := hj
  have h := halfway_ne hL hj i
  exact Real.sqrt_pos.2 (Finset.sum_pos' (fun _ _ => sq_nonneg _) ⟨j, Finset.mem_univ _, by positivity⟩)

theorem width_eq (a b : ℝ) {n : ℕ} (hn : 2 ≤ n) : centre a b n 1 - centre a b n 0 = (b - a) / n := by
  rw [centre_eq _ _ _ _ (by omega), centre_eq _ _ _ _ (by omega)]
  push_cast
  ring

theorem near_centre {a b : ℝ} {n i : ℕ} (hn : 2 ≤ n) (hi : i < n) (x : ℝ) :
    |x - centre a b n i| ≤ (centre a b n 1 - centre a b n 0) / 2 ↔ edgeAt false a b n i ≤ x ∧ x ≤ edgeAt false a b n (i + 1) := by
  rw [width_eq _ _ hn, centre_eq _ _ _ _ hi, ← edge_linear, ← edge_linear, abs_le]
  push_cast
  generalize (b - a) / (n : ℝ) = w
  constructor
  · rintro ⟨h1, h2⟩
    constructor <;> linarith
  · rintro ⟨h1, h2⟩
    constructor <;> linarith

theorem log_centre {a b : ℝ} (ha : 0 < a) (hb : 0 < b) {n i : ℕ} (hn : 2 ≤ n) (hi : i < n) {x : ℝ} (hx : 0 < x) :
    |Real.logb 10 x - centre (Real.logb 10 a) (Real.logb 10 b) n i| ≤
      (centre (Real.logb 10 a) (Real.logb 10 b) n 1 - centre (Real.logb 10 a) (Real.logb 10 b) n 0) / 2 ↔
      edgeAt true a b n i ≤ x ∧ x ≤ edgeAt true a b n (i + 1) := by
  have e1 := edge_log ha hb n i
  have e2 := edge_log ha hb n (i + 1)
  rw [near_centre hn hi, ← edge_linear, ← edge_linear, e1.1, e2.1, Real.logb_le_logb (by norm_num) e1.2 hx, Real.logb_le_logb (by norm_num) hx e2.2]

theorem near_zero (a w x : ℝ) : near a ((0 : ℝ) : WithBot ℝ) w (x : WithBot ℝ) ↔ |x - a| ≤ w / 2 := by
  show |x - a| ≤ (w - 0) / 2 ↔ _
  rw [sub_zero]

theorem middle_log {x y : ℝ} {n i : ℕ} (hx : 0 < x) (hy : 0 < y) (hi : i < n) :
    (10 : ℝ) ^ centre (Real.logb 10 x) (Real.logb 10 y) n i = middle true (edgeAt true x y n i) (edgeAt true x y n (i + 1)) := by
  rw [centre_eq _ _ _ _ hi]
  unfold middle
  rw [if_pos rfl]
  have e1 := edge_log hx hy n i
  have e2 := edge_log hx hy n (i + 1)
  have hprod := mul_pos e1.2 e2.2
  have : Real.logb 10 x + ((i : ℝ) + 1 / 2) * ((Real.logb 10 y - Real.logb 10 x) / n) =
      Real.logb 10 (Real.sqrt (edgeAt true x y n i * edgeAt true x y n (i + 1))) := by
    rw [Real.sqrt_eq_rpow, Real.logb_rpow_eq_mul_logb_of_pos hprod, Real.logb_mul e1.2.ne' e2.2.ne', ← e1.1, ← e2.1]
    push_cast
    ring
  rw [this]
  exact Real.rpow_logb (by norm_num) (by norm_num) (Real.sqrt_pos.2 hprod)

theorem middle_linear (x y : ℝ) {n i : ℕ} (hi : i < n) : centre x y n i = middle false (edgeAt false x y n i) (edgeAt false x y n (i + 1)) := by
  rw [centre_eq _ _ _ _ hi]
  unfold middle
  rw [if_neg (by decide), ← edge_linear, ← edge_linear]
  push_cast
  ring

/-- The limits of the bins of the cosine: from zero to one, or in the case of equal ratios the smallest and the largest. -/
def Limits (s : Fin 3 → ℕ) (L : Fin 3 → ℝ) (los : Fin 3) (log : Bool) (q Q : ℝ) : Prop :=
  if log then Range s (angle s L los) q Q else q = 0 ∧ Q = 1

/-- **C179** (partial).  If a number of cells is even (that along the line of sight, for equal ratios of the cosine): each bin has the average of
the power over all modes between its edges, for the wave vectors half a step from the modes.  Missing: the wave vectors of the modes
(`C176_even_false`) and odd numbers of cells (`C179_false`). -/
theorem C179_partial (a : Arr (Fin 3) ℝ) (hs : ∀ j, 0 < a.shape j) (he : ∃ j, a.shape j % 2 = 0) (B : Box) (hB : ∀ j, 0 < B.sides j) {n m : ℕ}
    (hn : 2 ≤ n) (hm : 2 ≤ m) (logk logmu : Bool) (los : Fin 3) (hl : logmu = true → a.shape los % 2 = 0) :
    ∃ r p P q Q, spectMu a B n m logk logmu (axisOf los) = .ok r ∧ Range a.shape (size a.shape B.sides) p P ∧
      Limits a.shape B.sides los logmu q Q ∧
      (∀ i j, i < n → j < m →
        let S := between a.shape (size a.shape B.sides) (edgeAt logk p P n i) (edgeAt logk p P n (i + 1)) ∩
          between a.shape (angle a.shape B.sides los) (edgeAt logmu q Q m j) (edgeAt logmu q Q m (j + 1))
        entry r.ps i j = some (average S (value B.sides a)) ∧ entry r.modes i j = some S.card) ∧
      (∀ i, i < n → r.first[i]? = some (middle logk (edgeAt logk p P n i) (edgeAt logk p P n (i + 1)))) ∧
      ∀ j, j < m → r.second[j]? = some (middle logmu (edgeAt logmu q Q m j) (edgeAt logmu q Q m (j + 1))) := by
  classical
  have hsize := fun i => size_pos (s := a.shape) hB he i
  obtain ⟨i0, hi0⟩ := box_nonempty hs
  obtain ⟨p, hp, hp0, hpR⟩ := leastNonzero_ok (size_nonneg a.shape B.sides) ⟨i0, hi0, (hsize i0).ne'⟩
  have hv : power B.sides a = value B.sides a := rfl
  have hmu : (fun i => (cosine a.shape B.sides los false i).getD 0) = angle a.shape B.sides los := by
    funext i
    unfold cosine
    rw [size_eq, if_neg (hsize i).ne', if_neg (by decide), angle_eq]
    rfl
  obtain ⟨q, Q, hlim, hqQ, hq0⟩ : ∃ q Q, Limits a.shape B.sides los logmu q Q ∧
      (if logmu then (leastNonzero a.shape (angle a.shape B.sides los)).map
        fun q => (Real.logb 10 q, Real.logb 10 (most a.shape (angle a.shape B.sides los))) else (.ok (0, 1) : Except Raise (ℝ × ℝ))) =
        .ok (if logmu then (Real.logb 10 q, Real.logb 10 Q) else (q, Q)) ∧ (logmu = true → 0 < q ∧ 0 < Q) := by
    cases logmu with
    | false => exact ⟨0, 1, ⟨rfl, rfl⟩, rfl, fun h => absurd h (by decide)⟩
    | true =>
      have ha : ∀ i, angle a.shape B.sides los i ≠ 0 := fun i => div_ne_zero (abs_ne_zero.2 (halfway_ne hB (hl rfl) i)) (hsize i).ne'
      obtain ⟨q, hq, hq0, hqR⟩ := leastNonzero_ok (angle_nonneg a.shape B.sides los) ⟨i0, hi0, ha i0⟩
      refine ⟨q, _, hqR, ?_, fun _ => ⟨hq0, lt_of_lt_of_le hq0 (range_pos (angle_nonneg _ _ _) hqR).2⟩⟩
      rw [if_pos rfl, hq]
      rfl
  have hP0 : 0 < most a.shape (size a.shape B.sides) := lt_of_lt_of_le hp0 (range_pos (size_nonneg _ _) hpR).2
  unfold spectMu
  dsimp only
  rw [if_neg (fun ⟨j, hj⟩ => (hs j).ne' hj), axis_some]
  dsimp only
  rw [hmu, size_eq, hp, hv]
  dsimp only
  rw [if_neg (by omega), hqQ]
  generalize most a.shape (size a.shape B.sides) = P at *
  dsimp only
  rw [if_neg (by omega)]
  have hk : ∀ i, i < n → ∀ x, near (centre (if logk = true then Real.logb 10 p else p) (if logk = true then Real.logb 10 P else P) n i)
      ((0 : ℝ) : WithBot ℝ) (centre (if logk = true then Real.logb 10 p else p) (if logk = true then Real.logb 10 P else P) n 1 -
        centre (if logk = true then Real.logb 10 p else p) (if logk = true then Real.logb 10 P else P) n 0)
      (if logk = true then log10 (size a.shape B.sides x) else ((size a.shape B.sides x : ℝ) : WithBot ℝ)) ↔
      edgeAt logk p P n i ≤ size a.shape B.sides x ∧ size a.shape B.sides x ≤ edgeAt logk p P n (i + 1) := by
    intro i hi x
    cases logk with
    | false =>
      simp only [Bool.false_eq_true, if_false]
      rw [near_zero, near_centre hn hi]
    | true =>
      simp only [if_true]
      rw [log10_pos (hsize x), near_zero, log_centre hp0 hP0 hn hi (hsize x)]
  have hcos : ∀ i, cosine a.shape B.sides los logmu i =
      some (if logmu = true then Real.logb 10 (angle a.shape B.sides los i) else angle a.shape B.sides los i) := by
    intro i
    unfold cosine
    rw [size_eq, if_neg (hsize i).ne']
    cases logmu with
    | false =>
      simp only [Bool.false_eq_true, if_false]
      rw [angle_eq]
    | true =>
      simp only [if_true]
      rw [if_neg (show kComp a.shape B.sides los i ≠ 0 from halfway_ne hB (hl rfl) i), angle_eq]
  have hang : logmu = true → ∀ i, 0 < angle a.shape B.sides los i := fun h i =>
    div_pos (abs_pos.2 (halfway_ne hB (hl h) i)) (hsize i)
  have hS : ∀ i j, i < n → j < m →
      ((box a.shape).filter fun x => near (centre (if logk = true then Real.logb 10 p else p) (if logk = true then Real.logb 10 P else P) n i)
      ((0 : ℝ) : WithBot ℝ) (centre (if logk = true then Real.logb 10 p else p) (if logk = true then Real.logb 10 P else P) n 1 -
        centre (if logk = true then Real.logb 10 p else p) (if logk = true then Real.logb 10 P else P) n 0)
      (if logk = true then log10 (size a.shape B.sides x) else ((size a.shape B.sides x : ℝ) : WithBot ℝ)) ∧
      |(if logmu = true then Real.logb 10 (angle a.shape B.sides los x) else angle a.shape B.sides los x) -
        centre (if logmu then (Real.logb 10 q, Real.logb 10 Q) else (q, Q)).1 (if logmu then (Real.logb 10 q, Real.logb 10 Q) else (q, Q)).2 m j| ≤
        (centre (if logmu then (Real.logb 10 q, Real.logb 10 Q) else (q, Q)).1 (if logmu then (Real.logb 10 q, Real.logb 10 Q) else (q, Q)).2 m 1 -
        centre (if logmu then (Real.logb 10 q, Real.logb 10 Q) else (q, Q)).1 (if logmu then (Real.logb 10 q, Real.logb 10 Q) else (q, Q)).2 m 0) / 2) =
      between a.shape (size a.shape B.sides) (edgeAt logk p P n i) (edgeAt logk p P n (i + 1)) ∩
          between a.shape (angle a.shape B.sides los) (edgeAt logmu q Q m j) (edgeAt logmu q Q m (j + 1)) := by
    intro i j hi hj
    ext x
    simp only [between, Finset.mem_inter, Finset.mem_filter]
    rw [hk i hi x]
    have hmu' : |(if logmu = true then Real.logb 10 (angle a.shape B.sides los x) else angle a.shape B.sides los x) -
        centre (if logmu then (Real.logb 10 q, Real.logb 10 Q) else (q, Q)).1 (if logmu then (Real.logb 10 q, Real.logb 10 Q) else (q, Q)).2 m j| ≤
        (centre (if logmu then (Real.logb 10 q, Real.logb 10 Q) else (q, Q)).1 (if logmu then (Real.logb 10 q, Real.logb 10 Q) else (q, Q)).2 m 1 -
        centre (if logmu then (Real.logb 10 q, Real.logb 10 Q) else (q, Q)).1 (if logmu then (Real.logb 10 q, Real.logb 10 Q) else (q, Q)).2 m 0) / 2 ↔
        edgeAt logmu q Q m j ≤ angle a.shape B.sides los x ∧ angle a.shape B.sides los x ≤ edgeAt logmu q Q m (j + 1) := by
      cases logmu with
      | false =>
        simp only [Bool.false_eq_true, if_false]
        exact near_centre hm hj _
      | true =>
        simp only [if_true]
        exact log_centre (hq0 rfl).1 (hq0 rfl).2 hm hj (hang rfl x)
    rw [hmu']
    tauto
  refine ⟨_, p, P, q, Q, rfl, hpR, hlim, ?_, ?_, ?_⟩
  · intro i j hi hj
    dsimp only
    rw [entry_table _ _ _ hi hj, entry_table _ _ _ hi hj]
    have := bin_eq a.shape _ _ _ (fun i _ => hcos i) _ _ _ _ (value B.sides a) _ (hS i j hi hj)
    exact ⟨congrArg some this.1, congrArg some this.2⟩
  · intro i hi
    dsimp only
    rw [List.getElem?_map, List.getElem?_range hi]
    cases logk with
    | false => exact congrArg some (middle_linear p P hi)
    | true => exact congrArg some (middle_log hp0 hP0 hi)
  · intro j hj
    dsimp only
    rw [List.getElem?_map, List.getElem?_range hj]
    cases logmu with
    | false => exact congrArg some (middle_linear q Q hj)
    | true => exact congrArg some (middle_log (hq0 rfl).1 (hq0 rfl).2 hj)

example : (∀ j, 0 < (![4, 4, 6] : Fin 3 → ℕ) j) ∧ (![4, 4, 6] : Fin 3 → ℕ) 2 % 2 = 0 := by decide

/-- Five modes along the line of sight. -/
noncomputable def column : Arr (Fin 3) ℝ := ⟨![1, 1, 5], fun x => x 2⟩

theorem column_comp (z : ℤ) : kComp ![1, 1, 5] (fun _ => 2 * Real.pi) 2 ![0, 0, z] = (z : ℝ) - 2 := by
  have hpi : (2 * Real.pi) ≠ 0 := by positivity
  unfold kComp
  rw [mul_div_cancel_left₀ _ hpi]
  have e : (![1, 1, 5] : Fin 3 → ℕ) 2 = 5 := rfl
  have e' : (![0, 0, z] : Ix) 2 = z := rfl
  rw [e, e']
  norm_num

theorem column_mag (z : ℤ) : kMag ![1, 1, 5] (fun _ => 2 * Real.pi) ![0, 0, z] = |(z : ℝ) - 2| := by
  unfold kMag
  rw [column_comp]
  have e0 : kComp ![1, 1, 5] (fun _ => 2 * Real.pi) 0 ![0, 0, z] = 0 := by simp [kComp]
  have e1 : kComp ![1, 1, 5] (fun _ => 2 * Real.pi) 1 ![0, 0, z] = 0 := by simp [kComp]
  rw [e0, e1]
  simp [Real.sqrt_sq_eq_abs]

theorem column_cosine (z : ℤ) : cosine ![1, 1, 5] (fun _ => 2 * Real.pi) 2 false ![0, 0, z] = if z = 2 then none else some 1 := by
  unfold cosine
  rw [column_mag, column_comp]
  by_cases h : z = 2
  · rw [if_pos h, if_pos (by rw [h]; norm_num)]
  · have h2 : (z : ℝ) - 2 ≠ 0 := by
      intro e
      have : (z : ℝ) = 2 := by linarith
      exact h (by exact_mod_cast this)
    rw [if_neg h, if_neg (abs_ne_zero.2 h2), if_neg (by decide), abs_div, abs_abs, div_self (abs_ne_zero.2 h2)]

theorem column_modes : modes ![1, 1, 5] = [![0, 0, 0], ![0, 0, 1], ![0, 0, 2], ![0, 0, 3], ![0, 0, 4]] := by decide

theorem column_box {i : Ix} (hi : i ∈ box ![1, 1, 5]) : ∃ z : ℤ, 0 ≤ z ∧ z ≤ 4 ∧ i = ![0, 0, z] := by
  rw [← mem_modes, column_modes] at hi
  simp only [List.mem_cons, List.not_mem_nil, or_false] at hi
  rcases hi with rfl | rfl | rfl | rfl | rfl
  exacts [⟨0, by decide, by decide, rfl⟩, ⟨1, by decide, by decide, rfl⟩, ⟨2, by decide, by decide, rfl⟩, ⟨3, by decide, by decide, rfl⟩,
    ⟨4, by decide, by decide, rfl⟩]

theorem column_args : args ![1, 1, 5] (fun x => ((kMag ![1, 1, 5] (fun _ => 2 * Real.pi) x : ℝ) : WithBot ℝ))
    (cosine ![1, 1, 5] (fun _ => 2 * Real.pi) 2 false) (7 / 4) (1 / 2) (3 / 4) (1 / 2) = [0] := by
  classical
  unfold args
  rw [column_modes]
  have hf : [![0, 0, 0], ![0, 0, 1], ![0, 0, 2], ![0, 0, 3], ![0, 0, 4]].filterMap (cosine ![1, 1, 5] (fun _ => 2 * Real.pi) 2 false) =
      [1, 1, 1, 1] := by
    rw [List.filterMap_cons, column_cosine, List.filterMap_cons, column_cosine, List.filterMap_cons, column_cosine, List.filterMap_cons,
      column_cosine, List.filterMap_cons, column_cosine]
    rfl
  rw [hf]
  have hl : List.range [![(0 : ℤ), 0, 0], ![0, 0, 1], ![0, 0, 2], ![0, 0, 3], ![0, 0, 4]].length = [0, 1, 2, 3, 4] := rfl
  rw [hl]
  have f0 : (∃ i : Ix, [![(0 : ℤ), 0, 0], ![0, 0, 1], ![0, 0, 2], ![0, 0, 3], ![0, 0, 4]][0]? = some i ∧
      near (7 / 4) ((0 : ℝ) : WithBot ℝ) (1 / 2) ((kMag ![1, 1, 5] (fun _ => 2 * Real.pi) i : ℝ) : WithBot ℝ)) ∧
      ∃ c : ℝ, [(1 : ℝ), 1, 1, 1][0]? = some c ∧ |c - 3 / 4| ≤ 1 / 2 / 2 := by
    refine ⟨⟨_, rfl, ?_⟩, _, rfl, by rw [abs_le]; constructor <;> norm_num⟩
    rw [column_mag, near_zero]
    norm_num [abs_le]
  have fm : ∀ (p : ℕ) (z : ℤ), |(z : ℝ) - 2| ≤ 1 → [![(0 : ℤ), 0, 0], ![0, 0, 1], ![0, 0, 2], ![0, 0, 3], ![0, 0, 4]][p]? = some ![0, 0, z] →
      ¬ ((∃ i : Ix, [![(0 : ℤ), 0, 0], ![0, 0, 1], ![0, 0, 2], ![0, 0, 3], ![0, 0, 4]][p]? = some i ∧
      near (7 / 4) ((0 : ℝ) : WithBot ℝ) (1 / 2) ((kMag ![1, 1, 5] (fun _ => 2 * Real.pi) i : ℝ) : WithBot ℝ)) ∧
      ∃ c : ℝ, [(1 : ℝ), 1, 1, 1][p]? = some c ∧ |c - 3 / 4| ≤ 1 / 2 / 2) := by
    rintro p z hz hp ⟨⟨i, hi, h⟩, _⟩
    rw [hp] at hi
    obtain rfl := Option.some.inj hi
    rw [column_mag, near_zero, abs_le] at h
    linarith [h.1]
  have key : ∀ f : ℕ → Bool, f 0 = true → f 1 = false → f 2 = false → f 3 = false → f 4 = false → [0, 1, 2, 3, 4].filter f = [0] := by
    intro f h0 h1 h2 h3 h4
    simp [h0, h1, h2, h3, h4]
  refine key _ (decide_eq_true f0) (decide_eq_false (fm 1 1 (by norm_num) rfl)) (decide_eq_false (fm 2 2 (by norm_num) rfl))
    (decide_eq_false (fm 3 3 (by norm_num) rfl)) (decide_eq_false ?_)
  rintro ⟨_, c, hc, _⟩
  exact absurd hc (by simp)

/-- With odd numbers of cells the cosines are those of the next modes from the middle on: of the two modes with the wave number 2 and the cosine 1 one
is counted. -/
theorem C179_false : ∃ r, spectMu column (.number (2 * Real.pi)) 2 2 false false 2 = .ok r ∧ entry r.modes 1 1 = some 1 ∧
    (∀ i ∈ box column.shape, i 2 = 0 ∨ i 2 = 4 → wave column.shape (Box.number (2 * Real.pi)).sides i = 2 ∧
      along column.shape (Box.number (2 * Real.pi)).sides 2 i = 2) := by
  have hsz : ∀ i ∈ box ![1, 1, 5], ∃ z : ℤ, 0 ≤ z ∧ z ≤ 4 ∧ i = ![0, 0, z] ∧ kMag ![1, 1, 5] (fun _ => 2 * Real.pi) i = |(z : ℝ) - 2| := by
    intro i hi
    obtain ⟨z, h0, h4, rfl⟩ := column_box hi
    exact ⟨z, h0, h4, rfl, column_mag z⟩
  have hbox : ∀ z : ℤ, 0 ≤ z → z ≤ 4 → (![0, 0, z] : Ix) ∈ box ![1, 1, 5] := by
    intro z h0 h4
    rw [mem_box]
    intro j
    match j with
    | 0 => exact ⟨le_rfl, show (0 : ℤ) < 1 by decide⟩
    | 1 => exact ⟨le_rfl, show (0 : ℤ) < 1 by decide⟩
    | 2 => exact ⟨h0, show z < 5 by omega⟩
  have hne : kMag ![1, 1, 5] (fun _ => 2 * Real.pi) ![0, 0, 1] = 1 := by
    rw [column_mag]
    norm_num
  obtain ⟨p, hp, hp0, ⟨i, hi, hi0, hip⟩, hle, ⟨k, hk, hkP⟩, hge⟩ := leastNonzero_ok (s := ![1, 1, 5])
    (kMag_nonneg ![1, 1, 5] (fun _ => 2 * Real.pi)) ⟨![0, 0, 1], hbox 1 (by decide) (by decide), by rw [hne]; norm_num⟩
  have p1 : p = 1 := by
    have h1 := hle _ (hbox 1 (by decide) (by decide)) (by rw [hne]; norm_num)
    rw [hne] at h1
    obtain ⟨z, z0, z4, rfl, hz⟩ := hsz i hi
    rw [hz] at hip hi0
    refine le_antisymm h1 ?_
    rw [← hip]
    have : z ≠ 2 := by
      rintro rfl
      norm_num at hi0
    interval_cases z <;> first | (exact absurd rfl this) | norm_num
  have P2 : most ![1, 1, 5] (kMag ![1, 1, 5] fun _ => 2 * Real.pi) = 2 := by
    have h1 := hge _ (hbox 0 (by decide) (by decide))
    rw [column_mag] at h1
    have h2 : |((0 : ℤ) : ℝ) - 2| = 2 := by norm_num
    rw [h2] at h1
    refine le_antisymm ?_ h1
    rw [← hkP]
    obtain ⟨z, z0, z4, rfl, hz⟩ := hsz k hk
    rw [hz]
    interval_cases z <;> norm_num
  have hS : ¬ ∃ j, (![1, 1, 5] : Fin 3 → ℕ) j = 0 := by decide
  have main : ∀ e, spectMu column (.number (2 * Real.pi)) 2 2 false false 2 = e → ∃ r, e = .ok r ∧ entry r.modes 1 1 = some 1 := by
    intro e he
    unfold spectMu at he
    dsimp only at he
    rw [show column.shape = ![1, 1, 5] from rfl, show (Box.number (2 * Real.pi)).sides = fun _ => 2 * Real.pi from rfl, if_neg hS,
      if_neg (by decide), if_neg (by decide), if_pos rfl] at he
    dsimp only at he
    rw [hp] at he
    dsimp only at he
    rw [if_neg (by decide), if_neg (by decide)] at he
    dsimp only at he
    rw [if_neg (by decide)] at he
    refine ⟨_, he.symm, ?_⟩
    dsimp only
    rw [entry_table _ _ _ (by decide) (by decide), p1]
    simp only [Bool.false_eq_true, if_false]
    rw [P2, centre_eq _ _ _ _ (by decide), centre_eq _ _ _ _ (by decide), centre_eq _ _ _ _ (by decide), centre_eq _ _ _ _ (by decide)]
    have := column_args
    norm_num at this ⊢
    rw [this]
    rfl
  obtain ⟨r, h1, h2⟩ := main _ rfl
  refine ⟨r, h1, h2, ?_⟩
  · intro i hi h
    have hodd : ∀ j, column.shape j % 2 = 1 := by
      intro j
      match j with
      | 0 => rfl
      | 1 => rfl
      | 2 => rfl
    rw [← kMag_odd hodd]
    unfold along
    rw [← kComp_odd hodd]
    obtain ⟨z, _, _, rfl⟩ := column_box hi
    have h' : z = 0 ∨ z = 4 := h
    show kMag ![1, 1, 5] (fun _ => 2 * Real.pi) ![0, 0, z] = 2 ∧ |kComp ![1, 1, 5] (fun _ => 2 * Real.pi) 2 ![0, 0, z]| = 2
    rw [column_mag, column_comp]
    rcases h' with rfl | rfl <;> norm_num

end Verif.FastSpectrum
