import Verif.Model.Helpers
import Mathlib.Algebra.Order.Ring.Rat
import Mathlib.Algebra.Order.Field.Rat
import Mathlib.Tactic.Linarith
import Mathlib.Tactic.NormNum
/-!
# Selection of simulation redshifts (C23)
-/

set_option linter.unusedSectionVars false

namespace Verif.Helpers

variable {K : Type} [Field K] [LinearOrder K] [IsStrictOrderedRing K]

/-- Specification: `z` is the redshift of `zs` nearest to `lo` from below. -/
def NearestBelow (zs : List K) (lo z : K) : Prop := z ≤ lo ∧ ∀ w ∈ zs, w ≤ lo → w ≤ z

/-- Specification: `z` is the redshift of `zs` nearest to `hi` from above. -/
def NearestAbove (zs : List K) (hi z : K) : Prop := hi ≤ z ∧ ∀ w ∈ zs, hi ≤ w → z ≤ w

/-- Specification: `r` lists, in ascending order and with the multiplicity of `zs`, the redshifts of `zs`
that satisfy `p`. -/
def Selects (zs r : List K) (p : K → Prop) : Prop :=
  r.Pairwise (· ≤ ·) ∧ ∀ z, (p z → r.count z = zs.count z) ∧ (¬ p z → r.count z = 0)

theorem sorted_mergeSort' (zs : List K) :
    (zs.mergeSort fun a b => decide (a ≤ b)).Pairwise (· ≤ ·) := by
  have := List.pairwise_mergeSort (le := fun a b : K => decide (a ≤ b))
    (fun a b c h1 h2 => by simp only [decide_eq_true_eq] at *; exact h1.trans h2)
    (fun a b => by simpa using le_total a b) zs
  simpa using this

theorem count_mergeSort (zs : List K) (z : K) :
    (zs.mergeSort fun a b => decide (a ≤ b)).count z = zs.count z :=
  (List.mergeSort_perm zs _).count_eq z

theorem selects_filter (zs : List K) (lo hi : K) :
    Selects zs ((zs.mergeSort fun a b => decide (a ≤ b)).filter fun z => decide (lo ≤ z) && decide (z ≤ hi))
      (fun z => lo ≤ z ∧ z ≤ hi) := by
  refine ⟨(sorted_mergeSort' zs).filter _, fun z => ⟨fun h => ?_, fun h => ?_⟩⟩
  · rw [List.count_filter (by simpa using h), count_mergeSort]
  · rw [List.count_eq_zero]
    intro hm
    rw [List.mem_filter] at hm
    exact h (by simpa using hm.2)

/-- C23: with `bracket=True`, an interval `[lo, hi]` with a redshift at or below `lo` and one at or above `hi`
gives exactly the redshifts inside the interval, the nearest one below and the nearest one above. -/
theorem bracket_spec (zs : List K) (lo hi : K) (h : lo ≤ hi) (h1 : ∃ z ∈ zs, z ≤ lo) (h2 : ∃ z ∈ zs, hi ≤ z) :
    ∃ r, redshiftsInRange zs (some lo) (some hi) true = .ok r ∧
      Selects zs r fun z => (lo ≤ z ∧ z ≤ hi) ∨ NearestBelow zs lo z ∧ z ∈ zs ∨ NearestAbove zs hi z ∧ z ∈ zs := by
  unfold redshiftsInRange
  set s := zs.mergeSort fun a b => decide (a ≤ b) with hs
  have hmem : ∀ z, z ∈ s ↔ z ∈ zs := fun z => (List.mergeSort_perm zs _).mem_iff
  have hsort : s.Pairwise (· ≤ ·) := sorted_mergeSort' zs
  obtain ⟨a, ha, hal⟩ := h1
  obtain ⟨b, hb, hbl⟩ := h2
  cases hmn : s.min? with
  | none =>
    rw [List.min?_eq_none_iff] at hmn
    have := (hmem a).2 ha
    rw [hmn] at this; simp at this
  | some mn =>
  cases hmx : s.max? with
  | none =>
    rw [List.max?_eq_none_iff] at hmx
    have := (hmem a).2 ha
    rw [hmx] at this; simp at this
  | some mx =>
  obtain ⟨-, hmn2⟩ := List.min?_eq_some_iff.1 hmn
  obtain ⟨-, hmx2⟩ := List.max?_eq_some_iff.1 hmx
  have c1 : ¬ lo < mn := not_lt.2 ((hmn2 a ((hmem a).2 ha)).trans hal)
  have c2 : ¬ mx < hi := not_lt.2 (hbl.trans (hmx2 b ((hmem b).2 hb)))
  -- the last redshift at or below lo
  have hF1 : (s.filter fun z => decide (z ≤ lo)) ≠ [] :=
    List.ne_nil_of_mem (List.mem_filter.2 ⟨(hmem a).2 ha, by simpa using hal⟩)
  have hF2 : (s.filter fun z => decide (hi ≤ z)) ≠ [] :=
    List.ne_nil_of_mem (List.mem_filter.2 ⟨(hmem b).2 hb, by simpa using hbl⟩)
  obtain ⟨lo', hlo'⟩ : ∃ x, (s.filter fun z => decide (z ≤ lo)).getLast? = some x :=
    ⟨_, List.getLast?_eq_some_getLast hF1⟩
  obtain ⟨hi', hhi'⟩ : ∃ x, (s.filter fun z => decide (hi ≤ z)).head? = some x :=
    ⟨_, List.head?_eq_some_head hF2⟩
  have hloM := List.mem_filter.1 (List.mem_of_getLast? hlo')
  have hhiM := List.mem_filter.1 (List.mem_of_head? hhi')
  have hloL : lo' ≤ lo := by simpa using hloM.2
  have hhiL : hi ≤ hi' := by simpa using hhiM.2
  have hloB : ∀ w ∈ zs, w ≤ lo → w ≤ lo' := by
    intro w hw hwl
    have hp := hsort.filter (fun z => decide (z ≤ lo))
    obtain ⟨l, hl⟩ := List.getLast?_eq_some_iff.1 hlo'
    have hwm : w ∈ s.filter fun z => decide (z ≤ lo) := List.mem_filter.2 ⟨(hmem w).2 hw, by simpa using hwl⟩
    rw [hl] at hp hwm
    rw [List.pairwise_append] at hp
    rcases List.mem_append.1 hwm with h' | h'
    · exact hp.2.2 w h' lo' (by simp)
    · simp at h'; exact h'.le
  have hhiB : ∀ w ∈ zs, hi ≤ w → hi' ≤ w := by
    intro w hw hwl
    have hp := hsort.filter (fun z => decide (hi ≤ z))
    obtain ⟨l, hl⟩ := List.head?_eq_some_iff.1 hhi'
    have hwm : w ∈ s.filter fun z => decide (hi ≤ z) := List.mem_filter.2 ⟨(hmem w).2 hw, by simpa using hwl⟩
    rw [hl] at hp hwm
    rw [List.pairwise_cons] at hp
    rcases List.mem_cons.1 hwm with h' | h'
    · exact h'.symm.le
    · exact hp.1 w h'
  simp only [if_true, hmn, hmx, if_neg c1, if_neg c2, hlo', hhi']
  refine ⟨_, rfl, ?_⟩
  obtain ⟨p1, p2⟩ := selects_filter zs lo' hi'
  refine ⟨p1, fun z => ?_⟩
  by_cases hz : z ∈ zs
  · have hiff : (lo' ≤ z ∧ z ≤ hi') ↔
        ((lo ≤ z ∧ z ≤ hi) ∨ NearestBelow zs lo z ∧ z ∈ zs ∨ NearestAbove zs hi z ∧ z ∈ zs) := by
      constructor
      · rintro ⟨q1, q2⟩
        rcases le_or_gt lo z with r1 | r1
        · rcases le_or_gt z hi with r2 | r2
          · exact Or.inl ⟨r1, r2⟩
          · right; right
            exact ⟨⟨r2.le, fun w hw hwl => q2.trans (hhiB w hw hwl)⟩, hz⟩
        · right; left
          exact ⟨⟨r1.le, fun w hw hwl => (hloB w hw hwl).trans q1⟩, hz⟩
      · rintro (⟨q1, q2⟩ | ⟨⟨q1, q2⟩, -⟩ | ⟨⟨q1, q2⟩, -⟩)
        · exact ⟨hloL.trans q1, q2.trans hhiL⟩
        · exact ⟨q2 lo' ((hmem _).1 hloM.1) hloL, (q1.trans h).trans hhiL⟩
        · exact ⟨(hloL.trans h).trans q1, q2 hi' ((hmem _).1 hhiM.1) hhiL⟩
    exact ⟨fun hp => (p2 z).1 (hiff.2 hp), fun hp => (p2 z).2 fun hq => hp (hiff.1 hq)⟩
  · have h0 : zs.count z = 0 := List.count_eq_zero.2 hz
    have hr0 : List.count z (s.filter fun z => decide (lo' ≤ z) && decide (z ≤ hi')) = 0 := by
      rw [List.count_eq_zero]
      intro hm
      exact hz ((hmem z).1 (List.mem_filter.1 hm).1)
    exact ⟨fun _ => by rw [hr0, h0], fun _ => hr0⟩

example : redshiftsInRange [(9 : ℚ), 6, 7, 8, 12] (some (13 / 2)) (some (17 / 2)) true = .ok [6, 7, 8, 9] := by
  norm_num [redshiftsInRange, List.mergeSort, List.MergeSort.Internal.splitInTwo, List.splitAt, List.splitAt.go]

/-- C23: an interval that cannot be bracketed is refused. -/
theorem bracket_refused (zs : List K) (lo hi : K) (hne : zs ≠ []) (h : (∀ z ∈ zs, lo < z) ∨ (∀ z ∈ zs, z < hi)) :
    redshiftsInRange zs (some lo) (some hi) true = .error "No redshifts to bracket range." := by
  unfold redshiftsInRange
  set s := zs.mergeSort fun a b => decide (a ≤ b) with hs
  have hmem : ∀ z, z ∈ s ↔ z ∈ zs := fun z => (List.mergeSort_perm zs _).mem_iff
  obtain ⟨a, ha⟩ := List.exists_mem_of_ne_nil zs hne
  have has := (hmem a).2 ha
  cases hmn : s.min? with
  | none => rw [List.min?_eq_none_iff] at hmn; rw [hmn] at has; simp at has
  | some mn =>
  cases hmx : s.max? with
  | none => rw [List.max?_eq_none_iff] at hmx; rw [hmx] at has; simp at has
  | some mx =>
  obtain ⟨hmn1, -⟩ := List.min?_eq_some_iff.1 hmn
  obtain ⟨hmx1, -⟩ := List.max?_eq_some_iff.1 hmx
  rcases h with h | h
  · simp only [if_true, hmn, hmx, if_pos (h mn ((hmem _).1 hmn1))]
  · by_cases hc : lo < mn
    · simp only [if_true, hmn, hmx, if_pos hc]
    · simp only [if_true, hmn, hmx, if_neg hc, if_pos (h mx ((hmem _).1 hmx1))]

example : (∀ z ∈ [(7 : ℚ), 8], (6 : ℚ) < z) := by decide +kernel

/-- C23: without `bracket`, each given limit is applied (inclusively) and a missing limit is not. -/
theorem range_spec (zs : List K) (lo hi : Option K) (hne : zs ≠ []) :
    ∃ r, redshiftsInRange zs lo hi false = .ok r ∧
      Selects zs r fun z => z ∈ zs → (∀ l, lo = some l → l ≤ z) ∧ (∀ u, hi = some u → z ≤ u) := by
  unfold redshiftsInRange
  set s := zs.mergeSort fun a b => decide (a ≤ b) with hs
  have hmem : ∀ z, z ∈ s ↔ z ∈ zs := fun z => (List.mergeSort_perm zs _).mem_iff
  obtain ⟨a, ha⟩ := List.exists_mem_of_ne_nil zs hne
  have has := (hmem a).2 ha
  cases hmn : s.min? with
  | none => rw [List.min?_eq_none_iff] at hmn; rw [hmn] at has; simp at has
  | some mn =>
  cases hmx : s.max? with
  | none => rw [List.max?_eq_none_iff] at hmx; rw [hmx] at has; simp at has
  | some mx =>
  obtain ⟨-, hmn2⟩ := List.min?_eq_some_iff.1 hmn
  obtain ⟨-, hmx2⟩ := List.max?_eq_some_iff.1 hmx
  have fin : ∀ l u : K, (∀ z ∈ zs, (l ≤ z ∧ z ≤ u) ↔ ((∀ l', lo = some l' → l' ≤ z) ∧ (∀ u', hi = some u' → z ≤ u'))) →
      Selects zs (s.filter fun z => decide (l ≤ z) && decide (z ≤ u))
        (fun z => z ∈ zs → (∀ l, lo = some l → l ≤ z) ∧ (∀ u, hi = some u → z ≤ u)) := by
    intro l u hiff
    obtain ⟨p1, p2⟩ := selects_filter zs l u
    refine ⟨p1, fun z => ?_⟩
    by_cases hz : z ∈ zs
    · exact ⟨fun hp => (p2 z).1 ((hiff z hz).2 (hp hz)), fun hp => (p2 z).2 fun hq => hp fun _ => (hiff z hz).1 hq⟩
    · refine ⟨fun _ => ?_, fun hp => absurd (fun h => absurd h hz) hp⟩
      rw [List.count_eq_zero.2 hz, List.count_eq_zero]
      intro hm
      exact hz ((hmem z).1 (List.mem_filter.1 hm).1)
  have hb1 : ∀ z ∈ zs, mn - 1 ≤ z := fun z hz => by have := hmn2 z ((hmem z).2 hz); linarith
  have hb2 : ∀ z ∈ zs, z ≤ mx + 1 := fun z hz => by have := hmx2 z ((hmem z).2 hz); linarith
  cases lo with
  | none =>
    cases hi with
    | none => simp only [Bool.false_eq_true, if_false, hmn, hmx, Option.map_some]; exact ⟨_, rfl, fin _ _ fun z hz => by simp [hb1 z hz, hb2 z hz]⟩
    | some u => simp only [Bool.false_eq_true, if_false, hmn, Option.map_some]; exact ⟨_, rfl, fin _ _ fun z hz => by simp [hb1 z hz]⟩
  | some l =>
    cases hi with
    | none => simp only [Bool.false_eq_true, if_false, hmx, Option.map_some]; exact ⟨_, rfl, fin _ _ fun z hz => by simp [hb2 z hz]⟩
    | some u => exact ⟨_, rfl, fin _ _ fun z hz => by simp⟩

example : redshiftsInRange [(9 : ℚ), 6, 7] none (some 7) false = .ok [6, 7] := by
  norm_num [redshiftsInRange, List.mergeSort, List.MergeSort.Internal.splitInTwo, List.splitAt, List.splitAt.go,
    List.min?, List.max?]

/-- With `bracket=True` the default limits (`None`) raise instead of meaning "no limit" (line 116). -/
theorem bracket_none_raises (zs : List K) (hne : zs ≠ []) (hi : Option K) :
    redshiftsInRange zs none hi true = .error "TypeError" := by
  unfold redshiftsInRange
  set s := zs.mergeSort fun a b => decide (a ≤ b) with hs
  have hmem : ∀ z, z ∈ s ↔ z ∈ zs := fun z => (List.mergeSort_perm zs _).mem_iff
  obtain ⟨a, ha⟩ := List.exists_mem_of_ne_nil zs hne
  have has := (hmem a).2 ha
  cases hmn : s.min? with
  | none => rw [List.min?_eq_none_iff] at hmn; rw [hmn] at has; simp at has
  | some mn =>
  cases hmx : s.max? with
  | none => rw [List.max?_eq_none_iff] at hmx; rw [hmx] at has; simp at has
  | some mx => simp only [if_true, hmn, hmx]

end Verif.Helpers
