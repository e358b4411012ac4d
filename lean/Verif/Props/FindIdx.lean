import Verif.Model.Helpers
import Mathlib.Algebra.Order.Ring.Rat
import Mathlib.Algebra.Order.Field.Rat
import Mathlib.Algebra.BigOperators.Group.List.Basic
import Mathlib.Data.Nat.Cast.Order.Ring
import Mathlib.Tactic.Linarith
import Mathlib.Tactic.NormNum
import Mathlib.Tactic.FieldSimp
import Mathlib.Tactic.Positivity
import Mathlib.Tactic.Ring
/-!
# Table lookup (C20, C57) and pooled statistics (C21)
-/

set_option linter.unusedSectionVars false

namespace Verif.Helpers

variable {K : Type} [Field K] [LinearOrder K] [IsStrictOrderedRing K]

/-! ## C20 -/

/-- Specification: linear interpolation of the table `ar` at the fractional index `t` gives `v`. -/
def LinAt (ar : List K) (t v : K) : Prop :=
  ∃ (i : ℕ) (a b : K), ar[i]? = some a ∧ ar[i + 1]? = some b ∧ (i : K) ≤ t ∧ t ≤ i + 1 ∧
    v = a + (t - i) * (b - a)

/-- The table is monotone, in either direction. -/
def Mono (ar : List K) : Prop := ar.Pairwise (· ≤ ·) ∨ ar.Pairwise (· ≥ ·)

theorem ascending_iff (ar : List K) : ascending ar = true ↔ ar.Pairwise (· ≤ ·) := by
  rw [← List.isChain_iff_pairwise]
  induction ar with
  | nil => simp [ascending]
  | cons a l ih =>
    cases l with
    | nil => simp [ascending]
    | cons b l =>
      rw [List.isChain_cons_cons, ← ih]
      simp [ascending, sub_nonneg]

theorem descending_iff (ar : List K) : descending ar = true ↔ ar.Pairwise (· ≥ ·) := by
  rw [← List.isChain_iff_pairwise]
  induction ar with
  | nil => simp [descending]
  | cons a l ih =>
    cases l with
    | nil => simp [descending]
    | cons b l =>
      rw [List.isChain_cons_cons, ← ih]
      simp [descending, sub_nonpos]

theorem searchsorted_spec (ar : List K) (h : ar.Pairwise (· ≤ ·)) (v : K) (i : ℕ) (hi : i < ar.length) :
    ar[i] < v ↔ i < searchsorted ar v := by
  induction ar generalizing i with
  | nil => simp at hi
  | cons a l ih =>
    rw [List.pairwise_cons] at h
    unfold searchsorted
    by_cases ha : a < v
    · rw [List.filter_cons_of_pos (by simpa using ha)]
      cases i with
      | zero => simpa using ha
      | succ i =>
        simp only [List.getElem_cons_succ, List.length_cons, Nat.add_lt_add_iff_right]
        exact ih h.2 i (by simpa using hi)
    · rw [List.filter_cons_of_neg (by simpa using ha)]
      have hnone : (l.filter fun x => decide (x < v)) = [] := by
        rw [List.filter_eq_nil_iff]
        intro x hx
        have := h.1 x hx
        simp only [decide_eq_true_eq, not_lt]
        exact (not_lt.1 ha).trans this
      rw [hnone]
      simp only [List.length_nil, Nat.not_lt_zero, iff_false, not_lt]
      cases i with
      | zero => simpa using ha
      | succ i => simpa using (not_lt.1 ha).trans (h.1 _ (List.getElem_mem _))

theorem searchsorted_le (ar : List K) (v : K) : searchsorted ar v ≤ ar.length := List.length_filter_le _ _

theorem linAt_reverse (ar : List K) (t v : K) (h : LinAt ar.reverse t v) :
    LinAt ar ((ar.length : K) - 1 - t) v := by
  obtain ⟨i, a, b, ha, hb, h1, h2, h3⟩ := h
  have hlt : i + 1 < ar.length := by
    have := (List.getElem?_eq_some_iff.1 hb).1
    simpa using this
  rw [List.getElem?_reverse (by omega)] at ha
  rw [List.getElem?_reverse hlt] at hb
  refine ⟨ar.length - 2 - i, b, a, ?_, ?_, ?_, ?_, ?_⟩
  · rw [← hb]; congr 1; omega
  · rw [← ha]; congr 1; omega
  all_goals
    have e : ((ar.length - 2 - i : ℕ) : K) = (ar.length : K) - 2 - i := by
      rw [Nat.cast_sub (by omega), Nat.cast_sub (by omega)]; norm_num
    rw [e]
  · linarith
  · linarith
  · rw [h3]; ring

/-- The heart of `find_idx` on an ascending table that is not constant. -/
theorem lookup_ascending (ar : List K) (h : ar.Pairwise (· ≤ ·)) (v : K) (x y : K)
    (hx : ∃ a ∈ ar, a ≤ v) (hy : ∃ b ∈ ar, v ≤ b) (hmx : x ∈ ar) (hmy : y ∈ ar) (hxy : x ≠ y) :
    ∃ x1 x2, pyGet ar ((searchsorted ar v : ℤ) - 1) = some x1 ∧
      pyGet ar ((searchsorted ar v : ℤ) - 1 + 1) = some x2 ∧ x2 - x1 ≠ 0 ∧
      LinAt ar ((((searchsorted ar v : ℤ) - 1 : ℤ) : K) + (v - x1) / (x2 - x1)) v := by
  set k := searchsorted ar v with hk
  have hkn : k < ar.length := by
    obtain ⟨b, hb, hvb⟩ := hy
    obtain ⟨j, hj, rfl⟩ := List.getElem_of_mem hb
    have := (searchsorted_spec ar h v j hj).not.1 (not_lt.2 hvb)
    omega
  have hsorted : ∀ i j (hi : i < ar.length) (hj : j < ar.length), i ≤ j → ar[i] ≤ ar[j] := by
    intro i j hi hj hij
    rcases hij.eq_or_lt with rfl | hlt
    · exact le_refl _
    · exact List.pairwise_iff_getElem.1 h i j hi hj hlt
  have hge : v ≤ ar[k] := not_lt.1 ((searchsorted_spec ar h v k hkn).not.2 (by omega))
  have h2 : pyGet ar ((k : ℤ) - 1 + 1) = some ar[k] := by
    rw [sub_add_cancel]
    unfold pyGet
    rw [if_pos (by omega), Int.toNat_natCast, List.getElem?_eq_getElem hkn]
  rcases Nat.eq_zero_or_pos k with h0 | hpos
  · -- v is the smallest entry
    have hlen : 2 ≤ ar.length := by
      obtain ⟨i, hi, rfl⟩ := List.getElem_of_mem hmx
      obtain ⟨j, hj, rfl⟩ := List.getElem_of_mem hmy
      by_contra hc
      have : i = j := by omega
      subst this
      exact hxy rfl
    have hv : v = ar[0] := by
      obtain ⟨a, ha, hav⟩ := hx
      obtain ⟨i, hi, rfl⟩ := List.getElem_of_mem ha
      apply le_antisymm
      · have : ar[k] = ar[0] := by congr 1
        rw [← this]; exact hge
      · exact (hsorted 0 i (by omega) hi (by omega)).trans hav
    have hlast : ar[0] < ar[ar.length - 1] := by
      refine lt_of_le_of_ne (hsorted 0 _ (by omega) (by omega) (by omega)) ?_
      intro he
      obtain ⟨i, hi, rfl⟩ := List.getElem_of_mem hmx
      obtain ⟨j, hj, rfl⟩ := List.getElem_of_mem hmy
      apply hxy
      have e1 : ar[i] = ar[0] := le_antisymm (he ▸ hsorted i _ hi (by omega) (by omega))
        (hsorted 0 i (by omega) hi (by omega))
      have e2 : ar[j] = ar[0] := le_antisymm (he ▸ hsorted j _ hj (by omega) (by omega))
        (hsorted 0 j (by omega) hj (by omega))
      rw [e1, e2]
    have h1 : pyGet ar ((k : ℤ) - 1) = some ar[ar.length - 1] := by
      unfold pyGet
      rw [if_neg (by omega), if_pos (by omega)]
      have : ((ar.length : ℤ) + ((k : ℤ) - 1)).toNat = ar.length - 1 := by omega
      rw [this, List.getElem?_eq_getElem (by omega)]
    have e0 : ar[k] = v := by rw [hv]; congr 1
    refine ⟨_, _, h1, h2, ?_, ?_⟩
    · rw [e0, hv]
      exact (sub_neg.2 hlast).ne
    · have ht : ((((k : ℤ) - 1 : ℤ) : K) + (v - ar[ar.length - 1]) / (ar[k] - ar[ar.length - 1])) = 0 := by
        rw [e0, div_self (by rw [hv]; exact (sub_neg.2 hlast).ne), h0]
        norm_num
      rw [ht]
      refine ⟨0, ar[0], ar[1], List.getElem?_eq_getElem (by omega), List.getElem?_eq_getElem (by omega),
        by norm_num, by norm_num, ?_⟩
      rw [hv]; norm_num
  · have hlt : ar[k - 1] < v := (searchsorted_spec ar h v (k - 1) (by omega)).2 (by omega)
    have h1 : pyGet ar ((k : ℤ) - 1) = some ar[k - 1] := by
      unfold pyGet
      have : ((k : ℤ) - 1).toNat = k - 1 := by omega
      rw [if_pos (by omega), this, List.getElem?_eq_getElem (by omega)]
    have hd : 0 < ar[k] - ar[k - 1] := sub_pos.2 (hlt.trans_le hge)
    refine ⟨_, _, h1, h2, hd.ne', k - 1, ar[k - 1], ar[k], List.getElem?_eq_getElem (by omega), ?_, ?_, ?_, ?_⟩
    · have : k - 1 + 1 = k := by omega
      rw [this, List.getElem?_eq_getElem hkn]
    all_goals
      have e : ((k - 1 : ℕ) : K) = (((k : ℤ) - 1 : ℤ) : K) := by
        rw [Nat.cast_sub hpos]; push_cast; ring
      rw [e]
    · have : 0 ≤ (v - ar[k - 1]) / (ar[k] - ar[k - 1]) := div_nonneg (by linarith) hd.le
      linarith
    · have : (v - ar[k - 1]) / (ar[k] - ar[k - 1]) ≤ 1 := by
        rw [div_le_one hd]; linarith
      linarith
    · field_simp
      ring

theorem clamp_in (mn mx v : K) (h : mn ≤ mx) : mn ≤ clamp mn mx v ∧ clamp mn mx v ≤ mx := by
  unfold clamp
  by_cases h1 : mx < v
  · simp [h1, h, not_lt.2 h]
  · by_cases h2 : v < mn
    · simp [h1, h2, h]
    · simp [h1, h2]; exact ⟨not_lt.1 h2, not_lt.1 h1⟩

theorem clamp_id (mn mx v : K) (h1 : mn ≤ v) (h2 : v ≤ mx) : clamp mn mx v = v := by
  simp [clamp, not_lt.2 h1, not_lt.2 h2]

theorem clamp_low (mn mx v : K) (h : mn ≤ mx) (h1 : v ≤ mn) : clamp mn mx v = mn := by
  rcases h1.eq_or_lt with rfl | hlt
  · exact clamp_id _ _ _ le_rfl h
  · simp [clamp, not_lt.2 (h1.trans h), hlt]

theorem clamp_high (mn mx v : K) (h : mn ≤ mx) (h1 : mx ≤ v) : clamp mn mx v = mx := by
  rcases h1.eq_or_lt with rfl | hlt
  · exact clamp_id _ _ _ h le_rfl
  · simp [clamp, hlt, not_lt.2 h]

/-- C20: on every monotone table with at least two different entries `find_idx` succeeds for every value,
and the fractional index it returns points, by linear interpolation of the table, at the value itself when
the value lies in the range of the table, and at the largest or smallest entry when it lies beyond. -/
theorem findIdx_spec (ar : List K) (hm : Mono ar) (x y : K) (hx : x ∈ ar) (hy : y ∈ ar) (hxy : x ≠ y)
    (v : K) :
    ∃ t, findIdx ar v = .ok (some t) ∧
      ((∃ a ∈ ar, a ≤ v) → (∃ b ∈ ar, v ≤ b) → LinAt ar t v) ∧
      ((∀ a ∈ ar, a ≤ v) → ∃ m ∈ ar, (∀ a ∈ ar, a ≤ m) ∧ LinAt ar t m) ∧
      ((∀ a ∈ ar, v ≤ a) → ∃ m ∈ ar, (∀ a ∈ ar, m ≤ a) ∧ LinAt ar t m) := by
  have hne : ar ≠ [] := List.ne_nil_of_mem hx
  obtain ⟨mn, hmn⟩ : ∃ mn, ar.min? = some mn := by
    cases h : ar.min? with
    | none => exact absurd (List.min?_eq_none_iff.1 h) hne
    | some m => exact ⟨m, rfl⟩
  obtain ⟨mx, hmx⟩ : ∃ mx, ar.max? = some mx := by
    cases h : ar.max? with
    | none => exact absurd (List.max?_eq_none_iff.1 h) hne
    | some m => exact ⟨m, rfl⟩
  obtain ⟨hmn1, hmn2⟩ := List.min?_eq_some_iff.1 hmn
  obtain ⟨hmx1, hmx2⟩ := List.max?_eq_some_iff.1 hmx
  have hle : mn ≤ mx := hmn2 mx hmx1
  set w := clamp mn mx v with hw
  have hwin := clamp_in mn mx v hle
  obtain ⟨t, ht, hlin⟩ : ∃ t, findIdx ar v = .ok (some t) ∧ LinAt ar t w := by
    unfold findIdx
    simp only [hmn, hmx, ← hw]
    have hok : ¬ (ascending ar = false ∧ descending ar = false) := by
      rcases hm with h | h
      · rw [(ascending_iff ar).2 h]; simp
      · rw [(descending_iff ar).2 h]; simp
    rw [if_neg hok]
    by_cases hd : descending ar = true
    · simp only [hd, if_true]
      have hp : ar.reverse.Pairwise (· ≤ ·) := by
        rw [List.pairwise_reverse]; exact (descending_iff ar).1 hd
      obtain ⟨x1, x2, e1, e2, e3, e4⟩ := lookup_ascending ar.reverse hp w x y
        ⟨mn, by simpa using hmn1, hwin.1⟩ ⟨mx, by simpa using hmx1, hwin.2⟩ (by simpa using hx)
        (by simpa using hy) hxy
      rw [e1, e2]
      simp only [if_neg e3]
      refine ⟨_, rfl, ?_⟩
      rw [List.length_reverse]
      exact linAt_reverse ar _ _ e4
    · have hp : ar.Pairwise (· ≤ ·) := by
        rcases hm with h | h
        · exact h
        · exact absurd ((descending_iff ar).2 h) hd
      simp only [hd]
      obtain ⟨x1, x2, e1, e2, e3, e4⟩ := lookup_ascending ar hp w x y
        ⟨mn, hmn1, hwin.1⟩ ⟨mx, hmx1, hwin.2⟩ hx hy hxy
      simp only [Bool.false_eq_true, if_false]
      rw [e1, e2]
      simp only [if_neg e3]
      exact ⟨_, rfl, e4⟩
  refine ⟨t, ht, ?_, ?_, ?_⟩
  · rintro ⟨a, ha, hav⟩ ⟨b, hb, hvb⟩
    have : w = v := clamp_id _ _ _ ((hmn2 a ha).trans hav) (hvb.trans (hmx2 b hb))
    rwa [this] at hlin
  · intro h
    have : w = mx := clamp_high _ _ _ hle (h mx hmx1)
    rw [this] at hlin
    exact ⟨mx, hmx1, hmx2, hlin⟩
  · intro h
    have : w = mn := clamp_low _ _ _ hle (h mn hmn1)
    rw [this] at hlin
    exact ⟨mn, hmn1, hmn2, hlin⟩

example : Mono [(9 : ℚ), 7, 7, 2] ∧ findIdx [(9 : ℚ), 7, 7, 2] 3 = .ok (some (14 / 5)) ∧
    findIdx [(9 : ℚ), 7, 7, 2] 100 = .ok (some 0) := by
  refine ⟨Or.inr (by decide), by decide +kernel, by decide +kernel⟩

/-- On a strictly monotone table the fractional index is unique, so that `find_idx` is the inverse of
linear interpolation. -/
theorem linAt_unique (ar : List K) (hm : ar.Pairwise (· < ·) ∨ ar.Pairwise (· > ·)) (t s v : K)
    (h1 : LinAt ar t v) (h2 : LinAt ar s v) : t = s := by
  suffices H : ∀ ar : List K, ar.Pairwise (· < ·) → ∀ t s, LinAt ar t v → LinAt ar s v → t = s by
    rcases hm with h | h
    · exact H ar h t s h1 h2
    · have hr : ar.reverse.Pairwise (· < ·) := by rw [List.pairwise_reverse]; exact h
      have e := H ar.reverse hr _ _ (linAt_reverse ar.reverse t v (by simpa using h1))
        (linAt_reverse ar.reverse s v (by simpa using h2))
      linarith
  clear hm h1 h2
  intro ar h t s h1 h2
  -- values at fractional indices are strictly increasing
  have key : ∀ t s w u, LinAt ar t w → LinAt ar s u → t < s → w < u := by
    rintro t s w u ⟨i, a, b, ha, hb, hi1, hi2, rfl⟩ ⟨j, c, d, hc, hd, hj1, hj2, rfl⟩ hts
    obtain ⟨hia, rfl⟩ := List.getElem?_eq_some_iff.1 ha
    obtain ⟨hib, rfl⟩ := List.getElem?_eq_some_iff.1 hb
    obtain ⟨hjc, rfl⟩ := List.getElem?_eq_some_iff.1 hc
    obtain ⟨hjd, rfl⟩ := List.getElem?_eq_some_iff.1 hd
    have hab : ar[i] < ar[i + 1] := List.pairwise_iff_getElem.1 h i (i + 1) hia hib (by omega)
    have hcd : ar[j] < ar[j + 1] := List.pairwise_iff_getElem.1 h j (j + 1) hjc hjd (by omega)
    rcases lt_trichotomy i j with hij | rfl | hij
    · have h3 : ar[i + 1] ≤ ar[j] := by
        rcases (Nat.succ_le_of_lt hij).eq_or_lt with he | he
        · have : i + 1 = j := he
          simp [this]
        · exact (List.pairwise_iff_getElem.1 h (i + 1) j hib hjc he).le
      have h4 : ar[i] + (t - i) * (ar[i + 1] - ar[i]) ≤ ar[i + 1] := by
        nlinarith
      have h5 : ar[j] ≤ ar[j] + (s - j) * (ar[j + 1] - ar[j]) := by nlinarith
      rcases hi2.eq_or_lt with he | hlt
      · rcases hj1.eq_or_lt with he' | hlt'
        · -- t = i + 1, s = j
          have : (i : K) + 1 < j := by rw [← he, he']; exact hts
          have hij' : i + 1 < j := by exact_mod_cast this
          have := List.pairwise_iff_getElem.1 h (i + 1) j hib hjc hij'
          linarith
        · have : ar[j] < ar[j] + (s - j) * (ar[j + 1] - ar[j]) := by nlinarith
          linarith
      · have : ar[i] + (t - i) * (ar[i + 1] - ar[i]) < ar[i + 1] := by nlinarith
        linarith
    · nlinarith
    · have : (j : K) + 1 ≤ i := by exact_mod_cast hij
      linarith
  rcases lt_trichotomy t s with hlt | he | hgt
  · exact absurd (key t s v v h1 h2 hlt) (lt_irrefl _)
  · exact he
  · exact absurd (key s t v v h2 h1 hgt) (lt_irrefl _)

/-- C20: looking up an entry of a strictly monotone table returns its position. -/
theorem findIdx_entry (ar : List K) (hm : ar.Pairwise (· < ·) ∨ ar.Pairwise (· > ·)) (i : ℕ)
    (hi : i < ar.length) (hlen : 2 ≤ ar.length) : findIdx ar ar[i] = .ok (some (i : K)) := by
  have hmono : Mono ar := by
    rcases hm with h | h
    · exact Or.inl (h.imp fun h => le_of_lt h)
    · exact Or.inr (h.imp fun h => le_of_lt h)
  have hne : ar[0] ≠ ar[1] := by
    rcases hm with h | h
    · exact (List.pairwise_iff_getElem.1 h 0 1 (by omega) (by omega) (by omega)).ne
    · exact (List.pairwise_iff_getElem.1 h 0 1 (by omega) (by omega) (by omega)).ne'
  obtain ⟨t, ht, h1, -⟩ := findIdx_spec ar hmono ar[0] ar[1] (List.getElem_mem _) (List.getElem_mem _) hne ar[i]
  have hlin := h1 ⟨_, List.getElem_mem hi, le_rfl⟩ ⟨_, List.getElem_mem hi, le_rfl⟩
  have hself : LinAt ar (i : K) ar[i] := by
    rcases Nat.lt_or_ge (i + 1) ar.length with h | h
    · exact ⟨i, ar[i], ar[i + 1], List.getElem?_eq_getElem hi, List.getElem?_eq_getElem h, le_rfl,
        by linarith, by ring⟩
    · have hpred : i - 1 + 1 = i := by omega
      have e : ((i - 1 : ℕ) : K) = (i : K) - 1 := by
        rw [Nat.cast_sub (by omega)]; norm_num
      refine ⟨i - 1, ar[i - 1], ar[i], List.getElem?_eq_getElem (by omega), ?_, ?_, ?_, ?_⟩
      · rw [hpred, List.getElem?_eq_getElem hi]
      · rw [e]; linarith
      · rw [e]; linarith
      · rw [e]; ring
  rw [ht, linAt_unique ar hm _ _ _ hlin hself]

example : findIdx [(1 : ℚ), 4, 6] 4 = .ok (some 1) := by decide +kernel

/-- C20: tables that are not monotone are rejected. -/
theorem findIdx_rejects (ar : List K) (v : K) (h : ¬ Mono ar) : findIdx ar v = .error "ValueError" := by
  unfold findIdx
  have h1 : ascending ar = false := by
    rw [← Bool.not_eq_true, ascending_iff]; exact fun h' => h (Or.inl h')
  have h2 : descending ar = false := by
    rw [← Bool.not_eq_true, descending_iff]; exact fun h' => h (Or.inr h')
  cases ar.min? with
  | none => rfl
  | some mn =>
    cases ar.max? with
    | none => rfl
    | some mx => simp [h1, h2]

example : ¬ Mono [(1 : ℚ), 3, 2] := by unfold Mono; decide +kernel

/-- A table whose entries are all equal (or with a single entry) gives nan for every value. -/
theorem findIdx_constant (c : K) (n : ℕ) (v : K) : findIdx (List.replicate (n + 1) c) v = .ok none := by
  set ar := List.replicate (n + 1) c with har
  have hmn : ar.min? = some c := by
    rw [List.min?_eq_some_iff]
    exact ⟨by simp [har], fun b hb => (List.eq_of_mem_replicate hb).symm.le⟩
  have hmx : ar.max? = some c := by
    rw [List.max?_eq_some_iff]
    exact ⟨by simp [har], fun b hb => (List.eq_of_mem_replicate hb).le⟩
  have hd : descending ar = true := by
    rw [descending_iff, List.pairwise_replicate]; right; exact le_rfl
  have hc : clamp c c v = c := by
    have := clamp_in c c v le_rfl
    exact le_antisymm this.2 this.1
  have hss : searchsorted ar c = 0 := by
    unfold searchsorted
    rw [List.length_eq_zero_iff, List.filter_eq_nil_iff]
    intro a ha
    rw [List.eq_of_mem_replicate ha]; simp
  unfold findIdx
  simp only [hmn, hmx, hc, hd, if_true]
  have hrev : ar.reverse = ar := by rw [har, List.reverse_replicate]
  rw [hrev, hss]
  simp [pyGet, har]

/-- C57 fails: the values beyond the range are overwritten in the caller's array, here 100 becomes 9 although
the caller only looked something up. -/
theorem C57_false : findIdxValuesAfter [(2 : ℚ), 7, 9] [3, 100] = [3, 9] := by decide +kernel

/-- C57, proved part: an array whose values all lie in the range of the table is left as it was. Missing: values
beyond the range (`C57_false`). -/
theorem C57_partial (ar values : List K)
    (h : ∀ v ∈ values, (∃ a ∈ ar, a ≤ v) ∧ (∃ b ∈ ar, v ≤ b)) : findIdxValuesAfter ar values = values := by
  unfold findIdxValuesAfter
  cases hmn : ar.min? with
  | none => rfl
  | some mn =>
    cases hmx : ar.max? with
    | none => rfl
    | some mx =>
      simp only
      obtain ⟨-, hmn2⟩ := List.min?_eq_some_iff.1 hmn
      obtain ⟨-, hmx2⟩ := List.max?_eq_some_iff.1 hmx
      conv_rhs => rw [← List.map_id values]
      apply List.map_congr_left
      intro v hv
      obtain ⟨⟨a, ha, hav⟩, b, hb, hvb⟩ := h v hv
      exact clamp_id _ _ _ ((hmn2 a ha).trans hav) (hvb.trans (hmx2 b hb))

example : findIdxValuesAfter [(2 : ℚ), 7, 9] [3, 9] = [3, 9] := by decide +kernel

/-! ## C21 -/

/-- Specification: the mean of a data set. -/
def mean (l : List K) : K := l.sum / l.length

/-- Specification: the sum of squared deviations from the mean. -/
def sumSq (l : List K) : K := (l.map fun x => (x - mean l) ^ 2).sum

/-- Specification: the sample variance (`ddof=1`). -/
def sampleVar (l : List K) : K := sumSq l / ((l.length : K) - 1)

theorem sum_shift (l : List K) (m : K) : (l.map fun x => (x - m) ^ 2).sum =
    (l.map fun x => x ^ 2).sum - 2 * m * l.sum + l.length * m ^ 2 := by
  induction l with
  | nil => simp
  | cons a l ih =>
    simp only [List.map_cons, List.sum_cons, ih, List.length_cons]
    push_cast; ring

theorem sum_about (l : List K) (hl : l ≠ []) (m : K) : (l.map fun x => (x - m) ^ 2).sum =
    sumSq l + l.length * (mean l - m) ^ 2 := by
  have hn : (l.length : K) ≠ 0 := by
    have : 0 < l.length := List.length_pos_iff.2 hl
    exact_mod_cast this.ne'
  unfold sumSq
  rw [sum_shift, sum_shift]
  have : l.sum = l.length * mean l := by unfold mean; field_simp
  rw [this]; ring

theorem sumSq_one (l : List K) (h : l.length = 1) : sumSq l = 0 := by
  obtain ⟨a, rfl⟩ := List.length_eq_one_iff.1 h
  simp [sumSq, mean]

/-- C21: the combined mean and variance are those of the pooled data.  Each group comes with its mean and its
`ddof=1` variance; for a group of one element (whose variance is undefined) any number may be given.  (With a single pooled value both
sides are 0/0.) -/
theorem combined_spec (g : List (List K × K)) (hne : ∀ t ∈ g, t.1 ≠ [])
    (hv : ∀ t ∈ g, 2 ≤ t.1.length → t.2 = sampleVar t.1) :
    combined (g.map fun t => (mean t.1, t.2, (t.1.length : K))) =
      (mean (g.map Prod.fst).flatten, sampleVar (g.map Prod.fst).flatten) := by
  have htotal : (g.map fun t => (t.1.length : K)).sum = ((g.map Prod.fst).flatten.length : K) := by
    clear hne hv
    induction g with
    | nil => simp
    | cons t g ih => simp only [List.map_cons, List.sum_cons, ih, List.flatten_cons, List.length_append]
                     push_cast; ring
  have hmean : (g.map fun t => (t.1.length : K) * mean t.1).sum = (g.map Prod.fst).flatten.sum := by
    clear htotal hv
    induction g with
    | nil => simp
    | cons t g ih =>
      simp only [List.map_cons, List.sum_cons, List.flatten_cons, List.sum_append]
      rw [ih fun s hs => hne s (by simp [hs])]
      have hn : (t.1.length : K) ≠ 0 := by
        have : 0 < t.1.length := List.length_pos_iff.2 (hne t (by simp))
        exact_mod_cast this.ne'
      congr 1
      unfold mean; field_simp
  have hvar : ∀ m : K, (g.map fun t => ((t.1.length : K) - 1) * t.2 + (t.1.length : K) * (mean t.1 - m) ^ 2).sum =
      ((g.map Prod.fst).flatten.map fun x => (x - m) ^ 2).sum := by
    intro m
    clear htotal hmean
    induction g with
    | nil => simp
    | cons t g ih =>
      simp only [List.map_cons, List.sum_cons, List.flatten_cons, List.map_append, List.sum_append]
      rw [ih (fun s hs => hne s (by simp [hs])) fun s hs => hv s (by simp [hs])]
      congr 1
      have hl := hne t (by simp)
      rw [sum_about _ hl]
      congr 1
      rcases Nat.lt_or_ge t.1.length 2 with h | h
      · have h1 : t.1.length = 1 := by
          have : 0 < t.1.length := List.length_pos_iff.2 hl
          omega
        rw [sumSq_one _ h1, h1]; norm_num
      · rw [hv t (by simp) h]
        have : (t.1.length : K) - 1 ≠ 0 := by
          have : (2 : K) ≤ t.1.length := by exact_mod_cast h
          linarith
        unfold sampleVar; field_simp
  unfold combined
  simp only [List.map_map, Function.comp_def]
  rw [htotal, hmean]
  refine Prod.ext rfl ?_
  simp only
  rw [hvar]
  rfl

example : combined [(mean [(1 : ℚ), 3], sampleVar [(1 : ℚ), 3], 2), (mean [(10 : ℚ)], 17, 1)] =
    (14 / 3, 67 / 3) := by
  norm_num [combined, mean, sampleVar, sumSq]

/-- C21, without sample sizes every data set counts as one number: the result is the mean and the sample variance
of the means, whatever the variances. -/
theorem combinedDefault_spec (g : List (K × K)) :
    combinedDefault g = (mean (g.map Prod.fst), sampleVar (g.map Prod.fst)) := by
  have h := combined_spec (g.map fun t => ([t.1], t.2)) (by
    intro t ht
    simp only [List.mem_map] at ht
    obtain ⟨s, -, rfl⟩ := ht
    simp) (by
    intro t ht h2
    simp only [List.mem_map] at ht
    obtain ⟨s, -, rfl⟩ := ht
    simp at h2)
  have e : ((g.map fun t => ([t.1], t.2)).map Prod.fst).flatten = g.map Prod.fst := by
    clear h
    induction g with
    | nil => rfl
    | cons t g ih => simp only [List.map_cons, List.flatten_cons, List.map_map] at ih ⊢; rw [ih]; rfl
  rw [e] at h
  rw [← h]
  unfold combinedDefault
  congr 1
  simp [List.map_map, Function.comp_def, mean]

end Verif.Helpers
