import Verif.Model.StepCell
import Verif.Props.Thresholds
import Mathlib.Tactic.Linarith
import Mathlib.Tactic.FieldSimp
import Mathlib.Tactic.NormNum
import Mathlib.Tactic.Ring
import Mathlib.Algebra.Order.Field.Rat
/-!
# Interpolation of light cones cell by cell (C204)
-/

namespace Verif.StepCell

variable {K : Type} [Field K] [LinearOrder K] [IsStrictOrderedRing K]

/-! ## Smallest and largest entries -/

theorem foldl_min (l : List K) (a : K) : l.foldl min a ≤ a ∧ (∀ x ∈ l, l.foldl min a ≤ x) ∧ (l.foldl min a = a ∨ l.foldl min a ∈ l) := by
  induction l generalizing a with
  | nil => exact ⟨le_rfl, by simp, Or.inl rfl⟩
  | cons b l ih =>
    obtain ⟨h1, h2, h3⟩ := ih (min a b)
    rw [List.foldl_cons]
    refine ⟨h1.trans (min_le_left ..), ?_, ?_⟩
    · intro x hx
      rcases List.mem_cons.1 hx with rfl | hx
      · exact h1.trans (min_le_right ..)
      · exact h2 x hx
    · rcases h3 with h3 | h3
      · rw [h3]
        rcases min_choice a b with h | h
        · exact Or.inl h
        · rw [h]; exact Or.inr (List.mem_cons_self ..)
      · exact Or.inr (List.mem_cons_of_mem _ h3)

theorem foldl_max (l : List K) (a : K) : a ≤ l.foldl max a ∧ (∀ x ∈ l, x ≤ l.foldl max a) ∧ (l.foldl max a = a ∨ l.foldl max a ∈ l) := by
  induction l generalizing a with
  | nil => exact ⟨le_rfl, by simp, Or.inl rfl⟩
  | cons b l ih =>
    obtain ⟨h1, h2, h3⟩ := ih (max a b)
    rw [List.foldl_cons]
    refine ⟨le_trans (le_max_left ..) h1, ?_, ?_⟩
    · intro x hx
      rcases List.mem_cons.1 hx with rfl | hx
      · exact le_trans (le_max_right ..) h1
      · exact h2 x hx
    · rcases h3 with h3 | h3
      · rw [h3]
        rcases max_choice a b with h | h
        · exact Or.inl h
        · rw [h]; exact Or.inr (List.mem_cons_self ..)
      · exact Or.inr (List.mem_cons_of_mem _ h3)

theorem least_spec {l : List K} (h : l ≠ []) : least l ∈ l ∧ ∀ x ∈ l, least l ≤ x := by
  cases l with
  | nil => exact absurd rfl h
  | cons a l =>
    obtain ⟨h1, h2, h3⟩ := foldl_min l a
    refine ⟨?_, ?_⟩
    · rcases h3 with h3 | h3
      · show l.foldl min a ∈ _
        rw [h3]; exact List.mem_cons_self ..
      · exact List.mem_cons_of_mem _ h3
    · intro x hx
      rcases List.mem_cons.1 hx with rfl | hx
      · exact h1
      · exact h2 x hx

theorem most_spec {l : List K} (h : l ≠ []) : most l ∈ l ∧ ∀ x ∈ l, x ≤ most l := by
  cases l with
  | nil => exact absurd rfl h
  | cons a l =>
    obtain ⟨h1, h2, h3⟩ := foldl_max l a
    refine ⟨?_, ?_⟩
    · rcases h3 with h3 | h3
      · show l.foldl max a ∈ _
        rw [h3]; exact List.mem_cons_self ..
      · exact List.mem_cons_of_mem _ h3
    · intro x hx
      rcases List.mem_cons.1 hx with rfl | hx
      · exact h1
      · exact h2 x hx

/-! ## The transitions -/

theorem valuesSorted_length (u dist : List K) (changed : List Bool) (h : dist.length = changed.length) (hu : changed.count true ≤ u.length) :
    (valuesSorted u dist changed).length = changed.count true := by
  unfold valuesSorted
  dsimp only
  rw [List.length_insertionSort, List.length_zipWith]
  have : ((dist.zip changed).filterMap fun p => if p.2 then some p.1 else none).length = changed.count true := by
    clear hu
    induction dist generalizing changed with
    | nil =>
      have : changed = [] := List.length_eq_zero_iff.1 h.symm
      simp [this]
    | cons d ds ih =>
      cases changed with
      | nil => simp at h
      | cons c cs =>
        have := ih cs (by simpa using h)
        cases c <;> simp [this]
  omega

/-- What `_get_step_transitions` returns are numbers from zero to one, and both occur. -/
theorem transitions_range {u dist t : List K} {changed : List Bool} (ht : transitions u dist changed = .ok t) :
    t.length = dist.length ∧ (∀ x ∈ t, 0 ≤ x ∧ x ≤ 1) ∧ (0 : K) ∈ t ∧ (1 : K) ∈ t := by
  unfold transitions at ht
  dsimp only at ht
  split at ht
  · cases ht
  · cases ht
  · generalize (valuesSorted u dist changed) = xs at *
    generalize hout : dist.map _ = out at ht
    split_ifs at ht with hm
    have e := Except.ok.inj ht
    subst e
    have hl : out.length = dist.length := by rw [← hout, List.length_map]
    have hne : out ≠ [] := by
      rintro rfl
      exact hm rfl
    obtain ⟨hm1, hm2⟩ := least_spec hne
    have hne2 : (out.map fun y => y - least out) ≠ [] := by simpa using hne
    obtain ⟨hM1, hM2⟩ := most_spec hne2
    have hnn : ∀ x ∈ out.map fun y => y - least out, 0 ≤ x := by
      intro x hx
      obtain ⟨y, hy, rfl⟩ := List.mem_map.1 hx
      exact sub_nonneg.2 (hm2 y hy)
    have hpos : 0 < most (out.map fun y => y - least out) := lt_of_le_of_ne (hnn _ hM1) (Ne.symm hm)
    refine ⟨by simp [hl], ?_, ?_, ?_⟩
    · intro x hx
      obtain ⟨y, hy, rfl⟩ := List.mem_map.1 hx
      exact ⟨div_nonneg (hnn y hy) hpos.le, (div_le_one hpos).2 (hM2 y hy)⟩
    · refine List.mem_map.2 ⟨0, List.mem_map.2 ⟨_, hm1, sub_self _⟩, zero_div _⟩
    · exact List.mem_map.2 ⟨_, hM1, div_self hm⟩

/-- **C204** (partial).  If some cell changes by more than 0.001, every cell has one redshift between the two slices below which it has the
value of the lower slice and above which that of the higher.  See `C204_false` for slices without changes. -/
theorem C204_partial (u sm low high : List K) (zh zl : K) (hz : zl < zh) (hl : low.length = sm.length) (hh : high.length = sm.length)
    (hu : u.length = sm.length) (hc : ∃ (i : ℕ) (a b : K), low[i]? = some a ∧ high[i]? = some b ∧ 1 / 1000 < |b - a|) :
    ∃ s : ℕ → K, (∀ i, zl ≤ s i ∧ s i ≤ zh) ∧ ∀ z, zl ≤ z → ∃ r, stepSlice u sm low high zh zl z = .ok r ∧ r.length = sm.length ∧
      ∀ i, i < sm.length → r[i]? = if z < s i then low[i]? else high[i]? := by
  set c := List.zipWith (fun h l => decide (|h - l| > 1 / 1000)) high low with hcdef
  have hcl : c.length = sm.length := by rw [hcdef, List.length_zipWith, hl, hh, min_self]
  have hct : true ∈ c := by
    obtain ⟨i, a, b, ha, hb, h⟩ := hc
    refine List.mem_iff_getElem?.2 ⟨i, ?_⟩
    rw [hcdef, List.getElem?_zipWith, ha, hb]
    simpa using h
  have hlen := valuesSorted_length u sm c hcl.symm (le_trans (List.count_le_length ..) (by omega))
  have hpos : 0 < c.count true := List.count_pos_iff.2 hct
  match ht : transitions u sm c with
  | .error .index =>
    exfalso
    unfold transitions at ht
    dsimp only at ht
    split at ht
    · rename_i h0
      rw [h0] at hlen
      simp at hlen
      omega
    · cases ht
    · split_ifs at ht
      cases ht
  | .error .nan =>
    refine ⟨fun _ => zl, fun _ => ⟨le_rfl, hz.le⟩, fun z h => ⟨high, ?_, hh, fun i _ => ?_⟩⟩
    · unfold stepSlice
      rw [← hcdef, ht]
    · rw [if_neg (not_lt.2 h)]
  | .ok t =>
    obtain ⟨h1, h2, -, -⟩ := transitions_range ht
    refine ⟨fun i => zl + t.getD i 0 * (zh - zl), fun i => ?_, fun z h => ⟨_, by unfold stepSlice; rw [← hcdef, ht], ?_, fun i hi => ?_⟩⟩
    · have hb : 0 ≤ t.getD i 0 ∧ t.getD i 0 ≤ 1 := by
        rw [List.getD_eq_getElem?_getD]
        by_cases hi : i < t.length
        · rw [List.getElem?_eq_getElem hi]
          exact h2 _ (List.getElem_mem hi)
        · rw [List.getElem?_eq_none (by omega)]
          exact ⟨le_rfl, zero_le_one⟩
      have hd : 0 < zh - zl := sub_pos.2 hz
      constructor
      · have := mul_nonneg hb.1 hd.le
        linarith
      · have := mul_le_mul_of_nonneg_right hb.2 hd.le
        linarith
    · rw [List.length_zipWith, List.length_zip, h1, hl, hh]
      simp
    · have hti : t[i]? = some (t.getD i 0) := by
        rw [List.getD_eq_getElem?_getD, List.getElem?_eq_getElem (by omega)]
        rfl
      obtain ⟨a, ha⟩ : ∃ a, low[i]? = some a := ⟨_, List.getElem?_eq_getElem (by omega)⟩
      obtain ⟨b, hb⟩ : ∃ b, high[i]? = some b := ⟨_, List.getElem?_eq_getElem (by omega)⟩
      have hp : (high.zip low)[i]? = some (b, a) := by
        rw [List.zip, List.getElem?_zipWith, ha, hb]
      rw [List.getElem?_zipWith, hti, hp, ha, hb]
      dsimp only
      split_ifs <;> rfl

/-- Two cells, one of which changes. -/
example : ∃ (i : ℕ) (a b : ℚ), [0, 1][i]? = some a ∧ [1, 1][i]? = some b ∧ 1 / 1000 < |b - a| :=
  ⟨0, 0, 1, rfl, rfl, by norm_num⟩

theorem transitions_nil (u sm : List K) (c : List Bool) (hc : ∀ x ∈ c, x = false) : transitions u sm c = .error .index := by
  have hf : ((sm.zip c).filterMap fun p => if p.2 then some p.1 else none) = [] := by
    rw [List.filterMap_eq_nil_iff]
    intro p hp
    rw [hc p.2 (List.of_mem_zip hp).2]
    rfl
  have hv : valuesSorted u sm c = [] := by
    unfold valuesSorted
    dsimp only
    rw [hf]
    rfl
  unfold transitions
  rw [hv]

/-- If no cell changes by more than 0.001, there is no result, even for equal slices. -/
theorem C204_false (u sm low high : List K) (zh zl z : K)
    (h : ∀ (i : ℕ) (a b : K), low[i]? = some a → high[i]? = some b → |b - a| ≤ 1 / 1000) :
    stepSlice u sm low high zh zl z = .error .index := by
  have hc : ∀ x ∈ List.zipWith (fun h l => decide (|h - l| > 1 / 1000)) high low, x = false := by
    intro x hx
    obtain ⟨i, hi⟩ := List.mem_iff_getElem?.1 hx
    rw [List.getElem?_zipWith] at hi
    cases ha : low[i]? with
    | none => cases hb : high[i]? <;> simp [ha, hb] at hi
    | some a =>
      cases hb : high[i]? with
      | none => simp [ha, hb] at hi
      | some b =>
        simp only [ha, hb, Option.some.injEq] at hi
        rw [← hi]
        exact decide_eq_false (not_lt.2 (h i a b ha hb))
  unfold stepSlice
  rw [transitions_nil u sm _ hc]

/-- Two equal slices. -/
example (i : ℕ) (a b : ℚ) (ha : [0, 1][i]? = some a) (hb : [0, 1][i]? = some b) : |b - a| ≤ 1 / 1000 := by
  rw [ha] at hb
  cases hb
  norm_num

/-! ## The order of the transitions -/

theorem segment_ge : ∀ (p q : K × K) (l : List (K × K)), (p :: q :: l).Pairwise (fun a b => a.1 < b.1 ∧ a.2 ≤ b.2) → ∀ x, p.1 ≤ x →
    p.2 ≤ segment (p :: q :: l) x := by
  intro p q l
  induction l generalizing p q with
  | nil =>
    intro h x hx
    rw [List.pairwise_cons] at h
    obtain ⟨h1, h2⟩ := h.1 q (List.mem_cons_self ..)
    have : 0 ≤ (q.2 - p.2) / (q.1 - p.1) * (x - p.1) :=
      mul_nonneg (div_nonneg (sub_nonneg.2 h2) (sub_nonneg.2 h1.le)) (sub_nonneg.2 hx)
    show p.2 ≤ (q.2 - p.2) / (q.1 - p.1) * (x - p.1) + p.2
    linarith
  | cons r l ih =>
    intro h x hx
    have hp := h
    rw [List.pairwise_cons] at h
    obtain ⟨h1, h2⟩ := h.1 q (List.mem_cons_self ..)
    show p.2 ≤ if x ≤ q.1 then (q.2 - p.2) / (q.1 - p.1) * (x - p.1) + p.2 else segment (q :: r :: l) x
    split_ifs with hq
    · have : 0 ≤ (q.2 - p.2) / (q.1 - p.1) * (x - p.1) :=
        mul_nonneg (div_nonneg (sub_nonneg.2 h2) (sub_nonneg.2 h1.le)) (sub_nonneg.2 hx)
      linarith
    · exact h2.trans (ih q r h.2 x (not_le.1 hq).le)

theorem segment_mono : ∀ (p q : K × K) (l : List (K × K)), (p :: q :: l).Pairwise (fun a b => a.1 < b.1 ∧ a.2 ≤ b.2) → ∀ x y, p.1 ≤ x → x ≤ y →
    segment (p :: q :: l) x ≤ segment (p :: q :: l) y := by
  intro p q l
  induction l generalizing p q with
  | nil =>
    intro h x y hx hxy
    rw [List.pairwise_cons] at h
    obtain ⟨h1, h2⟩ := h.1 q (List.mem_cons_self ..)
    have : (q.2 - p.2) / (q.1 - p.1) * (x - p.1) ≤ (q.2 - p.2) / (q.1 - p.1) * (y - p.1) :=
      mul_le_mul_of_nonneg_left (by linarith) (div_nonneg (sub_nonneg.2 h2) (sub_nonneg.2 h1.le))
    show (q.2 - p.2) / (q.1 - p.1) * (x - p.1) + p.2 ≤ (q.2 - p.2) / (q.1 - p.1) * (y - p.1) + p.2
    linarith
  | cons r l ih =>
    intro h x y hx hxy
    rw [List.pairwise_cons] at h
    obtain ⟨h1, h2⟩ := h.1 q (List.mem_cons_self ..)
    have hs : 0 ≤ (q.2 - p.2) / (q.1 - p.1) := div_nonneg (sub_nonneg.2 h2) (sub_nonneg.2 h1.le)
    show (if x ≤ q.1 then (q.2 - p.2) / (q.1 - p.1) * (x - p.1) + p.2 else segment (q :: r :: l) x) ≤
      if y ≤ q.1 then (q.2 - p.2) / (q.1 - p.1) * (y - p.1) + p.2 else segment (q :: r :: l) y
    split_ifs with hxq hyq hyq
    · have := mul_le_mul_of_nonneg_left (by linarith : x - p.1 ≤ y - p.1) hs
      linarith
    · refine le_trans ?_ (segment_ge q r l h.2 y (not_le.1 hyq).le)
      have := mul_le_mul_of_nonneg_left (by linarith : x - p.1 ≤ q.1 - p.1) hs
      rw [div_mul_cancel₀ _ (sub_pos.2 h1).ne'] at this
      linarith
    · exact absurd (hxy.trans hyq) hxq
    · exact ih q r h.2 x y (not_le.1 hxq).le hxy

theorem segment_node : ∀ (p q : K × K) (l : List (K × K)), (p :: q :: l).Pairwise (fun a b => a.1 < b.1) → ∀ (k : ℕ) (c : K × K),
    (p :: q :: l)[k]? = some c → segment (p :: q :: l) c.1 = c.2 := by
  intro p q l
  induction l generalizing p q with
  | nil =>
    intro h k c hk
    rw [List.pairwise_cons] at h
    have h1 := h.1 q (List.mem_cons_self ..)
    show (q.2 - p.2) / (q.1 - p.1) * (c.1 - p.1) + p.2 = c.2
    match k, hk with
    | 0, hk =>
      simp only [List.getElem?_cons_zero, Option.some.injEq] at hk
      rw [← hk]; ring
    | 1, hk =>
      simp only [List.getElem?_cons_succ, List.getElem?_cons_zero, Option.some.injEq] at hk
      rw [← hk, div_mul_cancel₀ _ (sub_pos.2 h1).ne']; ring
    | k + 2, hk => simp at hk
  | cons r l ih =>
    intro h k c hk
    rw [List.pairwise_cons] at h
    have h1 := h.1 q (List.mem_cons_self ..)
    show (if c.1 ≤ q.1 then (q.2 - p.2) / (q.1 - p.1) * (c.1 - p.1) + p.2 else segment (q :: r :: l) c.1) = c.2
    match k, hk with
    | 0, hk =>
      simp only [List.getElem?_cons_zero, Option.some.injEq] at hk
      rw [← hk, if_pos h1.le]; ring
    | 1, hk =>
      simp only [List.getElem?_cons_succ, List.getElem?_cons_zero, Option.some.injEq] at hk
      rw [← hk, if_pos le_rfl, div_mul_cancel₀ _ (sub_pos.2 h1).ne']; ring
    | k + 2, hk =>
      have hk' : (q :: r :: l)[k + 1]? = some c := hk
      have hlt : q.1 < c.1 := by
        have hm : c ∈ r :: l := List.mem_iff_getElem?.2 ⟨k, hk⟩
        exact (List.pairwise_cons.1 h.2).1 c hm
      rw [if_neg (not_le.2 hlt)]
      exact ih q r h.2 (k + 1) c hk'

/-- The values of the cells that change, each with its random number. -/
def moved : List K → List Bool → List K → List K
  | d :: ds, true :: cs, r :: us => (d + r / 1000000000) :: moved ds cs us
  | _ :: ds, false :: cs, us => moved ds cs us
  | _, _, _ => []

omit [LinearOrder K] [IsStrictOrderedRing K] in
theorem zipWith_moved (dist : List K) (changed : List Bool) (u : List K) :
    List.zipWith (fun v r => v + r / 1000000000) ((dist.zip changed).filterMap fun p => if p.2 then some p.1 else none) u =
      moved dist changed u := by
  induction dist generalizing changed u with
  | nil => simp [moved]
  | cons d ds ih =>
    cases changed with
    | nil => simp [moved]
    | cons c cs =>
      cases c with
      | false => simpa [moved] using ih cs u
      | true =>
        cases u with
        | nil => simp [moved]
        | cons r us => simpa [moved] using ih cs us

theorem sorted_moved (u dist : List K) (changed : List Bool) (h : (moved dist changed u).Nodup) :
    (valuesSorted u dist changed).Perm (moved dist changed u) ∧ (valuesSorted u dist changed).Pairwise (· < ·) := by
  have hp : (valuesSorted u dist changed).Perm (moved dist changed u) := by
    unfold valuesSorted
    dsimp only
    rw [zipWith_moved]
    exact List.perm_insertionSort ..
  refine ⟨hp, ?_⟩
  have hs : (valuesSorted u dist changed).Pairwise (· ≤ ·) := List.pairwise_insertionSort (· ≤ ·) _
  have hn : (valuesSorted u dist changed).Pairwise (· ≠ ·) := hp.nodup_iff.2 h
  exact (hs.and hn).imp fun ⟨h1, h2⟩ => lt_of_le_of_ne h1 h2

theorem head_le {xs : List K} (h : xs.Pairwise (· < ·)) {a : K} (ha : a ∈ xs) : xs.headD 0 ≤ a := by
  cases xs with
  | nil => simp at ha
  | cons x l =>
    rcases List.mem_cons.1 ha with rfl | ha
    · exact le_rfl
    · exact ((List.pairwise_cons.1 h).1 a ha).le

theorem le_last' {xs : List K} (h : xs.Pairwise (· < ·)) : ∀ a ∈ xs, a ≤ xs.getLastD 0 := by
  induction xs with
  | nil => simp
  | cons x l ih =>
    intro a ha
    cases l with
    | nil =>
      simp at ha
      rw [ha]
      exact le_rfl
    | cons y l =>
      have ih := ih (List.pairwise_cons.1 h).2
      show a ≤ (y :: l).getLastD x
      have e : (y :: l).getLastD x = (y :: l).getLastD 0 := by cases l <;> rfl
      rw [e]
      rcases List.mem_cons.1 ha with rfl | ha
      · exact ((List.pairwise_cons.1 h).1 y (List.mem_cons_self ..)).le.trans (ih y (List.mem_cons_self ..))
      · exact ih a ha

theorem le_last {xs : List K} (h : xs.Pairwise (· < ·)) {a : K} (ha : a ∈ xs) : a ≤ xs.getLastD 0 := le_last' h a ha

omit [LinearOrder K] [IsStrictOrderedRing K] in
theorem linspace_get (a b : K) (n k : ℕ) (hk : k < n) : (linspace a b n)[k]? = some (a + k * ((b - a) / ((n : K) - 1))) := by
  simp [linspace, hk]

theorem linspace_mono {a b : K} (h : a ≤ b) {n : ℕ} (hn : 2 ≤ n) : (linspace a b n).Pairwise (· ≤ ·) := by
  unfold linspace
  rw [List.pairwise_map]
  refine List.pairwise_lt_range.imp fun {i j} hij => ?_
  have hn' : (0 : K) < (n : K) - 1 := by
    have : (2 : K) ≤ n := by exact_mod_cast hn
    linarith
  have h0 : 0 ≤ (b - a) / ((n : K) - 1) := div_nonneg (sub_nonneg.2 h) hn'.le
  have hij' : (i : K) ≤ j := by exact_mod_cast hij.le
  have := mul_le_mul_of_nonneg_right hij' h0
  linarith

omit [Field K] [IsStrictOrderedRing K] in
/-- The points of the interpolation are in order. -/
theorem points_pairwise {xs ys : List K} (h1 : xs.Pairwise (· < ·)) (h2 : ys.Pairwise (· ≤ ·)) :
    (xs.zip ys).Pairwise fun a b => a.1 < b.1 ∧ a.2 ≤ b.2 := by
  induction xs generalizing ys with
  | nil => simp
  | cons x xs ih =>
    cases ys with
    | nil => simp
    | cons y ys =>
      rw [List.pairwise_cons] at h1 h2
      rw [List.zip_cons_cons, List.pairwise_cons]
      refine ⟨fun p hp => ?_, ih h1.2 h2.2⟩
      have := List.of_mem_zip hp
      exact ⟨h1.1 _ this.1, h2.1 _ this.2⟩

theorem interp_mono {xs : List K} (hn : 2 ≤ xs.length) (hs : xs.Pairwise (· < ·)) {x y : K} (h0 : xs.headD 0 ≤ x) (hxy : x ≤ y)
    (h1 : y ≤ xs.getLastD 0) : interp xs (linspace (xs.headD 0) (xs.getLastD 0) xs.length) x ≤
      interp xs (linspace (xs.headD 0) (xs.getLastD 0) xs.length) y := by
  unfold interp
  rw [if_neg (not_lt.2 h0), if_neg (not_lt.2 (hxy.trans h1)), if_neg (not_lt.2 (h0.trans hxy)), if_neg (not_lt.2 h1)]
  have hm := linspace_mono (h0.trans (hxy.trans h1)) hn
  have hl : (linspace (xs.headD 0) (xs.getLastD 0) xs.length).length = xs.length := by simp [linspace]
  generalize linspace (xs.headD 0) (xs.getLastD 0) xs.length = ys at hm hl
  match xs, ys, hn, hl with
  | a :: b :: xs, c :: d :: ys, _, _ =>
    exact segment_mono _ _ _ (points_pairwise hs hm) x y h0 hxy

/-- **C204**, order.  Among the cells within the range of those that change, one with a larger smoothed value changes over at a larger redshift. -/
theorem C204_order (u dist : List K) (changed : List Bool) (hn : (moved dist changed u).Nodup) {t : List K}
    (ht : transitions u dist changed = .ok t) {i j : ℕ} {x y p q : K} (hi : dist[i]? = some x) (hj : dist[j]? = some y) (hxy : x ≤ y)
    {a b : K} (ha : a ∈ moved dist changed u) (hax : a ≤ x) (hb : b ∈ moved dist changed u) (hyb : y ≤ b) (hp : t[i]? = some p)
    (hq : t[j]? = some q) : p ≤ q := by
  obtain ⟨hperm, hs⟩ := sorted_moved u dist changed hn
  unfold transitions at ht
  dsimp only at ht
  split at ht
  · cases ht
  · cases ht
  · rename_i h2
    have hlen : 2 ≤ (valuesSorted u dist changed).length := by rw [h2]; simp
    split_ifs at ht with hm
    have e := Except.ok.inj ht
    subst e
    have hmono := interp_mono hlen hs ((head_le hs (hperm.mem_iff.2 ha)).trans hax) hxy (hyb.trans (le_last hs (hperm.mem_iff.2 hb)))
    have hne : (dist.map (interp (valuesSorted u dist changed) (linspace ((valuesSorted u dist changed).headD 0)
        ((valuesSorted u dist changed).getLastD 0) (valuesSorted u dist changed).length))) ≠ [] := by
      intro h
      rw [List.map_eq_nil_iff] at h
      rw [h] at hi
      simp at hi
    generalize valuesSorted u dist changed = xs at *
    simp only [List.getElem?_map, hi, hj, Option.map_some, Option.some.injEq] at hp hq
    rw [← hp, ← hq]
    generalize dist.map (interp xs (linspace (xs.headD 0) (xs.getLastD 0) xs.length)) = out at *
    have hne2 : (out.map fun y => y - least out) ≠ [] := by simpa using hne
    obtain ⟨z, hz, hz'⟩ := List.mem_map.1 (most_spec hne2).1
    have h0 : 0 ≤ most (out.map fun y => y - least out) := by
      rw [← hz']
      exact sub_nonneg.2 ((least_spec hne).2 z hz)
    exact div_le_div_of_nonneg_right (by linarith) h0

/-- Two cells out of three change: the moved values, and a cell between them. -/
example : moved [1 / 4, 1 / 2, 1] [true, false, true] [0, 0] = ([1 / 4 + 0 / 1000000000, 1 + 0 / 1000000000] : List ℚ) ∧
    ([1 / 4 + 0 / 1000000000, 1 + 0 / 1000000000] : List ℚ).Nodup := ⟨rfl, by decide +kernel⟩

omit [Field K] [IsStrictOrderedRing K] in
theorem countP_sorted {xs : List K} (h : xs.Pairwise (· < ·)) {k : ℕ} {v : K} (hk : xs[k]? = some v) :
    xs.countP (fun x => decide (x < v)) = k := by
  induction xs generalizing k with
  | nil => simp at hk
  | cons a l ih =>
    rw [List.pairwise_cons] at h
    rw [List.countP_cons]
    cases k with
    | zero =>
      simp only [List.getElem?_cons_zero, Option.some.injEq] at hk
      subst hk
      have : l.countP (fun x => decide (x < a)) = 0 := by
        rw [List.countP_eq_zero]
        intro x hx
        simpa using (h.1 x hx).le
      simp [this]
    | succ k =>
      simp only [List.getElem?_cons_succ] at hk
      have hav : a < v := h.1 v (List.mem_iff_getElem?.2 ⟨k, hk⟩)
      rw [ih h.2 hk]
      simp [hav]

/-- **C204**, spacing.  If all cells change, with different smoothed values, and the random numbers are zero, the cells change over one after the other at
equal steps from the lower to the higher redshift. -/
theorem C204_even (dist : List K) (hn : dist.Nodup) (h2 : 2 ≤ dist.length) :
    ∃ t, transitions (List.replicate dist.length 0) dist (List.replicate dist.length true) = .ok t ∧
      ∀ (i : ℕ) (x : K), dist[i]? = some x →
        t[i]? = some ((dist.countP (fun y => decide (y < x)) : K) / ((dist.length : K) - 1)) := by
  have hmv : moved dist (List.replicate dist.length true) (List.replicate dist.length 0) = dist := by
    clear hn h2
    induction dist with
    | nil => rfl
    | cons d ds ih =>
      rw [List.length_cons, List.replicate_succ, List.replicate_succ]
      show (d + 0 / 1000000000) :: moved ds _ _ = _
      rw [ih, zero_div, add_zero]
  obtain ⟨hperm, hs⟩ := sorted_moved (List.replicate dist.length 0) dist (List.replicate dist.length true) (by rw [hmv]; exact hn)
  rw [hmv] at hperm
  unfold transitions
  generalize valuesSorted (List.replicate dist.length 0) dist (List.replicate dist.length true) = xs at *
  have hl := hperm.length_eq
  have hN : (0 : K) < (dist.length : K) - 1 := by
    have : (2 : K) ≤ dist.length := by exact_mod_cast h2
    linarith
  set n := dist.length with hndef
  set lo := xs.headD 0 with hlo
  set hi := xs.getLastD 0 with hhi
  -- the interpolation at a value is the entry of the same number
  have hval : ∀ x ∈ dist, interp xs (linspace lo hi xs.length) x = lo + (dist.countP (fun y => decide (y < x)) : K) * ((hi - lo) / ((n : K) - 1)) := by
    intro x hx
    have hx' := hperm.mem_iff.2 hx
    obtain ⟨k, hk⟩ := List.mem_iff_getElem?.1 hx'
    have hc : dist.countP (fun y => decide (y < x)) = k := by rw [← hperm.countP_eq]; exact countP_sorted hs hk
    have hkn : k < xs.length := (List.getElem?_eq_some_iff.1 hk).1
    unfold interp
    rw [if_neg (not_lt.2 (head_le hs hx')), if_neg (not_lt.2 (le_last hs hx')), hc]
    have hle : lo ≤ hi := (head_le hs hx').trans (le_last hs hx')
    have hm := linspace_mono hle (n := xs.length) (by omega)
    have hg := linspace_get lo hi xs.length k hkn
    have hz : (xs.zip (linspace lo hi xs.length))[k]? = some (x, lo + k * ((hi - lo) / ((xs.length : K) - 1))) := by
      rw [List.zip, List.getElem?_zipWith, hk, hg]
    have hll : (linspace lo hi xs.length).length = xs.length := by simp [linspace]
    rw [← hl]
    clear_value lo hi
    generalize linspace lo hi xs.length = ys at hm hz hll hg ⊢
    match xs, ys, hll with
    | a :: b :: xs, c :: d :: ys, _ =>
      exact segment_node _ _ _ ((points_pairwise hs hm).imp And.left) k _ hz
    | [_], _, _ => simp at hl; omega
    | [], _, _ => simp at hl; omega
  have hlast : hi ∈ dist ∧ dist.countP (fun y => decide (y < hi)) = n - 1 := by
    have hne : xs ≠ [] := by rintro rfl; simp at hl; omega
    have hk : xs[n - 1]? = some hi := by
      rw [hhi, ← hl, ← List.getLast?_eq_getElem?, List.getLastD_eq_getLast?, List.getLast?_eq_some_getLast hne]
      rfl
    exact ⟨hperm.mem_iff.1 (List.mem_iff_getElem?.2 ⟨_, hk⟩), by rw [← hperm.countP_eq]; exact countP_sorted hs hk⟩
  have hfirst : lo ∈ dist ∧ dist.countP (fun y => decide (y < lo)) = 0 := by
    have hne : 0 < xs.length := by omega
    have hk : xs[0]? = some lo := by
      rw [hlo]
      cases xs with
      | nil => simp at hne
      | cons a l => rfl
    exact ⟨hperm.mem_iff.1 (List.mem_iff_getElem?.2 ⟨_, hk⟩), by rw [← hperm.countP_eq]; exact countP_sorted hs hk⟩
  have hlt : lo < hi := by
    refine lt_of_le_of_ne (head_le hs (hperm.mem_iff.2 hlast.1)) fun h => ?_
    have h1 := hlast.2
    rw [← h, hfirst.2] at h1
    omega
  have hc : 0 < (hi - lo) / ((n : K) - 1) := div_pos (sub_pos.2 hlt) hN
  have hn1 : ((n - 1 : ℕ) : K) = (n : K) - 1 := by
    rw [Nat.cast_sub (by omega), Nat.cast_one]
  set c := (hi - lo) / ((n : K) - 1) with hcdef
  have hx2 : ∃ a b l, xs = a :: b :: l := by
    match xs, hl with
    | a :: b :: l, _ => exact ⟨a, b, l, rfl⟩
    | [_], hl => simp at hl; omega
    | [], hl => simp at hl; omega
  set out := dist.map (interp xs (linspace lo hi xs.length)) with hout
  have hleast : least out = lo := by
    have hne : out ≠ [] := by
      rw [hout, Ne, List.map_eq_nil_iff]
      rintro h
      rw [hndef, h] at h2
      simp at h2
    obtain ⟨h1, h2⟩ := least_spec hne
    apply le_antisymm
    · refine h2 lo ?_
      rw [hout]
      refine List.mem_map.2 ⟨lo, hfirst.1, ?_⟩
      rw [hval lo hfirst.1, hfirst.2]
      simp
    · obtain ⟨x, hx, hx'⟩ := List.mem_map.1 h1
      rw [← hx', hval x hx]
      have : 0 ≤ (dist.countP (fun y => decide (y < x)) : K) * c := mul_nonneg (Nat.cast_nonneg _) hc.le
      linarith
  have hmost : most (out.map fun y => y - least out) = ((n : K) - 1) * c := by
    have hne : (out.map fun y => y - least out) ≠ [] := by
      rw [hout, Ne, List.map_eq_nil_iff, List.map_eq_nil_iff]
      rintro h
      rw [hndef, h] at h2
      simp at h2
    obtain ⟨h1, h3⟩ := most_spec hne
    rw [hleast] at *
    apply le_antisymm
    · obtain ⟨z, hz, hz'⟩ := List.mem_map.1 h1
      obtain ⟨x, hx, hx'⟩ := List.mem_map.1 hz
      rw [← hz', ← hx', hval x hx]
      have h4 : dist.countP (fun y => decide (y < x)) ≤ n - 1 := by
        have h5 : dist.countP (fun y => decide (y < x)) < dist.length := by
          refine lt_of_le_of_ne List.countP_le_length fun h => ?_
          have := List.countP_eq_length.1 h x hx
          simp at this
        omega
      have h6 : (dist.countP (fun y => decide (y < x)) : K) ≤ (n : K) - 1 := by
        rw [← hn1]
        exact_mod_cast h4
      have := mul_le_mul_of_nonneg_right h6 hc.le
      linarith
    · refine h3 _ (List.mem_map.2 ⟨_, List.mem_map.2 ⟨hi, hlast.1, rfl⟩, ?_⟩)
      rw [hval hi hlast.1, hlast.2, hn1]
      ring
  refine ⟨(out.map fun y => y - least out).map fun y => y / most (out.map fun y => y - least out), ?_, ?_⟩
  · obtain ⟨a, b, l, hx2⟩ := hx2
    have hm0 : most (out.map fun y => y - least out) ≠ 0 := by
      rw [hmost]
      exact (mul_pos hN hc).ne'
    clear_value lo hi
    subst hx2
    dsimp only
    rw [← hlo, ← hhi, ← hout, if_neg hm0]
  · intro i x hi'
    rw [List.getElem?_map, List.getElem?_map, hout, List.getElem?_map, hi', ← hout, hmost, hleast]
    simp only [Option.map_some, Option.some.injEq]
    rw [hval x (List.mem_iff_getElem?.2 ⟨i, hi'⟩), add_sub_cancel_left, mul_div_mul_right _ _ hc.ne']

/-- Three cells, with the middle one half way. -/
example : ([1 / 2, 1, 3 / 4] : List ℚ).Nodup := by decide +kernel

/-- With random numbers that are not zero the steps need not be equal: a cell below the least perturbed value takes the value 0 outside the
interpolation, and the middle of three cells changes over at three quarters of the way. -/
theorem C204_false_even : ∃ x : ℚ, transitions [1 / 2, 0, 1 / 2] [1 / 2, 3 / 4, 1] [true, true, true] = .ok [0, x, 1] ∧
    74 / 100 < x := by
  refine ⟨750000002000000001 / 1000000002000000001, ?_, by norm_num⟩
  have h : (transitions (K := ℚ) [1 / 2, 0, 1 / 2] [1 / 2, 3 / 4, 1] [true, true, true]).toOption =
      some [0, 750000002000000001 / 1000000002000000001, 1] := by decide +kernel
  generalize transitions (K := ℚ) [1 / 2, 0, 1 / 2] [1 / 2, 3 / 4, 1] [true, true, true] = r at h ⊢
  cases r with
  | error e => cases h
  | ok a =>
    simp only [Except.toOption, Option.some.injEq] at h
    rw [h]

end Verif.StepCell
