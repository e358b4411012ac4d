import Verif.Model.ZsList
import Verif.Props.FileNames
import Mathlib.Data.Nat.Digits.Defs
import Mathlib.Data.List.Forall2
import Mathlib.Tactic.Ring
/-!
# C240: the redshifts of the files of a directory
-/

namespace Verif.ZsList

open Verif.Helpers

/-! ## Specification -/

/-- The number that a string of decimal digits denotes. -/
def decimal (s : List Char) : ℕ := Nat.ofDigits 10 (s.reverse.map fun c => c.toNat - '0'.toNat)

/-- `t` is the number `q`, with or without a decimal point. -/
def Written (t : List Char) (q : ℚ) : Prop :=
  (∃ a b : List Char, (∀ c ∈ a, c.isDigit) ∧ (∀ c ∈ b, c.isDigit) ∧ a ≠ [] ∧ t = a ++ '.' :: b ∧ q * 10 ^ b.length = decimal (a ++ b)) ∨
    ((∀ c ∈ t, c.isDigit) ∧ t ≠ [] ∧ q = decimal t)

/-! ## Lemmas -/

theorem foldl_digits (l : List Char) (n : ℕ) :
    l.foldl (fun n c => 10 * n + (c.toNat - '0'.toNat)) n = n * 10 ^ l.length + decimal l := by
  induction l generalizing n with
  | nil => simp [decimal]
  | cons c l ih =>
    rw [List.foldl_cons, ih]
    unfold decimal
    rw [List.reverse_cons, List.map_append, Nat.ofDigits_append, List.length_map, List.length_reverse, List.length_cons]
    simp only [List.map_cons, List.map_nil, Nat.ofDigits_singleton]
    ring

theorem digitsVal_eq (l : List Char) : digitsVal l = decimal l := by
  unfold digitsVal
  rw [foldl_digits, zero_mul, zero_add]

theorem decimal_append (a b : List Char) : decimal (a ++ b) = decimal a * 10 ^ b.length + decimal b := by
  rw [← digitsVal_eq, ← digitsVal_eq]
  unfold digitsVal
  rw [List.foldl_append, foldl_digits]

theorem digit_ne {c : Char} (h : c.isDigit) : c ≠ '.' ∧ c ≠ '/' := by
  constructor <;> (rintro rfl; exact absurd h (by decide))

theorem digit_num {c : Char} (h : c.isDigit) : IsNum c := by
  rw [← numChar_iff]
  simp [numChar, h]

theorem parse_written {t : List Char} {q : ℚ} (h : Written t q) : parseFloat t = .ok q := by
  rcases h with ⟨a, b, ha, hb, hne, rfl, hq⟩ | ⟨ha, hne, rfl⟩
  · unfold parseFloat
    have e1 : (a ++ '.' :: b).takeWhile (· ≠ '.') = a := by
      rw [List.takeWhile_append_of_pos (by intro c hc; simpa using (digit_ne (ha c hc)).1)]
      simp
    have e2 : (a ++ '.' :: b).dropWhile (· ≠ '.') = '.' :: b := by
      rw [List.dropWhile_append_of_pos (by intro c hc; simpa using (digit_ne (ha c hc)).1)]
      simp
    rw [e1, e2]
    dsimp only
    rw [if_neg]
    · congr 1
      have h10 : (10 : ℚ) ^ b.length ≠ 0 := pow_ne_zero _ (by norm_num)
      rw [digitsVal_eq, digitsVal_eq, eq_comm, ← mul_left_inj' h10, hq, decimal_append, add_mul, div_mul_cancel₀ _ h10]
      push_cast
      ring
    · rintro (h | ⟨h, -⟩)
      · exact (digit_ne (hb _ h)).1 rfl
      · exact hne h
  · unfold parseFloat
    have e1 : t.takeWhile (· ≠ '.') = t := List.takeWhile_eq_self_iff.2 fun c hc => by simpa using (digit_ne (ha c hc)).1
    have e2 : t.dropWhile (· ≠ '.') = [] := List.dropWhile_eq_nil_iff.2 fun c hc => by simpa using (digit_ne (ha c hc)).1
    rw [e1, e2]
    dsimp only
    rw [if_neg hne, digitsVal_eq]

theorem written_num {t : List Char} {q : ℚ} (h : Written t q) : t ≠ [] ∧ (∀ c ∈ t, IsNum c ∧ c ≠ '/') ∧ ∃ c ∈ t, c ≠ '.' := by
  rcases h with ⟨a, b, ha, hb, hne, rfl, -⟩ | ⟨ha, hne, -⟩
  · refine ⟨by simp, fun c hc => ?_, ?_⟩
    · simp only [List.mem_append, List.mem_cons] at hc
      rcases hc with h | rfl | h
      · exact ⟨digit_num (ha c h), (digit_ne (ha c h)).2⟩
      · exact ⟨.inr rfl, by decide⟩
      · exact ⟨digit_num (hb c h), (digit_ne (hb c h)).2⟩
    · obtain ⟨c, s, rfl⟩ := List.exists_cons_of_ne_nil hne
      exact ⟨c, by simp, (digit_ne (ha c (by simp))).1⟩
  · refine ⟨hne, fun c hc => ⟨digit_num (ha c hc), (digit_ne (ha c hc)).2⟩, ?_⟩
    obtain ⟨c, s, rfl⟩ := List.exists_cons_of_ne_nil hne
    exact ⟨c, by simp, (digit_ne (ha c (by simp))).1⟩

theorem redshift_runs (dir body ext : List Char) (c : Char) (hc : c ∈ body) (hcd : c ≠ '.') (h1 : '/' ∉ body) (h2 : '/' ∉ ext) (h3 : '.' ∉ ext)
    {l : List (List Char)} (hl : RunList body l) {m : List Char} (hm : longest l = some m) :
    redshiftFromFilename (dir ++ '/' :: (body ++ '.' :: ext)) = parseFloat m := by
  unfold redshiftFromFilename
  rw [stem_basename dir body ext c hc hcd h1 h2 h3, runs_eq body l hl, hm]

theorem num_three : ∀ c ∈ ['3'], IsNum c := by
  intro c hc
  rw [List.mem_singleton.1 hc, ← numChar_iff]
  decide

theorem not_num {s : List Char} (h : ∀ c ∈ s, numChar c = false) : ∀ c ∈ s, ¬ IsNum c := fun c hc hn => by
  rw [← numChar_iff, h c hc] at hn
  cases hn

/-- The runs of the names of ionised fractions. -/
theorem xfrac_runs {s t : List Char} {l : List (List Char)} (h : RunList ("d_".toList ++ s) l) (ht : t = "xfrac3d_".toList ++ s) :
    RunList t (['3'] :: l) := by
  have := RunList.cons "xfrac".toList ['3'] ("d_".toList ++ s) l (not_num (by decide)) (by simp) num_three
    (by intro c hc; obtain rfl : 'd' = c := by simpa using hc
        exact not_num (s := ['d']) (by decide) _ (by simp)) h
  rw [ht]
  exact this

theorem xfrac_number {t : List Char} (h0 : t ≠ []) (hn : ∀ c ∈ t, IsNum c) : RunList ("d_".toList ++ t) [t] := by
  have := RunList.cons "d_".toList t [] [] (not_num (by decide)) h0 hn (by simp) (.none [] (by simp))
  rwa [List.append_nil] at this

theorem xfrac_redshift (dir : List Char) {t : List Char} {q : ℚ} (h : Written t q) (h2 : 2 ≤ t.length) :
    redshiftFromFilename (dir ++ '/' :: ("xfrac3d_".toList ++ t ++ ".bin".toList)) = .ok q := by
  obtain ⟨h0, hn, -⟩ := written_num h
  have hr := xfrac_runs (xfrac_number h0 fun c hc => (hn c hc).1) rfl
  have hm : longest [['3'], t] = some t := by
    show some (if ['3'].length < t.length then t else ['3']) = some t
    rw [if_pos (show ['3'].length < t.length from h2)]
  have := redshift_runs dir ("xfrac3d_".toList ++ t) "bin".toList 'x' (by simp) (by decide)
    (by rw [List.mem_append]; exact fun h => h.elim (by decide) fun h => (hn _ h).2 rfl) (by decide) (by decide) hr hm
  rw [parse_written h] at this
  exact this

theorem dens_redshift (dir : List Char) {t : List Char} {q : ℚ} (h : Written t q) :
    redshiftFromFilename (dir ++ '/' :: (t ++ "n_all.dat".toList)) = .ok q := by
  obtain ⟨h0, hn, -⟩ := written_num h
  have hr : RunList (t ++ "n_all".toList) [t] := by
    have := RunList.cons [] t "n_all".toList [] (by simp) h0 (fun c hc => (hn c hc).1)
      (by intro c hc; obtain rfl : 'n' = c := by simpa using hc
          exact not_num (s := ['n']) (by decide) _ (by simp)) (.none _ (not_num (by decide)))
    rwa [List.nil_append] at this
  have := redshift_runs dir (t ++ "n_all".toList) "dat".toList 'n' (by simp) (by decide)
    (by rw [List.mem_append]; exact fun h => h.elim (fun h => (hn _ h).2 rfl) (by decide)) (by decide) (by decide) hr (m := t) rfl
  rw [parse_written h] at this
  rw [← this]
  congr 3
  rw [List.append_assoc]
  rfl

theorem listed_iff (first last n : List Char) :
    listed first last n = true ↔ (∃ t, n = first ++ t ++ last) ∧ ¬ (first = [] ∧ n.head? = some '.') := by
  unfold listed
  simp only [Bool.and_eq_true, List.isPrefixOf_iff_prefix, List.isSuffixOf_iff_suffix, decide_eq_true_eq, Bool.not_eq_true', Bool.and_eq_false_iff,
    beq_eq_false_iff_ne]
  constructor
  · rintro ⟨⟨⟨⟨u, rfl⟩, ⟨v, hv⟩⟩, hl⟩, hd⟩
    refine ⟨?_, by tauto⟩
    have : last <:+ u := by
      have h1 : last <:+ first ++ u := ⟨v, hv⟩
      refine List.suffix_of_suffix_length_le h1 (List.suffix_append _ _) ?_
      rw [List.length_append] at hl
      omega
    obtain ⟨t, rfl⟩ := this
    exact ⟨t, by rw [List.append_assoc]⟩
  · rintro ⟨⟨t, rfl⟩, hd⟩
    refine ⟨⟨⟨⟨t ++ last, by rw [List.append_assoc]⟩, ⟨first ++ t, rfl⟩⟩, by simp only [List.length_append]; omega⟩, by tauto⟩

theorem mapM_forall₂ {α β ε : Type} {f : α → Except ε β} {l : List α} {m : List β} (h : List.Forall₂ (fun a b => f a = .ok b) l m) :
    l.mapM f = .ok m := by
  induction h with
  | nil => rfl
  | cons h _ ih =>
    rw [List.mapM_cons, h, ih]
    rfl

theorem sort_spec (zs : List ℚ) : (zs.mergeSort fun a b => decide (a ≤ b)).Perm zs ∧ (zs.mergeSort fun a b => decide (a ≤ b)).Pairwise (· ≤ ·) := by
  refine ⟨List.mergeSort_perm _ _, ?_⟩
  have := List.pairwise_mergeSort (le := fun a b : ℚ => decide (a ≤ b)) (fun a b c h1 h2 => by simp only [decide_eq_true_eq] at *; exact h1.trans h2)
    (fun a b => by simp only [Bool.or_eq_true, decide_eq_true_eq]; exact le_total a b) zs
  exact this.imp fun h => by simpa using h

open Classical in
theorem xfrac_filter (names : List (List Char)) : names.filter (listed "xfrac3d_".toList ".bin".toList) =
    names.filter fun n => decide (∃ t, n = "xfrac3d_".toList ++ t ++ ".bin".toList) := by
  refine List.filter_congr fun n _ => ?_
  rw [Bool.eq_iff_iff, listed_iff, decide_eq_true_eq]
  exact ⟨fun h => h.1, fun h => ⟨h, fun h => absurd h.1 (by decide)⟩⟩

/-! ## C240 -/

open Classical in
/-- **C240** (partial).  In a directory in which every file of ionised fractions has its redshift, written with two or more characters, between `xfrac3d_`
and `.bin`, the result is the redshifts of these files, as many as there are files, in increasing order; other files have no influence.
Missing: redshifts of one digit and files without a redshift in their name (`C240_false`). -/
theorem C240_partial (dir : List Char) (names : List (List Char)) (zs : List ℚ)
    (h : List.Forall₂ (fun n z => ∃ t, n = "xfrac3d_".toList ++ t ++ ".bin".toList ∧ 2 ≤ t.length ∧ Written t z)
      (names.filter fun n => decide (∃ t, n = "xfrac3d_".toList ++ t ++ ".bin".toList)) zs) :
    ∃ l, getZsList dir "xfrac3d_".toList ".bin".toList names = .ok l ∧ l.Perm zs ∧ l.Pairwise (· ≤ ·) := by
  refine ⟨_, ?_, sort_spec zs⟩
  unfold getZsList
  rw [xfrac_filter, mapM_forall₂ (m := zs)]
  exact h.imp fun n z ⟨t, hn, h2, hw⟩ => hn ▸ xfrac_redshift dir hw h2

open Classical in
/-- The same for densities, where a redshift may have a single digit.  Hidden files are not listed. -/
theorem C240_densities (dir : List Char) (names : List (List Char)) (zs : List ℚ)
    (h : List.Forall₂ (fun n z => ∃ t, n = t ++ "n_all.dat".toList ∧ Written t z)
      (names.filter fun n => decide ((∃ t, n = t ++ "n_all.dat".toList) ∧ n.head? ≠ some '.')) zs) :
    ∃ l, getZsList dir [] "n_all.dat".toList names = .ok l ∧ l.Perm zs ∧ l.Pairwise (· ≤ ·) := by
  have hf : names.filter (listed [] "n_all.dat".toList) =
      names.filter fun n => decide ((∃ t, n = t ++ "n_all.dat".toList) ∧ n.head? ≠ some '.') := by
    refine List.filter_congr fun n _ => ?_
    rw [Bool.eq_iff_iff, listed_iff, decide_eq_true_eq]
    simp
  refine ⟨_, ?_, sort_spec zs⟩
  unfold getZsList
  rw [hf, mapM_forall₂ (m := zs)]
  exact h.imp fun n z ⟨t, hn, hw⟩ => hn ▸ dens_redshift dir hw

theorem three : parseFloat ['3'] = .ok 3 :=
  parse_written (.inr ⟨by decide, by simp, by simp [decimal]⟩)

/-- A file of ionised fractions whose redshift has one digit, or that has no redshift in its name, is given the redshift 3 of `xfrac3d`. -/
theorem C240_false (dir t : List Char) (ht : (∃ c, c.isDigit ∧ t = [c]) ∨ (∀ c ∈ t, ¬ IsNum c ∧ c ≠ '/')) :
    getZsList dir "xfrac3d_".toList ".bin".toList ["xfrac3d_".toList ++ t ++ ".bin".toList] = .ok [3] := by
  have hl : listed "xfrac3d_".toList ".bin".toList ("xfrac3d_".toList ++ t ++ ".bin".toList) = true :=
    (listed_iff _ _ _).2 ⟨⟨t, rfl⟩, fun h => absurd h.1 (by decide)⟩
  have key : redshiftFromFilename (dir ++ '/' :: ("xfrac3d_".toList ++ t ++ ".bin".toList)) = .ok 3 := by
    rcases ht with ⟨c, hc, rfl⟩ | ht
    · have hr := xfrac_runs (xfrac_number (t := [c]) (by simp) (by intro d hd; rw [List.mem_singleton.1 hd]; exact digit_num hc)) rfl
      have := redshift_runs dir ("xfrac3d_".toList ++ [c]) "bin".toList 'x' (by simp) (by decide)
        (by rw [List.mem_append]; exact fun h => h.elim (by decide) fun h => (digit_ne hc).2 (List.mem_singleton.1 h).symm) (by decide) (by decide) hr
        (m := ['3']) rfl
      rw [three] at this
      exact this
    · have hr := xfrac_runs (s := t) (.none _ fun c hc => ?_) rfl
      · have := redshift_runs dir ("xfrac3d_".toList ++ t) "bin".toList 'x' (by simp) (by decide)
          (by rw [List.mem_append]; exact fun h => h.elim (by decide) fun h => (ht _ h).2 rfl) (by decide) (by decide) hr (m := ['3']) rfl
        rw [three] at this
        exact this
      · rcases List.mem_append.1 hc with h | h
        · exact not_num (s := "d_".toList) (by decide) c h
        · exact (ht c h).1
  unfold getZsList
  rw [List.filter_cons_of_pos hl, List.filter_nil, mapM_forall₂ (f := fun n => redshiftFromFilename (dir ++ '/' :: n)) (m := [3]) (.cons key .nil)]
  dsimp only
  rw [List.mergeSort_singleton]

/-- One name whose longest run of digits and dots is not a number makes the whole list fail. -/
theorem C240_raises (dir : List Char) (first last : List Char) (names : List (List Char)) (n : List Char) (hn : n ∈ names)
    (h1 : ∃ t, n = first ++ t ++ last) (h2 : n.head? ≠ some '.') (e : String) (h : redshiftFromFilename (dir ++ '/' :: n) = .error e) :
    ∃ e', getZsList dir first last names = .error e' := by
  have hmem : n ∈ names.filter (listed first last) := List.mem_filter.2 ⟨hn, (listed_iff _ _ _).2 ⟨h1, fun h => h2 h.2⟩⟩
  have : ∀ l : List (List Char), n ∈ l → ∃ e', (l.mapM fun n => redshiftFromFilename (dir ++ '/' :: n)) = .error e' := by
    intro l hl
    induction l with
    | nil => cases hl
    | cons a l ih =>
      rw [List.mapM_cons]
      cases ha : redshiftFromFilename (dir ++ '/' :: a) with
      | error e' => exact ⟨e', rfl⟩
      | ok z =>
        rcases List.mem_cons.1 hl with rfl | hl
        · rw [h] at ha
          cases ha
        · obtain ⟨e', he⟩ := ih hl
          refine ⟨e', ?_⟩
          rw [he]
          rfl
  obtain ⟨e', he⟩ := this _ hmem
  refine ⟨e', ?_⟩
  unfold getZsList
  rw [he]

example : Written "12.048".toList (12048 / 1000) :=
  .inl ⟨"12".toList, "048".toList, by decide, by decide, by decide, rfl, by decide +kernel⟩

example : ∃ l, getZsList "/data".toList "xfrac3d_".toList ".bin".toList ["xfrac3d_7.0.bin".toList, "readme.txt".toList, "xfrac3d_12.bin".toList] = .ok l ∧
    l.Perm [7, 12] ∧ l.Pairwise (· ≤ ·) :=
  C240_partial _ _ _ (xfrac_filter _ ▸ .cons ⟨"7.0".toList, rfl, by decide, .inl ⟨['7'], ['0'], by decide, by decide, by decide, rfl, by decide +kernel⟩⟩
    (.cons ⟨"12".toList, rfl, by decide, .inr ⟨by decide, by decide, by decide +kernel⟩⟩ .nil))

example : getZsList "/data".toList "xfrac3d_".toList ".bin".toList ["xfrac3d_mean.bin".toList] = .ok [3] :=
  C240_false _ "mean".toList (.inr fun c hc => ⟨not_num (s := "mean".toList) (by decide) c hc, by rintro rfl; revert hc; decide⟩)

example : ∃ e, getZsList "/data".toList "xfrac3d_".toList ".bin".toList ["xfrac3d_7.000.bin".toList, "xfrac3d_6.45.old.bin".toList] = .error e :=
  C240_raises _ _ _ _ "xfrac3d_6.45.old.bin".toList (by simp) ⟨"6.45.old".toList, rfl⟩ (by decide) "ValueError" (by decide +kernel)

open Classical in
example : ∃ l, getZsList "/data".toList [] "n_all.dat".toList ["9n_all.dat".toList, "6.5n_all.dat".toList] = .ok l ∧ l.Perm [9, 65 / 10] ∧
    l.Pairwise (· ≤ ·) := by
  refine C240_densities _ _ _ ?_
  have h : ∀ n ∈ ["9n_all.dat".toList, "6.5n_all.dat".toList], (∃ t, n = t ++ "n_all.dat".toList) ∧ n.head? ≠ some '.' := by
    intro n hn
    simp only [List.mem_cons, List.not_mem_nil, or_false] at hn
    rcases hn with rfl | rfl
    · exact ⟨⟨['9'], rfl⟩, by decide⟩
    · exact ⟨⟨"6.5".toList, rfl⟩, by decide⟩
  rw [List.filter_eq_self.2 (by intro n hn; rw [decide_eq_true_eq]; exact h n hn)]
  exact .cons ⟨['9'], rfl, .inr ⟨by decide, by decide, by decide +kernel⟩⟩
    (.cons ⟨"6.5".toList, rfl, .inl ⟨['6'], ['5'], by decide, by decide, by decide, rfl, by decide +kernel⟩⟩ .nil)

end Verif.ZsList
