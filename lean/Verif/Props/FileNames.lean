import Verif.Model.Helpers
import Mathlib.Algebra.Order.Ring.Rat
import Mathlib.Algebra.Field.Rat
import Mathlib.Tactic.NormNum
import Mathlib.Data.List.TakeWhile
/-!
# Redshifts from file names (C22) and file lists (C53)
-/

namespace Verif.Helpers

/-! ## C22 -/

/-- Specification: a digit or a dot. -/
def IsNum (c : Char) : Prop := ('0' ≤ c ∧ c ≤ '9') ∨ c = '.'

/-- Specification: `r` is a maximal run of digits and dots in `s`, with `pre` before and `post` behind it. -/
structure IsRun (s pre r post : List Char) : Prop where
  eq : s = pre ++ r ++ post
  nonempty : r ≠ []
  num : ∀ c ∈ r, IsNum c
  left : ∀ c, pre.getLast? = some c → ¬ IsNum c
  right : ∀ c, post.head? = some c → ¬ IsNum c

/-- Specification: `r` is the first among the longest runs. -/
def FirstLongest (s r : List Char) : Prop :=
  ∃ pre post, IsRun s pre r post ∧ ∀ pre' r' post', IsRun s pre' r' post' →
    r'.length ≤ r.length ∧ (pre'.length < pre.length → r'.length < r.length)

theorem numChar_iff (c : Char) : numChar c = true ↔ IsNum c := by
  simp only [numChar, IsNum, Char.isDigit, Bool.or_eq_true, beq_iff_eq, Bool.and_eq_true,
    decide_eq_true_eq]
  rfl

/-- The runs of a string in order. -/
inductive RunList : List Char → List (List Char) → Prop
  | none (s : List Char) : (∀ c ∈ s, ¬ IsNum c) → RunList s []
  | cons (gap r rest : List Char) (l : List (List Char)) : (∀ c ∈ gap, ¬ IsNum c) → r ≠ [] →
      (∀ c ∈ r, IsNum c) → (∀ c, rest.head? = some c → ¬ IsNum c) → RunList rest l →
      RunList (gap ++ r ++ rest) (r :: l)

theorem exists_runList (s : List Char) : ∃ l, RunList s l := by
  induction hn : s.length using Nat.strong_induction_on generalizing s with
  | _ n ih =>
    by_cases h : ∀ c ∈ s, ¬ IsNum c
    · exact ⟨[], .none s h⟩
    · set gap := s.takeWhile fun c => !numChar c with hgap
      set s1 := s.dropWhile fun c => !numChar c with hs1
      set r := s1.takeWhile numChar with hr
      set rest := s1.dropWhile numChar with hrest
      have e : s = gap ++ r ++ rest := by
        rw [List.append_assoc, hr, hrest, List.takeWhile_append_dropWhile, hgap, hs1,
          List.takeWhile_append_dropWhile]
      have hne : s1 ≠ [] := by
        intro h0
        apply h
        intro c hc
        have := List.dropWhile_eq_nil_iff.1 h0 c hc
        rw [← numChar_iff]; simpa using this
      have hr0 : r ≠ [] := by
        intro h0
        have h1 : (numChar (s1.head hne)) = true := by
          have := List.head_dropWhile_not (fun c => !numChar c) (l := s) (by rw [← hs1]; exact hne)
          simpa [← hs1] using this
        obtain ⟨a, t, hat⟩ := List.exists_cons_of_ne_nil hne
        simp only [hat, List.head_cons] at h1
        rw [hr, hat, List.takeWhile_cons_of_pos h1] at h0
        exact List.cons_ne_nil _ _ h0
      have hlen : rest.length < n := by
        have h1 : 0 < r.length := List.length_pos_iff.2 hr0
        have := congrArg List.length e
        rw [List.length_append, List.length_append] at this
        omega
      obtain ⟨l, hl⟩ := ih _ hlen rest rfl
      refine ⟨r :: l, ?_⟩
      rw [e]
      refine .cons gap r rest l ?_ hr0 ?_ ?_ hl
      · intro c hc
        rw [← numChar_iff]
        have := List.mem_takeWhile_imp hc
        simpa using this
      · intro c hc
        rw [← numChar_iff]
        exact List.mem_takeWhile_imp hc
      · intro c hc
        have := List.head?_dropWhile_not numChar s1
        rw [← hrest, hc] at this
        rw [← numChar_iff]
        simpa using this

theorem fold_gap (gap : List Char) (b : Bool) (acc : List (List Char)) (h : ∀ c ∈ gap, ¬ IsNum c) :
    gap.foldl collectStep (b, acc) = (if gap = [] then b else true, acc) := by
  induction gap generalizing b with
  | nil => rfl
  | cons c gap ih =>
    have hc : numChar c = false := by
      rw [← Bool.not_eq_true, numChar_iff]; exact h c (by simp)
    rw [List.foldl_cons]
    simp only [collectStep, hc]
    rw [if_neg (by simp), ih _ fun c hc => h c (by simp [hc])]
    simp

theorem fold_run (r : List Char) (cur : List Char) (acc : List (List Char)) (h : ∀ c ∈ r, IsNum c) :
    r.foldl collectStep (false, cur :: acc) = (false, (r.reverse ++ cur) :: acc) := by
  induction r generalizing cur with
  | nil => rfl
  | cons c r ih =>
    rw [List.foldl_cons]
    simp only [collectStep, (numChar_iff c).2 (h c (by simp)), if_true, Bool.false_eq_true, if_false]
    rw [ih _ fun c hc => h c (by simp [hc])]
    simp

theorem fold_runs (s : List Char) (l : List (List Char)) (h : RunList s l) (acc : List (List Char)) :
    (s.foldl collectStep (true, acc)).2 = (l.map List.reverse).reverse ++ acc := by
  induction h generalizing acc with
  | none s hs => rw [fold_gap s true acc hs]; rfl
  | cons gap r rest l hgap hr hnum hrest _ ih =>
    rw [List.foldl_append, List.foldl_append, fold_gap gap true acc hgap]
    obtain ⟨a, t, rfl⟩ := List.exists_cons_of_ne_nil hr
    have h1 : (a :: t).foldl collectStep (if gap = [] then true else true, acc) =
        (false, (a :: t).reverse :: acc) := by
      rw [List.foldl_cons]
      simp only [ite_self, collectStep, (numChar_iff a).2 (hnum a (by simp)), if_true]
      rw [fold_run t _ _ fun c hc => hnum c (by simp [hc])]
      simp
    rw [h1]
    have h2 : ∀ st : List (List Char), (rest.foldl collectStep (false, st)).2 =
        (rest.foldl collectStep (true, st)).2 := by
      intro st
      cases rest with
      | nil => rfl
      | cons c rest =>
        have hc : numChar c = false := by
          rw [← Bool.not_eq_true, numChar_iff]; exact hrest c rfl
        simp [collectStep, hc]
    rw [h2, ih]
    simp

theorem runs_eq (s : List Char) (l : List (List Char)) (h : RunList s l) : runs s = l := by
  unfold runs
  rw [fold_runs s l h []]
  simp

theorem runs_runList (s : List Char) : RunList s (runs s) := by
  obtain ⟨l, hl⟩ := exists_runList s
  rw [runs_eq s l hl]; exact hl

/-- Every run is the first one or a run of the rest. -/
theorem isRun_cases (gap r rest pre r' post : List Char) (hgap : ∀ c ∈ gap, ¬ IsNum c) 
    (hnum : ∀ c ∈ r, IsNum c) (hrest : ∀ c, rest.head? = some c → ¬ IsNum c)
    (h : IsRun (gap ++ r ++ rest) pre r' post) :
    (pre = gap ∧ r' = r ∧ post = rest) ∨
      ∃ pre', pre = gap ++ r ++ pre' ∧ IsRun rest pre' r' post := by
  obtain ⟨heq, hne, hn, hl, hrt⟩ := h
  -- compare the position of the run with the gap and the first run
  have key : gap ++ (r ++ rest) = pre ++ (r' ++ post) := by simpa using heq
  rcases List.append_eq_append_iff.1 key with ⟨x, hx1, hx2⟩ | ⟨x, hx1, hx2⟩
  · -- pre = gap ++ x, r ++ rest = x ++ (r' ++ post)
    rcases List.append_eq_append_iff.1 hx2 with ⟨y, hy1, hy2⟩ | ⟨y, hy1, hy2⟩
    · -- x = r ++ y, rest = y ++ (r' ++ post)
      subst hy1
      right
      refine ⟨y, by rw [hx1, List.append_assoc], ?_⟩
      refine ⟨by rw [hy2, List.append_assoc], hne, hn, ?_, hrt⟩
      intro c hc
      apply hl c
      rw [hx1, List.getLast?_append, List.getLast?_append, hc]; rfl
    · -- r = x ++ y, r' ++ post = y ++ rest
      left
      have hx : x = [] := by
        by_contra hx0
        have hlast := hl (x.getLast hx0) (by
          rw [hx1, List.getLast?_append, List.getLast?_eq_some_getLast hx0]; rfl)
        exact hlast (hnum _ (by rw [hy1]; simp))
      subst hx
      simp only [List.nil_append, List.append_nil] at hy1 hx1
      subst hy1
      refine ⟨hx1, ?_⟩
      rcases List.append_eq_append_iff.1 hy2 with ⟨w, hw1, hw2⟩ | ⟨w, hw1, hw2⟩
      · -- r = r' ++ w, post = w ++ rest
        cases w with
        | nil => simp at hw1 hw2; exact ⟨hw1.symm, hw2⟩
        | cons c w =>
          exfalso
          exact hrt c (by rw [hw2]; rfl) (hnum c (by rw [hw1]; simp))
      · -- r' = r ++ w, rest = w ++ post
        cases w with
        | nil => simp at hw1 hw2; exact ⟨hw1, hw2.symm⟩
        | cons c w =>
          exfalso
          exact hrest c (by rw [hw2]; rfl) (hn c (by rw [hw1]; simp))
  · -- gap = pre ++ x, r' ++ post = x ++ (r ++ rest)
    cases x with
    | nil =>
      simp only [List.append_nil, List.nil_append] at hx1 hx2
      subst hx1
      left
      refine ⟨rfl, ?_⟩
      rcases List.append_eq_append_iff.1 hx2 with ⟨w, hw1, hw2⟩ | ⟨w, hw1, hw2⟩
      · cases w with
        | nil => simp at hw1 hw2; exact ⟨hw1.symm, hw2⟩
        | cons c w =>
          exfalso
          exact hrt c (by rw [hw2]; rfl) (hnum c (by rw [hw1]; simp))
      · cases w with
        | nil => simp at hw1 hw2; exact ⟨hw1, hw2.symm⟩
        | cons c w =>
          exfalso
          exact hrest c (by rw [hw2]; rfl) (hn c (by rw [hw1]; simp))
    | cons c x =>
      exfalso
      obtain ⟨a, t, rfl⟩ := List.exists_cons_of_ne_nil hne
      simp only [List.cons_append, List.cons.injEq] at hx2
      exact hgap c (by rw [hx1]; simp) (hx2.1 ▸ hn a (by simp))

theorem isRun_first (gap r rest : List Char) (hgap : ∀ c ∈ gap, ¬ IsNum c) (hr : r ≠ [])
    (hnum : ∀ c ∈ r, IsNum c) (hrest : ∀ c, rest.head? = some c → ¬ IsNum c) :
    IsRun (gap ++ r ++ rest) gap r rest :=
  ⟨rfl, hr, hnum, fun c hc => hgap c (List.mem_of_getLast? hc), hrest⟩

theorem isRun_later (gap r rest pre' r' post : List Char) (hrest : ∀ c, rest.head? = some c → ¬ IsNum c)
    (h : IsRun rest pre' r' post) : IsRun (gap ++ r ++ rest) (gap ++ r ++ pre') r' post := by
  obtain ⟨heq, hne, hn, hl, hrt⟩ := h
  refine ⟨by rw [heq]; simp, hne, hn, ?_, hrt⟩
  intro c hc
  cases hp : pre' with
  | nil =>
    exfalso
    subst hp
    obtain ⟨a, t, rfl⟩ := List.exists_cons_of_ne_nil hne
    exact hrest a (by rw [heq]; rfl) (hn a (by simp))
  | cons a t =>
    apply hl c
    rw [hp, List.getLast?_append] at hc
    rw [hp]
    cases hg : (a :: t).getLast? with
    | none => simp at hg
    | some d => rw [hg] at hc; exact hc

theorem longest_fold (l : List (List Char)) (a b : List Char) :
    let best := fun (best x : List Char) => if best.length < x.length then x else best
    l.foldl best (best a b) = best a (l.foldl best b) := by
  intro best
  induction l generalizing b with
  | nil => rfl
  | cons x l ih =>
    rw [List.foldl_cons, List.foldl_cons]
    have : best (best a b) x = best a (best b x) := by
      simp only [best]
      split_ifs <;> first | rfl | omega
    rw [this, ih]

theorem longest_cons (r : List Char) (l : List (List Char)) (m : List Char) (h : longest l = some m) :
    longest (r :: l) = some (if r.length < m.length then m else r) := by
  cases l with
  | nil => simp [longest] at h
  | cons b l =>
    simp only [longest, Option.some.injEq] at h
    simp only [longest, List.foldl_cons, Option.some.injEq]
    rw [← h]
    exact longest_fold l r b

theorem firstLongest_of_runList (s : List Char) (l : List (List Char)) (h : RunList s l) :
    (l = [] ∧ ∀ pre r post, ¬ IsRun s pre r post) ∨
      ∃ m, longest l = some m ∧ FirstLongest s m := by
  induction h with
  | none s hs =>
    left
    refine ⟨rfl, ?_⟩
    rintro pre r post ⟨heq, hne, hn, -, -⟩
    obtain ⟨a, t, rfl⟩ := List.exists_cons_of_ne_nil hne
    exact hs a (by rw [heq]; simp) (hn a (by simp))
  | cons gap r rest l hgap hr hnum hrest _ ih =>
    right
    have hcases := fun pre r' post => isRun_cases gap r rest pre r' post hgap hnum hrest
    rcases ih with ⟨rfl, hno⟩ | ⟨m, hm, pre, post, hrun, hbest⟩
    · refine ⟨r, rfl, gap, rest, isRun_first gap r rest hgap hr hnum hrest, ?_⟩
      intro pre' r' post' h'
      rcases hcases _ _ _ h' with ⟨rfl, rfl, rfl⟩ | ⟨pre'', -, h''⟩
      · exact ⟨le_rfl, fun h => absurd h (lt_irrefl _)⟩
      · exact absurd h'' (hno _ _ _)
    · rw [longest_cons r l m hm]
      refine ⟨_, rfl, ?_⟩
      by_cases hlt : r.length < m.length
      · rw [if_pos hlt]
        refine ⟨gap ++ r ++ pre, post, isRun_later gap r rest pre m post hrest hrun, ?_⟩
        intro pre' r' post' h'
        rcases hcases _ _ _ h' with ⟨rfl, rfl, rfl⟩ | ⟨pre'', rfl, h''⟩
        · exact ⟨hlt.le, fun _ => hlt⟩
        · obtain ⟨b1, b2⟩ := hbest _ _ _ h''
          refine ⟨b1, fun h => b2 ?_⟩
          simp only [List.length_append] at h
          omega
      · rw [if_neg hlt]
        refine ⟨gap, rest, isRun_first gap r rest hgap hr hnum hrest, ?_⟩
        intro pre' r' post' h'
        rcases hcases _ _ _ h' with ⟨rfl, rfl, rfl⟩ | ⟨pre'', rfl, h''⟩
        · exact ⟨le_rfl, fun h => absurd h (lt_irrefl _)⟩
        · refine ⟨((hbest _ _ _ h'').1).trans (not_lt.1 hlt), fun h => ?_⟩
          simp only [List.length_append] at h
          omega

theorem firstLongest_unique (s r r' : List Char) (h : FirstLongest s r) (h' : FirstLongest s r') : r = r' := by
  obtain ⟨pre, post, hr, hb⟩ := h
  obtain ⟨pre', post', hr', hb'⟩ := h'
  obtain ⟨a1, a2⟩ := hb _ _ _ hr'
  obtain ⟨b1, b2⟩ := hb' _ _ _ hr
  have hp : pre.length = pre'.length := by
    by_contra hne
    rcases Nat.lt_or_gt_of_ne hne with h | h
    · have := b2 h; omega
    · have := a2 h; omega
  have e : pre ++ (r ++ post) = pre' ++ (r' ++ post') := by
    have := hr.eq.symm.trans hr'.eq
    simpa using this
  have e2 := (List.append_inj e hp).2
  exact (List.append_inj e2 (by omega)).1

/-- C22: the redshift is the number written by the first of the longest runs of digits and dots in the base name
without extension; without any digit or dot it is -1.  (`float` raises when the run is not a number, see
`C22_false`.) -/
theorem redshift_spec (filename : List Char) :
    ((∀ c ∈ stem (basename filename), ¬ IsNum c) → redshiftFromFilename filename = .ok (-1)) ∧
    (∀ r, FirstLongest (stem (basename filename)) r → redshiftFromFilename filename = parseFloat r) ∧
    ((∃ c ∈ stem (basename filename), IsNum c) → ∃ r, FirstLongest (stem (basename filename)) r) := by
  set s := stem (basename filename) with hs
  have h := firstLongest_of_runList s (runs s) (runs_runList s)
  have hdef : redshiftFromFilename filename = match longest (runs s) with
    | none => .ok (-1)
    | some r => parseFloat r := rfl
  rw [hdef]
  refine ⟨fun hno => ?_, fun r hr => ?_, fun hex => ?_⟩
  · rw [runs_eq s [] (.none s hno)]; rfl
  · rcases h with ⟨-, hno⟩ | ⟨m, hm, hfl⟩
    · obtain ⟨pre, post, hrun, -⟩ := hr
      exact absurd hrun (hno _ _ _)
    · rw [hm, firstLongest_unique s r m hr hfl]
  · rcases h with ⟨h0, -⟩ | ⟨m, -, hfl⟩
    · obtain ⟨c, hc, hnum⟩ := hex
      obtain ⟨l, hl⟩ : ∃ l, l = runs s := ⟨_, rfl⟩
      have hrl := runs_runList s
      rw [← hl] at hrl h0
      generalize s = s' at hrl hc
      cases hrl with
      | none _ hno => exact absurd hnum (hno c hc)
      | cons => simp at h0
    · exact ⟨m, hfl⟩

example : redshiftFromFilename "/data/xfrac3d_12.048.bin".toList = .ok (12048 / 1000) := by decide +kernel

/-- Base name and extension of a path `dir/body.ext`. -/
theorem stem_basename (dir body ext : List Char) (c : Char) (hc : c ∈ body) (hcd : c ≠ '.')
    (h1 : '/' ∉ body) (h2 : '/' ∉ ext) (h3 : '.' ∉ ext) :
    stem (basename (dir ++ '/' :: (body ++ '.' :: ext))) = body := by
  have hb : basename (dir ++ '/' :: (body ++ '.' :: ext)) = body ++ '.' :: ext := by
    unfold basename
    have : (dir ++ '/' :: (body ++ '.' :: ext)).reverse = (body ++ '.' :: ext).reverse ++ '/' :: dir.reverse := by
      simp
    rw [this, List.takeWhile_append_of_pos (by
      intro x hx
      simp only [List.mem_reverse, List.mem_append, List.mem_cons] at hx
      simp only [ne_eq, decide_eq_true_eq]
      rintro rfl
      rcases hx with h | h | h
      · exact h1 h
      · exact absurd h (by decide)
      · exact h2 h)]
    simp
  rw [hb]
  unfold stem
  rw [if_pos (by simp)]
  have hd : (body ++ '.' :: ext).reverse.dropWhile (· ≠ '.') = '.' :: body.reverse := by
    have : (body ++ '.' :: ext).reverse = ext.reverse ++ '.' :: body.reverse := by simp
    rw [this, List.dropWhile_append_of_pos (by
      intro x hx
      simp only [List.mem_reverse] at hx
      simp only [ne_eq, decide_eq_true_eq]
      rintro rfl
      exact h3 hx)]
    simp
  rw [hd]
  simp only [List.drop_succ_cons, List.drop_zero, List.reverse_reverse]
  rw [if_neg]
  intro hall
  have := List.all_eq_true.1 hall c hc
  simp at this
  exact hcd this

/-- C22: names of the form `dir/prefix<digits>.<digits>.ext` whose prefix has no digits or dots give
the number written. -/
theorem redshift_prefix (dir pre a b ext : List Char) (hpre : ∀ c ∈ pre, ¬ IsNum c ∧ c ≠ '/')
    (ha : ∀ c ∈ a, c.isDigit) (hb : ∀ c ∈ b, c.isDigit) (hne : a ≠ []) (h2 : '/' ∉ ext) (h3 : '.' ∉ ext) :
    redshiftFromFilename (dir ++ '/' :: ((pre ++ (a ++ '.' :: b)) ++ '.' :: ext)) =
      .ok (digitsVal a + (digitsVal b : ℚ) / 10 ^ b.length) := by
  have hdigit : ∀ c : Char, c.isDigit → c ≠ '.' ∧ c ≠ '/' := by
    intro c hc
    constructor <;> (rintro rfl; exact absurd hc (by decide))
  obtain ⟨a0, t, hat⟩ := List.exists_cons_of_ne_nil hne
  have ha0 : a0 ∈ a := by rw [hat]; simp
  have hstem := stem_basename dir (pre ++ (a ++ '.' :: b)) ext a0 (by simp [ha0])
    (hdigit a0 (ha a0 ha0)).1 (by
      simp only [List.mem_append, List.mem_cons, not_or]
      refine ⟨fun h => (hpre _ h).2 rfl, fun h => (hdigit _ (ha _ h)).2 rfl, by decide,
        fun h => (hdigit _ (hb _ h)).2 rfl⟩) h2 h3
  have hnum : ∀ c ∈ a ++ '.' :: b, IsNum c := by
    intro c hc
    rw [← numChar_iff]
    simp only [List.mem_append, List.mem_cons] at hc
    rcases hc with h | rfl | h
    · simp [numChar, ha c h]
    · decide
    · simp [numChar, hb c h]
  have hfl : FirstLongest (pre ++ (a ++ '.' :: b)) (a ++ '.' :: b) := by
    have hrl : RunList (pre ++ (a ++ '.' :: b) ++ []) [a ++ '.' :: b] :=
      .cons pre (a ++ '.' :: b) [] [] (fun c hc => (hpre c hc).1) (by simp) hnum (by simp) (.none [] (by simp))
    rw [List.append_nil] at hrl
    rcases firstLongest_of_runList _ _ hrl with ⟨h, -⟩ | ⟨m, hm, hfl⟩
    · simp at h
    · simp only [longest, List.foldl_nil, Option.some.injEq] at hm
      rw [← hm] at hfl; exact hfl
  rw [(redshift_spec _).2.1 (a ++ '.' :: b) (by rw [hstem]; exact hfl)]
  unfold parseFloat
  have e1 : (a ++ '.' :: b).takeWhile (· ≠ '.') = a := by
    rw [List.takeWhile_append_of_pos (by intro c hc; simpa using (hdigit c (ha c hc)).1)]
    simp
  have e2 : (a ++ '.' :: b).dropWhile (· ≠ '.') = '.' :: b := by
    rw [List.dropWhile_append_of_pos (by intro c hc; simpa using (hdigit c (ha c hc)).1)]
    simp
  rw [e1, e2]
  simp only
  rw [if_neg]
  rintro (h | ⟨h, -⟩)
  · exact (hdigit _ (hb _ h)).1 rfl
  · exact hne h

example : ∀ c ∈ "dens_z".toList, ¬ IsNum c ∧ c ≠ '/' := by
  intro c hc
  rw [← numChar_iff]
  revert c; decide

/-- C22 fails when the longest run is not a number: the name has no number at all but a dot (-1 was promised),
or the run contains two dots, and in both cases `float` raises. -/
theorem C22_false : redshiftFromFilename "halo.catalogue.dat".toList = .error "ValueError" ∧
    redshiftFromFilename "box_10.2.1_z7.bin".toList = .error "ValueError" := by
  constructor <;> decide +kernel

/-! ## C53 -/

/-- C53 fails in Python 3, where strings have an `__iter__` attribute: whatever the directory or text file holds,
passing its name raises. -/
theorem C53_false (ext : String → String) (fs : FS) (s : String) :
    lightconeFiles true ext fs (.str s) = .error "IndexError" := rfl

/-- C53, proved part: a non-empty list of names is used as it is; with the string test of Python 2 a
directory of files of one type gives its files, a directory with several types is refused, a text file gives
its lines.  Missing: directories and text files in Python 3 (`C53_false`). -/
theorem C53_partial (ext : String → String) (fs : FS) (l : List String) (hl : l ≠ []) (s : String) :
    lightconeFiles true ext fs (.list l) = .ok l ∧
    (fs.dir s = some l → (∀ f ∈ l, ∀ g ∈ l, ext f = ext g) → lightconeFiles false ext fs (.str s) = .ok l) ∧
    (fs.dir s = some l → (∃ f ∈ l, ∃ g ∈ l, ext f ≠ ext g) →
      lightconeFiles false ext fs (.str s) = .error "The directory may only contain one file type.") ∧
    (fs.dir s = none → fs.lines s = some l → lightconeFiles false ext fs (.str s) = .ok l) ∧
    (fs.dir s = none → fs.lines s = none →
      lightconeFiles false ext fs (.str s) = .error "Invalid filenames input") := by
  obtain ⟨a, t, rfl⟩ := List.exists_cons_of_ne_nil hl
  refine ⟨rfl, fun h1 h2 => ?_, fun h1 h2 => ?_, fun h1 h2 => ?_, fun h1 h2 => ?_⟩
  · have : allSame ext (a :: t) = true := by
      simp only [allSame, List.all_eq_true, beq_iff_eq]
      exact fun g hg => h2 g hg a (by simp)
    simp [lightconeFiles, getFilenames, h1, this]
  · have : allSame ext (a :: t) = false := by
      rw [← Bool.not_eq_true]
      intro hall
      simp only [allSame, List.all_eq_true, beq_iff_eq] at hall
      obtain ⟨f, hf, g, hg, hne⟩ := h2
      exact hne ((hall f hf).trans (hall g hg).symm)
    simp [lightconeFiles, getFilenames, h1, this]
  · simp [lightconeFiles, getFilenames, h1, h2]
  · simp [lightconeFiles, getFilenames, h1, h2]

example : ["a.bin", "b.bin"] ≠ [] := by decide

end Verif.Helpers
