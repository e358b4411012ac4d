import Verif.Model.NameRedshifts
import Verif.Props.RedshiftRange
import Mathlib.Data.List.Infix
/-!
# Specification and theorems for C194: redshifts of the files in a directory
-/

set_option linter.unusedSectionVars false

namespace Verif.NameRedshifts

variable {K : Type} [Field K] [LinearOrder K] [IsStrictOrderedRing K]

/-! ## Specification -/

/-- The file called `name` is of the kind and is named after the redshift `z`. -/
def Has (float : Str → Option K) (k : Kind) (name : Str) (z : K) : Prop :=
  match k with
  | .source => ∃ r, name = r ++ "-coarsest_wsubgrid_sources.dat".toList ∧ r.head? ≠ some '.' ∧ float r = some z
  | .xfrac => ∃ a r, name = "xfrac".toList ++ a ++ '_' :: (r ++ ".bin".toList) ∧ '_' ∉ r ∧ float r = some z
  | .dens => ∃ r, name = r ++ "n_all.dat".toList ∧ r.head? ≠ some '.' ∧ float r = some z

open Classical in
/-- The number of files of the redshift `z`. -/
noncomputable def number (float : Str → Option K) (k : Kind) (names : List Str) (z : K) : ℕ :=
  names.countP fun n => decide (Has float k n z)

/-- What is known of `float`: a number contains neither a slash nor an x, and is not the empty string. -/
structure Numeric (float : Str → Option K) : Prop where
  noSlash : ∀ s z, float s = some z → '/' ∉ s
  noX : ∀ s z, float s = some z → 'x' ∉ s
  noEmpty : float [] = none

/-! ## Strings -/

theorem afterLast_append (c : Char) (a r : Str) (h : c ∉ r) : afterLast c (a ++ c :: r) = r := by
  unfold afterLast
  rw [List.reverse_append, List.reverse_cons, List.append_assoc, List.takeWhile_append_of_pos]
  · simp
  · intro x hx
    have : x ∈ r := List.mem_reverse.1 hx
    simp only [decide_eq_true_eq]
    rintro rfl
    exact h this

theorem afterLast_none (c : Char) (r : Str) (h : c ∉ r) : afterLast c r = r := by
  unfold afterLast
  have := List.takeWhile_append_of_pos (p := fun x => decide (x ≠ c)) (l₁ := r.reverse) (l₂ := []) (by
    intro x hx
    have : x ∈ r := List.mem_reverse.1 hx
    simp only [decide_eq_true_eq]
    rintro rfl
    exact h this)
  rw [List.append_nil] at this
  rw [this]
  simp

theorem afterLast_join (dir name : Str) (h : '/' ∉ name) : afterLast '/' (join dir name) = name := by
  unfold join
  split
  · exact afterLast_none _ _ h
  · split
    · next h1 h2 =>
      obtain ⟨d, hd⟩ : ∃ d, dir = d ++ ['/'] := by
        have := List.getLast?_eq_some_iff.1 h2
        exact this
      rw [hd, List.append_assoc]
      exact afterLast_append _ _ _ h
    · exact afterLast_append _ _ _ h

theorem rfind_append (pat r s : Str) (i : ℕ) (h : rfind pat s = some i) : rfind pat (r ++ s) = some (r.length + i) := by
  induction r with
  | nil => simpa using h
  | cons c r ih =>
    rw [List.cons_append, rfind, ih]
    simp only [List.length_cons]
    congr 1
    omega

theorem join_eq (dir name : Str) : ∃ d, join dir name = d ++ name := by
  unfold join
  split
  · exact ⟨[], rfl⟩
  · split
    · exact ⟨_, rfl⟩
    · exact ⟨dir ++ ['/'], by simp⟩

theorem before_eq (r t : Str) (h : ¬ ['n', '_'] <:+: r) : before ['n', '_'] (r ++ 'n' :: '_' :: t) = r := by
  induction r with
  | nil => simp [before]
  | cons c r ih =>
    rw [List.cons_append, before, if_neg, ih]
    · intro hi
      exact h (hi.trans (List.infix_cons List.infix_rfl))
    · intro hp
      apply h
      cases r with
      | nil => simp [List.isPrefixOf] at hp
      | cons d r =>
        simp only [List.cons_append, List.isPrefixOf, Bool.and_eq_true, beq_iff_eq] at hp
        obtain ⟨h1, h2, -⟩ := hp
        subst h1 h2
        exact ⟨[], r, by simp⟩

theorem count_filterMap (g : Str → Option K) (p : Str → Bool) (names : List Str) (z : K) :
    ((names.filter p).filterMap g).count z = names.countP fun n => p n && (g n == some z) := by
  induction names with
  | nil => rfl
  | cons n names ih =>
    rw [List.filter_cons, List.countP_cons]
    cases hp : p n
    · simp only [Bool.false_and, Bool.false_eq_true, if_false, Nat.add_zero]
      exact ih
    · simp only [if_true, Bool.true_and]
      cases hg : g n with
      | none => rw [List.filterMap_cons_none hg, ih]; simp
      | some w =>
        rw [List.filterMap_cons_some hg, List.count_cons, ih]
        by_cases hw : w = z <;> simp [hw]

/-! ## Which text is read -/

theorem text_source (dir r : Str) (h : '/' ∉ r) : text .source (join dir (r ++ sourceTail)) = r := by
  have hn : '/' ∉ r ++ sourceTail := by
    rw [List.mem_append]
    rintro (hm | hm)
    · exact h hm
    · exact absurd hm (by decide)
  have hj := afterLast_join dir _ hn
  unfold text
  simp only
  rw [hj]
  obtain ⟨d, hd⟩ := join_eq dir (r ++ sourceTail)
  have hf : rfind sourceMark (d ++ (r ++ sourceTail)) = some (d.length + r.length) := by
    rw [← List.append_assoc, rfind_append _ _ _ 0 (by decide), List.length_append, Nat.add_zero]
  rw [hd, hf]
  simp only
  have e1 : (d ++ (r ++ sourceTail)).length - (r ++ sourceTail).length = d.length := by
    rw [List.length_append]; omega
  rw [e1, ← List.append_assoc, List.take_left' (by rw [List.length_append]), List.drop_left' rfl]

theorem text_xfrac (dir a r : Str) (h : '_' ∉ r) : text .xfrac (join dir (a ++ '_' :: (r ++ xfracTail))) = r := by
  obtain ⟨d, hd⟩ := join_eq dir (a ++ '_' :: (r ++ xfracTail))
  have : afterLast '_' (join dir (a ++ '_' :: (r ++ xfracTail))) = r ++ xfracTail := by
    rw [hd, ← List.append_assoc]
    refine afterLast_append _ _ _ ?_
    rw [List.mem_append]
    rintro (hm | hm)
    · exact h hm
    · exact absurd hm (by decide)
  unfold text
  simp only [this]
  have e : (r ++ xfracTail).length - 4 = r.length := by simp [xfracTail]
  rw [e, List.take_left' rfl]

theorem text_dens (dir r : Str) (h : '/' ∉ r) (h2 : ¬ ['n', '_'] <:+: r) : text .dens (join dir (r ++ densTail)) = r := by
  have hn : '/' ∉ r ++ densTail := by
    rw [List.mem_append]
    rintro (hm | hm)
    · exact h hm
    · exact absurd hm (by decide)
  unfold text
  simp only
  rw [afterLast_join dir _ hn]
  exact before_eq r _ h2

theorem mem_afterLast (c x : Char) (s : Str) (h : x ∈ s) (hc : c ∉ s) : x ∈ afterLast c s := by
  rwa [afterLast_none c s hc]

/-- In a name without an underscore the text begins before the name, and contains an `x`. -/
theorem text_xfrac_none (dir b : Str) (h : '_' ∉ b) :
    'x' ∈ text .xfrac (join dir (xfracHead ++ b ++ xfracTail)) := by
  obtain ⟨d, hd⟩ := join_eq dir (xfracHead ++ b ++ xfracTail)
  have hn : '_' ∉ xfracHead ++ b ++ xfracTail := by
    rw [List.mem_append, List.mem_append]
    rintro ((hm | hm) | hm)
    · exact absurd hm (by decide)
    · exact h hm
    · exact absurd hm (by decide)
  have : ∃ p, afterLast '_' (join dir (xfracHead ++ b ++ xfracTail)) = p ++ (xfracHead ++ b ++ xfracTail) := by
    rw [hd]
    unfold afterLast
    rw [List.reverse_append, List.takeWhile_append_of_pos]
    · rw [List.reverse_append, List.reverse_reverse]
      exact ⟨_, rfl⟩
    · intro x hx
      have : x ∈ xfracHead ++ b ++ xfracTail := List.mem_reverse.1 hx
      simp only [decide_eq_true_eq]
      rintro rfl
      exact hn this
  obtain ⟨p, hp⟩ := this
  unfold text
  simp only [hp]
  have e : (p ++ (xfracHead ++ b ++ xfracTail)).length - 4 = (p ++ (xfracHead ++ b)).length := by
    simp [xfracTail, xfracHead]
    omega
  rw [e, ← List.append_assoc p (xfracHead ++ b), List.take_left' rfl, List.mem_append, List.mem_append]
  right; left
  decide

/-- A string is split at its last underscore. -/
theorem split_last (c : Char) (s : Str) (h : c ∈ s) : ∃ a r, s = a ++ c :: r ∧ c ∉ r := by
  induction s with
  | nil => simp at h
  | cons d s ih =>
    by_cases hs : c ∈ s
    · obtain ⟨a, r, rfl, hr⟩ := ih hs
      exact ⟨d :: a, r, rfl, hr⟩
    · rw [List.mem_cons] at h
      rcases h with h | h
      · exact ⟨[], s, by rw [h]; rfl, hs⟩
      · exact absurd h hs

theorem head_append (r t : Str) (h : r ≠ []) : (r ++ t).head? = r.head? := by
  cases r with
  | nil => exact absurd rfl h
  | cons c r => rfl

/-- The files that the code reads with the redshift `z` are those that have it. -/
theorem reads_iff (k : Kind) (float : Str → Option K) (hf : Numeric float) (dir name : Str) (hs : '/' ∉ name)
    (hd : k = .dens → ∀ r, name = r ++ densTail → ¬ ['n', '_'] <:+: r) (z : K) :
    (globbed k name = true ∧ float (text k (join dir name)) = some z) ↔ Has float k name z := by
  have hne : ∀ r z, float r = some z → r ≠ [] := by
    rintro r z h rfl
    rw [hf.noEmpty] at h
    exact absurd h (by simp)
  cases k with
  | source =>
    simp only [globbed, Has, Bool.and_eq_true, List.isSuffixOf_iff_suffix, bne_iff_ne]
    constructor
    · rintro ⟨⟨⟨r, rfl⟩, h2⟩, h3⟩
      have hr : '/' ∉ r := fun h => hs (List.mem_append_left _ h)
      rw [text_source dir r hr] at h3
      rw [head_append _ _ (hne _ _ h3)] at h2
      exact ⟨r, rfl, h2, h3⟩
    · rintro ⟨r, rfl, h2, h3⟩
      have hr : '/' ∉ r := fun h => hs (List.mem_append_left _ h)
      refine ⟨⟨⟨r, rfl⟩, ?_⟩, ?_⟩
      · rwa [head_append _ _ (hne _ _ h3)]
      · exact (congrArg float (text_source dir r hr)).trans h3
  | dens =>
    simp only [globbed, Has, Bool.and_eq_true, List.isSuffixOf_iff_suffix, bne_iff_ne]
    constructor
    · rintro ⟨⟨⟨r, rfl⟩, h2⟩, h3⟩
      have hr : '/' ∉ r := fun h => hs (List.mem_append_left _ h)
      rw [text_dens dir r hr (hd rfl r rfl)] at h3
      rw [head_append _ _ (hne _ _ h3)] at h2
      exact ⟨r, rfl, h2, h3⟩
    · rintro ⟨r, rfl, h2, h3⟩
      have hr : '/' ∉ r := fun h => hs (List.mem_append_left _ h)
      refine ⟨⟨⟨r, rfl⟩, ?_⟩, ?_⟩
      · rwa [head_append _ _ (hne _ _ h3)]
      · exact (congrArg float (text_dens dir r hr (hd rfl r rfl))).trans h3
  | xfrac =>
    simp only [globbed, Has, Bool.and_eq_true, List.isSuffixOf_iff_suffix, List.isPrefixOf_iff_prefix]
    constructor
    · rintro ⟨⟨⟨b, hb⟩, ⟨c, hc⟩⟩, h3⟩
      obtain ⟨m, hm⟩ : ∃ m, name = xfracHead ++ m ++ xfracTail := by
        rcases Nat.lt_or_ge c.length 5 with hlt | hge
        · exfalso
          have h1 : (c ++ xfracTail)[c.length]? = some '.' := by
            rw [List.getElem?_append_right le_rfl]; simp [xfracTail]
          rw [hc, ← hb, List.getElem?_append_left (by simpa [xfracHead] using hlt)] at h1
          exact absurd (List.mem_of_getElem? h1) (by decide)
        · have h2 : xfracHead <+: c :=
            List.prefix_of_prefix_length_le (⟨b, hb⟩ : xfracHead <+: name) ⟨xfracTail, hc⟩ (by simpa [xfracHead] using hge)
          obtain ⟨m, rfl⟩ := h2
          exact ⟨m, hc.symm⟩
      by_cases hu : '_' ∈ m
      · obtain ⟨a, r, rfl, hr⟩ := split_last _ _ hu
        have e : name = (xfracHead ++ a) ++ '_' :: (r ++ xfracTail) := by rw [hm]; simp
        rw [e, text_xfrac dir _ r hr] at h3
        exact ⟨a, r, e, hr, h3⟩
      · rw [hm] at h3
        exact absurd (text_xfrac_none dir m hu) (hf.noX _ _ h3)
    · rintro ⟨a, r, rfl, hr, h3⟩
      refine ⟨⟨⟨a ++ '_' :: (r ++ xfracTail), ?_⟩, ⟨xfracHead ++ a ++ '_' :: r, ?_⟩⟩, ?_⟩
      · show xfracHead ++ _ = xfracHead ++ a ++ '_' :: (r ++ xfracTail)
        simp
      · show _ = xfracHead ++ a ++ '_' :: (r ++ xfracTail)
        simp
      · exact (congrArg float (text_xfrac dir (xfracHead ++ a) r hr)).trans h3

theorem number_eq (k : Kind) (float : Str → Option K) (hf : Numeric float) (dir : Str) (names : List Str)
    (hs : ∀ n ∈ names, '/' ∉ n) (hd : k = .dens → ∀ n ∈ names, ∀ r, n = r ++ densTail → ¬ ['n', '_'] <:+: r) (z : K) :
    (((names.filter (globbed k)).map (join dir)).filterMap fun f => float (text k f)).count z = number float k names z := by
  classical
  rw [List.filterMap_map, count_filterMap]
  unfold number
  refine List.countP_congr fun n hn => ?_
  rw [Bool.and_eq_true, beq_iff_eq, decide_eq_true_eq]
  exact reads_iff k float hf dir n (hs n hn) (fun h => hd h n hn) z

/-! ## C194 -/

/-- The redshifts of the files of the kind in the directory, in increasing order, as often as there are files of that redshift,
within the limits that are given. -/
theorem C194_partial (k : Kind) (float : Str → Option K) (hf : Numeric float) (dir : Str) (names : List Str)
    (hs : ∀ n ∈ names, '/' ∉ n)
    (hd : k = .dens → ∀ n ∈ names, ∀ r, n = r ++ "n_all.dat".toList → ¬ "n_".toList <:+: r)
    (hne : ∃ n ∈ names, ∃ z, Has float k n z) (lo hi : Option K) :
    ∃ l, getRedshifts k float dir names lo hi false = .ok l ∧ l.Pairwise (· ≤ ·) ∧
      ∀ z, ((∀ b, lo = some b → b ≤ z) ∧ (∀ b, hi = some b → z ≤ b) → l.count z = number float k names z) ∧
        (¬ ((∀ b, lo = some b → b ≤ z) ∧ (∀ b, hi = some b → z ≤ b)) → l.count z = 0) := by
  classical
  have hcount := number_eq k float hf dir names hs hd
  unfold getRedshifts
  simp only
  generalize hzs : ((names.filter (globbed k)).map (join dir)).filterMap (fun f => float (text k f)) = zs at hcount ⊢
  have hz : zs ≠ [] := by
    obtain ⟨n, hn, z, hz⟩ := hne
    rintro rfl
    have := hcount z
    rw [List.count_nil, eq_comm, number, List.countP_eq_zero] at this
    exact this n hn (decide_eq_true hz)
  obtain ⟨l, h1, h2, h3⟩ := Helpers.range_spec zs lo hi hz
  refine ⟨l, h1, h2, fun z => ⟨fun h => ?_, fun h => ?_⟩⟩
  · rw [(h3 z).1 fun _ => h, hcount]
  · by_cases hm : z ∈ zs
    · exact (h3 z).2 fun hc => h (hc hm)
    · rw [(h3 z).1 fun hc => absurd hc hm, List.count_eq_zero.2 hm]

/-- With `bracket`, the nearest redshifts of files outside the limits are there as well. -/
theorem C194_bracket (k : Kind) (float : Str → Option K) (hf : Numeric float) (dir : Str) (names : List Str)
    (hs : ∀ n ∈ names, '/' ∉ n)
    (hd : k = .dens → ∀ n ∈ names, ∀ r, n = r ++ "n_all.dat".toList → ¬ "n_".toList <:+: r) (lo hi : K) (hlh : lo ≤ hi)
    (h1 : ∃ n ∈ names, ∃ z ≤ lo, Has float k n z) (h2 : ∃ n ∈ names, ∃ z, hi ≤ z ∧ Has float k n z) :
    ∃ l, getRedshifts k float dir names (some lo) (some hi) true = .ok l ∧ l.Pairwise (· ≤ ·) ∧
      ∀ z, let p := (lo ≤ z ∧ z ≤ hi) ∨ (z ≤ lo ∧ ∀ n ∈ names, ∀ w, Has float k n w → w ≤ lo → w ≤ z) ∨
          (hi ≤ z ∧ ∀ n ∈ names, ∀ w, Has float k n w → hi ≤ w → z ≤ w)
        (p → l.count z = number float k names z) ∧ (¬ p → l.count z = 0) := by
  classical
  have hcount := number_eq k float hf dir names hs hd
  unfold getRedshifts
  simp only
  generalize hzs : ((names.filter (globbed k)).map (join dir)).filterMap (fun f => float (text k f)) = zs at hcount ⊢
  have hmem : ∀ w, w ∈ zs ↔ ∃ n ∈ names, Has float k n w := by
    intro w
    rw [← List.count_pos_iff, hcount, number, List.countP_pos_iff]
    simp
  obtain ⟨n1, hn1, z1, hz1, hh1⟩ := h1
  obtain ⟨n2, hn2, z2, hz2, hh2⟩ := h2
  obtain ⟨l, h1, h2, h3⟩ := Helpers.bracket_spec zs lo hi hlh ⟨z1, (hmem _).2 ⟨n1, hn1, hh1⟩, hz1⟩
    ⟨z2, (hmem _).2 ⟨n2, hn2, hh2⟩, hz2⟩
  refine ⟨l, h1, h2, fun z => ?_⟩
  have e1 : (z ≤ lo ∧ ∀ n ∈ names, ∀ w, Has float k n w → w ≤ lo → w ≤ z) ↔ Helpers.NearestBelow zs lo z :=
    and_congr_right fun _ => ⟨fun h w hw => (let ⟨n, hn, hh⟩ := (hmem w).1 hw; h n hn w hh),
      fun h n hn w hh => h w ((hmem w).2 ⟨n, hn, hh⟩)⟩
  have e2 : (hi ≤ z ∧ ∀ n ∈ names, ∀ w, Has float k n w → hi ≤ w → z ≤ w) ↔ Helpers.NearestAbove zs hi z :=
    and_congr_right fun _ => ⟨fun h w hw => (let ⟨n, hn, hh⟩ := (hmem w).1 hw; h n hn w hh),
      fun h n hn w hh => h w ((hmem w).2 ⟨n, hn, hh⟩)⟩
  rw [e1, e2, ← hcount]
  by_cases hz : z ∈ zs
  · have := h3 z
    simp only [hz, and_true] at this
    exact this
  · have h0 : zs.count z = 0 := List.count_eq_zero.2 hz
    have hl : l.count z = 0 := by
      by_cases hp : (lo ≤ z ∧ z ≤ hi) ∨ Helpers.NearestBelow zs lo z ∧ z ∈ zs ∨ Helpers.NearestAbove zs hi z ∧ z ∈ zs
      · rw [(h3 z).1 hp, h0]
      · exact (h3 z).2 hp
    exact ⟨fun _ => by rw [hl, h0], fun _ => hl⟩

/-- No file of the kind with a redshift: an error. -/
theorem C194_raises (k : Kind) (float : Str → Option K) (hf : Numeric float) (dir : Str) (names : List Str)
    (hs : ∀ n ∈ names, '/' ∉ n)
    (hd : k = .dens → ∀ n ∈ names, ∀ r, n = r ++ "n_all.dat".toList → ¬ "n_".toList <:+: r)
    (hno : ∀ n ∈ names, ∀ z, ¬ Has float k n z) (bracket : Bool) :
    getRedshifts k float dir names none none bracket = .error "ValueError" := by
  classical
  have hcount := number_eq k float hf dir names hs hd
  unfold getRedshifts
  simp only
  generalize hzs : ((names.filter (globbed k)).map (join dir)).filterMap (fun f => float (text k f)) = zs at hcount ⊢
  have hz : zs = [] := by
    rw [List.eq_nil_iff_forall_not_mem]
    intro z hm
    have : number float k names z = 0 := by
      rw [number, List.countP_eq_zero]
      intro n hn
      simpa using hno n hn z
    rw [← hcount, List.count_eq_zero] at this
    exact this hm
  subst hz
  cases bracket <;> simp [Helpers.redshiftsInRange]

/-- A density file of the form `7.0n_xn_all.dat` counts although what is before `n_all.dat` is not a number: the text before
the first `n_` is read. -/
theorem C194_false : ∃ float : Str → Option ℚ, Numeric float ∧ ∃ names : List Str, (∀ n ∈ names, '/' ∉ n) ∧
    (∀ n ∈ names, ∀ z, ¬ Has float .dens n z) ∧ getRedshifts .dens float [] names none none false = .ok [7] := by
  refine ⟨fun s => if s = ['7'] then some 7 else none, ⟨?_, ?_, by decide⟩, ["7n_xn_all.dat".toList], by decide, ?_, ?_⟩
  · intro s z h
    by_cases hs : s = ['7']
    · subst hs; decide
    · rw [if_neg hs] at h; exact absurd h (by simp)
  · intro s z h
    by_cases hs : s = ['7']
    · subst hs; decide
    · rw [if_neg hs] at h; exact absurd h (by simp)
  · rintro n hn z ⟨r, h1, -, h3⟩
    by_cases hs : r = ['7']
    · subst hs
      rw [List.mem_singleton] at hn
      rw [hn] at h1
      exact absurd h1 (by decide)
    · simp only [if_neg hs] at h3; exact absurd h3 (by simp)
  · have : text .dens (join [] "7n_xn_all.dat".toList) = ['7'] := by decide
    have hg : globbed .dens "7n_xn_all.dat".toList = true := by decide
    unfold getRedshifts
    simp only [List.filter_cons, hg, if_true, List.filter_nil, List.map_cons, List.map_nil, List.filterMap_cons, this,
      List.filterMap_nil]
    norm_num [Helpers.redshiftsInRange, List.mergeSort]

/-- Two files of the same redshift, such as the ionised fractions of hydrogen and helium, give the redshift twice. -/
theorem C194_false_twice : ∃ float : Str → Option ℚ, Numeric float ∧ ∃ names : List Str, names.Nodup ∧
    getRedshifts .xfrac float [] names none none false = .ok [7, 7] := by
  refine ⟨fun s => if s = ['7'] then some 7 else none, ⟨?_, ?_, by decide⟩,
    ["xfrac3d_7.bin".toList, "xfrac3dHe1_7.bin".toList], by decide, ?_⟩
  · intro s z h
    by_cases hs : s = ['7']
    · subst hs; decide
    · rw [if_neg hs] at h; exact absurd h (by simp)
  · intro s z h
    by_cases hs : s = ['7']
    · subst hs; decide
    · rw [if_neg hs] at h; exact absurd h (by simp)
  · have h1 : text .xfrac (join [] "xfrac3d_7.bin".toList) = ['7'] := by decide
    have h2 : text .xfrac (join [] "xfrac3dHe1_7.bin".toList) = ['7'] := by decide
    have g1 : globbed .xfrac "xfrac3d_7.bin".toList = true := by decide
    have g2 : globbed .xfrac "xfrac3dHe1_7.bin".toList = true := by decide
    unfold getRedshifts
    simp only [List.filter_cons, g1, g2, if_true, List.filter_nil, List.map_cons, List.map_nil, List.filterMap_cons, h1, h2,
      List.filterMap_nil]
    norm_num [Helpers.redshiftsInRange, List.mergeSort, List.MergeSort.Internal.splitInTwo, List.splitAt, List.splitAt.go]

/-! ## Examples -/

/-- A `float` of strings of one digit. -/
def exFloat (s : Str) : Option ℚ :=
  match s with
  | [c] => if c.isDigit then some ((c.toNat - 48 : ℕ) : ℚ) else none
  | _ => none

theorem exFloat_numeric : Numeric exFloat := by
  have key : ∀ s z, exFloat s = some z → ∃ c : Char, s = [c] ∧ c.isDigit = true := by
    intro s z h
    match s with
    | [] => simp [exFloat] at h
    | [c] =>
      refine ⟨c, rfl, ?_⟩
      by_contra hc
      simp [exFloat, hc] at h
    | _ :: _ :: _ => simp [exFloat] at h
  refine ⟨fun s z h => ?_, fun s z h => ?_, rfl⟩ <;> obtain ⟨c, rfl, hc⟩ := key s z h <;>
    · rw [List.mem_singleton]
      rintro rfl
      exact absurd hc (by decide)

example : getRedshifts .source exFloat "a_b/c".toList
    ["9-coarsest_wsubgrid_sources.dat".toList, "log".toList, "7-coarsest_wsubgrid_sources.dat".toList] none (some 8) false =
      .ok [7] := by
  have h1 : text .source (join "a_b/c".toList "9-coarsest_wsubgrid_sources.dat".toList) = ['9'] := by decide
  have h2 : text .source (join "a_b/c".toList "7-coarsest_wsubgrid_sources.dat".toList) = ['7'] := by decide
  have g1 : globbed .source "9-coarsest_wsubgrid_sources.dat".toList = true := by decide
  have g2 : globbed .source "log".toList = false := by decide
  have g3 : globbed .source "7-coarsest_wsubgrid_sources.dat".toList = true := by decide
  have f1 : exFloat ['9'] = some 9 := by decide +kernel
  have f2 : exFloat ['7'] = some 7 := by decide +kernel
  unfold getRedshifts
  simp only [List.filter_cons, g1, g2, g3, if_true, Bool.false_eq_true, if_false, List.filter_nil, List.map_cons, List.map_nil,
    List.filterMap_cons, h1, h2, f1, f2, List.filterMap_nil]
  norm_num [Helpers.redshiftsInRange, List.mergeSort, List.MergeSort.Internal.splitInTwo, List.splitAt, List.splitAt.go]

theorem exHas : Has exFloat .dens "7n_all.dat".toList (7 : ℚ) :=
  ⟨['7'], by decide, by decide, by decide +kernel⟩

example : ∃ l, getRedshifts .dens exFloat "d".toList ["7n_all.dat".toList] none none false = .ok l ∧ l.Pairwise (· ≤ ·) ∧
    ∀ z, ((∀ b, (none : Option ℚ) = some b → b ≤ z) ∧ (∀ b, (none : Option ℚ) = some b → z ≤ b) →
      l.count z = number exFloat .dens ["7n_all.dat".toList] z) ∧
      (¬ ((∀ b, (none : Option ℚ) = some b → b ≤ z) ∧ (∀ b, (none : Option ℚ) = some b → z ≤ b)) → l.count z = 0) := by
  refine C194_partial .dens exFloat exFloat_numeric _ _ (by decide) ?_ ⟨_, List.mem_singleton.2 rfl, 7, exHas⟩ _ _
  intro _ n hn r hr hi
  rw [List.mem_singleton] at hn
  subst hn
  have e : r = ['7'] := by
    have : ['7'] ++ "n_all.dat".toList = r ++ "n_all.dat".toList := hr
    exact (List.append_left_injective _ this).symm
  subst e
  exact absurd hi.length_le (by decide)

example : ∀ n ∈ ["notes".toList], ∀ z, ¬ Has exFloat .source n z := by
  rintro n hn z ⟨r, h, -⟩
  rw [List.mem_singleton] at hn
  have := congrArg List.length (hn ▸ h)
  rw [List.length_append] at this
  have h2 : "notes".toList.length = 5 := by decide
  have h3 : "-coarsest_wsubgrid_sources.dat".toList.length = 30 := by decide
  omega

end Verif.NameRedshifts
