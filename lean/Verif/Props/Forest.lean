import Verif.Model.Forest
import Mathlib.Algebra.Order.Ring.Unbundled.Rat
import Mathlib.Algebra.Field.Rat
import Mathlib.Algebra.Order.Group.Unbundled.Basic
import Mathlib.Algebra.Order.Field.Rat
import Mathlib.Tactic.Ring
import Mathlib.Tactic.NormNum
/-!
# Forest plots (C221)
-/

namespace Verif.Forest

variable {K C : Type} [Field K] [LinearOrder K] [IsStrictOrderedRing K]

/-! ## Specification -/

/-- The intervals are nested around the median. -/
def Nested (c : Interval K) : Prop := c.lo2 ≤ c.lo1 ∧ c.lo1 ≤ c.median ∧ c.median ≤ c.hi1 ∧ c.hi1 ≤ c.hi2

/-- The number of parameters of the distribution with most. -/
def IsMost (dists : List (Dist K C)) (m : ℕ) : Prop := (∃ d ∈ dists, d.cis.length = m) ∧ ∀ d ∈ dists, d.cis.length ≤ m

/-- The colour of the distribution in row `i`. -/
def rowColor (fallback : ℕ → C) (nFallback i : ℕ) (d : Dist K C) : C := d.color.getD (fallback (i % nFallback))

/-- What belongs to panel `p`: for the distribution in row `i`, if it has the parameter, the outer and the inner interval. -/
def Belongs (fallback : ℕ → C) (nFallback : ℕ) (dists : List (Dist K C)) (p : ℕ) (b : Bar K C) : Prop :=
  ∃ d ci, dists[b.row]? = some d ∧ d.cis[p]? = some ci ∧ b.color = rowColor fallback nFallback b.row d ∧
    ((b.inner = false ∧ b.left = ci.lo2 ∧ b.right = ci.hi2) ∨ (b.inner = true ∧ b.left = ci.lo1 ∧ b.right = ci.hi1))

/-- Row 0 is at the top. -/
def FirstOnTop (f : Figure K C) : Prop := f.inverted = true

/-! ## Lemmas -/

theorem foldl_max (n : ℕ) (ns : List ℕ) : (ns.foldl max n ∈ n :: ns) ∧ ∀ x ∈ n :: ns, x ≤ ns.foldl max n := by
  induction ns generalizing n with
  | nil => simp
  | cons a l ih =>
    rw [List.foldl_cons]
    obtain ⟨h1, h2⟩ := ih (max n a)
    constructor
    · rcases List.mem_cons.1 h1 with h | h
      · rw [h]
        rcases max_choice n a with h | h <;> simp [h]
      · simp [h]
    · intro x hx
      have h0 := h2 (max n a) (by simp)
      rcases List.mem_cons.1 hx with rfl | hx
      · exact (le_max_left _ _).trans h0
      · rcases List.mem_cons.1 hx with rfl | hx
        · exact (le_max_right _ _).trans h0
        · exact h2 x (by simp [hx])

omit [IsStrictOrderedRing K] in
theorem colorOf_eq (fallback : ℕ → C) (nFallback i : ℕ) (d : Dist K C) : colorOf fallback nFallback i d = rowColor fallback nFallback i d := by
  unfold colorOf rowColor
  cases d.color <;> rfl

theorem errorbar_ok {row : ℕ} {m lo hi : K} (h1 : lo ≤ m) (h2 : m ≤ hi) (c : C) (inner : Bool) :
    errorbar row m lo hi c inner = .ok ⟨row, lo, hi, c, inner⟩ := by
  unfold errorbar
  rw [if_neg (by
    rintro (h | h)
    · exact absurd (sub_nonneg.2 h1) (not_le.2 h)
    · exact absurd (sub_nonneg.2 h2) (not_le.2 h))]
  rw [sub_sub_cancel, add_sub_cancel]

theorem bars_ok (fallback : ℕ → C) (nFallback p : ℕ) (ds : List (Dist K C)) (hn : ∀ d ∈ ds, ∀ c ∈ d.cis, Nested c) (i : ℕ) :
    ∃ l, bars fallback nFallback p i ds = .ok l ∧ ∀ b, b ∈ l ↔ ∃ j, b.row = i + j ∧ ∃ d ci, ds[j]? = some d ∧ d.cis[p]? = some ci ∧
      b.color = rowColor fallback nFallback b.row d ∧
      ((b.inner = false ∧ b.left = ci.lo2 ∧ b.right = ci.hi2) ∨ (b.inner = true ∧ b.left = ci.lo1 ∧ b.right = ci.hi1)) := by
  induction ds generalizing i with
  | nil => exact ⟨[], rfl, by simp⟩
  | cons d ds ih =>
    obtain ⟨l, hl, hm⟩ := ih (fun d hd => hn d (by simp [hd])) (i + 1)
    cases hci : d.cis[p]? with
    | none =>
      refine ⟨l, ?_, fun b => ?_⟩
      · unfold bars
        rw [hci]
        exact hl
      · rw [hm]
        constructor
        · rintro ⟨j, hj, d', ci, h1, h2⟩
          exact ⟨j + 1, by omega, d', ci, by simpa using h1, h2⟩
        · rintro ⟨j, hj, d', ci, h1, h2⟩
          cases j with
          | zero =>
            rw [List.getElem?_cons_zero] at h1
            cases h1
            rw [hci] at h2
            cases h2.1
          | succ j => exact ⟨j, by omega, d', ci, by simpa using h1, h2⟩
    | some ci =>
      obtain ⟨n1, n2, n3, n4⟩ := hn d (by simp) ci (List.mem_of_getElem? hci)
      refine ⟨⟨i, ci.lo2, ci.hi2, colorOf fallback nFallback i d, false⟩ :: ⟨i, ci.lo1, ci.hi1, colorOf fallback nFallback i d, true⟩ :: l, ?_, fun b => ?_⟩
      · unfold bars
        rw [hci]
        dsimp only
        rw [errorbar_ok (n1.trans n2) (n3.trans n4)]
        dsimp only
        rw [errorbar_ok n2 n3]
        dsimp only
        rw [hl]
      · rw [List.mem_cons, List.mem_cons, hm]
        constructor
        · rintro (rfl | rfl | ⟨j, hj, d', ci', h1, h2⟩)
          · exact ⟨0, rfl, d, ci, rfl, hci, colorOf_eq _ _ _ _, .inl ⟨rfl, rfl, rfl⟩⟩
          · exact ⟨0, rfl, d, ci, rfl, hci, colorOf_eq _ _ _ _, .inr ⟨rfl, rfl, rfl⟩⟩
          · exact ⟨j + 1, by omega, d', ci', by simpa using h1, h2⟩
        · rintro ⟨j, hj, d', ci', h1, h2, h3, h4⟩
          cases j with
          | zero =>
            rw [List.getElem?_cons_zero] at h1
            cases h1
            rw [hci] at h2
            cases h2
            rcases b with ⟨row, left, right, color, inner⟩
            dsimp only at hj h3 h4
            rw [Nat.add_zero] at hj
            subst hj
            rw [h3, colorOf_eq]
            rcases h4 with ⟨rfl, rfl, rfl⟩ | ⟨rfl, rfl, rfl⟩
            · exact .inl rfl
            · exact .inr (.inl rfl)
          | succ j => exact .inr (.inr ⟨j, by omega, d', ci', by simpa using h1, h2, h3, h4⟩)

theorem panels_ok (fallback : ℕ → C) (nFallback : ℕ) (ds : List (Dist K C)) (hn : ∀ d ∈ ds, ∀ c ∈ d.cis, Nested c) (truths : Option (List K)) (n p : ℕ) (inv : Bool) :
    ∃ r, panels fallback nFallback ds truths n p inv = .ok r ∧ r.1.length = n ∧ (r.2 = (if n % 2 = 0 then inv else !inv)) ∧
      ∀ q P, r.1[q]? = some P → P.truth = (truths.bind fun t => t[p + q]?) ∧ ∀ b, b ∈ P.bars ↔ Belongs fallback nFallback ds (p + q) b := by
  induction n generalizing p inv with
  | zero => exact ⟨([], inv), rfl, rfl, rfl, by simp⟩
  | succ n ih =>
    obtain ⟨l, hl, hm⟩ := bars_ok fallback nFallback p ds hn 0
    obtain ⟨r, hr, h1, h2, h3⟩ := ih (p + 1) (!inv)
    refine ⟨(⟨l, truths.bind fun t => t[p]?⟩ :: r.1, r.2), ?_, by simp [h1], ?_, ?_⟩
    · unfold panels
      rw [hl]
      dsimp only
      rw [hr]
      cases truths <;> rfl
    · dsimp only
      rw [h2]
      rcases Nat.mod_two_eq_zero_or_one n with h | h
      · rw [if_pos h, if_neg (by omega)]
      · rw [if_neg (by omega), if_pos (by omega), Bool.not_not]
    · intro q P hq
      cases q with
      | zero =>
        rw [List.getElem?_cons_zero] at hq
        cases hq
        refine ⟨rfl, fun b => ?_⟩
        dsimp only
        rw [hm]
        unfold Belongs
        constructor
        · rintro ⟨j, hj, d, ci, e1, e2⟩
          exact ⟨d, ci, by rw [hj, Nat.zero_add]; exact e1, e2⟩
        · rintro ⟨d, ci, e1, e2⟩
          exact ⟨b.row, by omega, d, ci, e1, e2⟩
      | succ q =>
        rw [List.getElem?_cons_succ] at hq
        have := h3 q P hq
        rwa [show p + 1 + q = p + (q + 1) by omega] at this

theorem forest_ok (fallback : ℕ → C) (nFallback : ℕ) (ds : List (Dist K C)) (hn : ∀ d ∈ ds, ∀ c ∈ d.cis, Nested c) (truths : Option (List K)) {m : ℕ}
    (hm : IsMost ds m) (h0 : 0 < m) :
    ∃ f, plotForest fallback nFallback ds truths = .ok f ∧ f.panels.length = m ∧ f.rows = ds.map (·.name) ∧ (f.inverted = decide (m % 2 = 1)) ∧
      ∀ p P, f.panels[p]? = some P → P.truth = (truths.bind fun t => t[p]?) ∧ ∀ b, b ∈ P.bars ↔ Belongs fallback nFallback ds p b := by
  obtain ⟨⟨d0, hd0, hl0⟩, hle⟩ := hm
  cases ds with
  | nil => cases hd0
  | cons d ds =>
    have hmax : (ds.map fun d => d.cis.length).foldl max d.cis.length = m := by
      obtain ⟨a, b⟩ := foldl_max d.cis.length (ds.map fun d => d.cis.length)
      refine le_antisymm ?_ ?_
      · rw [← List.map_cons (f := fun d : Dist K C => d.cis.length)] at a
        obtain ⟨x, hx, he⟩ := List.mem_map.1 a
        rw [← he]
        exact hle x hx
      · rw [← hl0]
        refine b _ ?_
        rw [← List.map_cons (f := fun d : Dist K C => d.cis.length)]
        exact List.mem_map.2 ⟨d0, hd0, rfl⟩
    obtain ⟨r, hr, h1, h2, h3⟩ := panels_ok fallback nFallback (d :: ds) hn truths m 0 false
    refine ⟨⟨r.1, (d :: ds).map (·.name), r.2⟩, ?_, h1, rfl, ?_, fun p P hp => ?_⟩
    · unfold plotForest
      rw [List.map_cons]
      dsimp only
      rw [hmax, if_neg h0.ne', hr]
    · dsimp only
      rw [h2]
      rcases Nat.mod_two_eq_zero_or_one m with h | h <;> simp [h]
    · have := h3 p P hp
      rwa [Nat.zero_add] at this

/-! ## C221 -/

/-- **C221** (partial).  There is one panel for each parameter of the distribution with most of them; it shows, in the row with the label of the distribution and in one colour for all panels,
the outer and the inner interval of every distribution that has the parameter, and nothing else but the true value if there is one; the first distribution is on top if the number of
parameters is odd.  Missing: even numbers (`C221_false`). -/
theorem C221_partial (fallback : ℕ → C) (nFallback : ℕ) (ds : List (Dist K C)) (hn : ∀ d ∈ ds, ∀ c ∈ d.cis, Nested c) (truths : Option (List K)) {m : ℕ}
    (hm : IsMost ds m) (h0 : 0 < m) :
    ∃ f, plotForest fallback nFallback ds truths = .ok f ∧ f.panels.length = m ∧ f.rows = ds.map (·.name) ∧ (m % 2 = 1 → FirstOnTop f) ∧
      ∀ p P, f.panels[p]? = some P → P.truth = (truths.bind fun t => t[p]?) ∧ ∀ b, b ∈ P.bars ↔ Belongs fallback nFallback ds p b := by
  obtain ⟨f, h1, h2, h3, h4, h5⟩ := forest_ok fallback nFallback ds hn truths hm h0
  exact ⟨f, h1, h2, h3, fun h => by unfold FirstOnTop; rw [h4]; simpa using h, h5⟩

/-- With an even number of parameters the first distribution is at the bottom: the axis that all panels share is inverted once for each of them. -/
theorem C221_false (fallback : ℕ → C) (nFallback : ℕ) (ds : List (Dist K C)) (hn : ∀ d ∈ ds, ∀ c ∈ d.cis, Nested c) (truths : Option (List K)) {m : ℕ}
    (hm : IsMost ds m) (h0 : 0 < m) (he : m % 2 = 0) : ∃ f, plotForest fallback nFallback ds truths = .ok f ∧ ¬ FirstOnTop f := by
  obtain ⟨f, h1, -, -, h4, -⟩ := forest_ok fallback nFallback ds hn truths hm h0
  exact ⟨f, h1, by unfold FirstOnTop; rw [h4]; simp [he]⟩

/-- Two parameters of one distribution and one of another. -/
def sample : List (Dist ℚ String) := [⟨"a", [⟨3, 2, 4, 1, 6⟩, ⟨0, -1, 1, -2, 3⟩], none⟩, ⟨"b", [⟨5, 4, 6, 3, 7⟩], some "k"⟩]

example : (∀ d ∈ sample, ∀ c ∈ d.cis, Nested c) ∧ IsMost sample 2 ∧ IsMost (sample.drop 1) 1 := by
  refine ⟨?_, ⟨⟨_, List.mem_cons_self, rfl⟩, by decide⟩, ⟨_, List.mem_cons_self, rfl⟩, by decide⟩
  unfold Nested
  decide +kernel

/-- Without distributions, and if a median is outside of an interval, the plot raises. -/
theorem C221_raises (fallback : ℕ → C) (nFallback : ℕ) (truths : Option (List K)) :
    plotForest fallback nFallback ([] : List (Dist K C)) truths = .error "ValueError: max" ∧
    ∀ (ds : List (Dist K C)) (d : Dist K C) (c : Interval K), d.cis[0]? = some c → c.median < c.lo2 ∨ c.hi2 < c.median →
      plotForest fallback nFallback (d :: ds) truths = .error "ValueError: negative values" := by
  refine ⟨rfl, fun ds d c hc h => ?_⟩
  have hb : bars fallback nFallback 0 0 (d :: ds) = .error "ValueError: negative values" := by
    unfold bars
    rw [hc]
    dsimp only
    unfold errorbar
    rw [if_pos (h.imp sub_neg.2 sub_neg.2)]
  obtain ⟨-, hle⟩ := foldl_max d.cis.length (ds.map fun d => d.cis.length)
  have hpos : (ds.map fun d => d.cis.length).foldl max d.cis.length ≠ 0 := by
    have h1 := hle d.cis.length (by simp)
    have h2 : 0 < d.cis.length := by
      by_contra h
      rw [List.getElem?_eq_none (by omega)] at hc
      cases hc
    omega
  obtain ⟨n, hn⟩ := Nat.exists_eq_succ_of_ne_zero hpos
  unfold plotForest
  rw [List.map_cons]
  dsimp only
  rw [hn, if_neg (by omega)]
  unfold panels
  rw [hb]

example : plotForest (fun i => i) 3 [⟨"a", [⟨5, 1, 2, 0, 3⟩], none⟩] (none : Option (List ℚ)) = .error "ValueError: negative values" :=
  (C221_raises _ _ _).2 _ _ ⟨5, 1, 2, 0, 3⟩ rfl (by norm_num)

end Verif.Forest
