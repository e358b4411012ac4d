import Verif.Model.Plots
import Mathlib.Data.Rat.Defs
import Mathlib.Tactic.Ring.Basic
/-!
# Arguments of plots (C220)
-/

namespace Verif.Plots

/-! ## Specification -/

/-- The value of a keyword argument. -/
def Gives {V : Type} (kw : List (String × V)) (name : String) (v : V) : Prop := (name, v) ∈ kw ∧ ∀ w, (name, w) ∈ kw → w = v

/-- The caller gives the argument. -/
def Given {V : Type} (kw : List (String × V)) (name : String) : Prop := ∃ v, (name, v) ∈ kw

/-! ## Lemmas -/

theorem has_iff {V : Type} {kw : List (String × V)} {name : String} : has kw name = true ↔ Given kw name := by
  unfold has Given
  rw [List.any_eq_true]
  constructor
  · rintro ⟨p, hp, h⟩
    exact ⟨p.2, by rw [← eq_of_beq h]; exact hp⟩
  · rintro ⟨v, hv⟩
    exact ⟨_, hv, by simp⟩

theorem mem_set {V : Type} {kw : List (String × V)} {name n : String} {v w : V} : (n, w) ∈ set kw name v ↔ (n ≠ name ∧ (n, w) ∈ kw) ∨ (n = name ∧ w = v) := by
  unfold set
  rw [List.mem_append, List.mem_filter, List.mem_singleton, Prod.mk.injEq]
  simp [and_comm]

theorem given_set {V : Type} {kw : List (String × V)} {name n : String} {v : V} (h : n ≠ name) : Given (set kw name v) n ↔ Given kw n := by
  unfold Given
  simp [mem_set, h]

/-! ## C220 -/

-- What a call of `plot_hist` passes on. -/
open Classical in
theorem hist_ok {V : Type} (linspace thirty step black : V) (xfrac : Bool) (logscale : V) (kw : List (String × V)) (hlog : ¬ Given kw "log") :
    ∃ r, histArgs linspace thirty step black xfrac logscale kw = .ok r ∧ ∀ n w, (n, w) ∈ r ↔
      if n = "bins" then w = (if xfrac = true ∧ ¬ Given kw "bins" then linspace else thirty)
      else if n = "log" then w = logscale
      else (n, w) ∈ kw ∨ (¬ Given kw n ∧ ((n = "histtype" ∧ w = step) ∨ (n = "color" ∧ w = black))) := by
  let b := if xfrac = true ∧ ¬ Given kw "bins" then linspace else thirty
  let kw1 := set kw "bins" b
  have hk1 : (if (xfrac && !has kw "bins") = true then set kw "bins" linspace else set kw "bins" thirty) = kw1 := by
    by_cases h : xfrac = true ∧ ¬ Given kw "bins"
    · rw [if_pos (by simpa [← has_iff] using h)]
      simp only [kw1, b, if_pos h]
    · rw [if_neg (by simpa [← has_iff] using h)]
      simp only [kw1, b, if_neg h]
  let kw2 := if (!has kw1 "histtype") = true then set kw1 "histtype" step else kw1
  let kw3 := if (!has kw2 "color") = true then set kw2 "color" black else kw2
  have h1 : ∀ n w, (n, w) ∈ kw1 ↔ (n ≠ "bins" ∧ (n, w) ∈ kw) ∨ (n = "bins" ∧ w = b) := fun n w => mem_set
  have g1 : ∀ n, n ≠ "bins" → (has kw1 n = true ↔ Given kw n) := fun n hn => has_iff.trans (given_set hn)
  have h2 : ∀ n w, (n, w) ∈ kw2 ↔ (n, w) ∈ kw1 ∨ (n = "histtype" ∧ ¬ Given kw "histtype" ∧ w = step) := by
    intro n w
    by_cases hg : Given kw "histtype"
    · have : kw2 = kw1 := if_neg (by simp [(g1 "histtype" (by decide)).2 hg])
      rw [this]
      simp [hg]
    · have hh : has kw1 "histtype" = false := by
        rw [← Bool.not_eq_true, g1 _ (by decide)]
        exact hg
      have : kw2 = set kw1 "histtype" step := if_pos (by simp [hh])
      rw [this, mem_set]
      have hno : ∀ w, ("histtype", w) ∉ kw1 := fun w hw => by
        have := has_iff.2 ⟨w, hw⟩
        rw [hh] at this
        cases this
      by_cases hn : n = "histtype"
      · subst hn
        simp [hg, hno]
      · simp [hn]
  have g2 : has kw2 "color" = true ↔ Given kw "color" := by
    rw [has_iff]
    unfold Given
    simp only [h2, h1]
    simp
  have h3 : ∀ n w, (n, w) ∈ kw3 ↔ (n, w) ∈ kw2 ∨ (n = "color" ∧ ¬ Given kw "color" ∧ w = black) := by
    intro n w
    by_cases hg : Given kw "color"
    · have : kw3 = kw2 := if_neg (by simp [g2.2 hg])
      rw [this]
      simp [hg]
    · have hh : has kw2 "color" = false := by
        rw [← Bool.not_eq_true, g2]
        exact hg
      have : kw3 = set kw2 "color" black := if_pos (by simp [hh])
      rw [this, mem_set]
      have hno : ∀ w, ("color", w) ∉ kw2 := fun w hw => by
        have := has_iff.2 ⟨w, hw⟩
        rw [hh] at this
        cases this
      by_cases hn : n = "color"
      · subst hn
        simp [hg, hno]
      · simp [hn]
  have hl : has kw3 "log" = false := by
    rw [← Bool.not_eq_true, has_iff]
    rintro ⟨w, hw⟩
    rw [h3, h2, h1] at hw
    simp at hw
    exact hlog ⟨w, hw⟩
  refine ⟨("log", logscale) :: kw3, ?_, fun n w => ?_⟩
  · unfold histArgs
    dsimp only
    rw [hk1]
    show call "log" logscale kw3 = _
    unfold call
    rw [hl]
    rfl
  · rw [List.mem_cons, h3, h2, h1, Prod.mk.injEq]
    by_cases hb : n = "bins"
    · subst hb
      simp [b]
    · by_cases hlg : n = "log"
      · subst hlg
        have : ("log", w) ∉ kw := fun h => hlog ⟨w, h⟩
        simp [this]
      · simp only [hlg, hb, if_false, false_and, false_or, not_false_eq_true, ne_eq, true_and, or_false]
        constructor
        · rintro ((h | ⟨rfl, h, h'⟩) | ⟨rfl, h, h'⟩)
          · exact .inl h
          · exact .inr ⟨h, .inl ⟨rfl, h'⟩⟩
          · exact .inr ⟨h, .inr ⟨rfl, h'⟩⟩
        · rintro (h | ⟨h, ⟨rfl, h'⟩ | ⟨rfl, h'⟩⟩)
          · exact .inl (.inl h)
          · exact .inl (.inr ⟨rfl, h, h'⟩)
          · exact .inr ⟨rfl, h, h'⟩

/-- **C220** (partial).  All keyword arguments of `plot_hist` other than `bins` are passed on; the style and the colour have values of their own only if the caller gives none, and the scale is that of
`logscale`; of ionised fractions the bins are between 0 and 1 if the caller gives none.  Missing: bins that the caller gives (`C220_false`). -/
theorem C220_partial {V : Type} (linspace thirty step black : V) (xfrac : Bool) (logscale : V) (kw : List (String × V)) (hlog : ¬ Given kw "log") :
    ∃ r, histArgs linspace thirty step black xfrac logscale kw = .ok r ∧ Gives r "log" logscale ∧
      (∀ n v, n ≠ "bins" → Gives kw n v → Gives r n v) ∧ (¬ Given kw "histtype" → Gives r "histtype" step) ∧ (¬ Given kw "color" → Gives r "color" black) ∧
      (¬ Given kw "bins" → Gives r "bins" (if xfrac then linspace else thirty)) ∧
      ∀ n, Given r n → Given kw n ∨ n ∈ ["log", "bins", "histtype", "color"] := by
  obtain ⟨r, hr, h⟩ := hist_ok linspace thirty step black xfrac logscale kw hlog
  refine ⟨r, hr, ?_, ?_, ?_, ?_, ?_, ?_⟩
  · exact ⟨(h _ _).2 (by simp), fun w hw => by simpa using (h _ _).1 hw⟩
  · intro n v hn ⟨h1, h2⟩
    have hl : n ≠ "log" := by
      rintro rfl
      exact hlog ⟨v, h1⟩
    have hg : Given kw n := ⟨v, h1⟩
    refine ⟨(h _ _).2 (by simp [hn, hl, h1]), fun w hw => h2 w ?_⟩
    have := (h _ _).1 hw
    simpa [hn, hl, hg] using this
  · intro hg
    have hno : ∀ w, ("histtype", w) ∉ kw := fun w hw => hg ⟨w, hw⟩
    exact ⟨(h _ _).2 (by simp [hg]), fun w hw => by simpa [hg, hno] using (h _ _).1 hw⟩
  · intro hg
    have hno : ∀ w, ("color", w) ∉ kw := fun w hw => hg ⟨w, hw⟩
    exact ⟨(h _ _).2 (by simp [hg]), fun w hw => by simpa [hg, hno] using (h _ _).1 hw⟩
  · intro hg
    exact ⟨(h _ _).2 (by simp [hg]), fun w hw => by simpa [hg] using (h _ _).1 hw⟩
  · rintro n ⟨w, hw⟩
    have := (h _ _).1 hw
    by_cases hb : n = "bins"
    · simp [hb]
    · by_cases hl : n = "log"
      · simp [hl]
      · rw [if_neg hb, if_neg hl] at this
        rcases this with h | ⟨-, ⟨h, -⟩ | ⟨h, -⟩⟩
        · exact .inl ⟨w, h⟩
        · simp [h]
        · simp [h]

example : Gives [("bins", 10), ("lw", 2)] "lw" 2 ∧ ¬ Given [("bins", 10), ("lw", 2)] "log" := by
  unfold Gives Given
  simp

/-- Bins that the caller gives are never used: the number of bins is 30 for all data. -/
theorem C220_false {V : Type} (linspace thirty step black : V) (xfrac : Bool) (logscale : V) (kw : List (String × V)) (hlog : ¬ Given kw "log") (b : V)
    (hb : Gives kw "bins" b) : ∃ r, histArgs linspace thirty step black xfrac logscale kw = .ok r ∧ Gives r "bins" thirty := by
  obtain ⟨r, hr, h⟩ := hist_ok linspace thirty step black xfrac logscale kw hlog
  have hg : Given kw "bins" := ⟨b, hb.1⟩
  exact ⟨r, hr, (h _ _).2 (by simp [hg]), fun w hw => by simpa [hg] using (h _ _).1 hw⟩

/-- The cell of the slice `k` along `axis` at row `i` and column `j`, the other axes being in their order. -/
def cellOf (axis : ℤ) (k i j : ℕ) : ℕ × ℕ × ℕ := if axis = 0 then (k, i, j) else if axis = 1 then (i, k, j) else (i, j, k)

/-- The number of cells along an axis. -/
def cellsAlong {K : Type} (data : Cube K) (axis : ℤ) : ℕ := if axis = 0 then data.nx else if axis = 1 then data.ny else data.nz

/-- `plot_slice` shows the cells of the slice, or their logarithms, for each of the three axes; a negative number counts from the end; all keyword arguments are passed on. -/
theorem C220_slice {K V : Type} (log10 : K → K) (ext : V) (data : Cube K) {axis : ℤ} (ha : 0 ≤ axis ∧ axis ≤ 2) {num : ℤ}
    (hn : -(cellsAlong data axis : ℤ) ≤ num ∧ num < cellsAlong data axis) (logscale : Bool) (kw : List (String × V)) (he : ¬ Given kw "extent") :
    ∃ im args, plotSlice log10 ext data axis num logscale kw = .ok (im, args) ∧ Gives args "extent" ext ∧ (∀ n v, Gives kw n v → Gives args n v) ∧
      ∃ k : ℕ, (k : ℤ) = num % cellsAlong data axis ∧ k < cellsAlong data axis ∧
        ∀ i j, im.2.2 i j = (let v := data.val (cellOf axis k i j).1 (cellOf axis k i j).2.1 (cellOf axis k i j).2.2; if logscale then log10 v else v) := by
  have hidx : ∀ (n : ℕ) (i : ℤ), -(n : ℤ) ≤ i ∧ i < n → ∃ k : ℕ, index n i = .ok k ∧ (k : ℤ) = i % n ∧ k < n := by
    intro n i hi
    unfold index
    by_cases h0 : 0 ≤ i
    · rw [if_pos ⟨h0, hi.2⟩]
      refine ⟨i.toNat, rfl, ?_, by omega⟩
      rw [Int.emod_eq_of_lt h0 hi.2]
      omega
    · rw [if_neg (by omega), if_pos (by omega)]
      refine ⟨(n + i).toNat, rfl, ?_, by omega⟩
      rw [← Int.add_emod_left (n : ℤ) i, Int.emod_eq_of_lt (by omega) (by omega)]
      omega
  obtain ⟨k, h1, h2, h3⟩ := hidx _ _ hn
  have hcall : call "extent" ext kw = .ok (("extent", ext) :: kw) := by
    unfold call
    rw [if_neg (by rw [has_iff]; exact he)]
  have hg1 : Gives (("extent", ext) :: kw) "extent" ext := by
    refine ⟨by simp, fun w hw => ?_⟩
    rcases List.mem_cons.1 hw with h | h
    · exact congrArg Prod.snd h
    · exact absurd ⟨w, h⟩ he
  have hg2 : ∀ n v, Gives kw n v → Gives (("extent", ext) :: kw) n v := by
    intro n v ⟨hv, hu⟩
    refine ⟨List.mem_cons_of_mem _ hv, fun w hw => ?_⟩
    rcases List.mem_cons.1 hw with h | h
    · have : n = "extent" := congrArg Prod.fst h
      exact absurd ⟨v, this ▸ hv⟩ he
    · exact hu w h
  have hax : axis = 0 ∨ axis = 1 ∨ axis = 2 := by omega
  rcases hax with rfl | rfl | rfl
  · refine ⟨(data.ny, data.nz, fun i j => (if logscale then log10 else id) (data.val k i j)), _, ?_, hg1, hg2, k, h2, h3, fun i j => ?_⟩
    · have h1' : index data.nx num = .ok k := h1
      unfold plotSlice image
      simp only [if_true, h1', hcall]
    · cases logscale <;> rfl
  · refine ⟨(data.nx, data.nz, fun i j => (if logscale then log10 else id) (data.val i k j)), _, ?_, hg1, hg2, k, h2, h3, fun i j => ?_⟩
    · have h1' : index data.ny num = .ok k := h1
      unfold plotSlice image
      simp only [one_ne_zero, if_false, if_true, h1', hcall]
    · cases logscale <;> rfl
  · refine ⟨(data.nx, data.ny, fun i j => (if logscale then log10 else id) (data.val i j k)), _, ?_, hg1, hg2, k, h2, h3, fun i j => ?_⟩
    · have h1' : index data.nz num = .ok k := h1
      unfold plotSlice image
      simp only [show (2 : ℤ) ≠ 0 by decide, show (2 : ℤ) ≠ 1 by decide, if_false, if_true, h1', hcall]
    · cases logscale <;> rfl

example : let data : Cube ℚ := ⟨4, 2, 3, fun i j k => i + 10 * j + 100 * k⟩;
    -(cellsAlong data 1 : ℤ) ≤ -1 ∧ (-1 : ℤ) < cellsAlong data 1 ∧ ¬ Given [("cmap", "hot")] "extent" := by
  refine ⟨by decide, by decide, ?_⟩
  unfold Given
  simp

/-- Other axes, slices outside of the cube and an `extent` of the caller raise; so does `log` for `plot_hist`. -/
theorem C220_raises {K V : Type} (log10 : K → K) (ext linspace thirty step black : V) (data : Cube K) (axis num : ℤ) (logscale : Bool) (kw : List (String × V)) :
    (axis < 0 ∨ 2 < axis → plotSlice log10 ext data axis num logscale kw = .error "AssertionError") ∧
    (0 ≤ axis ∧ axis ≤ 2 → num < -(cellsAlong data axis : ℤ) ∨ (cellsAlong data axis : ℤ) ≤ num →
      plotSlice log10 ext data axis num logscale kw = .error "IndexError") ∧
    (Given kw "extent" → ∃ e, plotSlice log10 ext data axis num logscale kw = .error e) ∧
    ∀ (xfrac : Bool) (l : V), Given kw "log" → histArgs linspace thirty step black xfrac l kw = .error "TypeError: multiple values" := by
  refine ⟨fun h => ?_, fun ha h => ?_, fun h => ?_, fun xfrac l h => ?_⟩
  · unfold plotSlice image
    simp only [show axis ≠ 0 by omega, show axis ≠ 1 by omega, show axis ≠ 2 by omega, if_false]
  · have hidx : ∀ n : ℕ, num < -(n : ℤ) ∨ (n : ℤ) ≤ num → index n num = .error "IndexError" := by
      intro n hn
      unfold index
      rw [if_neg (by omega), if_neg (by omega)]
    have hax : axis = 0 ∨ axis = 1 ∨ axis = 2 := by omega
    rcases hax with rfl | rfl | rfl
    · simp only [plotSlice, image, if_true, hidx data.nx h]
    · simp only [plotSlice, image, one_ne_zero, if_false, if_true, hidx data.ny h]
    · simp only [plotSlice, image, show (2 : ℤ) ≠ 0 by decide, show (2 : ℤ) ≠ 1 by decide, if_false, if_true, hidx data.nz h]
  · have : call "extent" ext kw = .error "TypeError: multiple values" := if_pos (has_iff.2 h)
    unfold plotSlice
    split
    · exact ⟨_, rfl⟩
    · rw [this]
      exact ⟨_, rfl⟩
  · unfold histArgs
    dsimp only
    have hs : ∀ (k : List (String × V)) (n : String) (v : V), n ≠ "log" → Given k "log" → Given (set k n v) "log" := fun k n v hn hk => (given_set hn.symm).2 hk
    have h1 : ∀ b : Bool, Given (if b then set kw "bins" linspace else set kw "bins" thirty) "log" := fun b => by
      cases b <;> exact hs _ _ _ (by decide) h
    have h2 : ∀ (k : List (String × V)) (n : String) (v : V) (b : Bool), n ≠ "log" → Given k "log" → Given (if b then set k n v else k) "log" := fun k n v b hn hk => by
      cases b
      · exact hk
      · exact hs _ _ _ hn hk
    exact if_pos (has_iff.2 (h2 _ _ _ _ (by decide) (h2 _ _ _ _ (by decide) (h1 _))))

end Verif.Plots
