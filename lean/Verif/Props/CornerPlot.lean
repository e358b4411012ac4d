import Verif.Model.CornerPlot
import Mathlib.Data.List.Sort
import Mathlib.Data.List.Range
/-!
# C243: what a corner plot shows
-/

namespace Verif.CornerPlot

/-! ## Specification -/

/-- The colour of a distribution: its own, or the one of its place among thirty. -/
def HasColour (d : Dist) (i : ℕ) (c : Colour) : Prop := (∃ k, d.colour = some k ∧ c = .own k) ∨ (d.colour = none ∧ c = .fallback (i % 30))

/-- The drawing shows the distribution at place `i`: over its own parameters, in its colour. -/
def Shows (l : List Dist) (x : Drawn) : Prop := ∃ d, l[x.place]? = some d ∧ x.panels = d.params ∧ HasColour d x.place x.colour

/-- The figure shows every distribution once, and the legend lists them in the order in which they were added, in their colours. -/
def Complete (l : List Dist) (f : Figure) : Prop :=
  (f.drawn.map Drawn.place).Perm (List.range l.length) ∧ (∀ x ∈ f.drawn, Shows l x) ∧
    f.legend.length = l.length ∧ ∀ i d, l[i]? = some d → ∃ c, f.legend[i]? = some (d.name, c) ∧ HasColour d i c

/-- `m` is the largest number of parameters. -/
def Largest (l : List Dist) (m : ℕ) : Prop := (∃ d ∈ l, d.params = m) ∧ ∀ d ∈ l, d.params ≤ m

/-! ## Lemmas -/

theorem hasColour (d : Dist) (i : ℕ) : HasColour d i (colourOf d i) := by
  unfold HasColour colourOf
  cases d.colour with
  | none => exact .inr ⟨rfl, rfl⟩
  | some k => exact .inl ⟨k, rfl, rfl⟩

theorem foldl_max (l : List Dist) (a : ℕ) : a ≤ l.foldl (fun m d => max m d.params) a ∧ (∀ d ∈ l, d.params ≤ l.foldl (fun m d => max m d.params) a) ∧
    (l.foldl (fun m d => max m d.params) a = a ∨ ∃ d ∈ l, d.params = l.foldl (fun m d => max m d.params) a) := by
  induction l generalizing a with
  | nil => simp
  | cons e l ih =>
    obtain ⟨h1, h2, h3⟩ := ih (max a e.params)
    rw [List.foldl_cons]
    refine ⟨le_trans (le_max_left _ _) h1, fun d hd => ?_, ?_⟩
    · rcases List.mem_cons.1 hd with rfl | hd
      · exact le_trans (le_max_right _ _) h1
      · exact h2 d hd
    · rcases h3 with h3 | ⟨d, hd, h3⟩
      · rcases le_total a e.params with h | h
        · right
          exact ⟨e, by simp, by rw [h3, max_eq_right h]⟩
        · left
          rw [h3, max_eq_left h]
      · right
        exact ⟨d, by simp [hd], h3⟩

theorem largest {l : List Dist} (h : l ≠ []) : Largest l (maxParams l) := by
  obtain ⟨h1, h2, h3⟩ := foldl_max l 0
  refine ⟨?_, h2⟩
  rcases h3 with h3 | h3
  · obtain ⟨d, t, rfl⟩ := List.exists_cons_of_ne_nil h
    refine ⟨d, by simp, ?_⟩
    have := h2 d (by simp)
    unfold maxParams
    omega
  · exact h3

theorem largest_unique {l : List Dist} {m n : ℕ} (h : Largest l m) (h' : Largest l n) : m = n := by
  obtain ⟨⟨d, hd, rfl⟩, h1⟩ := h
  obtain ⟨⟨e, he, rfl⟩, h2⟩ := h'
  exact le_antisymm (h2 d hd) (h1 e he)

theorem ordered_perm (l : List Dist) : (ordered l).Perm l.zipIdx := List.mergeSort_perm _ _

theorem ordered_sorted (l : List Dist) : (ordered l).Pairwise fun a b => b.1.params ≤ a.1.params := by
  have := List.pairwise_mergeSort (le := fun a b : Dist × ℕ => decide (b.1.params ≤ a.1.params))
    (fun a b c h1 h2 => by simp only [decide_eq_true_eq] at *; exact h2.trans h1)
    (fun a b => by simp only [Bool.or_eq_true, decide_eq_true_eq]; exact le_total _ _) l.zipIdx
  exact this.imp fun h => by simpa using h

/-- What the loop draws for one distribution. -/
def drawn (m : ℕ) (override : Option ℕ) (p : Dist × ℕ) : Drawn :=
  ⟨p.2, p.1.params, if p.1.params = m then (override.map Colour.own).getD (colourOf p.1 p.2) else colourOf p.1 p.2⟩

theorem drawAll_true (m : ℕ) (o : Option ℕ) (l : List (Dist × ℕ)) : drawAll m o true l = .ok (l.map (drawn m o)) := by
  induction l with
  | nil => rfl
  | cons p l ih =>
    obtain ⟨d, i⟩ := p
    rw [drawAll, List.map_cons]
    by_cases h : d.params = m
    · rw [if_pos h, ih]
      simp [Except.map, drawn, h]
    · rw [if_neg h, if_pos rfl, ih]
      simp [Except.map, drawn, h]

theorem drawAll_ordered {l : List Dist} (h : l ≠ []) (o : Option ℕ) :
    drawAll (maxParams l) o false (ordered l) = .ok ((ordered l).map (drawn (maxParams l) o)) := by
  obtain ⟨⟨d, hd, hdm⟩, hle⟩ := largest h
  have hp := ordered_perm l
  have hs := ordered_sorted l
  cases e : ordered l with
  | nil =>
    rw [e] at hp
    have := hp.length_eq
    simp at this
    exact absurd (List.length_eq_zero_iff.1 this.symm) h
  | cons p t =>
    obtain ⟨d', i⟩ := p
    have hfirst : d'.params = maxParams l := by
      refine le_antisymm (hle d' ?_) ?_
      · have : (d', i) ∈ l.zipIdx := hp.mem_iff.1 (by rw [e]; simp)
        exact (List.mem_zipIdx this).2.2 ▸ List.getElem_mem _
      · obtain ⟨j, hj, rfl⟩ := List.mem_iff_getElem.1 hd
        have hm : (l[j], j) ∈ ordered l := hp.mem_iff.2 (by rw [List.mem_zipIdx_iff_getElem?]; simp [hj])
        rw [← hdm]
        rw [e] at hm hs
        rcases List.mem_cons.1 hm with h' | h'
        · rw [Prod.mk.injEq] at h'
          rw [h'.1]
        · exact List.rel_of_pairwise_cons hs h'
    rw [drawAll, if_pos hfirst, drawAll_true, List.map_cons]
    simp [Except.map, drawn, hfirst]

theorem handles_eq (l : List Dist) : handles (ordered l) = l.zipIdx.map fun p => (p.1.name, colourOf p.1 p.2) := by
  unfold handles
  have key : ((ordered l).map fun p => (p.2, (p.1.name, colourOf p.1 p.2))).mergeSort (fun a b => decide (a.1 ≤ b.1)) =
      l.zipIdx.map fun p => (p.2, (p.1.name, colourOf p.1 p.2)) := by
    have hperm := (List.mergeSort_perm ((ordered l).map fun p => (p.2, (p.1.name, colourOf p.1 p.2))) (fun a b => decide (a.1 ≤ b.1))).trans
      ((ordered_perm l).map _)
    have hs := List.pairwise_mergeSort (le := fun a b : ℕ × (ℕ × Colour) => decide (a.1 ≤ b.1))
      (fun a b c h1 h2 => by simp only [decide_eq_true_eq] at *; exact h1.trans h2)
      (fun a b => by simp only [Bool.or_eq_true, decide_eq_true_eq]; exact le_total _ _)
      ((ordered l).map fun p => (p.2, (p.1.name, colourOf p.1 p.2)))
    refine hperm.eq_of_pairwise (le := fun a b : ℕ × (ℕ × Colour) => decide (a.1 ≤ b.1) = true) ?_ hs ?_
    · intro a b ha hb h1 h2
      have hab : a.1 = b.1 := by
        simp only [decide_eq_true_eq] at h1 h2
        omega
      have ha' := hperm.mem_iff.1 ha
      obtain ⟨p, hp, rfl⟩ := List.mem_map.1 ha'
      obtain ⟨q, hq, rfl⟩ := List.mem_map.1 hb
      simp only at hab
      rw [List.mem_zipIdx_iff_getElem?] at hp hq
      rw [hab, hq] at hp
      obtain ⟨p1, p2⟩ := p
      obtain ⟨q1, q2⟩ := q
      simp only [Option.some.injEq] at hp hab
      subst hp hab
      rfl
    · rw [List.pairwise_map]
      have : (l.zipIdx.map Prod.snd).Pairwise (· < ·) := by
        rw [List.zipIdx_map_snd]
        exact List.pairwise_lt_range'
      rw [List.pairwise_map] at this
      exact this.imp fun h => by simpa using h.le
  rw [key, List.map_map]
  rfl

theorem legend_spec (l : List Dist) (i : ℕ) (d : Dist) (h : l[i]? = some d) :
    ∃ c, (l.zipIdx.map fun p => (p.1.name, colourOf p.1 p.2))[i]? = some (d.name, c) ∧ HasColour d i c := by
  refine ⟨colourOf d i, ?_, hasColour d i⟩
  simp [h]

theorem complete_of_perm (l : List Dist) (q : List (Dist × ℕ)) (hq : q.Perm l.zipIdx) (f : Dist × ℕ → Drawn)
    (hf : ∀ d i, (f (d, i)).place = i ∧ (f (d, i)).panels = d.params ∧ HasColour d i (f (d, i)).colour) (mk : Option (List ℚ)) :
    Complete l ⟨q.map f, l.zipIdx.map fun p => (p.1.name, colourOf p.1 p.2), mk⟩ := by
  refine ⟨?_, ?_, by simp, legend_spec l⟩
  · rw [List.map_map]
    have : (Drawn.place ∘ f) = Prod.snd := by
      funext p
      exact (hf p.1 p.2).1
    rw [this]
    refine (hq.map _).trans ?_
    rw [List.zipIdx_map_snd, List.range_eq_range']
  · intro x hx
    obtain ⟨⟨d, i⟩, hp, rfl⟩ := List.mem_map.1 hx
    have hm := hq.mem_iff.1 hp
    rw [List.mem_zipIdx_iff_getElem?] at hm
    obtain ⟨h1, h2, h3⟩ := hf d i
    exact ⟨d, by rw [h1]; exact hm, h2, h1.symm ▸ h3⟩

/-! ## C243 -/

/-- **C243** (partial), `corner`: for at least one distribution, no keyword `color`, and true values that are absent or a list of at least as many values as
the largest number of parameters, every distribution is drawn once, over its parameters and in its colour, the legend agrees, and the true values of the
parameters are marked.  Missing: arrays of true values, shorter lists and the keyword `color` (`C243_false`, `C243_short`, `C243_colour`). -/
theorem C243_partial (l : List Dist) (h : l ≠ []) (m : ℕ) (hm : Largest l m) (truth : Option (List ℚ)) (ht : ∀ t, truth = some t → t ≠ [] ∧ m ≤ t.length) :
    ∃ f, plotCorner .corner l (truth.elim .absent .list) none = .ok (some f) ∧ Complete l f ∧ f.marked = truth.map (List.take m) := by
  obtain rfl := largest_unique (largest h) hm
  have hmark : marks (maxParams l) (truth.elim .absent .list) = .ok (truth.map (List.take (maxParams l))) := by
    cases truth with
    | none => rfl
    | some t =>
      obtain ⟨h1, h2⟩ := ht t rfl
      show (if t = [] then .ok none else overplot (maxParams l) t) = _
      rw [if_neg h1]
      unfold overplot
      rw [if_pos (by rw [List.length_take]; omega)]
      rfl
  refine ⟨⟨(ordered l).map (drawn (maxParams l) none), handles (ordered l), truth.map (List.take (maxParams l))⟩, ?_, ?_, rfl⟩
  · unfold plotCorner
    rw [if_neg h]
    show (cornerBackend l _ none).map some = _
    unfold cornerBackend
    rw [drawAll_ordered h, hmark]
    rfl
  · rw [handles_eq]
    refine complete_of_perm l _ (ordered_perm l) _ (fun d i => ⟨rfl, rfl, ?_⟩) _
    simp only [drawn, Option.map_none, Option.getD_none, ite_self]
    exact hasColour d i

/-- `getdist`: every distribution, in the order in which they were added, and all true values, whether a list or an array. -/
theorem C243_getdist (l : List Dist) (h : l ≠ []) (t : List ℚ) (o : Option ℕ) :
    ∃ f, plotCorner .getdist l (.list t) o = .ok (some f) ∧ plotCorner .getdist l (.array t) o = .ok (some f) ∧ Complete l f ∧
      f.drawn.map Drawn.place = List.range l.length ∧ f.marked = some t := by
  refine ⟨⟨l.zipIdx.map fun p => ⟨p.2, p.1.params, colourOf p.1 p.2⟩, l.zipIdx.map fun p => (p.1.name, colourOf p.1 p.2), some t⟩, ?_, ?_, ?_, ?_, rfl⟩
  · unfold plotCorner
    rw [if_neg h]
    rfl
  · unfold plotCorner
    rw [if_neg h]
    rfl
  · exact complete_of_perm l _ (.refl _) _ (fun d i => ⟨rfl, rfl, hasColour d i⟩) _
  · rw [List.map_map]
    show l.zipIdx.map Prod.snd = _
    rw [List.zipIdx_map_snd, List.range_eq_range']

theorem corner_marks_error {l : List Dist} (h : l ≠ []) {t : Truth} {e : String} (he : marks (maxParams l) t = .error e) (o : Option ℕ) :
    plotCorner .corner l t o = .error e := by
  unfold plotCorner
  rw [if_neg h]
  show (cornerBackend l t o).map some = _
  unfold cornerBackend
  rw [drawAll_ordered h, he]
  rfl

/-- An array of several true values makes the plot with `corner` fail, whatever the values. -/
theorem C243_false (l : List Dist) (h : l ≠ []) (t : List ℚ) (ht : 2 ≤ t.length) (o : Option ℕ) : ∃ e, plotCorner .corner l (.array t) o = .error e := by
  match t, ht with
  | x :: y :: s, _ => exact ⟨_, corner_marks_error h rfl o⟩

/-- So does a list with fewer true values than the largest number of parameters. -/
theorem C243_short (l : List Dist) (h : l ≠ []) (m : ℕ) (hm : Largest l m) (t : List ℚ) (h0 : t ≠ []) (ht : t.length < m) (o : Option ℕ) :
    ∃ e, plotCorner .corner l (.list t) o = .error e := by
  obtain rfl := largest_unique (largest h) hm
  refine ⟨"ValueError: Provided figure has other axes", corner_marks_error h ?_ o⟩
  show (if t = [] then .ok none else overplot (maxParams l) t) = _
  rw [if_neg h0]
  unfold overplot
  rw [if_neg (by rw [List.length_take]; omega)]

/-- The only parameter with the true value 0, given as an array, is not marked. -/
theorem C243_zero (d : Dist) (o : Option ℕ) : ∃ f, plotCorner .corner [d] (.array [0]) o = .ok (some f) ∧ f.marked = none := by
  refine ⟨⟨(ordered [d]).map (drawn (maxParams [d]) o), handles (ordered [d]), none⟩, ?_, rfl⟩
  unfold plotCorner
  rw [if_neg (by simp)]
  show (cornerBackend [d] _ o).map some = _
  unfold cornerBackend
  rw [drawAll_ordered (by simp)]
  rfl

/-- With the keyword `color` the distributions with the largest number of parameters have this colour, but the legend does not. -/
theorem C243_colour (d : Dist) (k : ℕ) (hk : d.colour ≠ some k) : ∃ f c, plotCorner .corner [d] .absent (some k) = .ok (some f) ∧
    f.drawn = [⟨0, d.params, .own k⟩] ∧ f.legend = [(d.name, c)] ∧ c ≠ .own k := by
  have ho : ordered [d] = [(d, 0)] := by simp [ordered, List.zipIdx]
  refine ⟨⟨(ordered [d]).map (drawn (maxParams [d]) (some k)), handles (ordered [d]), none⟩, colourOf d 0, ?_, ?_, ?_, ?_⟩
  · unfold plotCorner
    rw [if_neg (by simp)]
    show (cornerBackend [d] _ _).map some = _
    unfold cornerBackend
    rw [drawAll_ordered (by simp)]
    rfl
  · rw [ho]
    simp [drawn, maxParams]
  · rw [handles_eq]
    rfl
  · rcases hasColour d 0 with ⟨k', h1, h2⟩ | ⟨-, h2⟩
    · rw [h2]
      intro h
      cases h
      exact hk h1
    · rw [h2]
      simp

/-- Nothing added: an error, for every backend.  Another backend: no figure and no error. -/
theorem C243_none (b : Backend) (t : Truth) (o : Option ℕ) :
    (∃ e, plotCorner b [] t o = .error e) ∧ ∀ l, l ≠ [] → plotCorner .other l t o = .ok none := by
  refine ⟨⟨_, by unfold plotCorner; rw [if_pos rfl]⟩, fun l h => ?_⟩
  unfold plotCorner
  rw [if_neg h]

example : ∃ f, plotCorner .corner [⟨0, 2, none⟩, ⟨1, 3, some 4⟩] (.list [1, 2, 3, 4]) none = .ok (some f) ∧
    Complete [⟨0, 2, none⟩, ⟨1, 3, some 4⟩] f ∧ f.marked = some [1, 2, 3] :=
  C243_partial [⟨0, 2, none⟩, ⟨1, 3, some 4⟩] (by simp) 3 ⟨⟨⟨1, 3, some 4⟩, by simp, rfl⟩, by decide⟩ (some [1, 2, 3, 4])
    (by rintro t ⟨⟩; exact ⟨by simp, by decide⟩)

example : ∃ e, plotCorner .corner [⟨0, 2, none⟩] (.array [1, 2]) none = .error e := C243_false _ (by simp) _ (by decide) _

example : ∃ e, plotCorner .corner [⟨0, 2, none⟩, ⟨1, 3, some 4⟩] (.list [1, 2]) none = .error e :=
  C243_short _ (by simp) 3 ⟨⟨⟨1, 3, some 4⟩, by simp, rfl⟩, by decide⟩ _ (by simp) (by decide) _

end Verif.CornerPlot
