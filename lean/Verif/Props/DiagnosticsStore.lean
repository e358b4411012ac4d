import Verif.Props.DiagnosticsTruth
import Mathlib.Algebra.BigOperators.Fin
import Mathlib.Order.Interval.Finset.Fin

/-!
# The collection of distributions (C151), distributions on grids (C152), tables of chains (C153)
-/

namespace Verif.Diagnostics

/-! ## C151 -/

theorem name_inj {i j : ℕ} (h : "Distribution " ++ toString i = "Distribution " ++ toString j) : i = j := by
  have h1 := congrArg String.toList h
  rw [String.toList_append, String.toList_append, List.append_cancel_left_eq] at h1
  have h2 : Nat.toDigits 10 i = Nat.toDigits 10 j := by
    have e : ∀ n : ℕ, (toString n).toList = Nat.toDigits 10 n := fun n => Nat.toList_repr
    rw [← e, ← e, h1]
  have h3 := congrArg (fun l => Nat.ofDigitChars 10 l 0) h2
  simpa using h3

theorem write_new {β : Type*} {l : List (String × β)} {k : String} (h : ∀ p ∈ l, p.1 ≠ k) (v : β) :
    write l k v = l ++ [(k, v)] := by
  unfold write
  rw [if_neg]
  simpa using fun b hab => h (k, b) hab rfl

/-- Adding distributions one after the other without labels. -/
noncomputable def addMany {d : ℕ} (srt : List ℝ → List ℕ) (tv : Option (List ℝ))
    (l : List (List (Fin d → ℝ) × Option (List ℝ))) : Except Err (List (String × Entry d)) :=
  l.foldlM (fun ds s => addSampled srt tv ds s.1 none s.2) []

theorem addSampled_inv {d : ℕ} {srt : List ℝ → List ℕ} {tv : Option (List ℝ)} {ds ds' : List (String × Entry d)}
    {pts : List (Fin d → ℝ)} {label : Option String} {w : Option (List ℝ)}
    (h : addSampled srt tv ds pts label w = .ok ds') :
    ∃ e : Entry d, ds' = write ds (distributionLabel ds label) e ∧ e.pts = pts ∧
      e.weights = w.getD (List.replicate pts.length 1) ∧ metrics srt tv pts e.weights = .ok e.stats := by
  unfold addSampled at h
  simp only [] at h
  split at h
  · exact absurd h (by simp)
  · rename_i m hm
    simp only [Except.ok.injEq] at h
    refine ⟨_, h.symm, rfl, ?_, ?_⟩
    · cases w with
      | none => simp [List.map_const']
      | some w => rfl
    · exact hm

/-- Distributions added without labels are all kept, in order, under the names "Distribution 1", "Distribution 2", ..., each
with its own samples, weights (one if not given) and summary. -/
theorem C151_partial {d : ℕ} {srt : List ℝ → List ℕ} {tv : Option (List ℝ)}
    {l : List (List (Fin d → ℝ) × Option (List ℝ))} {ds : List (String × Entry d)} (h : addMany srt tv l = .ok ds) :
    ds.length = l.length ∧ ∀ i (hi : i < l.length), ∃ e : Entry d,
      ds[i]? = some ("Distribution " ++ toString (i + 1), e) ∧ e.pts = l[i].1 ∧
        e.weights = l[i].2.getD (List.replicate l[i].1.length 1) ∧ metrics srt tv l[i].1 e.weights = .ok e.stats := by
  induction l using List.reverseRecOn generalizing ds with
  | nil =>
    simp only [addMany, List.foldlM_nil, pure, Except.pure, Except.ok.injEq] at h
    subst h
    exact ⟨rfl, fun i hi => absurd hi (by simp)⟩
  | append_singleton l s ih =>
    unfold addMany at h ih
    rw [List.foldlM_append] at h
    cases hl : l.foldlM (fun ds s => addSampled srt tv ds s.1 none s.2) [] with
    | error e => rw [hl] at h; exact absurd h (by simp [bind, Except.bind])
    | ok d0 =>
      rw [hl] at h
      have hs : addSampled srt tv d0 s.1 none s.2 = .ok ds := by
        cases ha : addSampled srt tv d0 s.1 none s.2 with
        | error e => simp [bind, Except.bind, List.foldlM_cons, pure, Except.pure, ha] at h
        | ok v => simpa [bind, Except.bind, List.foldlM_cons, pure, Except.pure, ha] using h
      obtain ⟨i1, i2⟩ := ih hl
      obtain ⟨e, he, hp, hw, hm⟩ := addSampled_inv hs
      have hnew : ∀ p ∈ d0, p.1 ≠ distributionLabel d0 none := by
        intro p hp hpe
        obtain ⟨i, hi, rfl⟩ := List.mem_iff_getElem.1 hp
        obtain ⟨e, he, -⟩ := i2 i (by omega)
        rw [List.getElem?_eq_getElem hi, Option.some.injEq] at he
        rw [he] at hpe
        have := name_inj hpe
        omega
      rw [write_new hnew] at he
      subst he
      refine ⟨by simp [i1], fun i hi => ?_⟩
      rcases Nat.lt_or_ge i l.length with hlt | hge
      · obtain ⟨e', he', g1, g2, g3⟩ := i2 i hlt
        refine ⟨e', ?_, ?_, ?_, ?_⟩
        · rw [List.getElem?_append_left (by omega), he']
        · rw [List.getElem_append_left hlt]; exact g1
        · rw [List.getElem_append_left hlt]; exact g2
        · rw [List.getElem_append_left hlt]; exact g3
      · have hie : i = l.length := by
          rw [List.length_append] at hi
          simp at hi; omega
        subst hie
        refine ⟨e, ?_, ?_, ?_, ?_⟩
        · rw [List.getElem?_append_right (by omega), ← i1]
          simp [distributionLabel]
        · simpa using hp
        · simpa using hw
        · simpa using hp ▸ hm

/-- With a label that is not in use the distribution is added at the end; with one in use it takes the place of the old one
and the others stay. -/
theorem C151_named {d : ℕ} {srt : List ℝ → List ℕ} {tv : Option (List ℝ)} {ds ds' : List (String × Entry d)}
    {pts : List (Fin d → ℝ)} {label : String} {w : Option (List ℝ)}
    (h : addSampled srt tv ds pts (some label) w = .ok ds') :
    ∃ e : Entry d, e.pts = pts ∧ metrics srt tv pts e.weights = .ok e.stats ∧
      ((∀ p ∈ ds, p.1 ≠ label) → ds' = ds ++ [(label, e)]) ∧
      ((∃ p ∈ ds, p.1 = label) → ds'.length = ds.length ∧ ∀ i (hi : i < ds.length),
        ds'[i]? = some (if ds[i].1 = label then (label, e) else ds[i])) := by
  obtain ⟨e, rfl, hp, -, hm⟩ := addSampled_inv h
  refine ⟨e, hp, hp ▸ hm, fun hn => write_new hn e, fun hex => ?_⟩
  have hw : write ds label e = ds.map fun p => if p.1 = label then (label, e) else p := by
    unfold write
    rw [if_pos]
    simpa using hex
  show (write ds label e).length = ds.length ∧ _
  rw [show distributionLabel ds (some label) = label from rfl, hw]
  refine ⟨by simp, fun i hi => ?_⟩
  rw [List.getElem?_map, List.getElem?_eq_getElem hi]
  rfl

/-- A distribution added without a label can replace one that was given the name "Distribution 2". -/
theorem C151_false (srt : List ℝ → List ℕ) :
    ∃ (ds ds' : List (String × Entry 2)) (e e' : Entry 2),
      addSampled srt none [] [![0, 0], ![1, 1]] (some "Distribution 2") none = .ok ds ∧
      addSampled srt none ds [![5, 5], ![7, 9]] none none = .ok ds' ∧
      ds = [("Distribution 2", e)] ∧ ds' = [("Distribution 2", e')] ∧ e.pts = [![0, 0], ![1, 1]] ∧
      e'.pts = [![5, 5], ![7, 9]] := by
  obtain ⟨m, hm, -⟩ := C147_partial (d := 2) (by norm_num) srt (pts := [![0, 0], ![1, 1]]) (w := [1, 1])
    rfl (by simp) (by norm_num)
  obtain ⟨m', hm', -⟩ := C147_partial (d := 2) (by norm_num) srt (pts := [![5, 5], ![7, 9]]) (w := [1, 1])
    rfl (by simp) (by norm_num)
  refine ⟨_, _, ⟨[![0, 0], ![1, 1]], [1, 1], m⟩, ⟨[![5, 5], ![7, 9]], [1, 1], m'⟩, ?_, ?_, rfl, rfl, rfl, rfl⟩
  · unfold addSampled
    simp only [List.map_cons, List.map_nil]
    rw [hm]
    rfl
  · unfold addSampled
    simp only [List.map_cons, List.map_nil]
    rw [hm']
    simp only []
    congr 1
    have hl : ∀ e : Entry 2, distributionLabel [("Distribution 2", e)] none = "Distribution 2" := fun e => by
      show "Distribution " ++ toString 2 = _
      decide
    rw [hl]
    unfold write
    simp

/-- The labels of the parameters: those given come first, the others are numbered. -/
theorem C151_labels (given : Option (List String)) (n : ℕ) :
    (paramLabels given n).length = max n (given.getD []).length ∧
      (∀ i (hi : i < (given.getD []).length), (paramLabels given n)[i]? = some (given.getD [])[i]) ∧
      ∀ i, (given.getD []).length ≤ i → i < n → (paramLabels given n)[i]? = some ("\\theta_{" ++ toString (i + 1) ++ "}") := by
  cases given with
  | none =>
    refine ⟨by simp [paramLabels], fun i hi => absurd hi (by simp), fun i _ hi => ?_⟩
    simp [paramLabels, List.getElem?_range hi]
  | some l =>
    simp only [paramLabels, Option.getD_some]
    split_ifs with h
    · refine ⟨by simp; omega, fun i hi => ?_, fun i h1 h2 => ?_⟩
      · rw [List.getElem?_append_left hi, List.getElem?_eq_getElem hi]
      · rw [List.getElem?_append_right h1, List.getElem?_map, List.getElem?_range (by omega)]
        simp only [Option.map_some]
        congr 4
        omega
    · refine ⟨by omega, fun i hi => List.getElem?_eq_getElem hi, fun i h1 h2 => by omega⟩

example : ∃ ds, addMany (d := 2) (fun _ => []) none [([![0, 0], ![1, 1]], none), ([![3, 0], ![1, 1]], some [1, 2])] = .ok ds ∧
    ds.map Prod.fst = ["Distribution 1", "Distribution 2"] := by
  obtain ⟨m, hm, -⟩ := C147_partial (d := 2) (by norm_num) (fun _ => []) (pts := [![0, 0], ![1, 1]]) (w := [1, 1])
    rfl (by simp) (by norm_num)
  obtain ⟨m', hm', -⟩ := C147_partial (d := 2) (by norm_num) (fun _ => []) (pts := [![3, 0], ![1, 1]]) (w := [1, 2])
    rfl (by simp) (by norm_num)
  refine ⟨[("Distribution 1", ⟨[![0, 0], ![1, 1]], [1, 1], m⟩), ("Distribution 2", ⟨[![3, 0], ![1, 1]], [1, 2], m'⟩)], ?_, rfl⟩
  simp only [addMany, List.foldlM_cons, List.foldlM_nil, addSampled, List.map_cons, List.map_nil, hm, hm', bind,
    Except.bind, pure, Except.pure]
  have h0 : distributionLabel ([] : List (String × Entry 2)) none = "Distribution 1" := by
    show "Distribution " ++ toString 1 = _
    decide
  have h1 : ∀ e : Entry 2, distributionLabel [("Distribution 1", e)] none = "Distribution 2" := fun e => by
    show "Distribution " ++ toString 2 = _
    decide
  rw [h0, write_new (l := []) (by simp), List.nil_append, h1, write_new (by simp)]
  rfl

/-! ## C152 -/

/-- The indices of a grid with `n` cells along each axis, in the order of the flattened array. -/
def indexEquiv (d n : ℕ) : Fin (n ^ d) ≃ (Fin d → Fin n) :=
  finFunctionFinEquiv.symm.trans (Equiv.arrowCongr Fin.revPerm (Equiv.refl _))

theorem indexEquiv_val {d n : ℕ} (k : Fin (n ^ d)) (p : Fin d) :
    ((indexEquiv d n k p : Fin n) : ℕ) = (k : ℕ) / n ^ (d - 1 - (p : ℕ)) % n := by
  have : d - ((p : ℕ) + 1) = d - 1 - (p : ℕ) := by omega
  show (k : ℕ) / n ^ (((Fin.rev p : Fin d)) : ℕ) % n = _
  rw [Fin.val_rev, this]

theorem stride {d : ℕ} (n : ℕ) (p : Fin d) : ∏ q with p < q, (fun _ : Fin d => n) q = n ^ (d - 1 - (p : ℕ)) := by
  rw [Finset.prod_const]
  congr 1
  have : (Finset.univ.filter fun q => p < q) = Finset.Ioi p := by
    ext q; simp
  rw [this, Fin.card_Ioi]

theorem sum_flat {d n : ℕ} (F : (Fin d → ℕ) → ℝ) :
    ((List.range (n ^ d)).map fun k => F fun p => k / n ^ (d - 1 - (p : ℕ)) % n).sum =
      ∑ i : Fin d → Fin n, F fun p => (i p : ℕ) := by
  have h1 : ((List.range (n ^ d)).map fun k => F fun p => k / n ^ (d - 1 - (p : ℕ)) % n).sum =
      ∑ k ∈ Finset.range (n ^ d), F fun p => k / n ^ (d - 1 - (p : ℕ)) % n := rfl
  rw [h1, Finset.sum_range, ← (indexEquiv d n).sum_comp]
  refine Finset.sum_congr rfl fun k _ => ?_
  simp only [indexEquiv_val]

theorem flatten_cube {d : ℕ} (n : ℕ) (grid : (Fin d → ℕ) → ℝ) :
    flatten (fun _ => n) grid = (List.range (n ^ d)).map fun k => grid fun p => k / n ^ (d - 1 - (p : ℕ)) % n := by
  unfold flatten
  rw [Finset.prod_const, Finset.card_univ, Fintype.card_fin]
  refine List.map_congr_left fun k _ => ?_
  congr 1
  funext p
  rw [stride]

theorem zip_map_range {α β : Type*} (l : List ℕ) (f : ℕ → α) (g : ℕ → β) :
    (l.map f).zip (l.map g) = l.map fun k => (f k, g k) := by
  induction l with
  | nil => rfl
  | cons a l ih => simp [ih]

theorem wsum_grid {d : ℕ} (coords : List ℝ) (grid : (Fin d → ℕ) → ℝ) (f : (Fin d → ℝ) → ℝ) :
    wsum (gridPoints coords d) (flatten (fun _ => coords.length) grid) f =
      ∑ i : Fin d → Fin coords.length, grid (fun p => (i p : ℕ)) * f (fun p => coords.getD (i p : ℕ) 0) := by
  rw [flatten_cube]
  unfold wsum gridPoints
  rw [zip_map_range, List.map_map]
  exact sum_flat (n := coords.length) (fun j => grid j * f (fun p => coords.getD (j p) 0))

theorem addGrid_of {d : ℕ} {srt : List ℝ → List ℕ} {tv : Option (List ℝ)} {coords : List ℝ} {shape : Fin d → ℕ}
    {grid : (Fin d → ℕ) → ℝ} {m : Metrics d} (h : metrics srt tv (gridPoints coords d) (flatten shape grid) = .ok m)
    (label : String) :
    addGrid srt tv coords [] shape grid (some label) =
      .ok [(label, { pts := gridPoints coords d, weights := flatten shape grid, stats := m })] := by
  unfold addGrid
  simp only []
  rw [h]
  rfl

/-- A grid with as many cells along each axis as there are coordinates: the mean of a parameter is the mean of its
coordinate over the cells, weighted with the values of the grid; the covariance is that of the grid times a factor. -/
theorem C152_partial {d : ℕ} (hd : d ≠ 1) (srt : List ℝ → List ℕ) {coords : List ℝ} {grid : (Fin d → ℕ) → ℝ}
    (hg : ∀ i, 0 ≤ grid i) (hpos : 0 < ∑ i : Fin d → Fin coords.length, grid fun p => (i p : ℕ)) (label : String) :
    ∃ e : Entry d, addGrid srt none coords [] (fun _ => coords.length) grid (some label) = .ok [(label, e)] ∧
      (∀ p, e.stats.means p = (∑ i : Fin d → Fin coords.length, grid (fun p => (i p : ℕ)) * coords.getD (i p : ℕ) 0) /
        ∑ i : Fin d → Fin coords.length, grid fun p => (i p : ℕ)) ∧
      ∀ C, e.stats.cov = some C → ∀ p q,
        C p q * ((∑ i : Fin d → Fin coords.length, grid fun p => (i p : ℕ)) ^ 2 -
            ∑ i : Fin d → Fin coords.length, (grid fun p => (i p : ℕ)) ^ 2) =
          (∑ i : Fin d → Fin coords.length, grid fun p => (i p : ℕ)) *
            ∑ i : Fin d → Fin coords.length, grid (fun p => (i p : ℕ)) *
              ((coords.getD (i p : ℕ) 0 - e.stats.means p) * (coords.getD (i q : ℕ) 0 - e.stats.means q)) := by
  have hsum : (flatten (fun _ : Fin d => coords.length) grid).sum = ∑ i : Fin d → Fin coords.length, grid fun p => (i p : ℕ) := by
    rw [flatten_cube]; exact sum_flat grid
  have hsq : ((flatten (fun _ : Fin d => coords.length) grid).map fun x => x ^ 2).sum =
      ∑ i : Fin d → Fin coords.length, (grid fun p => (i p : ℕ)) ^ 2 := by
    rw [flatten_cube, List.map_map]; exact sum_flat (fun j => grid j ^ 2)
  obtain ⟨m, hm, h1, -, -, -, h5⟩ := C147_partial hd srt (pts := gridPoints coords d)
    (w := flatten (fun _ => coords.length) grid) (by simp [gridPoints, flatten_cube]) (by
      intro x hx
      obtain ⟨k, -, rfl⟩ := List.mem_map.1 hx
      exact hg _) (by rw [hsum]; exact hpos)
  refine ⟨_, addGrid_of hm label, fun p => ?_, fun C hC p q => ?_⟩
  · show m.means p = _
    rw [h1, wsum_grid, hsum]
  · obtain ⟨s, -, hs⟩ := h5 C hC
    have := (hs p).2.2 q
    rw [wsum_grid, hsum, hsq] at this
    exact this

/-- A grid with another number of cells than combinations of coordinates is refused. -/
theorem C152_raises {d : ℕ} (srt : List ℝ → List ℕ) (tv : Option (List ℝ)) {coords : List ℝ} {shape : Fin d → ℕ}
    (grid : (Fin d → ℕ) → ℝ) (h : ∏ p, shape p ≠ coords.length ^ d) (ds : List (String × Entry d)) (label : Option String) :
    addGrid srt tv coords ds shape grid label = .error .value := by
  unfold addGrid
  simp only []
  rw [(C147_raises srt tv _ _).1 (by simpa [gridPoints, flatten] using h.symm)]

/-- But a grid of 2 times 8 cells is accepted with four coordinates: a distribution in the cell (0, 7) gets the mean (1, 3). -/
theorem C152_false (srt : List ℝ → List ℕ) :
    ∃ e : Entry 2, addGrid srt none [0, 1, 2, 3] [] ![2, 8] (fun i => if i 0 = 0 ∧ i 1 = 7 then 1 else 0) (some "grid") =
      .ok [("grid", e)] ∧ e.stats.means 0 = 1 ∧ e.stats.means 1 = 3 := by
  have hw : flatten ![2, 8] (fun i => if i 0 = 0 ∧ i 1 = 7 then (1 : ℝ) else 0) =
      [0, 0, 0, 0, 0, 0, 0, 1, 0, 0, 0, 0, 0, 0, 0, 0] := by
    have h0 : (Finset.univ.filter fun q : Fin 2 => 0 < q) = {1} := by decide
    have h1 : (Finset.univ.filter fun q : Fin 2 => 1 < q) = ∅ := by decide
    unfold flatten
    simp [Fin.prod_univ_two, h0, h1, List.range_succ]
  obtain ⟨m, hm, h1, -⟩ := C147_partial (d := 2) (by norm_num) srt (pts := gridPoints [0, 1, 2, 3] 2)
    (w := [0, 0, 0, 0, 0, 0, 0, 1, 0, 0, 0, 0, 0, 0, 0, 0]) (by simp [gridPoints]) (by simp) (by norm_num)
  rw [← hw] at hm
  refine ⟨_, addGrid_of hm "grid", ?_, ?_⟩
  · show m.means 0 = 1
    rw [h1]
    simp [wsum, gridPoints, List.range_succ]
  · show m.means 1 = 3
    rw [h1]
    simp [wsum, gridPoints, List.range_succ]

/-- The covariance is not that of the distribution: for the uniform distribution on the four corners of the unit square the
variance is 1/4, but 1/3 is stored. -/
theorem C152_cov_false (srt : List ℝ → List ℕ) :
    ∃ (e : Entry 2) (C : Matrix (Fin 2) (Fin 2) ℝ), addGrid srt none [0, 1] [] (fun _ => 2) (fun _ => 1) (some "grid") =
      .ok [("grid", e)] ∧ e.stats.cov = some C ∧ C 0 0 = 1 / 3 := by
  have hw : flatten (fun _ : Fin 2 => 2) (fun _ => (1 : ℝ)) = List.replicate 4 1 := by
    rw [flatten_cube]
    simp [List.map_const']
  obtain ⟨m, C, hm, hC, g1, g2⟩ := C147_equal (d := 2) (by norm_num) srt (pts := gridPoints [0, 1] 2) (c := 1)
    (by simp [gridPoints]) (by norm_num)
  have hl : (gridPoints [0, 1] 2).length = 4 := by simp [gridPoints]
  rw [hl, ← hw] at hm
  refine ⟨_, C, addGrid_of hm "grid", hC, ?_⟩
  rw [g2, g1, hl]
  simp [gridPoints, List.range_succ]
  norm_num

example : ∃ e : Entry 2, addGrid (fun _ => []) none [0, 1] [] (fun _ => 2) (fun i => (i 0 : ℝ)) (some "grid") =
    .ok [("grid", e)] ∧ e.stats.means 0 = 1 := by
  obtain ⟨e, he, h1, -⟩ := C152_partial (d := 2) (by norm_num) (fun _ => []) (coords := [0, 1])
    (grid := fun i => (i 0 : ℝ)) (fun i => Nat.cast_nonneg _) (by
      refine Finset.sum_pos' (fun i _ => Nat.cast_nonneg _) ⟨fun _ => 1, Finset.mem_univ _, ?_⟩
      norm_num) "grid"
  refine ⟨e, he, ?_⟩
  rw [h1]
  have : ∀ i : Fin 2 → Fin [(0 : ℝ), 1].length, ((i 0 : ℕ) : ℝ) * [(0 : ℝ), 1].getD (i 0 : ℕ) 0 = ((i 0 : ℕ) : ℝ) := by
    intro i
    match i 0 with
    | 0 => simp
    | 1 => simp
  simp only [this]
  refine div_self (ne_of_gt ?_)
  refine Finset.sum_pos' (fun i _ => Nat.cast_nonneg _) ⟨fun _ => 1, Finset.mem_univ _, ?_⟩
  norm_num

/-! ## C153 -/

/-- The weights a chain is counted with: one for each sample if none are given. -/
def given {d : ℕ} (samples : List (Fin d → ℝ)) : ChainWeights → List ℝ
  | .floats w => w
  | _ => List.replicate samples.length 1

/-- For float weights (or none), not negative and not all zero, and a name for each of the first parameters, a line is
printed for each name: the weighted mean, and its distances from limits that cut off 16 per cent of the weight on each
side, up to the weight of one sample.  An empty name is replaced by a number. -/
theorem C153_partial {d : ℕ} {srt : List ℝ → List ℕ} (hsrt : IsArgsort srt) {samples : List (Fin d → ℝ)}
    {cw : ChainWeights} (hc : ∀ w, cw ≠ .ints w) (hlen : samples.length = (given samples cw).length)
    (hw : ∀ x ∈ given samples cw, 0 ≤ x) (hpos : 0 < (given samples cw).sum) {names : List String}
    (hn : names.length ≤ d) :
    ∃ rows, (chainStats srt samples cw (some names)).1 = .ok rows ∧ rows.length = names.length ∧
      ∀ i (hi : i < names.length), ∃ r : Row,
        rows[i]? = some (if names[i] = "" then "Param " ++ toString i else names[i], r) ∧
        r.mean = wsum samples (given samples cw) (fun x => x ⟨i, by omega⟩) / (given samples cw).sum ∧
        mass (samples.map fun x => x ⟨i, by omega⟩) (given samples cw) (fun x => x < r.mean - r.minus) ≤ 4 / 25 ∧
        mass (samples.map fun x => x ⟨i, by omega⟩) (given samples cw) (fun x => x < r.mean + r.plus) ≤ 21 / 25 ∧
        ∀ B, (∀ x ∈ given samples cw, x / (given samples cw).sum ≤ B) →
          4 / 25 ≤ mass (samples.map fun x => x ⟨i, by omega⟩) (given samples cw) (fun x => x ≤ r.mean - r.minus) + B ∧
          21 / 25 ≤ mass (samples.map fun x => x ⟨i, by omega⟩) (given samples cw) (fun x => x ≤ r.mean + r.plus) + B := by
  classical
  have hrows : (chainStats srt samples cw (some names)).1 = .ok (((List.finRange d).zip names).map fun p =>
      (if p.2 = "" then "Param " ++ toString (p.1 : ℕ) else p.2,
        chainRow srt (samples.map fun r => r p.1) ((given samples cw).map (· / (given samples cw).sum)))) := by
    cases cw with
    | ints w => exact absurd rfl (hc w)
    | floats w =>
      unfold chainStats
      simp only [given] at hlen hpos ⊢
      rw [if_neg hpos.ne', if_neg (fun h => h.2.2 hlen), if_neg (by omega)]
    | absent =>
      have e : (samples.map fun _ => (1 : ℝ)) = List.replicate samples.length 1 := by simp [List.map_const']
      unfold chainStats
      simp only [given, e] at hlen hpos ⊢
      rw [if_neg hpos.ne', if_neg (fun h => h.2.2 hlen), if_neg (by omega)]
  refine ⟨_, hrows, by simp [hn], fun i hi => ?_⟩
  have hid : i < d := by omega
  set W := given samples cw with hW
  have hget : ((List.finRange d).zip names)[i]? = some (⟨i, hid⟩, names[i]) := by
    rw [List.getElem?_eq_getElem (by simp; omega)]
    simp
  refine ⟨chainRow srt (samples.map fun r => r ⟨i, hid⟩) (W.map (· / W.sum)), ?_, ?_, ?_⟩
  · rw [List.getElem?_map, hget]
    rfl
  · show ((((samples.map fun r => r ⟨i, hid⟩).zip (W.map (· / W.sum))).map fun s => s.1 * s.2).sum / _) = _
    rw [sum_div_one hpos.ne', div_one, wsum, ← zip_map_div samples W W.sum (fun r => r ⟨i, hid⟩)]
    rw [List.zip_map_left, List.map_map]
    congr 1
    refine List.map_congr_left fun s _ => ?_
    simp only [Function.comp, Prod.map]
    exact mul_comm _ _
  · set xs := samples.map fun r => r ⟨i, hid⟩ with hxs
    have hl : xs.length = W.length := by simp [hxs, hlen]
    have hl' : xs.length = (W.map (· / W.sum)).length := hl.trans (List.length_map _).symm
    set s := ordered srt xs (W.map (· / W.sum)) with hs
    have hsort : (s.map Prod.fst).Pairwise (· ≤ ·) := ordered_sorted hsrt _ _
    have hsw : ∀ a ∈ s, 0 ≤ a.2 := by
      intro a ha
      obtain ⟨x, hx, hxe⟩ := List.mem_map.1 (mem_ordered hsrt hl' ha).2
      rw [← hxe]; exact div_nonneg (hw x hx) hpos.le
    have hsB : ∀ B, (∀ x ∈ W, x / W.sum ≤ B) → ∀ a ∈ s, a.2 ≤ B := by
      intro B hB a ha
      obtain ⟨x, hx, hxe⟩ := List.mem_map.1 (mem_ordered hsrt hl' ha).2
      rw [← hxe]; exact hB x hx
    have hone : (s.map Prod.snd).sum = 1 := by
      rw [((ordered_perm hsrt hl').map Prod.snd).sum_eq, List.map_snd_zip (by rw [← hl']), sum_div_one hpos.ne']
    have hmass : ∀ P, part s P = mass xs W P := fun P => mass_ordered hsrt hl P
    have q1 := quantile_spec hsort hsw hone (q := 4 / 25) (by norm_num) (by norm_num)
    have q2 := quantile_spec hsort hsw hone (q := 21 / 25) (by norm_num) (by norm_num)
    have e1 : (chainRow srt xs (W.map (· / W.sum))).mean - (chainRow srt xs (W.map (· / W.sum))).minus =
        quantile s (4 / 25) := by
      have : (chainRow srt xs (W.map (· / W.sum))).minus =
          (chainRow srt xs (W.map (· / W.sum))).mean - quantile s (16 / 100) := rfl
      rw [this, sub_sub_cancel]; norm_num
    have e2 : (chainRow srt xs (W.map (· / W.sum))).mean + (chainRow srt xs (W.map (· / W.sum))).plus =
        quantile s (21 / 25) := by
      have : (chainRow srt xs (W.map (· / W.sum))).plus =
          quantile s (84 / 100) - (chainRow srt xs (W.map (· / W.sum))).mean := rfl
      rw [this, add_sub_cancel]; norm_num
    rw [e1, e2]
    rw [hmass, hmass] at q1 q2
    exact ⟨q1.1, q2.1, fun B hB => ⟨q1.2 B (hsB B hB), q2.2 B (hsB B hB)⟩⟩

/-- The errors: integer weights, names left out, more names than parameters. -/
theorem C153_raises {d : ℕ} (srt : List ℝ → List ℕ) (samples : List (Fin d → ℝ)) (cw : ChainWeights) :
    (∀ w names, (chainStats srt samples (.ints w) names).1 = .error .typeError) ∧
    (cw = .absent → samples ≠ [] → (chainStats srt samples cw none).1 = .error .typeError) ∧
    (∀ names : List String, cw = .absent → samples ≠ [] → d < names.length →
      (chainStats srt samples cw (some names)).1 = .error .index) := by
  have hs : samples ≠ [] → (samples.map fun _ => (1 : ℝ)).sum ≠ 0 := by
    intro h
    have : samples.length ≠ 0 := by simpa using h
    simp [this]
  refine ⟨fun w names => rfl, ?_, ?_⟩
  · rintro rfl h
    unfold chainStats
    simp only []
    rw [if_neg (hs h)]
  · rintro names rfl h hn
    unfold chainStats
    simp only []
    rw [if_neg (hs h), if_neg (by simp), if_pos hn]

/-- So `plot_triangle` fails with its default arguments, for every non-empty chain without weights. -/
theorem C153_default_false {d : ℕ} (srt : List ℝ → List ℕ) {samples : List (Fin d → ℝ)} (h : samples ≠ []) :
    (triangleStats srt samples .absent none true).1 = .error .typeError :=
  (C153_raises srt samples .absent).2.1 rfl h

/-- The weights of the caller are changed: they are normalised. -/
theorem C153_weights_false {d : ℕ} (srt : List ℝ → List ℕ) (samples : List (Fin d → ℝ)) (names : Option (List String)) :
    (chainStats srt samples (.floats [1, 3]) names).2 = .floats [1 / 4, 3 / 4] := by
  unfold chainStats
  simp only []
  rw [if_neg (by norm_num)]
  have e : ([1, 3] : List ℝ).map (· / ([1, 3] : List ℝ).sum) = [1 / 4, 3 / 4] := by
    norm_num
  rw [e]
  cases names with
  | none => rfl
  | some n =>
    simp only []
    split_ifs <;> rfl

/-- The number after the plus sign can be negative: 9 parts at 0 and one part at 10. -/
theorem C153_false {srt : List ℝ → List ℕ} (hsrt : IsArgsort srt) :
    ∃ r : Row, (chainStats srt [![0], ![10]] (.floats [9, 1]) (some ["x"])).1 = .ok [("x", r)] ∧ r.plus = -1 := by
  have hn : ([9, 1] : List ℝ).map (· / ([9, 1] : List ℝ).sum) = [9 / 10, 1 / 10] := by norm_num
  refine ⟨chainRow srt [0, 10] [9 / 10, 1 / 10], ?_, ?_⟩
  · unfold chainStats
    simp only []
    rw [if_neg (by norm_num), if_neg (by simp), if_neg (by simp), hn]
    simp [List.finRange_succ]
  · have ho : ordered srt [0, 10] [9 / 10, 1 / 10] = [(0, 9 / 10), (10, 1 / 10)] :=
      ordered_eq (xs := [0, 10]) (ws := [9 / 10, 1 / 10]) (t := [(0, 9 / 10), (10, 1 / 10)]) hsrt rfl
        (List.Perm.refl _) (by norm_num)
    unfold chainRow
    rw [ho]
    simp only [quantile, List.map, cumsum, List.zip_cons_cons, List.zip_nil_right, interp]
    norm_num

example : ∃ srt rows, IsArgsort srt ∧
    (chainStats (d := 2) srt [![0, 0], ![4, 8]] .absent (some ["a", ""])).1 = .ok rows ∧ rows.length = 2 := by
  obtain ⟨srt, hsrt⟩ := exists_argsort
  obtain ⟨rows, h1, h2, -⟩ := C153_partial (d := 2) hsrt (samples := [![0, 0], ![4, 8]]) (cw := .absent)
    (names := ["a", ""]) (by simp) (by simp [given]) (by simp [given]) (by simp [given]) (by simp)
  exact ⟨srt, rows, hsrt, h1, h2⟩

end Verif.Diagnostics
