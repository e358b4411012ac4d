import Verif.Props.HaloGrid
import Mathlib.Data.List.Perm.Basic
import Mathlib.Tactic.FinCases
import Mathlib.Algebra.BigOperators.Group.List.Lemmas
/-!
# Halo catalogues put together (C251)
-/

namespace Verif.HaloGrid

/-! ## Specification -/

/-- The grid of a catalogue of haloes, given as pairs of a position and a mass. -/
noncomputable def gridOf (box : ℝ) (n : ℕ) (h : List (Pos × ℝ)) : Option (Except Err ((Fin 3 → ℤ) → ℝ)) :=
  haloListToGrid (.plain (h.map Prod.snd)) (.plain (h.map Prod.fst)) box n

/-- The grid of two catalogues put together is the sum of their grids. -/
def Adds (box : ℝ) (n : ℕ) (h h' : List (Pos × ℝ)) : Prop :=
  ∀ g g' G, gridOf box n h = some (.ok g) → gridOf box n h' = some (.ok g') → gridOf box n (h ++ h') = some (.ok G) →
    ∀ c, G c = g c + g' c

/-! ## Lemmas -/

theorem range_mem {l m : List ℝ} (h : ∀ x, x ∈ l ↔ x ∈ m) : range l = range m := by
  have h1 : l.min? = m.min? := by
    ext a
    rw [List.min?_eq_some_iff, List.min?_eq_some_iff]
    simp only [h]
  have h2 : l.max? = m.max? := by
    ext a
    rw [List.max?_eq_some_iff, List.max?_eq_some_iff]
    simp only [h]
  unfold range
  rw [h1, h2]

open Classical in
/-- The value of a cell, for a list of pairs. -/
theorem gridOf_eq (box : ℝ) {n : ℕ} (hn : 0 < n) {h : List (Pos × ℝ)} (hh : h ≠ []) :
    gridOf box n h = some (.ok fun c => ((h.filter fun q =>
      ∀ j, cell (range (h.map fun p => mpcToGrid box n p.1 j)) n (mpcToGrid box n q.1 j) = c j).map fun q => q.2).sum) := by
  unfold gridOf haloListToGrid valueOnGrid
  simp only []
  rw [if_neg (by simp), if_neg (by simp [hh, hn.ne'])]
  congr 2
  funext c
  have e : ((h.map Prod.fst).map (mpcToGrid box n)).zip (h.map Prod.snd) = h.map fun q => (mpcToGrid box n q.1, q.2) := by
    rw [List.map_map, List.zip_map']
    rfl
  rw [e, List.filter_map, List.map_map]
  simp only [List.map_map]
  rfl

theorem gridOf_none (box : ℝ) {n : ℕ} {h : List (Pos × ℝ)} (hh : h = [] ∨ n = 0) : gridOf box n h = some (.error .value) := by
  unfold gridOf haloListToGrid valueOnGrid
  simp only []
  rw [if_neg (by simp), if_pos (by rcases hh with rfl | rfl <;> simp)]

/-! ## C251 -/

/-- C251, order: the haloes may be listed in any order. -/
theorem C251_order (box : ℝ) (n : ℕ) {h h' : List (Pos × ℝ)} (hp : h.Perm h') : gridOf box n h = gridOf box n h' := by
  classical
  by_cases h0 : h = [] ∨ n = 0
  · rw [gridOf_none box h0, gridOf_none box (h0.imp (fun e => by rw [e] at hp; exact hp.nil_eq.symm) id)]
  push Not at h0
  have h0' : h' ≠ [] := by rintro rfl; exact h0.1 hp.eq_nil
  rw [gridOf_eq box (Nat.pos_of_ne_zero h0.2) h0.1, gridOf_eq box (Nat.pos_of_ne_zero h0.2) h0']
  congr 2
  funext c
  have hr : ∀ j, range (h.map fun p => mpcToGrid box n p.1 j) = range (h'.map fun p => mpcToGrid box n p.1 j) := fun j =>
    range_mem fun x => (hp.map _).mem_iff
  simp only [hr]
  exact ((hp.filter _).map _).sum_eq

/-- C251, masses: for given positions the grid is linear in the masses, with the same errors. -/
theorem C251_linear (box : ℝ) (n : ℕ) (a b : ℝ) (h : List (Pos × ℝ × ℝ)) :
    (∃ g g', gridOf box n (h.map fun q => (q.1, q.2.1)) = some (.ok g) ∧ gridOf box n (h.map fun q => (q.1, q.2.2)) = some (.ok g') ∧
      gridOf box n (h.map fun q => (q.1, a * q.2.1 + b * q.2.2)) = some (.ok fun c => a * g c + b * g' c)) ∨
    ((h = [] ∨ n = 0) ∧ gridOf box n (h.map fun q => (q.1, q.2.1)) = some (.error .value) ∧
      gridOf box n (h.map fun q => (q.1, q.2.2)) = some (.error .value) ∧
      gridOf box n (h.map fun q => (q.1, a * q.2.1 + b * q.2.2)) = some (.error .value)) := by
  classical
  by_cases h0 : h = [] ∨ n = 0
  · have e : ∀ f : Pos × ℝ × ℝ → Pos × ℝ, gridOf box n (h.map f) = some (.error .value) := fun f =>
      gridOf_none box (h0.imp (fun e => by rw [e]; rfl) id)
    exact .inr ⟨h0, e _, e _, e _⟩
  push Not at h0
  have hn := Nat.pos_of_ne_zero h0.2
  have hne : ∀ f : Pos × ℝ × ℝ → Pos × ℝ, h.map f ≠ [] := fun f => by simpa using h0.1
  left
  rw [gridOf_eq box hn (hne _), gridOf_eq box hn (hne _), gridOf_eq box hn (hne _)]
  refine ⟨_, _, rfl, rfl, ?_⟩
  congr 2
  funext c
  simp only [List.map_map, List.filter_map, Function.comp_def]
  rw [← List.sum_map_mul_left, ← List.sum_map_mul_left, ← List.sum_map_add]

/-- C251, two catalogues, proved part: if both reach equally far in each direction, the grid of both is the sum of the two.
Missing: other catalogues, for which this is false (`C251_false`). -/
theorem C251_partial {box : ℝ} (hb : 0 < box) {n : ℕ} (hn : 0 < n) {h h' : List (Pos × ℝ)} {lo hi : Pos}
    (he : Extent (h.map Prod.fst) lo hi) (he' : Extent (h'.map Prod.fst) lo hi) (hlt : ∀ j, lo j < hi j) :
    Adds box n h h' ∧ (∃ g, gridOf box n h = some (.ok g)) ∧ (∃ g, gridOf box n h' = some (.ok g)) ∧
      ∃ g, gridOf box n (h ++ h') = some (.ok g) := by
  classical
  have hE : Extent ((h ++ h').map Prod.fst) lo hi := by
    intro j
    rw [List.map_append]
    obtain ⟨⟨p, hp, e1⟩, ⟨q, hq, e2⟩, e3⟩ := he j
    refine ⟨⟨p, List.mem_append_left _ hp, e1⟩, ⟨q, List.mem_append_left _ hq, e2⟩, fun r hr => ?_⟩
    rcases List.mem_append.1 hr with hr | hr
    · exact e3 r hr
    · exact (he' j).2.2 r hr
  have e1 := C126_extent hb hn (mass := h.map Prod.snd) (by simp) he hlt
  have e2 := C126_extent hb hn (mass := h'.map Prod.snd) (by simp) he' hlt
  have e3 := C126_extent hb hn (mass := (h ++ h').map Prod.snd) (by simp) hE hlt
  refine ⟨?_, ⟨_, e1⟩, ⟨_, e2⟩, ⟨_, e3⟩⟩
  intro g g' G k1 k2 k3 c
  have k1 := k1.symm.trans e1
  have k2 := k2.symm.trans e2
  have k3 := k3.symm.trans e3
  cases k1; cases k2; cases k3
  unfold inside
  rw [List.map_append, List.map_append, List.zip_append (by simp), List.filter_append, List.map_append, List.sum_append]

/-- C251 is false for two catalogues: with haloes at 0 and 1/2 in one and 0 and 2 in the other (along the diagonal of a box of
two cells), the halo at 1/2 is put into the second cell by itself, and into the first cell together with the others. -/
theorem C251_false : ¬ ∀ (box : ℝ) (n : ℕ) (h h' : List (Pos × ℝ)), 0 < box → 0 < n →
    (∀ q ∈ h ++ h', ∀ j, 0 ≤ q.1 j ∧ q.1 j ≤ box) → Adds box n h h' := by
  classical
  intro hall
  have hA := hall 2 2 [(fun _ => 0, 1), (fun _ => 1 / 2, 1)] [(fun _ => 0, 1), (fun _ => 2, 1)] (by norm_num) (by norm_num) (by
    intro q hq j
    simp only [List.cons_append, List.nil_append, List.mem_cons, List.not_mem_nil, or_false] at hq
    rcases hq with rfl | rfl | rfl | rfl <;> norm_num)
  have ext : ∀ (l : List (Pos × ℝ)) (a b : ℝ), ((fun _ => a, 1) ∈ l) → ((fun _ => b, 1) ∈ l) → (∀ q ∈ l, ∀ j, a ≤ q.1 j ∧ q.1 j ≤ b) →
      Extent (l.map Prod.fst) (fun _ => a) (fun _ => b) := by
    intro l a b h1 h2 h3 j
    refine ⟨⟨_, List.mem_map.2 ⟨_, h1, rfl⟩, rfl⟩, ⟨_, List.mem_map.2 ⟨_, h2, rfl⟩, rfl⟩, fun p hp => ?_⟩
    obtain ⟨q, hq, rfl⟩ := List.mem_map.1 hp
    exact h3 q hq j
  have e1 := C126_extent (box := 2) (n := 2) (by norm_num) (by norm_num) (mass := [(1 : ℝ), 1]) (by simp)
    (ext [(fun _ => 0, 1), (fun _ => 1 / 2, 1)] 0 (1 / 2) (by simp) (by simp) (by
      intro q hq j
      simp only [List.mem_cons, List.not_mem_nil, or_false] at hq
      rcases hq with rfl | rfl <;> norm_num)) (fun _ => by norm_num)
  have e2 := C126_extent (box := 2) (n := 2) (by norm_num) (by norm_num) (mass := [(1 : ℝ), 1]) (by simp)
    (ext [(fun _ => 0, 1), (fun _ => 2, 1)] 0 2 (by simp) (by simp) (by
      intro q hq j
      simp only [List.mem_cons, List.not_mem_nil, or_false] at hq
      rcases hq with rfl | rfl <;> norm_num)) (fun _ => by norm_num)
  have e3 := C126_extent (box := 2) (n := 2) (by norm_num) (by norm_num) (mass := [(1 : ℝ), 1, 1, 1]) (by simp)
    (ext [(fun _ => 0, 1), (fun _ => 1 / 2, 1), (fun _ => 0, 1), (fun _ => 2, 1)] 0 2 (by simp) (by simp) (by
      intro q hq j
      simp only [List.mem_cons, List.not_mem_nil, or_false] at hq
      rcases hq with rfl | rfl | rfl | rfl <;> norm_num)) (fun _ => by norm_num)
  have key := hA _ _ _ e1 e2 e3 fun _ => 1
  unfold inside at key
  simp only [List.map_cons, List.map_nil, List.zip_cons_cons, List.zip_nil_right] at key
  rw [List.filter_cons_of_neg (by simp [InCell]), List.filter_cons_of_neg (by simp [InCell]; try norm_num),
    List.filter_cons_of_neg (by simp [InCell]), List.filter_cons_of_pos (by simp [InCell]),
    List.filter_cons_of_neg (by simp [InCell]), List.filter_cons_of_pos (by simp [InCell]; try norm_num)] at key
  norm_num at key

/-- Two catalogues of the same extent. -/
example : Extent ([(![0, 0, 0], 1), (![2, 4, 6], 2)].map (Prod.fst : Pos × ℝ → Pos)) ![0, 0, 0] ![2, 4, 6] ∧
    Extent ([(![0, 4, 6], 3), (![1, 2, 5], 1), (![2, 0, 0], 2)].map (Prod.fst : Pos × ℝ → Pos)) ![0, 0, 0] ![2, 4, 6] ∧
    ∀ j, (![0, 0, 0] : Pos) j < ![2, 4, 6] j := by
  refine ⟨fun j => ?_, fun j => ?_, fun j => ?_⟩ <;> fin_cases j <;> simp <;> norm_num

example : ([(![0, 0, 0], 1), (![2, 4, 6], 2), (![1, 1, 1], 5)] : List (Pos × ℝ)).Perm [(![1, 1, 1], 5), (![2, 4, 6], 2), (![0, 0, 0], 1)] :=
  (List.reverse_perm _).symm

end Verif.HaloGrid
