import Verif.Model.Sources
import Mathlib.Algebra.BigOperators.Group.Finset.Basic
import Mathlib.Algebra.BigOperators.Group.Finset.Piecewise
import Mathlib.Order.Interval.Finset.Defs
import Mathlib.Data.Int.Interval
import Mathlib.Algebra.Field.Rat
import Mathlib.Algebra.Order.Ring.Rat
import Mathlib.Tactic.Linarith
import Mathlib.Tactic.NormNum
import Mathlib.Tactic.FieldSimp
import Mathlib.Tactic.Positivity
import Mathlib.Tactic.Ring
/-!
# Source lists (C19, C54)
-/

namespace Verif.Sources

variable {K : Type} [Field K] [LinearOrder K]

/-! ## C19: round trip -/

theorem lines_get (l : List (Source K)) (f : Source K → List (Token K)) (i : ℕ) (s : Source K)
    (h : l[i]? = some s) : (l.flatMap fun s => [f s, []])[2 * i]? = some (f s) := by
  induction l generalizing i with
  | nil => simp at h
  | cons a l ih =>
    cases i with
    | zero => simp at h; subst h; simp
    | succ i =>
      simp only [List.getElem?_cons_succ] at h
      have := ih i h
      simpa [Nat.mul_succ] using this

/-- C19, proved part: for the default mass mode, every non-empty list is written and read back with the same
number of sources, in the same order, at the same positions.  Missing: the masses (`C19_false_mass`), the
other mass modes (`C19_false_modes`). -/
theorem C19_positions_partial (log10 fmt : K → K) (g : K) (l : List (Source K)) (hne : l ≠ []) :
    ∃ lines r, writeSources log10 fmt g l = some lines ∧ readSources g .hm lines = .ok r ∧
      r.map Prod.fst = l.map fun s => (s.x, s.y, s.z) := by
  set f : Source K → List (Token K) := fun s => [.int (s.x + 1), .int (s.y + 1), .int (s.z + 1),
      .num (fmt (if 0 < s.mass then log10 (s.mass * g) else -99))] with hf
  set lines : List (List (Token K)) :=
    [.int l.length, .num 0] :: l.flatMap fun s => [f s, []] with hl
  have hw : writeSources log10 fmt g l = some lines := by
    unfold writeSources; rw [if_neg hne]
  have key : ∀ (n i : ℕ), i + n = l.length → ∃ r, readLoop g .hm lines i n = .ok r ∧
      r.map Prod.fst = (l.drop i).map fun s => (s.x, s.y, s.z) := by
    intro n
    induction n with
    | zero =>
      intro i hi
      refine ⟨[], rfl, ?_⟩
      rw [List.drop_eq_nil_of_le (by omega)]; rfl
    | succ n ih =>
      intro i hi
      have hlt : i < l.length := by omega
      obtain ⟨r, hr1, hr2⟩ := ih (i + 1) (by omega)
      have hget : lines[2 * i + 1]? = some (f l[i]) := by
        rw [hl, List.getElem?_cons_succ]
        exact lines_get l f i l[i] (List.getElem?_eq_getElem hlt)
      unfold readLoop
      rw [hget]
      simp only [hf, readPos, readMass, bind, Except.bind, List.getElem?_cons_succ,
        List.getElem?_cons_zero]
      rw [hr1]
      refine ⟨_, rfl, ?_⟩
      rw [List.map_cons, hr2, List.drop_eq_getElem_cons hlt, List.map_cons]
      simp
  obtain ⟨r, hr1, hr2⟩ := key l.length 0 (by omega)
  refine ⟨lines, r, hw, ?_, ?_⟩
  · rw [hl]
    simp only [readSources, Int.toNat_natCast]
    exact hr1
  · rw [hr2, List.drop_zero]

example : ((writeSources id id (2 : ℚ) [⟨0, 5, 7, 3⟩, ⟨1, 1, 1, 4⟩]).map fun lines =>
    readSources 2 .hm lines) = some (.ok [((0, 5, 7), some 12), ((1, 1, 1), some 16)]) := by
  decide +kernel

/-- C19 fails for the masses: whatever the grid mass unit, a source of exactly one unit of
(mass × unit = 1) is written as the logarithm 0 and read back with mass 0. -/
theorem C19_false_mass [IsStrictOrderedRing K] (log10 fmt : K → K) (g : K) (hg : 0 < g)
    (h1 : log10 1 = 0) (h0 : fmt 0 = 0) :
    ∃ lines, writeSources log10 fmt g [⟨0, 0, 0, 1 / g⟩] = some lines ∧
      readSources g .hm lines = .ok [((0, 0, 0), some 0)] ∧ (1 / g ≠ 0) := by
  refine ⟨_, rfl, ?_, by positivity⟩
  simp [readSources, readLoop, readPos, readMass, tokenNum, hg, h1, h0, bind, Except.bind,
    inv_mul_cancel₀ hg.ne']

example : (0 : ℚ) < 2 ∧ (fun x : ℚ => x - 1) 1 = 0 ∧ (id (0 : ℚ)) = 0 := by norm_num

/-- C19 fails for the other mass modes: with `mass='lm'` a written list cannot be read back (the writer
writes one mass, the reader looks for a second); with both masses no file can be read at all. -/
theorem C19_false_modes (log10 fmt : K → K) (g : K) (l : List (Source K)) (hne : l ≠ [])
    (lines : List (List (Token K))) (h : writeSources log10 fmt g l = some lines) :
    readSources g .lm lines = .error "IndexError" ∧ readSources g .other lines = .error "TypeError" := by
  unfold writeSources at h
  rw [if_neg hne] at h
  cases l with
  | nil => exact absurd rfl hne
  | cons s l =>
    simp only [Option.some.injEq] at h
    subst h
    constructor <;>
    simp [readSources, readLoop, readPos, readMass, bind, Except.bind, -Nat.cast_add,
      show ((l.length : ℤ) + 1).toNat = l.length + 1 by omega]

/-! ## C19: gridding -/

/-- All cells of the mesh. -/
def cells (mesh : ℕ) : Finset (ℤ × ℤ × ℤ) :=
  Finset.Ico (0 : ℤ) mesh ×ˢ (Finset.Ico (0 : ℤ) mesh ×ˢ Finset.Ico (0 : ℤ) mesh)

/-- The cell of a source. -/
def Source.cell (s : Source K) : ℤ × ℤ × ℤ := (s.x, s.y, s.z)

theorem grid_step (mesh : ℕ) (s : Source K) (l : List (Source K)) (f : ℤ × ℤ × ℤ → K)
    (h : s.cell ∈ cells mesh) :
    gridSources mesh (s :: l) f = gridSources mesh l (Function.update f s.cell s.mass) := by
  simp only [cells, Source.cell, Finset.mem_product, Finset.mem_Ico] at h
  obtain ⟨hx, hy, hz⟩ := h
  simp only [gridSources, wrapIndex, hx, hy, hz, and_self, if_true]
  rfl

/-- C19: inside the mesh the gridded value of a cell is the mass of the *last* source of the list in that
cell, and 0 without one. -/
theorem grid_last (mesh : ℕ) (l : List (Source K)) (f : ℤ × ℤ × ℤ → K)
    (h : ∀ s ∈ l, s.cell ∈ cells mesh) :
    ∃ r, gridSources mesh l f = .ok r ∧ ∀ c, r c =
      match (l.filter fun s => decide (s.cell = c)).getLast? with
      | some s => s.mass
      | none => f c := by
  induction l generalizing f with
  | nil => exact ⟨f, rfl, fun c => rfl⟩
  | cons s l ih =>
    rw [grid_step mesh s l f (h s (by simp))]
    obtain ⟨r, hr, hv⟩ := ih (Function.update f s.cell s.mass) fun t ht => h t (by simp [ht])
    refine ⟨r, hr, fun c => ?_⟩
    rw [hv c]
    by_cases hc : s.cell = c
    · rw [List.filter_cons_of_pos (by simpa using hc), List.getLast?_cons]
      cases hlast : (l.filter fun s => decide (s.cell = c)).getLast? with
      | none => simp [← hc]
      | some t => simp
    · rw [List.filter_cons_of_neg (by simpa using hc)]
      cases hlast : (l.filter fun s => decide (s.cell = c)).getLast? with
      | none => simp [Function.update_of_ne (Ne.symm hc)]
      | some t => rfl

/-- C19, proved part: if no two sources share a cell, the grid holds the total mass of the list.
Missing: several sources in one cell (`C19_false_grid`). -/
theorem C19_grid_partial (mesh : ℕ) (l : List (Source K)) (h : ∀ s ∈ l, s.cell ∈ cells mesh)
    (hnd : (l.map Source.cell).Nodup) :
    ∃ r, gridSources mesh l (fun _ => 0) = .ok r ∧ ∑ c ∈ cells mesh, r c = (l.map Source.mass).sum := by
  suffices H : ∀ (l : List (Source K)) (f : ℤ × ℤ × ℤ → K), (∀ s ∈ l, s.cell ∈ cells mesh) →
      (l.map Source.cell).Nodup → (∀ s ∈ l, f s.cell = 0) →
      ∃ r, gridSources mesh l f = .ok r ∧
        ∑ c ∈ cells mesh, r c = ∑ c ∈ cells mesh, f c + (l.map Source.mass).sum by
    obtain ⟨r, h1, h2⟩ := H l (fun _ => 0) h hnd fun _ _ => rfl
    exact ⟨r, h1, by simpa using h2⟩
  intro l
  induction l with
  | nil => intro f _ _ _; exact ⟨f, rfl, by simp⟩
  | cons s l ih =>
    intro f h hnd h0
    rw [List.map_cons, List.nodup_cons] at hnd
    have hs := h s (by simp)
    rw [grid_step mesh s l f hs]
    obtain ⟨r, hr, hsum⟩ := ih (Function.update f s.cell s.mass) (fun t ht => h t (by simp [ht])) hnd.2 (by
      intro t ht
      rw [Function.update_of_ne]
      · exact h0 t (by simp [ht])
      · intro he
        exact hnd.1 (List.mem_map.2 ⟨t, ht, he⟩))
    refine ⟨r, hr, ?_⟩
    rw [hsum, Finset.sum_update_of_mem hs, List.map_cons, List.sum_cons]
    have : ∑ c ∈ cells mesh, f c = ∑ c ∈ cells mesh \ {s.cell}, f c := by
      rw [Finset.sdiff_singleton_eq_erase, Finset.sum_erase _ (h0 s (by simp))]
    rw [this]; ring

example : (∀ s ∈ [(⟨0, 1, 2, 5⟩ : Source ℚ), ⟨0, 1, 1, 7⟩], s.cell ∈ cells 3) ∧
    ([(⟨0, 1, 2, 5⟩ : Source ℚ), ⟨0, 1, 1, 7⟩].map Source.cell).Nodup := by decide +kernel

/-- C19 fails when two sources share a cell: masses 5 and 7 in one cell give a grid of total mass 7. -/
theorem C19_false_grid : ∃ (l : List (Source ℚ)) (r : ℤ × ℤ × ℤ → ℚ), (∀ s ∈ l, s.cell ∈ cells 2) ∧
    gridSources 2 l (fun _ => 0) = .ok r ∧ ∑ c ∈ cells 2, r c ≠ (l.map Source.mass).sum := by
  refine ⟨[⟨0, 1, 1, 5⟩, ⟨0, 1, 1, 7⟩], Function.update (Function.update (fun _ => 0) (0, 1, 1) 5)
    (0, 1, 1) 7, by decide, rfl, ?_⟩
  rw [Function.update_idem, Finset.sum_update_of_mem (by decide)]
  simp

/-! ## C54: writing what was loaded -/

/-- A history of calls. -/
def Session.run {D : Type} (s : Session D) (h : List (Call D)) : Session D := h.foldl Session.call s

/-- C54 fails: whatever happened before, after loading the file `f` successfully, `write_to_file(g)` without
data leaves every file as it was (so `g` does not get the loaded data) and drops the data of the object. -/
theorem C54_false {D : Type} (s : Session D) (h : List (Call D)) (f g : String) (d : D)
    (hf : (s.run h).files f = some d) :
    (s.run (h ++ [.read f])).data = some d ∧
    (s.run (h ++ [.read f, .write g none])).files = (s.run h).files ∧
    (s.run (h ++ [.read f, .write g none])).data = none := by
  simp only [Session.run, List.foldl_append, List.foldl_cons, List.foldl_nil] at hf ⊢
  simp [Session.call, hf]

/-- `f` is not written with data in the history. -/
def NotWritten {D : Type} (f : String) (h : List (Call D)) : Prop :=
  ∀ d, Call.write f (some d) ∉ h

theorem files_run {D : Type} (f : String) (h : List (Call D)) (s : Session D) (hn : NotWritten f h) :
    (s.run h).files f = s.files f := by
  induction h generalizing s with
  | nil => rfl
  | cons c h ih =>
    have h1 : (s.call c).files f = s.files f := by
      cases c with
      | read g =>
        simp only [Session.call]
        cases s.files g <;> rfl
      | write g arg =>
        cases arg with
        | none => rfl
        | some d =>
          have hg : f ≠ g := by
            intro e; subst e; exact hn d (by simp)
          simp [Session.call, Function.update_of_ne hg]
    have h2 := ih (s.call c) fun d hd => hn d (by simp [hd])
    exact h2.trans h1

/-- C54, proved part: data given to `write_to_file` is what any later `read_from_file` of that file loads,
whatever calls (not writing data to the same file) happen in between and whatever happened before, and the
call itself changes no other file. Missing: writing the loaded data (`C54_false`). -/
theorem C54_partial {D : Type} (s : Session D) (before between : List (Call D)) (f : String) (d : D)
    (hn : NotWritten f between) :
    (s.run (before ++ [.write f (some d)])).data = some d ∧
    (∀ g, g ≠ f → (s.run (before ++ [.write f (some d)])).files g = (s.run before).files g) ∧
    (s.run (before ++ .write f (some d) :: between ++ [.read f])).data = some d := by
  refine ⟨by simp [Session.run, Session.call], fun g hg => ?_, ?_⟩
  · simp [Session.run, Session.call, Function.update_of_ne hg]
  · have h1 : (s.run (before ++ .write f (some d) :: between)).files f = some d := by
      have : s.run (before ++ .write f (some d) :: between) =
          ((s.run before).call (.write f (some d))).run between := by
        simp [Session.run]
      rw [this, files_run f between _ hn]
      simp [Session.call]
    have h2 : s.run (before ++ .write f (some d) :: between ++ [.read f]) =
        (s.run (before ++ .write f (some d) :: between)).call (.read f) := by
      simp [Session.run]
    rw [h2]
    simp [Session.call, h1]

example : NotWritten "a" [Call.read "b", .write "b" (some 3), .write "a" none] ∧
    ((⟨none, fun f => if f = "b" then some 7 else none⟩ : Session ℕ).run
      ([.write "a" (some 5)] ++ [Call.read "b", .write "b" (some 3), .write "a" none] ++
        [.read "a"])).data = some 5 := by
  constructor
  · intro d; simp
  · decide

end Verif.Sources
