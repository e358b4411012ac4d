import Verif.Lemmas.OneMarker
import Verif.Props.CubeMap

/-!
# C233: one marker for all cells of the complex

`CubeMap`, `CubeMap_joblib` and `CubeMap_torch` with `multi_marker=False`.  Then every pass finds what it has written itself, and what other workers write at the same time.
-/

namespace Verif.CubeMap

/-- The position belongs to the cubical complex: it is in the doubled box, and every data cell it touches is occupied. -/
def InComplex (s : Shape) (A : Idx → Bool) (x y z : Nat) : Prop :=
  (x < 2 * s.nx ∧ y < 2 * s.ny ∧ z < 2 * s.nz) ∧
    ∀ a b c, a < s.nx → b < s.ny → c < s.nz → Touches s.nx x a → Touches s.ny y b → Touches s.nz z c → A (a, b, c) = true

/-- The array has ones on the complex and zeros elsewhere. -/
def Shows (s : Shape) (A : Idx → Bool) (m : Mem) : Prop :=
  ∀ x y z, (InComplex s A x y z → m (x, y, z) = 1) ∧ (¬InComplex s A x y z → m (x, y, z) = 0)

theorem full_iff (s : Shape) (A : Idx → Bool) (x y z : Nat) : Full s A (x, y, z) ↔ InComplex s A x y z := by
  unfold Full InComplex
  rw [mem_cells]
  refine and_congr_right ?_
  rintro ⟨hx, hy, hz⟩
  rw [occ_iff]
  constructor
  · intro h a b c ha hb hc h1 h2 h3
    exact h a ((mem_corners hx ha).2 h1) b ((mem_corners hy hb).2 h2) c ((mem_corners hz hc).2 h3)
  · intro h a ha b hb c hc
    have ha' := corners_lt hx ha
    have hb' := corners_lt hy hb
    have hc' := corners_lt hz hc
    exact h a b c ha' hb' hc' ((mem_corners hx ha').1 ha) ((mem_corners hy hb').1 hb) ((mem_corners hz hc').1 hc)

theorem shows_of_between {s : Shape} {A : Idx → Bool} {m : Mem} (h : Between s A 3 m) : Shows s A m := by
  intro x y z
  rw [← full_iff]
  exact between_final h _

/-- **C233.** The loops, which read what they have written in the same pass. -/
theorem C233_loops (s : Shape) (A : Idx → Bool) : Shows s A (cubeMap false s A) := shows_of_between (cubeMap_one s A)

/-- Two neighbouring cells: the edge between them is marked. -/
example : cubeMap false ⟨3, 3, 3⟩ (fun p => decide (p.1 = 0)) (0, 1, 2) = 1 :=
  (C233_loops ⟨3, 3, 3⟩ (fun p => decide (p.1 = 0)) 0 1 2).1
    ⟨by decide, fun a _ _ ha _ _ h _ _ => by
      unfold Touches at h; simp at h; dsimp only; simp; omega⟩

/-- **C233.** The simultaneous updates. -/
theorem C233_torch (s : Shape) (A : Idx → Bool) : Shows s A (cubeMapTorch false s A) ∧ cubeMapTorch false s A = cubeMap false s A :=
  ⟨shows_of_between (cubeMapTorch_one s A), between_ext (cubeMapTorch_one s A) (cubeMap_one s A)⟩

/-- **C233.** The workers, whatever the interleaving of their reads and writes: a worker may or may not see the marks of the same pass, and the result is the same. -/
theorem C233_joblib (s : Shape) (A : Idx → Bool) (nJobs : Nat) (hj : 1 ≤ nJobs) (m : Mem) (h : JoblibReturns false s A nJobs m) :
    Shows s A m ∧ m = cubeMap false s A :=
  ⟨shows_of_between (joblib_one s A nJobs hj m h), between_ext (joblib_one s A nJobs hj m h) (cubeMap_one s A)⟩

/-- Three workers on a 5-cell box: the result exists and is the sequential one. -/
example : ∃ m, JoblibReturns false ⟨5, 1, 2⟩ (fun p => decide (p.1 ≠ 3)) 3 m ∧ m = cubeMap false ⟨5, 1, 2⟩ (fun p => decide (p.1 ≠ 3)) := by
  obtain ⟨m, hm⟩ := (joblib_terminates false ⟨5, 1, 2⟩ (fun p => decide (p.1 ≠ 3)) 3).2
  exact ⟨m, hm, (C233_joblib _ _ 3 (by decide) m hm).2⟩

theorem one_value (s : Shape) (A : Idx → Bool) (p : Idx) (hp : p.1 < 2 * s.nx ∧ p.2.1 < 2 * s.ny ∧ p.2.2 < 2 * s.nz) :
    (if cubeMap false s A p = 1 then (1 : Int) else 0) = ind (occ s A p) := by
  have h := between_final (cubeMap_one s A) p
  unfold ind
  by_cases ho : occ s A p = true
  · rw [h.1 ⟨mem_cells.2 hp, ho⟩, if_pos rfl, if_pos ho]
  · rw [h.2 fun hf => ho hf.2, if_neg (by decide), if_neg ho]

/-- **C233.** The same positions are marked as with different markers, and the number of ones is the number of all cells of the complex. -/
theorem C233_support (s : Shape) (A : Idx → Bool) :
    (∀ p, cubeMap false s A p ≠ 0 ↔ cubeMap true s A p ≠ 0) ∧
      (countMarker s.dbl (cubeMap false s A) 1 : Int) = numCells s A + numPairs s A + numSquares s A + numBlocks s A := by
  constructor
  · rintro ⟨x, y, z⟩
    have h1 := C233_loops s A x y z
    have h2 := cubeMap_marks s A x y z
    by_cases h : InComplex s A x y z
    · rw [h1.1 h, h2.1 h]
      constructor
      · intro _; omega
      · intro _; decide
    · rw [h1.2 h, h2.2 h]
  · rw [countMarker_sum]
    unfold numCells numPairs numSquares numBlocks
    simp only [count_sum, ← boxSum_add]
    unfold boxSum Shape.dbl
    dsimp only
    simp only [sum_dbl]
    refine Finset.sum_congr rfl fun i hi => ?_
    rw [← Finset.sum_add_distrib]
    refine Finset.sum_congr rfl fun j hj => ?_
    rw [← Finset.sum_add_distrib, ← Finset.sum_add_distrib, ← Finset.sum_add_distrib]
    refine Finset.sum_congr rfl fun k hk => ?_
    rw [Finset.mem_range] at hi hj hk
    rw [one_value, one_value, one_value, one_value, one_value, one_value, one_value, one_value]
    · simp only [occ, corners, even_mod, odd_mod, even_div, odd_div, List.all_cons, List.all_nil, Bool.and_true, if_true, ind_and, Nat.one_ne_zero, if_false,
        nextX, nextY, nextZ, Function.comp, id]
      ring
    all_goals (dsimp only; omega)

/-- A single cell in a 3×3×3 box. -/
example : (countMarker (Shape.dbl ⟨3, 3, 3⟩) (cubeMap false ⟨3, 3, 3⟩ fun p => decide (p = (0, 2, 1))) 1 : Int) = 1 + 0 + 0 + 0 := by
  rw [(C233_support _ _).2]; decide

end Verif.CubeMap
