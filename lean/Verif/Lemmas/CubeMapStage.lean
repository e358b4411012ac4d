import Verif.Model.CubeMapJoblib
import Mathlib.Tactic.SplitIfs
import Mathlib.Tactic.Tauto
/-! Helper lemmas: what one pass of `CubeMap` does, whatever the order of the cells. -/

namespace Verif.CubeMap

/-- Simultaneous update of the cells in `S`. -/
def sim (S : Idx → Prop) [DecidablePred S] (test : Idx → Bool) (v : Nat) (m : Mem) : Mem :=
  fun p => if S p ∧ m p = 0 ∧ test p = true then v else m p

/-- In-place single update. -/
def stepOf (test : Mem → Idx → Bool) (v : Nat) (m : Mem) (p : Idx) : Mem :=
  if m p = 0 ∧ test m p = true then set m p v else m

/-- `test` only looks at which cells carry marker `prev`. -/
def OnlySees (test : Mem → Idx → Bool) (prev : Nat) : Prop :=
  ∀ m m' : Mem, (∀ q, m q = prev ↔ m' q = prev) → ∀ p, test m p = test m' p

theorem foldl_stepOf (test : Mem → Idx → Bool) (prev v : Nat) (hs : OnlySees test prev)
    (h0 : prev ≠ 0) (hv : v ≠ prev) :
    ∀ (l : List Idx) (m : Mem) (q : Idx),
      (l.foldl (stepOf test v) m) q = if q ∈ l ∧ m q = 0 ∧ test m q = true then v else m q := by
  intro l
  induction l with
  | nil => intro m q; simp
  | cons p l ih =>
    intro m q
    rw [List.foldl_cons, ih]
    have hsame : ∀ r, (stepOf test v m p) r = prev ↔ m r = prev := by
      intro r
      unfold stepOf set
      split_ifs with h
      · by_cases hr : r = p
        · subst hr; simp only [if_true]; constructor
          · intro h'; exact absurd h' hv
          · intro h'; rw [h.1] at h'; exact absurd h'.symm h0
        · simp [hr]
      · rfl
    have htest := hs _ m hsame q
    rw [htest]
    unfold stepOf set
    by_cases hq : q = p
    · subst hq
      by_cases h1 : m q = 0 <;> by_cases h2 : test m q = true <;> simp [h1, h2]
    · by_cases h : m p = 0 ∧ test m p = true <;> simp [h, hq]

/-- Edge test. -/
def edgeTest (N : Shape) (v : Nat) (m : Mem) (p : Idx) : Bool :=
  bothX N m v p || bothY N m v p || bothZ N m v p

/-- Face test. -/
def faceTest (N : Shape) (v : Nat) (m : Mem) (p : Idx) : Bool :=
  (bothX N m v p && bothY N m v p) || (bothY N m v p && bothZ N m v p) ||
    (bothZ N m v p && bothX N m v p)

/-- Cube test. -/
def cubeTest (N : Shape) (v : Nat) (m : Mem) (p : Idx) : Bool :=
  bothX N m v p && bothY N m v p && bothZ N m v p

theorem bothX_congr {N : Shape} {v : Nat} {m m' : Mem} (h : ∀ q, m q = v ↔ m' q = v) (p : Idx) :
    bothX N m v p = bothX N m' v p := by
  obtain ⟨i, j, k⟩ := p
  rw [Bool.eq_iff_iff]
  simp [bothX, h]

theorem bothY_congr {N : Shape} {v : Nat} {m m' : Mem} (h : ∀ q, m q = v ↔ m' q = v) (p : Idx) :
    bothY N m v p = bothY N m' v p := by
  obtain ⟨i, j, k⟩ := p
  rw [Bool.eq_iff_iff]
  simp [bothY, h]

theorem bothZ_congr {N : Shape} {v : Nat} {m m' : Mem} (h : ∀ q, m q = v ↔ m' q = v) (p : Idx) :
    bothZ N m v p = bothZ N m' v p := by
  obtain ⟨i, j, k⟩ := p
  rw [Bool.eq_iff_iff]
  simp [bothZ, h]

theorem edgeTest_only (N : Shape) (v : Nat) : OnlySees (edgeTest N v) v := by
  intro m m' h p
  simp only [edgeTest, bothX_congr h, bothY_congr h, bothZ_congr h]

theorem faceTest_only (N : Shape) (v : Nat) : OnlySees (faceTest N v) v := by
  intro m m' h p
  simp only [faceTest, bothX_congr h, bothY_congr h, bothZ_congr h]

theorem cubeTest_only (N : Shape) (v : Nat) : OnlySees (cubeTest N v) v := by
  intro m m' h p
  simp only [cubeTest, bothX_congr h, bothY_congr h, bothZ_congr h]

theorem edgeStep_eq (mk : Markers) (N : Shape) :
    edgeStep mk N = stepOf (edgeTest N mk.m0) mk.m1 := by
  funext m p
  unfold edgeStep stepOf edgeTest
  by_cases h : m p = 0 <;> cases hx : bothX N m mk.m0 p <;> cases hy : bothY N m mk.m0 p <;>
    cases hz : bothZ N m mk.m0 p <;> simp [h]

theorem faceStep_eq (mk : Markers) (N : Shape) :
    faceStep mk N = stepOf (faceTest N mk.m1) mk.m2 := by
  funext m p
  unfold faceStep stepOf faceTest
  by_cases h : m p = 0 <;> cases hx : bothX N m mk.m1 p <;> cases hy : bothY N m mk.m1 p <;>
    cases hz : bothZ N m mk.m1 p <;> simp [h]

theorem cubeStep_eq (mk : Markers) (N : Shape) :
    cubeStep mk N = stepOf (cubeTest N mk.m2) mk.m3 := by
  funext m p
  unfold cubeStep stepOf cubeTest
  by_cases h : m p = 0 <;> cases hx : bothX N m mk.m2 p <;> cases hy : bothY N m mk.m2 p <;>
    cases hz : bothZ N m mk.m2 p <;> simp [h]

theorem mem_cellsFrom {i0 i1 b c : Nat} {p : Idx} :
    p ∈ cellsFrom i0 i1 b c ↔ i0 ≤ p.1 ∧ p.1 < i1 ∧ p.2.1 < b ∧ p.2.2 < c := by
  obtain ⟨i, j, k⟩ := p
  simp only [cellsFrom, List.mem_flatMap, List.mem_range'_1, List.mem_map, List.mem_range,
    Prod.mk.injEq]
  constructor
  · rintro ⟨i', hi, j', hj, k', hk, rfl, rfl, rfl⟩
    refine ⟨by omega, by omega, hj, hk⟩
  · rintro ⟨h1, h2, h3, h4⟩
    exact ⟨i, by omega, j, h3, k, h4, rfl, rfl, rfl⟩

theorem mem_cells {s : Shape} {p : Idx} :
    p ∈ cells s ↔ p.1 < s.nx ∧ p.2.1 < s.ny ∧ p.2.2 < s.nz := by
  simp [cells, mem_cellsFrom]

/-- The vertex pass, in any order. -/
theorem foldl_vertexStep (mk : Markers) (A : Idx → Bool) :
    ∀ (l : List Idx) (m : Mem) (q : Idx),
      (l.foldl (vertexStep mk A) m) q =
        if ∃ p ∈ l, A p = true ∧ q = (p.1 * 2, p.2.1 * 2, p.2.2 * 2) then mk.m0 else m q := by
  intro l
  induction l with
  | nil => intro m q; simp
  | cons p l ih =>
    intro m q
    rw [List.foldl_cons, ih]
    unfold vertexStep set
    by_cases h1 : A p = true
    · by_cases h2 : q = (p.1 * 2, p.2.1 * 2, p.2.2 * 2)
      · simp [h1, h2]
      · have key : (∃ r ∈ p :: l, A r = true ∧ q = (r.1 * 2, r.2.1 * 2, r.2.2 * 2)) ↔
            ∃ r ∈ l, A r = true ∧ q = (r.1 * 2, r.2.1 * 2, r.2.2 * 2) := by
          constructor
          · rintro ⟨r, hr, h⟩
            rcases List.mem_cons.1 hr with rfl | hr
            · exact absurd h.2 h2
            · exact ⟨r, hr, h⟩
          · rintro ⟨r, hr, h⟩; exact ⟨r, List.mem_cons_of_mem _ hr, h⟩
        simp only [key, h1, h2, if_true, if_false]
    · have key : (∃ r ∈ p :: l, A r = true ∧ q = (r.1 * 2, r.2.1 * 2, r.2.2 * 2)) ↔
            ∃ r ∈ l, A r = true ∧ q = (r.1 * 2, r.2.1 * 2, r.2.2 * 2) := by
          constructor
          · rintro ⟨r, hr, h⟩
            rcases List.mem_cons.1 hr with rfl | hr
            · exact absurd h.1 h1
            · exact ⟨r, hr, h⟩
          · rintro ⟨r, hr, h⟩; exact ⟨r, List.mem_cons_of_mem _ hr, h⟩
      simp only [key, h1]
      simp

end Verif.CubeMap
