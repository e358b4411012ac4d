import Verif.Lemmas.CubeMapSym
import Verif.Lemmas.CubeMapJoblib
/-!
# Properties C01-C05: the Euler characteristic

Specification first (independent of the model's helpers), then the theorems, each with a
concrete instance.
-/

namespace Verif.CubeMap
open Finset

/-! ## Specification -/

/-- The cells of the data box. -/
def grid (s : Shape) : Finset Idx := range s.nx ×ˢ range s.ny ×ˢ range s.nz

/-- Periodic successor of a cell along each axis. -/
def nextX (s : Shape) (p : Idx) : Idx := ((p.1 + 1) % s.nx, p.2.1, p.2.2)
/-- See `nextX`. -/
def nextY (s : Shape) (p : Idx) : Idx := (p.1, (p.2.1 + 1) % s.ny, p.2.2)
/-- See `nextX`. -/
def nextZ (s : Shape) (p : Idx) : Idx := (p.1, p.2.1, (p.2.2 + 1) % s.nz)

/-- How many cells `p` have all the cells `f p`, `f ∈ shape`, occupied. -/
def count (s : Shape) (A : Idx → Bool) (shape : List (Idx → Idx)) : Int :=
  ((grid s).filter fun p => ∀ f ∈ shape, A (f p) = true).card

/-- Number of occupied cells. -/
def numCells (s : Shape) (A : Idx → Bool) : Int := count s A [id]

/-- Number of face-adjacent pairs (a cell and its successor along an axis), both occupied. -/
def numPairs (s : Shape) (A : Idx → Bool) : Int :=
  count s A [id, nextX s] + count s A [id, nextY s] + count s A [id, nextZ s]

/-- Number of 2×2 squares, all four cells occupied. -/
def numSquares (s : Shape) (A : Idx → Bool) : Int :=
  count s A [id, nextX s, nextY s, nextX s ∘ nextY s] +
  count s A [id, nextY s, nextZ s, nextY s ∘ nextZ s] +
  count s A [id, nextX s, nextZ s, nextX s ∘ nextZ s]

/-- Number of 2×2×2 blocks, all eight cells occupied. -/
def numBlocks (s : Shape) (A : Idx → Bool) : Int :=
  count s A [id, nextX s, nextY s, nextZ s, nextX s ∘ nextY s, nextY s ∘ nextZ s,
    nextX s ∘ nextZ s, nextX s ∘ nextY s ∘ nextZ s]

/-- The alternating cell count of the periodic cubical complex. -/
def chi (s : Shape) (A : Idx → Bool) : Int :=
  numCells s A - numPairs s A + numSquares s A - numBlocks s A

/-- Position `x` of the doubled periodic axis of length `2 n` touches data cell `a`: it is the
cell itself (`2 a`) or one of the two half-way positions next to it. -/
def Touches (n x a : Nat) : Prop := x = 2 * a ∨ x = 2 * a + 1 ∨ (x + 1) % (2 * n) = 2 * a

/-- The coordinate of `p` along an axis replaced by `f` of it. -/
def atAxis (axis : Fin 3) (f : Nat → Nat) (p : Idx) : Idx :=
  match axis with
  | 0 => (f p.1, p.2.1, p.2.2)
  | 1 => (p.1, f p.2.1, p.2.2)
  | 2 => (p.1, p.2.1, f p.2.2)

/-- Side length along an axis. -/
def side (s : Shape) : Fin 3 → Nat
  | 0 => s.nx
  | 1 => s.ny
  | 2 => s.nz

/-- `np.roll(data, t, axis)`. -/
def rolled {α : Type} (s : Shape) (axis : Fin 3) (t : Int) (data : Idx → α) : Idx → α := fun p =>
  data (atAxis axis (fun c => (((c : Int) - t) % (side s axis : Int)).toNat) p)

/-- `np.flip(data, axis)`. -/
def mirrored {α : Type} (s : Shape) (axis : Fin 3) (data : Idx → α) : Idx → α := fun p =>
  data (atAxis axis (fun c => side s axis - 1 - c) p)

/-! ## Bridge from the specification to the sums used in the lemmas -/

theorem count_sum (s : Shape) (A : Idx → Bool) (l : List (Idx → Idx)) :
    count s A l = boxSum s fun p => ind (l.all fun f => A (f p)) := by
  unfold count grid boxSum ind
  rw [card_filter]
  push_cast
  rw [sum_product]
  refine sum_congr rfl fun i _ => ?_
  rw [sum_product]
  refine sum_congr rfl fun j _ => sum_congr rfl fun k _ => ?_
  simp only [List.all_eq_true]

theorem chi_eq_chiSum (s : Shape) (A : Idx → Bool) : chi s A = chiSum s A := by
  unfold chi numCells numPairs numSquares numBlocks chiSum
  simp only [count_sum, ← boxSum_add, ← boxSum_sub]
  refine boxSum_congr fun i j k _ _ _ => ?_
  simp only [List.all_cons, List.all_nil, Bool.and_true, ind_and, nextX, nextY, nextZ,
    Function.comp, id, localChi]
  ring

/-! ## C01 -/

/-- **C01.** `EulerCharacteristic(data, thres)` is the alternating count of cells, adjacent
pairs, squares and blocks of the cells above the threshold, for every box. -/
theorem euler_eq_chi {α : Type} [LT α] [DecidableRel (α := α) (· < ·)]
    (s : Shape) (data : Idx → α) (thres : α) :
    euler s data thres = chi s (fun p => decide (thres < data p)) := by
  unfold euler
  rw [cubeMap_char, euler_mark, chi_eq_chiSum]
  rfl

/-- **C01**, other connectivity: for any `neighbors` but 6 and 4 the complement is measured. -/
theorem euler_eq_chi_complement {α : Type} [LT α] [DecidableRel (α := α) (· < ·)]
    (s : Shape) (data : Idx → α) (thres : α) (neighbors : Nat) (h6 : neighbors ≠ 6)
    (h4 : neighbors ≠ 4) :
    euler s data thres neighbors = chi s (fun p => decide (¬ thres < data p)) := by
  unfold euler
  rw [cubeMap_char, euler_mark, chi_eq_chiSum]
  have : binaryField data thres neighbors = fun p => decide (¬ thres < data p) := by
    funext p; simp [binaryField, h6, h4]
  rw [this]; rfl

theorem mem_corners {n x a : Nat} (hx : x < 2 * n) (ha : a < n) :
    a ∈ corners x n ↔ Touches n x a := by
  unfold corners Touches
  rcases even_or_odd x with ⟨b, rfl⟩ | ⟨b, rfl⟩
  · rw [even_mod, if_pos rfl, even_div, List.mem_singleton]
    have : ¬ (2 * b + 1) % (2 * n) = 2 * a := by
      rw [Nat.mod_eq_of_lt (by omega)]; omega
    omega
  · rw [odd_mod, if_neg (by decide), odd_div]
    have h : (2 * b + 1 + 1) % (2 * n) = 2 * ((b + 1) % n) := by
      rw [show 2 * b + 1 + 1 = 2 * (b + 1) by ring, Nat.mul_mod_mul_left]
    rw [h]
    simp only [List.mem_cons, List.not_mem_nil, or_false]
    omega

theorem corners_lt {n x a : Nat} (hx : x < 2 * n) (h : a ∈ corners x n) : a < n := by
  unfold corners at h
  split_ifs at h
  · rw [List.mem_singleton] at h; omega
  · simp only [List.mem_cons, List.not_mem_nil, or_false] at h
    rcases h with h | h
    · omega
    · rw [h]; exact Nat.mod_lt _ (by omega)

/-- **C01**, marker array: a position of the doubled box carries 1 + (number of odd
coordinates) exactly when every data cell it touches is occupied, and 0 otherwise. Nothing
outside the box is written. -/
theorem cubeMap_marks (s : Shape) (A : Idx → Bool) (x y z : Nat) :
    ((x < 2 * s.nx ∧ y < 2 * s.ny ∧ z < 2 * s.nz) ∧
      (∀ a b c, a < s.nx → b < s.ny → c < s.nz →
        Touches s.nx x a → Touches s.ny y b → Touches s.nz z c → A (a, b, c) = true) →
      cubeMap true s A (x, y, z) = 1 + (x % 2 + y % 2 + z % 2)) ∧
    (¬ ((x < 2 * s.nx ∧ y < 2 * s.ny ∧ z < 2 * s.nz) ∧
      (∀ a b c, a < s.nx → b < s.ny → c < s.nz →
        Touches s.nx x a → Touches s.ny y b → Touches s.nz z c → A (a, b, c) = true)) →
      cubeMap true s A (x, y, z) = 0) := by
  rw [cubeMap_char]
  have hodd : odd (x, y, z) ≤ 3 := by unfold odd; dsimp only; omega
  have key : (x < 2 * s.nx ∧ y < 2 * s.ny ∧ z < 2 * s.nz) →
      ((∀ a b c, a < s.nx → b < s.ny → c < s.nz →
        Touches s.nx x a → Touches s.ny y b → Touches s.nz z c → A (a, b, c) = true) ↔
      occ s A (x, y, z) = true) := by
    rintro ⟨hx, hy, hz⟩
    simp only [occ, List.all_eq_true]
    constructor
    · intro h a ha b hb c hc
      have ha' := corners_lt hx ha
      have hb' := corners_lt hy hb
      have hc' := corners_lt hz hc
      exact h a b c ha' hb' hc' ((mem_corners hx ha').1 ha) ((mem_corners hy hb').1 hb)
        ((mem_corners hz hc').1 hc)
    · intro h a b c ha hb hc h1 h2 h3
      exact h a ((mem_corners hx ha).2 h1) b ((mem_corners hy hb).2 h2) c ((mem_corners hz hc).2 h3)
  constructor
  · rintro ⟨hb, h⟩
    unfold mark
    rw [if_pos ⟨hb, hodd, (key hb).1 h⟩]
    simp only [odd]; omega
  · intro h
    unfold mark
    rw [if_neg]
    rintro ⟨hb, _, ho⟩
    exact h ⟨hb, (key hb).2 ho⟩

/-- One occupied cell of a 2×1×1 box: one cell, one pair along each of the two axes of length
one, one square, nothing else. -/
example : chi ⟨2, 1, 1⟩ (fun p => decide (p = (0, 0, 0))) = 1 - 2 + 1 - 0 := by decide

/-- The same box through the code. -/
example : euler ⟨2, 1, 1⟩ (fun p => if p = (0, 0, 0) then (7 : Int) else 0) 3 = 0 := by
  rw [euler_eq_chi]; decide

/-- A single cell in a 3×3×3 box has Euler characteristic 1. -/
example : euler ⟨3, 3, 3⟩ (fun p => if p = (0, 2, 1) then (7 : Int) else 0) 3 = 1 := by
  rw [euler_eq_chi]; decide

/-- A ring of four cells around one hole gives 0. -/
example : euler ⟨4, 4, 3⟩ (fun p => if p ∈ [(0,0,0),(0,1,0),(0,2,0),(1,0,0),(1,2,0),(2,0,0),(2,1,0),(2,2,0)]
    then (7 : Int) else 0) 3 = 0 := by
  rw [euler_eq_chi]; decide

example : cubeMap true ⟨3, 3, 3⟩ (fun p => decide (p.1 = 0)) (0, 1, 2) = 2 :=
  (cubeMap_marks ⟨3, 3, 3⟩ (fun p => decide (p.1 = 0)) 0 1 2).1
    ⟨by decide, fun a _ _ ha _ _ h _ _ => by
      unfold Touches at h; simp at h; dsimp only; simp; omega⟩

/-! ## C02 -/

/-- **C02.** Whatever the interleaving of the workers' reads and writes, `CubeMap_joblib`
returns the array `CubeMap` returns. -/
theorem joblib_eq_cubeMap (s : Shape) (A : Idx → Bool) (nJobs : Nat) (hj : 1 ≤ nJobs) (m : Mem)
    (h : JoblibReturns true s A nJobs m) : m = cubeMap true s A := by
  rw [cubeMap_char, joblib_char s A nJobs hj m h]

/-- **C02.** No schedule runs forever and at least one result exists. -/
theorem joblib_terminates (multi : Bool) (s : Shape) (A : Idx → Bool) (nJobs : Nat) :
    (WellFounded fun d c : Config => Step c d) ∧ ∃ m, JoblibReturns multi s A nJobs m := by
  refine ⟨step_wf, ?_⟩
  obtain ⟨m1, h1⟩ := stage_exists _ _
  obtain ⟨m2, h2⟩ := stage_exists _ _
  obtain ⟨m3, h3⟩ := stage_exists _ _
  obtain ⟨m4, h4⟩ := stage_exists _ _
  exact ⟨m4, m1, m2, m3, h1, h2, h3, h4⟩

/-- Three workers on a 5-cell box: the result exists and is the sequential one. -/
example : ∃ m, JoblibReturns true ⟨5, 1, 2⟩ (fun p => decide (p.1 ≠ 3)) 3 m ∧
    m = cubeMap true ⟨5, 1, 2⟩ (fun p => decide (p.1 ≠ 3)) := by
  obtain ⟨m, hm⟩ := (joblib_terminates true ⟨5, 1, 2⟩ (fun p => decide (p.1 ≠ 3)) 3).2
  exact ⟨m, hm, joblib_eq_cubeMap _ _ 3 (by decide) m hm⟩

/-! ## C03 -/

/-- **C03.** The roll-based construction returns the array of the in-place loops. -/
theorem torch_eq_cubeMap (s : Shape) (A : Idx → Bool) : cubeMapTorch true s A = cubeMap true s A := by
  rw [cubeMap_char, cubeMapTorch_char]

/-- **C03.** `EulerCharacteristic` returns the alternating cell count for every backend
name, every set of installed backends, every processor count and every admissible `n_jobs`. -/
theorem euler_backend_independent (b : Backends) (cpu : Nat) (speedUp : String) (nJobs : Option Int)
    (s : Shape) (A : Idx → Bool) (r : Except String Int) (hc : 1 ≤ cpu)
    (hj : ∀ n, nJobs = some n → n = -1 ∨ 1 ≤ n) (hs : 0 < s.nx * s.ny * s.nz) :
    EulerReturns b cpu speedUp nJobs s A r ↔ r = .ok (chi s A) := by
  have hseq : eulerOfMap s.dbl (cubeMap true s A) = chi s A := by
    rw [cubeMap_char, euler_mark, chi_eq_chiSum]; rfl
  have hpar : ∀ n : Nat, 1 ≤ n → ((∃ m, JoblibReturns true s A n m ∧ r = .ok (eulerOfMap s.dbl m)) ↔
      r = .ok (chi s A)) := by
    intro n hn
    constructor
    · rintro ⟨m, hm, rfl⟩
      rw [joblib_eq_cubeMap s A n hn m hm, hseq]
    · rintro rfl
      obtain ⟨m, hm⟩ := (joblib_terminates true s A n).2
      exact ⟨m, hm, by rw [joblib_eq_cubeMap s A n hn m hm, hseq]⟩
  have hn' : ∀ n : Int, 1 ≤ n → ((if n = 1 ∨ b.joblib = false then r = .ok (chi s A)
      else if s.nx * s.ny * s.nz = 0 then r = .error "ValueError"
      else if n = 0 then r = .error "ZeroDivisionError"
      else ∃ m, JoblibReturns true s A n.toNat m ∧ r = .ok (eulerOfMap s.dbl m)) ↔
      r = .ok (chi s A)) := by
    intro n hn
    by_cases h : n = 1 ∨ b.joblib = false
    · rw [if_pos h]
    · rw [if_neg h, if_neg (by omega), if_neg (by omega)]
      exact hpar _ (by omega)
  unfold EulerReturns
  rw [torch_eq_cubeMap, hseq]
  by_cases h1 : (speedUp.toLower = "cython" ∧ b.cython = true) ∨
    (speedUp.toLower = "numba" ∧ b.numba = true)
  · rw [if_pos h1]
  rw [if_neg h1]
  by_cases h2 : speedUp.toLower = "torch" ∧ b.torch = true
  · rw [if_pos h2]
  rw [if_neg h2]
  by_cases h3 : nJobs = some (-1)
  · rw [if_pos h3]; exact hn' _ (by omega)
  rw [if_neg h3]
  cases nJobs with
  | none => rfl
  | some n =>
    rcases hj n rfl with h | h
    · exact absurd (by rw [h]) h3
    · exact hn' n h

/-- Any negative `n_jobs` other than -1 (joblib's "all but one" convention) creates no task at
all: the array stays zero and the function silently returns 0, whatever the data. -/
theorem euler_negative_jobs (cpu : Nat) (speedUp : String) (s : Shape) (A : Idx → Bool)
    (r : Except String Int) (n : Int) (hn : n < -1)
    (hs : 0 < s.nx * s.ny * s.nz) :
    EulerReturns ⟨false, false, false, true⟩ cpu speedUp (some n) s A r ↔ r = .ok 0 := by
  have stage0 : ∀ m m', Stage [] m m' ↔ m' = m := by
    intro m m'
    constructor
    · rintro ⟨ps, h, _⟩
      cases h with
      | refl => rfl
      | head h1 _ =>
        generalize hc : (⟨m, []⟩ : Config) = c at h1
        cases h1 with
        | read _ before after a k =>
          have := congrArg Config.procs hc; simp at this
        | write _ before after a v k =>
          have := congrArg Config.procs hc; simp at this
    · rintro rfl; exact ⟨[], .refl _, by simp [Config.done]⟩
  have hz : eulerOfMap s.dbl (fun _ => 0) = 0 := by
    unfold eulerOfMap countMarker
    simp
  have hret : ∀ m, JoblibReturns true s A n.toNat m ↔ m = fun _ => 0 := by
    intro m
    have : n.toNat = 0 := by omega
    unfold JoblibReturns
    simp only [this, chunks, List.range_zero, List.map_nil, stage0]
    constructor
    · rintro ⟨m1, m2, m3, rfl, rfl, rfl, h⟩; exact h
    · intro h; exact ⟨_, _, _, rfl, rfl, rfl, h⟩
  unfold EulerReturns
  have hn1 : ¬ (some n : Option Int) = some (-1) := by simp; omega
  rw [if_neg (by simp), if_neg (by simp), if_neg hn1]
  dsimp only
  rw [if_neg (by simp; omega), if_neg (by omega), if_neg (by omega)]
  simp only [hret]
  constructor
  · rintro ⟨m, rfl, rfl⟩; rw [hz]
  · rintro rfl; exact ⟨_, rfl, by rw [hz]⟩

example (r : Except String Int) : EulerReturns ⟨false, false, false, true⟩ 8 "numpy" (some 3) ⟨3, 3, 3⟩
    (fun p => decide (p = (0, 2, 1))) r ↔ r = .ok 1 := by
  rw [euler_backend_independent]
  · have : chi ⟨3, 3, 3⟩ (fun p => decide (p = (0, 2, 1))) = 1 := by decide
    rw [this]
  all_goals simp

/-- The true value is 1, the code returns 0. -/
example : EulerReturns ⟨false, false, false, true⟩ 8 "numpy" (some (-2)) ⟨3, 3, 3⟩
    (fun p => decide (p = (0, 2, 1))) (.ok 0) ∧ chi ⟨3, 3, 3⟩ (fun p => decide (p = (0, 2, 1))) = 1 :=
  ⟨(euler_negative_jobs 8 "numpy" ⟨3, 3, 3⟩ _ _ (-2) (by decide) (by decide)).2 rfl,
    by decide⟩

/-! ## C04 -/

theorem euler_eq_chiSum {α : Type} [LT α] [DecidableRel (α := α) (· < ·)]
    (s : Shape) (data : Idx → α) (thres : α) (neighbors : Nat) :
    euler s data thres neighbors = chiSum s (binaryField data thres neighbors) := by
  unfold euler; rw [cubeMap_char, euler_mark]; rfl

/-- **C04.** Rolling the data along any axis by any amount changes nothing. -/
theorem euler_rolled {α : Type} [LT α] [DecidableRel (α := α) (· < ·)]
    (s : Shape) (data : Idx → α) (thres : α) (neighbors : Nat) (axis : Fin 3) (t : Int) :
    euler s (rolled s axis t data) thres neighbors = euler s data thres neighbors := by
  rw [euler_eq_chiSum, euler_eq_chiSum]
  match axis with
  | 0 => exact chiSum_roll0 s t (binaryField data thres neighbors)
  | 1 => exact chiSum_roll1 s t (binaryField data thres neighbors)
  | 2 => exact chiSum_roll2 s t (binaryField data thres neighbors)

/-- **C04.** Mirroring any axis changes nothing. -/
theorem euler_mirrored {α : Type} [LT α] [DecidableRel (α := α) (· < ·)]
    (s : Shape) (data : Idx → α) (thres : α) (neighbors : Nat) (axis : Fin 3) :
    euler s (mirrored s axis data) thres neighbors = euler s data thres neighbors := by
  rw [euler_eq_chiSum, euler_eq_chiSum]
  match axis with
  | 0 => exact chiSum_mirror0 s (binaryField data thres neighbors)
  | 1 => exact chiSum_mirror1 s (binaryField data thres neighbors)
  | 2 => exact chiSum_mirror2 s (binaryField data thres neighbors)

/-- **C04.** Exchanging any two axes changes nothing. -/
theorem euler_swapaxes {α : Type} [LT α] [DecidableRel (α := α) (· < ·)]
    (s : Shape) (data : Idx → α) (thres : α) (neighbors : Nat) :
    euler ⟨s.ny, s.nx, s.nz⟩ (fun p => data (p.2.1, p.1, p.2.2)) thres neighbors =
      euler s data thres neighbors ∧
    euler ⟨s.nx, s.nz, s.ny⟩ (fun p => data (p.1, p.2.2, p.2.1)) thres neighbors =
      euler s data thres neighbors ∧
    euler ⟨s.nz, s.ny, s.nx⟩ (fun p => data (p.2.2, p.2.1, p.1)) thres neighbors =
      euler s data thres neighbors := by
  simp only [euler_eq_chiSum]
  exact ⟨chiSum_swap01 s (binaryField data thres neighbors),
    chiSum_swap12 s (binaryField data thres neighbors),
    chiSum_swap02 s (binaryField data thres neighbors)⟩

example : euler ⟨3, 2, 4⟩ (rolled ⟨3, 2, 4⟩ 2 (-7) fun p => (p.1 * p.2.1 + p.2.2 : Int)) 2 6 =
    euler ⟨3, 2, 4⟩ (fun p => (p.1 * p.2.1 + p.2.2 : Int)) 2 6 :=
  euler_rolled _ _ _ _ _ _

/-! ## C05 -/

/-- No 2×2×2 block of the periodic box meets both sets. -/
def Separated (s : Shape) (A B : Idx → Bool) : Prop :=
  ∀ p ∈ grid s, ∀ f ∈ [id, nextX s], ∀ g ∈ [id, nextY s], ∀ h ∈ [id, nextZ s],
    ∀ f' ∈ [id, nextX s], ∀ g' ∈ [id, nextY s], ∀ h' ∈ [id, nextZ s],
      ¬ (A (f (g (h p))) = true ∧ B (f' (g' (h' p))) = true)

/-- **C05.** The Euler characteristic of separated structures adds. -/
theorem euler_add {α : Type} [LT α] [DecidableRel (α := α) (· < ·)]
    (s : Shape) (dA dB dU : Idx → α) (thres : α)
    (hU : ∀ p ∈ grid s, thres < dU p ↔ thres < dA p ∨ thres < dB p)
    (hsep : Separated s (fun p => decide (thres < dA p)) (fun p => decide (thres < dB p))) :
    euler s dU thres = euler s dA thres + euler s dB thres := by
  simp only [euler_eq_chiSum]
  rw [show chiSum s (binaryField dU thres 6) = chiSum s (fun p => binaryField dA thres 6 p ||
      binaryField dB thres 6 p) from ?_]
  · refine chiSum_add s _ _ fun i j k hi hj hk => ?_
    by_contra hcon
    push Not at hcon
    obtain ⟨⟨a, ha, b, hb, c, hc, hA⟩, a', ha', b', hb', c', hc', hB⟩ := hcon
    have hp : (i, j, k) ∈ grid s := by simp [grid, hi, hj, hk]
    have hx : ∀ a ∈ [i, (i + 1) % s.nx], ∃ f ∈ [id, nextX s], ∀ b c, f (i, b, c) = (a, b, c) := by
      intro a ha
      simp only [List.mem_cons, List.not_mem_nil, or_false] at ha
      rcases ha with rfl | rfl
      · exact ⟨id, by simp, fun _ _ => rfl⟩
      · exact ⟨nextX s, by simp, fun _ _ => rfl⟩
    have hy : ∀ b ∈ [j, (j + 1) % s.ny], ∃ f ∈ [id, nextY s], ∀ a c, f (a, j, c) = (a, b, c) := by
      intro a ha
      simp only [List.mem_cons, List.not_mem_nil, or_false] at ha
      rcases ha with rfl | rfl
      · exact ⟨id, by simp, fun _ _ => rfl⟩
      · exact ⟨nextY s, by simp, fun _ _ => rfl⟩
    have hz : ∀ c ∈ [k, (k + 1) % s.nz], ∃ f ∈ [id, nextZ s], ∀ a b, f (a, b, k) = (a, b, c) := by
      intro a ha
      simp only [List.mem_cons, List.not_mem_nil, or_false] at ha
      rcases ha with rfl | rfl
      · exact ⟨id, by simp, fun _ _ => rfl⟩
      · exact ⟨nextZ s, by simp, fun _ _ => rfl⟩
    obtain ⟨f, hf, ef⟩ := hx a ha
    obtain ⟨g, hg, eg⟩ := hy b hb
    obtain ⟨h, hh, eh⟩ := hz c hc
    obtain ⟨f', hf', ef'⟩ := hx a' ha'
    obtain ⟨g', hg', eg'⟩ := hy b' hb'
    obtain ⟨h', hh', eh'⟩ := hz c' hc'
    refine hsep _ hp f hf g hg h hh f' hf' g' hg' h' hh' ?_
    rw [eh, eg, ef, eh', eg', ef']
    simpa [binaryField] using And.intro hA hB
  · refine chiSum_congr fun i j k hi hj hk => ?_
    have := hU (i, j, k) (by simp [grid, hi, hj, hk])
    simp only [binaryField]
    by_cases h : thres < dU (i, j, k)
    · have h' := this.1 h
      simp [h]; tauto
    · have h' := not_or.1 fun h' => h (this.2 h')
      simp [h, h'.1, h'.2]

/-- **C05.** Nothing above the threshold, or everything: 0. -/
theorem euler_trivial {α : Type} [LT α] [DecidableRel (α := α) (· < ·)]
    (s : Shape) (data : Idx → α) (thres : α) (neighbors : Nat)
    (h : (∀ p ∈ grid s, thres < data p) ∨ ∀ p ∈ grid s, ¬ thres < data p) :
    euler s data thres neighbors = 0 := by
  rw [euler_eq_chiSum]
  rcases h with h | h
  · rw [chiSum_congr (B := fun _ => !(!(neighbors == 6 || neighbors == 4))), chiSum_const]
    intro i j k hi hj hk
    simp [binaryField, h (i, j, k) (by simp [grid, hi, hj, hk])]
    by_cases h6 : neighbors = 6 <;> by_cases h4 : neighbors = 4 <;> simp [h6, h4]
  · rw [chiSum_congr (B := fun _ => (!(neighbors == 6 || neighbors == 4))), chiSum_const]
    intro i j k hi hj hk
    simp [binaryField, h (i, j, k) (by simp [grid, hi, hj, hk])]
    by_cases h6 : neighbors = 6 <;> by_cases h4 : neighbors = 4 <;> simp [h6, h4]

/-- Two single cells in a 6×2×2 box. -/
example : euler ⟨6, 2, 2⟩ (fun p => if p = (0, 0, 0) ∨ p = (3, 1, 0) then (1 : Int) else 0) 0 =
    euler ⟨6, 2, 2⟩ (fun p => if p = (0, 0, 0) then (1 : Int) else 0) 0 +
    euler ⟨6, 2, 2⟩ (fun p => if p = (3, 1, 0) then (1 : Int) else 0) 0 := by
  apply euler_add
  · intro p _; by_cases h1 : p = (0, 0, 0) <;> by_cases h2 : p = (3, 1, 0) <;> simp [h1, h2]
  · unfold Separated; decide

end Verif.CubeMap
