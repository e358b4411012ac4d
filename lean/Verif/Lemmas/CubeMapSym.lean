import Verif.Lemmas.CubeMapCount
/-! Helper lemmas: symmetries and additivity of the alternating sum. -/

namespace Verif.CubeMap
open Finset

theorem boxSum_congr {s : Shape} {f g : Idx → Int}
    (h : ∀ i j k, i < s.nx → j < s.ny → k < s.nz → f (i, j, k) = g (i, j, k)) :
    boxSum s f = boxSum s g := by
  unfold boxSum
  refine sum_congr rfl fun i hi => sum_congr rfl fun j hj => sum_congr rfl fun k hk => ?_
  exact h i j k (mem_range.1 hi) (mem_range.1 hj) (mem_range.1 hk)

theorem sum_succ (n : Nat) (f : Nat → Int) : ∑ i ∈ range n, f ((i + 1) % n) = ∑ i ∈ range n, f i := by
  cases n with
  | zero => simp
  | succ n =>
    rw [sum_range_succ, Nat.mod_self, sum_range_succ' f]
    congr 1
    exact sum_congr rfl fun i hi => by
      rw [Nat.mod_eq_of_lt (by have := mem_range.1 hi; omega)]

theorem roll_lt {n i : Nat} (h : i < n) (t : Int) : (((i : Int) - t) % (n : Int)).toNat < n := by
  have h1 := Int.emod_lt_of_pos ((i : Int) - t) (b := n) (by omega)
  have h2 := Int.emod_nonneg ((i : Int) - t) (b := n) (by omega)
  omega

theorem toNat_emod {n : Nat} (hn : 0 < n) (a : Int) : ((a % (n : Int)).toNat : Int) = a % n :=
  Int.toNat_of_nonneg (Int.emod_nonneg _ (by omega))

theorem roll_succ {n i : Nat} (h : i < n) (t : Int) :
    ((((((i + 1) % n : Nat)) : Int) - t) % (n : Int)).toNat =
      ((((i : Int) - t) % (n : Int)).toNat + 1) % n := by
  have hn : 0 < n := by omega
  apply Int.ofNat_inj.1
  show ((_ : Nat) : Int) = ((_ : Nat) : Int)
  rw [toNat_emod hn]
  push_cast
  rw [toNat_emod hn, Int.emod_sub_emod, Int.emod_add_emod]
  congr 1; ring

theorem sum_roll (n : Nat) (t : Int) (f : Nat → Int) :
    ∑ i ∈ range n, f (((i : Int) - t) % (n : Int)).toNat = ∑ i ∈ range n, f i := by
  rcases Nat.eq_zero_or_pos n with rfl | hn
  · simp
  refine sum_nbij' (fun i : Nat => (((i : Int) - t) % (n : Int)).toNat)
    (fun i : Nat => (((i : Int) - (-t)) % (n : Int)).toNat) ?_ ?_ ?_ ?_ ?_
  · intro i hi; exact mem_range.2 (roll_lt (mem_range.1 hi) t)
  · intro i hi; exact mem_range.2 (roll_lt (mem_range.1 hi) (-t))
  · intro i hi
    have := mem_range.1 hi
    simp only [toNat_emod hn]
    rw [Int.emod_sub_emod, sub_neg_eq_add, sub_add_cancel,
      Int.emod_eq_of_lt (by omega) (by omega)]; simp
  · intro i hi
    have := mem_range.1 hi
    simp only [toNat_emod hn]
    rw [Int.emod_sub_emod, sub_neg_eq_add, add_sub_cancel_right,
      Int.emod_eq_of_lt (by omega) (by omega)]; simp
  · intro i _; rfl

/-- Alternating sum of a box. -/
def chiSum (s : Shape) (A : Idx → Bool) : Int := boxSum s (localChi s A)

theorem chiSum_congr {s : Shape} {A B : Idx → Bool}
    (h : ∀ i j k, i < s.nx → j < s.ny → k < s.nz → A (i, j, k) = B (i, j, k)) :
    chiSum s A = chiSum s B := by
  refine boxSum_congr fun i j k hi hj hk => ?_
  have hx := mod_lt' (a := i + 1) hi
  have hy := mod_lt' (a := j + 1) hj
  have hz := mod_lt' (a := k + 1) hk
  unfold localChi
  dsimp only
  rw [h _ _ _ hi hj hk, h _ _ _ hx hj hk, h _ _ _ hi hy hk, h _ _ _ hi hj hz, h _ _ _ hx hy hk,
    h _ _ _ hi hy hz, h _ _ _ hx hj hz, h _ _ _ hx hy hz]

theorem chiSum_swap01 (s : Shape) (A : Idx → Bool) :
    chiSum ⟨s.ny, s.nx, s.nz⟩ (fun p => A (p.2.1, p.1, p.2.2)) = chiSum s A := by
  unfold chiSum boxSum
  dsimp only
  rw [sum_comm]
  refine sum_congr rfl fun i _ => sum_congr rfl fun j _ => sum_congr rfl fun k _ => ?_
  unfold localChi; dsimp only; ring

theorem chiSum_swap12 (s : Shape) (A : Idx → Bool) :
    chiSum ⟨s.nx, s.nz, s.ny⟩ (fun p => A (p.1, p.2.2, p.2.1)) = chiSum s A := by
  unfold chiSum boxSum
  dsimp only
  refine sum_congr rfl fun i _ => ?_
  rw [sum_comm]
  refine sum_congr rfl fun j _ => sum_congr rfl fun k _ => ?_
  unfold localChi; dsimp only; ring

theorem chiSum_swap02 (s : Shape) (A : Idx → Bool) :
    chiSum ⟨s.nz, s.ny, s.nx⟩ (fun p => A (p.2.2, p.2.1, p.1)) = chiSum s A := by
  rw [← chiSum_swap01 s A, ← chiSum_swap12 ⟨s.ny, s.nx, s.nz⟩, ← chiSum_swap01 ⟨s.ny, s.nz, s.nx⟩]

theorem chiSum_roll0 (s : Shape) (t : Int) (A : Idx → Bool) :
    chiSum s (fun p => A ((((p.1 : Int) - t) % (s.nx : Int)).toNat, p.2.1, p.2.2)) = chiSum s A := by
  unfold chiSum boxSum
  rw [← sum_roll s.nx t fun i => ∑ j ∈ range s.ny, ∑ k ∈ range s.nz, localChi s A (i, j, k)]
  refine sum_congr rfl fun i hi => sum_congr rfl fun j _ => sum_congr rfl fun k _ => ?_
  unfold localChi; dsimp only
  rw [roll_succ (mem_range.1 hi)]

/-- Alternating sum of one slice, with the two fields multiplied. -/
def slicePair (s : Shape) (A : Idx → Bool) (i x : Nat) : Int :=
  ∑ j ∈ range s.ny, ∑ k ∈ range s.nz,
    (let y := (j + 1) % s.ny
     let z := (k + 1) % s.nz
     let b := fun v w => ind (A (i, v, w)) * ind (A (x, v, w))
     b j k - b j k * b y k - b j k * b j z + b j k * b y k * (b j z * b y z))

theorem slicePair_comm (s : Shape) (A : Idx → Bool) (i x : Nat) :
    slicePair s A i x = slicePair s A x i := by
  unfold slicePair
  refine sum_congr rfl fun j _ => sum_congr rfl fun k _ => ?_
  dsimp only; ring

theorem ind_sq (b : Bool) : ind b * ind b = ind b := by cases b <;> rfl

theorem chiSum_slices (s : Shape) (A : Idx → Bool) :
    chiSum s A = ∑ i ∈ range s.nx, (slicePair s A i i - slicePair s A i ((i + 1) % s.nx)) := by
  unfold chiSum boxSum slicePair
  refine sum_congr rfl fun i _ => ?_
  rw [← sum_sub_distrib]
  refine sum_congr rfl fun j _ => ?_
  rw [← sum_sub_distrib]
  refine sum_congr rfl fun k _ => ?_
  unfold localChi; dsimp only
  simp only [ind_sq]
  ring

theorem slicePair_mirror (s : Shape) (A : Idx → Bool) (f : Nat → Nat) (i x : Nat) :
    slicePair s (fun p => A (f p.1, p.2.1, p.2.2)) i x = slicePair s A (f i) (f x) := rfl

theorem chiSum_mirror0 (s : Shape) (A : Idx → Bool) :
    chiSum s (fun p => A (s.nx - 1 - p.1, p.2.1, p.2.2)) = chiSum s A := by
  rw [chiSum_slices, chiSum_slices, sum_sub_distrib, sum_sub_distrib]
  simp only [slicePair_mirror s A (fun i => s.nx - 1 - i)]
  congr 1
  · exact sum_range_reflect (fun i => slicePair s A i i) s.nx
  · rw [← sum_range_reflect (fun i => slicePair s A i ((i + 1) % s.nx)),
      ← sum_succ s.nx fun i => slicePair s A (s.nx - 1 - i) ((s.nx - 1 - i + 1) % s.nx)]
    refine sum_congr rfl fun i hi => ?_
    rw [slicePair_comm]
    have hi := mem_range.1 hi
    congr 1
    by_cases h : i + 1 = s.nx
    · rw [h, Nat.mod_self, show s.nx - 1 - 0 + 1 = s.nx by omega, Nat.mod_self]; omega
    · rw [Nat.mod_eq_of_lt (a := i + 1) (by omega), Nat.mod_eq_of_lt (by omega)]; omega

theorem chiSum_roll1 (s : Shape) (t : Int) (A : Idx → Bool) :
    chiSum s (fun p => A (p.1, (((p.2.1 : Int) - t) % (s.ny : Int)).toNat, p.2.2)) = chiSum s A := by
  rw [← chiSum_swap01, ← chiSum_swap01 s A]
  exact chiSum_roll0 ⟨s.ny, s.nx, s.nz⟩ t fun p => A (p.2.1, p.1, p.2.2)

theorem chiSum_roll2 (s : Shape) (t : Int) (A : Idx → Bool) :
    chiSum s (fun p => A (p.1, p.2.1, (((p.2.2 : Int) - t) % (s.nz : Int)).toNat)) = chiSum s A := by
  rw [← chiSum_swap02, ← chiSum_swap02 s A]
  exact chiSum_roll0 ⟨s.nz, s.ny, s.nx⟩ t fun p => A (p.2.2, p.2.1, p.1)

theorem chiSum_mirror1 (s : Shape) (A : Idx → Bool) :
    chiSum s (fun p => A (p.1, s.ny - 1 - p.2.1, p.2.2)) = chiSum s A := by
  rw [← chiSum_swap01, ← chiSum_swap01 s A]
  exact chiSum_mirror0 ⟨s.ny, s.nx, s.nz⟩ fun p => A (p.2.1, p.1, p.2.2)

theorem chiSum_mirror2 (s : Shape) (A : Idx → Bool) :
    chiSum s (fun p => A (p.1, p.2.1, s.nz - 1 - p.2.2)) = chiSum s A := by
  rw [← chiSum_swap02, ← chiSum_swap02 s A]
  exact chiSum_mirror0 ⟨s.nz, s.ny, s.nx⟩ fun p => A (p.2.2, p.2.1, p.1)

theorem ind_or_sep {a b : Bool} (h : ¬ (a = true ∧ b = true)) : ind (a || b) = ind a + ind b := by
  cases a <;> cases b <;> simp_all [ind]

/-- If no block of eight cells meets both sets the alternating sums add. -/
theorem chiSum_add (s : Shape) (A B : Idx → Bool)
    (h : ∀ i j k, i < s.nx → j < s.ny → k < s.nz →
      (∀ a ∈ [i, (i + 1) % s.nx], ∀ b ∈ [j, (j + 1) % s.ny], ∀ c ∈ [k, (k + 1) % s.nz],
        A (a, b, c) = false) ∨
      (∀ a ∈ [i, (i + 1) % s.nx], ∀ b ∈ [j, (j + 1) % s.ny], ∀ c ∈ [k, (k + 1) % s.nz],
        B (a, b, c) = false)) :
    chiSum s (fun p => A p || B p) = chiSum s A + chiSum s B := by
  unfold chiSum
  rw [← boxSum_add]
  refine boxSum_congr fun i j k hi hj hk => ?_
  rcases h i j k hi hj hk with h | h
  · simp only [List.forall_mem_cons] at h
    unfold localChi
    simp [h, ind]
  · simp only [List.forall_mem_cons] at h
    unfold localChi
    simp [h, ind]

theorem chiSum_const (s : Shape) (b : Bool) : chiSum s (fun _ => b) = 0 := by
  unfold chiSum boxSum
  refine sum_eq_zero fun i _ => sum_eq_zero fun j _ => sum_eq_zero fun k _ => ?_
  cases b <;> simp [localChi, ind]

end Verif.CubeMap
