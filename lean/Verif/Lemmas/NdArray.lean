import Verif.Model.NdArray
import Mathlib.Data.List.Nodup
import Mathlib.Algebra.BigOperators.Group.List.Basic
import Mathlib.Tactic.Ring
import Mathlib.Data.Nat.Cast.Basic
import Mathlib.Tactic.Linarith
/-! Lemmas about the array and file semantics. -/

namespace Verif.Nd

/-- An index is inside a shape. -/
def InBounds : List ℕ → List ℕ → Prop
  | [], [] => True
  | i :: is, n :: s => i < n ∧ InBounds is s
  | _, _ => False

/-- Two arrays are the same: same shape, same value at every index inside it. -/
def Same {V : Type} (a b : Arr V) : Prop :=
  a.shape = b.shape ∧ ∀ i, InBounds i a.shape → a.val i = b.val i

theorem inBounds_iff_mem : ∀ (s i : List ℕ), i ∈ indicesC s ↔ InBounds i s
  | [], i => by cases i <;> simp [indicesC, InBounds]
  | n :: s, i => by
    cases i with
    | nil => simp [indicesC, InBounds]
    | cons a is => simp [indicesC, InBounds, inBounds_iff_mem s]

theorem inBounds_length : ∀ (i s : List ℕ), InBounds i s → i.length = s.length
  | [], [], _ => rfl
  | i :: is, n :: s, h => by simp [inBounds_length is s h.2]
  | [], _ :: _, h => h.elim
  | _ :: _, [], h => h.elim

theorem inBounds_append : ∀ (i s j t : List ℕ), i.length = s.length →
    (InBounds (i ++ j) (s ++ t) ↔ InBounds i s ∧ InBounds j t)
  | [], [], j, t, _ => by simp [InBounds]
  | a :: i, n :: s, j, t, h => by
    simp only [List.cons_append, InBounds,
      inBounds_append i s j t (by simpa using h), and_assoc]

theorem inBounds_reverse : ∀ (i s : List ℕ), InBounds i s → InBounds i.reverse s.reverse
  | [], [], _ => trivial
  | a :: i, n :: s, h => by
    rw [List.reverse_cons, List.reverse_cons, inBounds_append _ _ _ _ (by
      simp [inBounds_length i s h.2])]
    exact ⟨inBounds_reverse i s h.2, h.1, trivial⟩
  | [], _ :: _, h => h.elim
  | _ :: _, [], h => h.elim

theorem mem_indices (o : Order) (s i : List ℕ) : i ∈ indices o s ↔ InBounds i s := by
  cases o with
  | C => exact inBounds_iff_mem s i
  | F =>
    simp only [indices, List.mem_map]
    constructor
    · rintro ⟨j, hj, rfl⟩
      have := inBounds_reverse _ _ ((inBounds_iff_mem _ _).1 hj)
      rwa [List.reverse_reverse] at this
    · intro h
      exact ⟨i.reverse, (inBounds_iff_mem _ _).2 (inBounds_reverse _ _ h), List.reverse_reverse i⟩

theorem indicesC_nodup : ∀ s : List ℕ, (indicesC s).Nodup
  | [] => by simp [indicesC]
  | n :: s => by
    unfold indicesC
    rw [List.nodup_flatMap]
    refine ⟨fun i _ => (indicesC_nodup s).map (fun a b h => by simpa using h), ?_⟩
    refine (List.nodup_range (n := n)).imp fun {a b} hab => ?_
    intro x hx hy
    obtain ⟨y, _, rfl⟩ := List.mem_map.1 hx
    obtain ⟨z, _, h⟩ := List.mem_map.1 hy
    simp only [List.cons.injEq] at h
    exact hab h.1.symm

theorem indices_nodup (o : Order) (s : List ℕ) : (indices o s).Nodup := by
  cases o with
  | C => exact indicesC_nodup s
  | F => exact (indicesC_nodup _).map List.reverse_injective

theorem indicesC_length : ∀ s : List ℕ, (indicesC s).length = s.prod
  | [] => rfl
  | n :: s => by
    simp only [indicesC, List.length_flatMap, List.length_map, indicesC_length s, List.map_const',
      List.length_range, List.sum_replicate, List.prod_cons, nsmul_eq_mul, Nat.cast_id]

theorem indices_length (o : Order) (s : List ℕ) : (indices o s).length = s.prod := by
  cases o with
  | C => exact indicesC_length s
  | F => simp only [indices, List.length_map, indicesC_length, List.prod_reverse]

variable {V W : Type}

theorem flatten_length (a : Arr V) (o : Order) : (a.flatten o).length = a.shape.prod := by
  simp [Arr.flatten, indices_length]

theorem flatten_map (a : Arr V) (f : V → W) (o : Order) :
    (a.map f).flatten o = (a.flatten o).map f := by
  simp [Arr.flatten, Arr.map]

/-- `.T.flatten()` is `flatten(order='F')`. -/
theorem T_flatten (a : Arr V) : a.T.flatten .C = a.flatten .F := by
  simp [Arr.flatten, Arr.T, indices]

theorem reshape_error [Inhabited V] {l : List V} {s : List ℕ} {o : Order} (h : l.length ≠ s.prod) :
    reshape l s o = .error "ValueError: cannot reshape" := by
  unfold reshape; rw [if_neg h]

theorem reshape_ok [Inhabited V] {l : List V} {s : List ℕ} {o : Order} (h : l.length = s.prod) :
    ∃ b, reshape l s o = .ok b ∧ b.shape = s := by
  unfold reshape; rw [if_pos h]; exact ⟨_, rfl, rfl⟩

/-- `reshape` undoes `flatten` with the same order. -/
theorem reshape_flatten [Inhabited V] (a : Arr V) (o : Order) :
    ∃ b, reshape (a.flatten o) a.shape o = .ok b ∧ Same b a := by
  unfold reshape
  rw [if_pos (flatten_length a o)]
  refine ⟨_, rfl, rfl, fun i hi => ?_⟩
  have hm := (mem_indices o a.shape i).2 hi
  have hlt := List.idxOf_lt_length_of_mem hm
  simp only [Arr.flatten, List.getElem?_map, List.getElem?_eq_getElem hlt, Option.map_some,
    Option.getD_some, List.getElem_idxOf]

theorem Same.trans {a b c : Arr V} (h : Same a b) (h' : Same b c) : Same a c :=
  ⟨h.1.trans h'.1, fun i hi => (h.2 i hi).trans (h'.2 i (h.1 ▸ hi))⟩

theorem Same.map {a b : Arr V} (f : V → W) (h : Same a b) : Same (a.map f) (b.map f) :=
  ⟨h.1, fun i hi => congrArg f (h.2 i hi)⟩

theorem leBytes_length : ∀ w n, (leBytes w n).length = w
  | 0, _ => rfl
  | w + 1, n => by simp [leBytes, leBytes_length w]

theorem leNat_leBytes : ∀ w n, n < 256 ^ w → leNat (leBytes w n) = n
  | 0, n, h => by simp at h; simp [leBytes, leNat, h]
  | w + 1, n, h => by
    have : n / 256 < 256 ^ w := by
      rw [pow_succ] at h
      exact (Nat.div_lt_iff_lt_mul (by norm_num)).2 h
    simp only [leBytes, leNat, leNat_leBytes w _ this]
    omega

theorem toBytes_length (w : ℕ) (l : List ℕ) : (toBytes w l).length = w * l.length := by
  induction l with
  | nil => simp [toBytes]
  | cons a l ih =>
    have : toBytes w (a :: l) = leBytes w a ++ toBytes w l := rfl
    rw [this, List.length_append, leBytes_length, ih, List.length_cons]; ring

theorem fromFile_toBytes (w : ℕ) (l rest : List ℕ) (h : ∀ x ∈ l, x < 256 ^ w) :
    fromFile w l.length (toBytes w l ++ rest) = (l, rest) := by
  induction l with
  | nil => simp [toBytes, fromFile]
  | cons a l ih =>
    have e : toBytes w (a :: l) ++ rest = leBytes w a ++ (toBytes w l ++ rest) := by
      rw [← List.append_assoc]; rfl
    rw [e, List.length_cons, fromFile, if_neg (by simp [leBytes_length])]
    rw [List.take_left' (leBytes_length w a), List.drop_left' (leBytes_length w a),
      ih fun x hx => h x (List.mem_cons_of_mem _ hx), leNat_leBytes w a (h a (by simp))]

theorem fromFileAll_toBytes (w : ℕ) (hw : 0 < w) (l : List ℕ) (h : ∀ x ∈ l, x < 256 ^ w) :
    fromFileAll w (toBytes w l) = l := by
  unfold fromFileAll
  rw [toBytes_length, Nat.mul_div_cancel_left _ hw]
  have := fromFile_toBytes w l [] h
  rw [List.append_nil] at this
  rw [this]

theorem fromFile_length (w : ℕ) (c : ℕ) (bs : List ℕ) (h : c * w ≤ bs.length) :
    (fromFile w c bs).1.length = c ∧ (fromFile w c bs).2 = bs.drop (c * w) := by
  induction c generalizing bs with
  | zero => simp [fromFile]
  | succ c ih =>
    have h' : c * w + w ≤ bs.length := by rwa [Nat.succ_mul] at h
    have := ih (bs.drop w) (by rw [List.length_drop]; omega)
    unfold fromFile
    rw [if_neg (by omega)]
    refine ⟨by simp [this.1], ?_⟩
    dsimp only
    rw [this.2, List.drop_drop]
    congr 1
    rw [Nat.succ_mul]; omega

theorem fromFileAll_length (w : ℕ) (bs : List ℕ) : (fromFileAll w bs).length = bs.length / w := by
  unfold fromFileAll
  exact (fromFile_length w (bs.length / w) bs (Nat.div_mul_le_self _ _)).1

end Verif.Nd
