import Verif.Model.Augment
import Mathlib.Tactic.Linarith
import Mathlib.Tactic.Ring
import Mathlib.Tactic.FieldSimp
import Mathlib.Tactic.NormNum
/-!
# Test-time augmentation

C46: every rotated or flipped copy is mapped back by the inverse transformation; with an
identity network every copy returns the input.
C82: every voxel of every copy is predicted.
-/

set_option linter.unusedSectionVars false

namespace Verif.Augment

variable {R : Type*}

/-! ### Inverses -/

theorem Arr.ext {a b : Arr R} (h1 : a.shape = b.shape) (h2 : ∀ c, a.val c = b.val c) : a = b := by
  obtain ⟨s, v⟩ := a
  obtain ⟨t, w⟩ := b
  simp only at h1 h2
  subst h1
  congr 1
  exact funext h2

theorem flip_flip (d : Fin 3) (m : Arr R) : (m.flip d).flip d = m := by
  refine Arr.ext rfl fun c => ?_
  simp only [Arr.flip, Function.update_self, Function.update_idem]
  congr 1
  rw [show (m.shape d : ℤ) - 1 - (m.shape d - 1 - c d) = c d by ring, Function.update_eq_self]

theorem flip_comm {a b : Fin 3} (h : a ≠ b) (m : Arr R) :
    (m.flip a).flip b = (m.flip b).flip a := by
  refine Arr.ext rfl fun c => ?_
  simp only [Arr.flip, Function.update_of_ne h, Function.update_of_ne h.symm]
  rw [Function.update_comm h]

theorem swap_swap (a b : Fin 3) (m : Arr R) : (m.swap a b).swap a b = m := by
  refine Arr.ext ?_ fun c => ?_
  · funext d; simp [Arr.swap]
  · simp only [Arr.swap]
    congr 1
    funext d; simp

theorem rot_rot {a b : Fin 3} (h : a ≠ b) (k : ℤ) (m : Arr R) :
    (m.rot90 k a b).rot90 (-k) a b = m := by
  have hk : k % 4 = 0 ∨ k % 4 = 1 ∨ k % 4 = 2 ∨ k % 4 = 3 := by omega
  rcases hk with hk | hk | hk | hk
  · have h2 : (-k) % 4 = 0 := by omega
    simp [Arr.rot90, hk, h2]
  · have h2 : (-k) % 4 = 3 := by omega
    simp only [Arr.rot90, hk, h2]
    norm_num
    rw [swap_swap, flip_flip]
  · have h2 : (-k) % 4 = 2 := by omega
    simp only [Arr.rot90, hk, h2]
    norm_num
    rw [flip_comm h m, flip_flip, flip_flip]
  · have h2 : (-k) % 4 = 1 := by omega
    simp only [Arr.rot90, hk, h2]
    norm_num
    rw [flip_flip, swap_swap]

theorem opt_opt (o : Opt) (m : Arr R) : o.apply (o.apply m) = m := by
  cases o with
  | id => rfl
  | fliplr => exact flip_flip 1 m
  | flipud => exact flip_flip 0 m
  | udlr =>
    simp only [Opt.apply]
    rw [flip_comm (by decide : (1 : Fin 3) ≠ 0) m, flip_flip, flip_flip]
  | lrud =>
    simp only [Opt.apply]
    rw [flip_comm (by decide : (0 : Fin 3) ≠ 1) m, flip_flip, flip_flip]

theorem axes_ne (d : Fin 3) : (axes d).1 ≠ (axes d).2 := by
  match d with
  | 0 => decide
  | 1 => decide
  | 2 => decide

/-- Every augmentation is undone exactly, for arrays of any shape and any number of quarter
turns. -/
theorem C46_undone (o : Manip) (x : Arr R) : backward o (forward o x) = x := by
  unfold backward forward
  rw [rot_rot (axes_ne o.2.1), opt_opt]

/-! ### Agreement inside a cube -/

/-- Both arrays are cubes of side `n` and agree in every cell. -/
def Agree (n : ℕ) (a b : Arr R) : Prop :=
  (∀ d, a.shape d = n) ∧ (∀ d, b.shape d = n) ∧
    ∀ c : Fin 3 → ℤ, (∀ d, 0 ≤ c d ∧ c d < n) → a.val c = b.val c

theorem Agree.flip {n : ℕ} {a b : Arr R} (h : Agree n a b) (d : Fin 3) :
    Agree n (a.flip d) (b.flip d) := by
  refine ⟨h.1, h.2.1, fun c hc => ?_⟩
  simp only [Arr.flip, h.1, h.2.1]
  refine h.2.2 _ fun e => ?_
  rcases eq_or_ne e d with rfl | he
  · rw [Function.update_self]
    have := hc e
    omega
  · rw [Function.update_of_ne he]; exact hc e

theorem Agree.swap {n : ℕ} {a b : Arr R} (h : Agree n a b) (p q : Fin 3) :
    Agree n (a.swap p q) (b.swap p q) :=
  ⟨fun d => h.1 _, fun d => h.2.1 _, fun c hc => h.2.2 _ fun d => hc _⟩

theorem Agree.rot90 {n : ℕ} {a b : Arr R} (h : Agree n a b) (k : ℤ) (p q : Fin 3) :
    Agree n (a.rot90 k p q) (b.rot90 k p q) := by
  unfold Arr.rot90
  split_ifs
  · exact h
  · exact (h.flip p).flip q
  · exact (h.flip q).swap p q
  · exact (h.swap p q).flip q

theorem Agree.opt {n : ℕ} {a b : Arr R} (h : Agree n a b) (o : Opt) :
    Agree n (o.apply a) (o.apply b) := by
  cases o with
  | id => exact h
  | fliplr => exact h.flip 1
  | flipud => exact h.flip 0
  | udlr => exact (h.flip 1).flip 0
  | lrud => exact (h.flip 0).flip 1

theorem agree_refl {n : ℕ} {a : Arr R} (h : ∀ d, a.shape d = n) : Agree n a a :=
  ⟨h, h, fun _ _ => rfl⟩

theorem shape_forward {n : ℕ} {x : Arr R} (h : ∀ d, x.shape d = n) (o : Manip) (d : Fin 3) :
    (forward o x).shape d = n :=
  (((agree_refl h).opt o.1).rot90 o.2.2 _ _).1 d

theorem slice_within (m : Arr R) (d : Fin 3) (c : Fin 3 → ℤ) :
    (m.slice d (c d)).val (within d c).1 (within d c).2 = m.val c := by
  have e : ![c 0, c 1, c 2] = c := by
    funext i
    match i with
    | 0 => rfl
    | 1 => rfl
    | 2 => rfl
  match d with
  | 0 => exact congrArg m.val e
  | 1 => exact congrArg m.val e
  | 2 => exact congrArg m.val e

theorem agree_copy [Zero R] {n : ℕ} {m : Arr R} (h : ∀ d, m.shape d = n) (d : Fin 3) :
    Agree n (copy (fun s => s) n m d) m := by
  refine ⟨h, h, fun c hc => ?_⟩
  simp only [copy]
  rw [if_pos (hc d).2, slice_within]

/-- With an identity network every copy returns the input inside the cube. -/
theorem agree_back [Zero R] {n : ℕ} {x : Arr R} (h : ∀ d, x.shape d = n) (o : Manip) (d : Fin 3) :
    Agree n (backward o (copy (fun s => s) n (forward o x) d)) x := by
  have h1 := agree_copy (shape_forward h o) d
  have h2 : Agree n (backward o (copy (fun s => s) n (forward o x) d)) (backward o (forward o x)) :=
    (h1.rot90 _ _ _).opt o.1
  rwa [C46_undone] at h2

theorem uniqueOps_ne : uniqueOps ≠ [] := by decide +kernel

/-- With an identity network the segmentation of every cube is its rounded value and the error
vanishes, with or without augmentation. -/
theorem C46_identity (x : Arr ℚ) (n : ℕ) (h : ∀ d, x.shape d = n) (tta : ℤ) :
    ∃ seg err, prediction (fun s => s) (manip tta) x = .ok (seg, err) ∧
      ∀ c : Fin 3 → ℤ, (∀ d, 0 ≤ c d ∧ c d < n) → seg c = roundEven (x.val c) ∧ err c = 0 := by
  have hne : manip tta ≠ [] := by
    unfold manip
    split
    · exact uniqueOps_ne
    · simp
  generalize manip tta = ops at hne
  have hno : ¬ ∃ o ∈ ops, (forward o x).shape ≠ x.shape ∨ ∃ d, (forward o x).shape d < x.shape 0 := by
    rintro ⟨o, _, h1 | ⟨d, h1⟩⟩
    · exact h1 (funext fun d => by rw [shape_forward h, h])
    · rw [shape_forward h, h] at h1
      exact lt_irrefl _ h1
  unfold prediction
  rw [if_neg hno]
  refine ⟨_, _, rfl, fun c hc => ?_⟩
  have hval : ∀ m ∈ copies (fun s => s) ops x, m.val c = x.val c := by
    intro m hm
    simp only [copies, List.mem_flatMap, List.mem_map] at hm
    obtain ⟨d, _, o, _, rfl⟩ := hm
    rw [h 0]
    exact (agree_back h o d).2.2 c hc
  have hlen : ((copies (fun s => s) ops x).length : ℚ) ≠ 0 := by
    have : copies (fun s => s) ops x ≠ [] := by
      obtain ⟨o, l, rfl⟩ := List.exists_cons_of_ne_nil hne
      simp [copies]
    exact_mod_cast (List.length_pos_of_ne_nil this).ne'
  have hmean : mean (copies (fun s => s) ops x) c = x.val c := by
    unfold mean
    rw [List.map_congr_left hval, List.map_const', List.sum_replicate, nsmul_eq_mul]
    field_simp
  rw [hmean]
  refine ⟨rfl, ?_⟩
  unfold variance
  rw [hmean, List.map_congr_left fun m hm => by rw [hval m hm]]
  simp

example : ∀ d, (⟨fun _ => 4, fun c => (c 0 : ℚ) / 3⟩ : Arr ℚ).shape d = 4 := fun _ => rfl

/-- Rounding leaves whole numbers, in particular a binary field, as they are, and moves
nothing by more than one half; halves go to the even neighbour. -/
theorem C46_round (q : ℚ) : |(roundEven q : ℚ) - q| ≤ 1 / 2 ∧ (∀ m : ℤ, roundEven m = m) ∧
    ∀ m : ℤ, q = 2 * m + 1 / 2 ∨ q = 2 * m - 1 / 2 → roundEven q = 2 * m := by
  refine ⟨?_, ?_, ?_⟩
  · have h1 := Int.floor_le q
    have h2 := Int.lt_floor_add_one q
    unfold roundEven
    split_ifs <;> rw [abs_le] <;> push_cast <;> constructor <;> linarith
  · intro m
    simp [roundEven]
  · intro m hm
    rcases hm with hm | hm
    · have hf : ⌊q⌋ = 2 * m := by rw [Int.floor_eq_iff]; push_cast; constructor <;> linarith
      unfold roundEven
      rw [hf, hm]
      push_cast
      rw [if_neg (by linarith), if_neg (by linarith), if_pos (by omega)]
    · have hf : ⌊q⌋ = 2 * m - 1 := by rw [Int.floor_eq_iff]; push_cast; constructor <;> linarith
      unfold roundEven
      rw [hf, hm]
      push_cast
      rw [if_neg (by linarith), if_neg (by linarith), if_neg (by omega)]
      ring

/-- Halves on both sides. -/
example : (5 / 2 : ℚ) = 2 * (1 : ℤ) + 1 / 2 ∧ (3 / 2 : ℚ) = 2 * (1 : ℤ) - 1 / 2 := by norm_num

/-! ### The table of operations -/

/-- A signed permutation of the axes. -/
structure Signed where
  perm : Fin 3 → Fin 3
  neg : Fin 3 → Bool

/-- Its action on a cube of side `n`. -/
def Signed.act (s : Signed) (n : ℕ) (m : Arr R) : Arr R :=
  ⟨fun _ => n, fun c => m.val fun d => if s.neg d then n - 1 - c (s.perm d) else c (s.perm d)⟩

/-- First `t`, then `s`. -/
def Signed.after (s t : Signed) : Signed :=
  ⟨fun d => s.perm (t.perm d), fun d => xor (t.neg d) (s.neg (t.perm d))⟩

theorem act_act (s t : Signed) (n : ℕ) (m : Arr R) :
    s.act n (t.act n m) = (s.after t).act n m := by
  refine Arr.ext rfl fun c => ?_
  simp only [Signed.act, Signed.after]
  congr 1
  funext d
  by_cases h1 : t.neg d = true <;> by_cases h2 : s.neg (t.perm d) = true <;> simp [h1, h2]

def one : Signed := ⟨fun d => d, fun _ => false⟩
def fl (a : Fin 3) : Signed := ⟨fun d => d, fun d => d == a⟩
def sw (a b : Fin 3) : Signed := ⟨Equiv.swap a b, fun _ => false⟩

theorem flip_act {n : ℕ} {m : Arr R} (h : ∀ d, m.shape d = n) (a : Fin 3) :
    m.flip a = (fl a).act n m := by
  refine Arr.ext (funext h) fun c => ?_
  simp only [Arr.flip, Signed.act, fl, h]
  congr 1
  funext d
  rcases eq_or_ne d a with rfl | hd
  · simp
  · simp [hd]

theorem swap_act {n : ℕ} {m : Arr R} (h : ∀ d, m.shape d = n) (a b : Fin 3) :
    m.swap a b = (sw a b).act n m := by
  refine Arr.ext (funext fun d => h _) fun c => ?_
  simp [Arr.swap, Signed.act, sw, Function.comp_def]

/-- The signed permutation of `np.rot90`. -/
def rotS (k : ℤ) (a b : Fin 3) : Signed :=
  if k % 4 = 0 then one
  else if k % 4 = 2 then (fl b).after (fl a)
  else if k % 4 = 1 then (sw a b).after (fl b)
  else (fl b).after (sw a b)

/-- The signed permutation of a function of `func`. -/
def optS : Opt → Signed
  | .id => one
  | .fliplr => fl 1
  | .flipud => fl 0
  | .udlr => (fl 0).after (fl 1)
  | .lrud => (fl 1).after (fl 0)

theorem one_act {n : ℕ} {m : Arr R} (h : ∀ d, m.shape d = n) : m = one.act n m := by
  refine Arr.ext (funext h) fun c => ?_
  simp [Signed.act, one]

theorem rot_act {n : ℕ} {m : Arr R} (h : ∀ d, m.shape d = n) (k : ℤ) (a b : Fin 3) :
    m.rot90 k a b = (rotS k a b).act n m := by
  unfold Arr.rot90 rotS
  split_ifs
  · exact one_act h
  · rw [flip_act h, flip_act fun _ => rfl, act_act]
  · rw [flip_act h, swap_act fun _ => rfl, act_act]
  · rw [swap_act h, flip_act fun _ => rfl, act_act]

theorem opt_act {n : ℕ} {m : Arr R} (h : ∀ d, m.shape d = n) (o : Opt) :
    o.apply m = (optS o).act n m := by
  cases o with
  | id => exact one_act h
  | fliplr => exact flip_act h 1
  | flipud => exact flip_act h 0
  | udlr => simp only [Opt.apply, optS]; rw [flip_act h, flip_act fun _ => rfl, act_act]
  | lrud => simp only [Opt.apply, optS]; rw [flip_act h, flip_act fun _ => rfl, act_act]

/-- The signed permutation of an operation. -/
def sig (o : Manip) : Signed := (rotS o.2.2 (axes o.2.1).1 (axes o.2.1).2).after (optS o.1)

theorem forward_act {n : ℕ} {m : Arr R} (h : ∀ d, m.shape d = n) (o : Manip) :
    forward o m = (sig o).act n m := by
  unfold forward sig
  rw [opt_act h, rot_act fun _ => rfl, act_act]

theorem table_complete' : ∀ o ∈ allOps, ∃ o' ∈ uniqueOps,
    ∀ d, (sig o).perm d = (sig o').perm d ∧ (sig o).neg d = (sig o').neg d := by
  decide +kernel

theorem table_complete (o : Manip) (h : o ∈ allOps) : ∃ o' ∈ uniqueOps, sig o = sig o' := by
  obtain ⟨o', h', e⟩ := table_complete' o h
  refine ⟨o', h', ?_⟩
  have e1 := funext fun d => (e d).1
  have e2 := funext fun d => (e d).2
  revert e1 e2
  cases sig o; cases sig o'
  rintro rfl rfl
  rfl

theorem table_distinct : (uniqueOps.map row).Nodup := by decide +kernel

/-- The table found with the 27 numbers is right for cubes of every size: it contains every
combination of flips and quarter turns (as far as they act differently) exactly once. -/
theorem C46_table :
    (∀ o ∈ allOps, ∃ o' ∈ uniqueOps, ∀ (R : Type) (n : ℕ) (x : Arr R), (∀ d, x.shape d = n) →
      forward o x = forward o' x) ∧
    uniqueOps.Pairwise (fun o o' => forward o data27 ≠ forward o' data27) ∧
    (∀ f : Opt, ∀ ax : Fin 3, ∀ k : ℤ, ∃ o ∈ allOps, ∀ (R : Type) (x : Arr R),
      forward (f, ax, k) x = forward o x) := by
  refine ⟨fun o ho => ?_, ?_, ?_⟩
  · obtain ⟨o', ho', e⟩ := table_complete o ho
    exact ⟨o', ho', fun R n x h => by rw [forward_act h, forward_act h, e]⟩
  · have := List.pairwise_map.mp table_distinct
    exact this.imp fun h e => h (by unfold row; rw [e])
  · intro f ax k
    refine ⟨(f, ax, k % 4), ?_, ?_⟩
    · have hk : k % 4 = 0 ∨ k % 4 = 1 ∨ k % 4 = 2 ∨ k % 4 = 3 := by omega
      simp only [allOps, List.mem_flatMap, List.mem_map]
      refine ⟨f, by cases f <;> simp, ax, ?_, k % 4, ?_, rfl⟩
      · match ax with
        | 0 => simp
        | 1 => simp
        | 2 => simp
      · rcases hk with h | h | h | h <;> simp [h]
    · intro R x
      have e : k % 4 % 4 = k % 4 := by omega
      simp only [forward, Arr.rot90, e]

/-! ## C82 -/

/-- Claim of C82: with an identity network the segmentation of every image is its rounded
value.  False for boxes that are not cubes: planes beyond the length of the first side are
never predicted and enter the mean as zeros. -/
theorem C82_false : ¬ ∀ (x : Arr ℚ), ∀ seg err,
    prediction (fun s => s) (manip 1) x = .ok (seg, err) →
    ∀ c : Fin 3 → ℤ, (∀ d, 0 ≤ c d ∧ c d < x.shape d) → seg c = roundEven (x.val c) := by
  intro h
  have h1 := h ⟨![2, 3, 3], fun _ => 1⟩
  unfold prediction at h1
  rw [if_neg (by decide)] at h1
  have h3 := h1 _ _ rfl ![0, 2, 2] (by decide)
  revert h3
  decide +kernel

/-- For such boxes the call either raises or, without augmentation, predicts exactly the voxels
whose coordinates along the second and third axis are below the first side in all three copies. -/
theorem C82_partial (x : Arr ℚ) (hs : ∀ d, x.shape 0 ≤ x.shape d) :
    ∃ seg err, prediction (fun s => s) (manip 1) x = .ok (seg, err) ∧
      ∀ c : Fin 3 → ℤ, (∀ d, 0 ≤ c d ∧ c d < x.shape d) →
        seg c = roundEven (x.val c * (1 + (if c 1 < x.shape 0 then 1 else 0) +
          (if c 2 < x.shape 0 then 1 else 0)) / 3) := by
  have hf : forward (.id, 0, 0) x = x := by simp [forward, Opt.apply, Arr.rot90]
  have hb : ∀ y : Arr ℚ, backward (.id, 0, 0) y = y := fun y => by
    simp [backward, Opt.apply, Arr.rot90]
  have hno : ¬ ∃ o ∈ manip 1, (forward o x).shape ≠ x.shape ∨
      ∃ d, (forward o x).shape d < x.shape 0 := by
    rintro ⟨o, ho, h⟩
    have : o = (.id, 0, 0) := by simpa [manip] using ho
    subst this
    rw [hf] at h
    rcases h with h | ⟨d, h⟩
    · exact h rfl
    · exact absurd (hs d) (not_le.mpr h)
  unfold prediction
  rw [if_neg hno]
  refine ⟨_, _, rfl, ?_⟩
  · intro c hc
    simp only [mean, copies, manip, show (1 : ℤ) ≠ 2 by decide, if_false, List.map_cons, List.map_nil,
      List.flatMap_cons, List.flatMap_nil, List.append_nil, List.cons_append, List.nil_append, hf, hb,
      List.length_cons, List.length_nil, List.sum_cons, List.sum_nil]
    congr 1
    simp only [copy, slice_within]
    rw [if_pos (hc 0).2]
    split_ifs <;> push_cast <;> ring

example : ∀ d, (![2, 3, 3] : Fin 3 → ℕ) 0 ≤ (![2, 3, 3] : Fin 3 → ℕ) d := by decide

/-- An image that is not a cube cannot be segmented with augmentation, and one whose first side
is longer than another side cannot be segmented at all. -/
theorem C82_raises (net : Slice ℚ → Slice ℚ) (x : Arr ℚ) :
    ((∃ d, x.shape d ≠ x.shape 0) →
      prediction net (manip 2) x = .error "could not broadcast, or index out of bounds") ∧
    ((∃ d, x.shape d < x.shape 0) → ∀ tta,
      prediction net (manip tta) x = .error "could not broadcast, or index out of bounds") := by
  have h12 : (∃ d, x.shape d ≠ x.shape 0) →
      prediction net (manip 2) x = .error "could not broadcast, or index out of bounds" := by
    rintro ⟨d, hd⟩
    unfold prediction
    have hm : ∀ ax : Fin 3, (Opt.id, ax, (1 : ℤ)) ∈ manip 2 := by decide +kernel
    have e : ∀ a b : Fin 3, (x.rot90 1 a b).shape = fun i => x.shape (Equiv.swap a b i) := by
      intro a b
      simp [Arr.rot90, Arr.swap, Arr.flip, Function.comp_def]
    refine if_pos ?_
    match d, hd with
    | 0, hd => exact absurd rfl hd
    | 1, hd =>
      refine ⟨_, hm 2, Or.inl fun h => hd ?_⟩
      have h1 : (x.rot90 1 (axes 2).1 (axes 2).2).shape = x.shape := h
      rw [e] at h1
      exact congrFun h1 0
    | 2, hd =>
      refine ⟨_, hm 1, Or.inl fun h => hd ?_⟩
      have h1 : (x.rot90 1 (axes 1).1 (axes 1).2).shape = x.shape := h
      rw [e] at h1
      exact congrFun h1 0
  refine ⟨h12, ?_⟩
  rintro ⟨d, hd⟩ tta
  by_cases ht : tta = 2
  · subst ht
    exact h12 ⟨d, hd.ne⟩
  · unfold prediction
    refine if_pos ⟨(.id, 0, 0), by simp [manip, ht], Or.inr ⟨d, ?_⟩⟩
    simpa [forward, Opt.apply, Arr.rot90] using hd

example : ∃ d, (⟨![3, 2, 3], fun _ => 1⟩ : Arr ℚ).shape d < 3 := ⟨1, by decide⟩

end Verif.Augment
