import Verif.Model.Halo
import Mathlib.Algebra.Order.Floor.Ring
import Mathlib.Data.List.OfFn
import Mathlib.Data.List.ReduceOption
import Mathlib.Tactic.Linarith
import Mathlib.Tactic.FieldSimp
import Mathlib.Tactic.NormNum
import Mathlib.Tactic.Ring
/-!
# Properties of the halo catalogue readers (C47, C48, C87)
-/

namespace Verif.Halo

/-! ## The reading loop -/

/-- The first `limit` entries; all of them for a negative limit. -/
def firstOf {α : Type} (limit : ℤ) (l : List α) : List α := if limit < 0 then l else l.take limit.toNat

theorem readLines_skip {α : Type} (p : Sel) (row : Row → Except Err (Option α)) :
    ∀ (k : ℕ) (n : ℤ) (hs : List α) (lines : List Row), n + k ≤ p.startline →
      readLines p row n hs lines = readLines p row (n + k) hs (lines.drop k) := by
  intro k
  induction k with
  | zero => intro n hs lines _; simp
  | succ k ih =>
    intro n hs lines h
    match lines with
    | [] => simp [readLines]
    | r :: rs =>
      rw [readLines, if_pos (by push_cast at h; omega), ih (n + 1) hs rs (by push_cast at h ⊢; omega)]
      simp only [List.drop_succ_cons]
      congr 1
      push_cast
      omega

theorem readLines_body {α : Type} (p : Sel) (row : Row → Except Err (Option α)) (f : Row → Option α) :
    ∀ (lines : List Row) (n : ℤ) (hs : List α), p.startline ≤ n → (∀ r ∈ lines, row r = .ok (f r)) →
      (p.limit < 0 ∨ (hs.length : ℤ) ≤ p.limit) →
      ∃ b, readLines p row n hs lines = .ok (firstOf p.limit (hs ++ lines.filterMap f), b) ∧
        (b = true → firstOf p.limit (hs ++ lines.filterMap f) = hs ++ lines.filterMap f) ∧
        (b = false → ((firstOf p.limit (hs ++ lines.filterMap f)).length : ℤ) = p.limit ∧
          lines ≠ []) := by
  intro lines
  induction lines with
  | nil =>
    intro n hs _ _ hl
    have e : firstOf p.limit hs = hs := by
      unfold firstOf
      split_ifs with h
      · rfl
      · rw [List.take_of_length_le]; omega
    refine ⟨true, ?_, ?_, ?_⟩
    · simp [readLines, e]
    · simp [e]
    · simp
  | cons r rs ih =>
    intro n hs hn hr hl
    have hrow := hr r (by simp)
    have hrs : ∀ r ∈ rs, row r = .ok (f r) := fun r h => hr r (by simp [h])
    rw [readLines, if_neg (by omega)]
    by_cases hfull : 0 ≤ p.limit ∧ p.limit ≤ hs.length
    · rw [if_pos hfull]
      have e : firstOf p.limit (hs ++ (r :: rs).filterMap f) = hs := by
        unfold firstOf
        rw [if_neg (by omega), List.take_append_of_le_length (by omega), List.take_of_length_le (by omega)]
      refine ⟨false, by rw [e], by simp, fun _ => ⟨?_, by simp⟩⟩
      rw [e]
      omega
    · rw [if_neg hfull, hrow]
      cases hf : f r with
      | none =>
        obtain ⟨b, h1, h2, h3⟩ := ih (n + 1) hs (by omega) hrs hl
        rw [List.filterMap_cons, hf]
        exact ⟨b, h1, h2, fun h => ⟨(h3 h).1, by simp⟩⟩
      | some x =>
        obtain ⟨b, h1, h2, h3⟩ := ih (n + 1) (hs ++ [x]) (by omega) hrs
          (by simp only [List.length_append, List.length_singleton]; push_cast; omega)
        rw [List.filterMap_cons, hf]
        simp only [List.append_assoc, List.singleton_append] at h1 h2 h3
        exact ⟨b, h1, h2, fun h => ⟨(h3 h).1, by simp⟩⟩

/-- The loop on the lines from line number `startline` (counted from one) on. -/
theorem readLines_ok {α : Type} (p : Sel) (row : Row → Except Err (Option α)) (f : Row → Option α)
    (lines : List Row) (hr : ∀ r ∈ lines.drop (p.startline - 1).toNat, row r = .ok (f r)) :
    ∃ b, readLines p row 1 [] lines =
        .ok (firstOf p.limit ((lines.drop (p.startline - 1).toNat).filterMap f), b) ∧
      (b = true → firstOf p.limit ((lines.drop (p.startline - 1).toNat).filterMap f) =
        (lines.drop (p.startline - 1).toNat).filterMap f) ∧
      (b = false → ((firstOf p.limit ((lines.drop (p.startline - 1).toNat).filterMap f)).length : ℤ)
        = p.limit) := by
  have hbody := readLines_body p row f (lines.drop (p.startline - 1).toNat)
  by_cases h : 1 ≤ p.startline
  · rw [readLines_skip p row (p.startline - 1).toNat 1 [] lines (by omega)]
    obtain ⟨b, h1, h2, h3⟩ := hbody (1 + (p.startline - 1).toNat) [] (by omega) hr
      (by simp only [List.length_nil]; omega)
    exact ⟨b, h1, h2, fun hb => (h3 hb).1⟩
  · have e : (p.startline - 1).toNat = 0 := by omega
    obtain ⟨b, h1, h2, h3⟩ := hbody 1 [] (by omega) hr (by simp only [List.length_nil]; omega)
    rw [e, List.drop_zero] at *
    exact ⟨b, h1, h2, fun hb => (h3 hb).1⟩

/-! ## Specification -/

/-- The halo of a line of nineteen numbers: positions, centre of mass, velocity, angular
momentum and velocity dispersion (three numbers each), one number that is not used, the mass,
the number of particles and one more. -/
def ofNumbers (unit : ℚ) (x : Fin 19 → ℚ) : Halo :=
  ⟨[x 0, x 1, x 2], [x 3, x 4, x 5], [x 6, x 7, x 8], [x 9, x 10, x 11], [x 12, x 13, x 14],
    x 16, x 17, x 16 * unit⟩

/-- The mass in solar masses lies strictly between the bounds. -/
def Within (p : Sel) (solar : ℚ) : Prop := p.minMass < solar ∧ ∀ M, p.maxMass = some M → solar < M

instance (p : Sel) (q : ℚ) : Decidable (Within p q) := by
  unfold Within
  cases h : p.maxMass with
  | none => exact decidable_of_iff (p.minMass < q) (by simp)
  | some M => exact decidable_of_iff (p.minMass < q ∧ q < M) (by simp)

/-- The line holding the numbers `x`. -/
def lineOf (x : Fin 19 → ℚ) : Row := (List.ofFn x).map some

theorem lineOf_inj {x y : Fin 19 → ℚ} (h : lineOf x = lineOf y) : x = y := by
  unfold lineOf at h
  exact List.ofFn_inj.mp (List.map_injective_iff.mpr (Option.some_injective _) h)

theorem lineOf_eq (x : Fin 19 → ℚ) : lineOf x = [some (x 0), some (x 1), some (x 2), some (x 3),
    some (x 4), some (x 5), some (x 6), some (x 7), some (x 8), some (x 9), some (x 10),
    some (x 11), some (x 12), some (x 13), some (x 14), some (x 15), some (x 16), some (x 17),
    some (x 18)] := by
  simp [lineOf, List.ofFn_succ]

theorem accept_eq (p : Sel) (hu : 0 < p.unit) (h0 : p.maxMass ≠ some 0) (g : ℚ) :
    accept p g = .ok (decide (Within p (g * p.unit))) := by
  unfold accept
  have e1 : p.minMass / p.unit < g ↔ p.minMass < g * p.unit := div_lt_iff₀ hu
  cases h : p.maxMass with
  | none =>
    simp only [Within, h, e1]
    split_ifs with c <;> simp [c]
  | some M =>
    have hM : M ≠ 0 := fun e => h0 (by rw [h, e])
    have e2 : g < M / p.unit ↔ g * p.unit < M := lt_div_iff₀ hu
    simp only [Within, h, e1, if_neg hM, e2]
    split_ifs with c <;> simp [c]

/-- The halo a line contributes, if any. -/
def contribution (p : Sel) (x : Fin 19 → ℚ) : Option Halo :=
  if Within p (x 16 * p.unit) then some (ofNumbers p.unit x) else none

theorem listRow_eq (p : Sel) (hu : 0 < p.unit) (h0 : p.maxMass ≠ some 0) (x : Fin 19 → ℚ) :
    listRow p (lineOf x) = .ok (contribution p x) := by
  have hg : gridMass (lineOf x) = .ok (x 16) := by rw [lineOf_eq]; rfl
  unfold listRow contribution
  simp only [hg, accept_eq p hu h0, bind, Except.bind]
  by_cases c : Within p (x 16 * p.unit)
  · simp only [c, decide_true, if_true]
    rw [lineOf_eq]
    rfl
  · simp only [c, decide_false, Bool.false_eq_true, if_false]

/-! ## C47 -/

/-- The full statement of C47: whatever the columns of the file, `HaloList` returns the first
`max_select_number` haloes in file order, from line `startline` on, whose mass lies strictly
between the bounds, and `True` exactly if that is all of them.  Proved here for files of
nineteen columns and a non-zero upper bound; of the value returned, that `True` means that
all were read and that `False` means that the limit was reached. -/
theorem C47_partial (p : Sel) (hu : 0 < p.unit) (h0 : p.maxMass ≠ some 0) (lines : List Row)
    (xs : List (Fin 19 → ℚ)) (hl : lines.drop (p.startline - 1).toNat = xs.map lineOf) :
    ∃ b, readList p lines = .ok (firstOf p.limit
        ((xs.filter fun x => Within p (x 16 * p.unit)).map (ofNumbers p.unit)), b) ∧
      (b = true → p.limit < 0 ∨
        ((xs.filter fun x => Within p (x 16 * p.unit)).length : ℤ) ≤ p.limit) ∧
      (b = false → p.limit ≤ (xs.filter fun x => Within p (x 16 * p.unit)).length ∧ 0 ≤ p.limit) := by
  classical
  let f : Row → Option Halo := fun r => if h : ∃ x, r = lineOf x then contribution p h.choose else none
  have inj : ∀ x, f (lineOf x) = contribution p x := by
    intro x
    have h : ∃ y, lineOf x = lineOf y := ⟨x, rfl⟩
    simp only [f, dif_pos h]
    rw [← lineOf_inj h.choose_spec]
  have hr : ∀ r ∈ lines.drop (p.startline - 1).toNat, listRow p r = .ok (f r) := by
    intro r hr
    rw [hl, List.mem_map] at hr
    obtain ⟨x, _, rfl⟩ := hr
    rw [inj, listRow_eq p hu h0]
  obtain ⟨b, h1, h2, h3⟩ := readLines_ok p (listRow p) f lines hr
  have e : (lines.drop (p.startline - 1).toNat).filterMap f =
      (xs.filter fun x => Within p (x 16 * p.unit)).map (ofNumbers p.unit) := by
    rw [hl, List.filterMap_map, ← List.filterMap_eq_map, List.filterMap_filter]
    congr 1
    funext x
    simp only [Function.comp_apply, inj, contribution, decide_eq_true_eq]
  rw [e] at h1 h2 h3
  refine ⟨b, h1, fun hb => ?_, fun hb => ?_⟩
  · by_contra hc
    push Not at hc
    have := congrArg List.length (h2 hb)
    unfold firstOf at this
    rw [if_neg (by omega), List.length_take, List.length_map] at this
    omega
  · have := h3 hb
    unfold firstOf at this
    split_ifs at this with c
    · omega
    · rw [List.length_take, List.length_map] at this
      omega

/-- Three haloes, one of them too light and one too heavy, after a line to skip. -/
example : readList ⟨2, 3, some 100, -1, 2⟩
    ([none] :: [fun _ => (1 : ℚ), fun _ => 2, fun _ => 50].map lineOf) =
      .ok ([ofNumbers 2 fun _ => 2], true) := by decide +kernel

example : readList ⟨2, 3, none, 1, 0⟩ ([fun _ => (1 : ℚ), fun _ => 2, fun _ => 50].map lineOf) =
    .ok ([ofNumbers 2 fun _ => 2], false) := by decide +kernel

/-- `False` is returned although all haloes between the bounds were read: a line that is not
selected follows. -/
theorem C47_false_flag : ∃ (p : Sel) (xs : List (Fin 19 → ℚ)), 0 < p.unit ∧ 0 ≤ p.limit ∧
    ((xs.filter fun x => Within p (x 16 * p.unit)).length : ℤ) ≤ p.limit ∧
    ∃ hs, readList p (xs.map lineOf) = .ok (hs, false) :=
  ⟨⟨1, 3, none, 1, 0⟩, [fun _ => 5, fun _ => 2], by decide +kernel, by decide, by decide +kernel,
    [ofNumbers 1 fun _ => 5], by decide +kernel⟩

/-- The mass compared with the bounds is the third field from the end, the mass of the halo is
field 16.  In a file with the three more columns that the reader itself expects (`vals[19:22]`)
these differ, and a halo outside the bounds is returned. -/
theorem C47_false_columns : ∃ (p : Sel) (x : Fin 22 → ℚ) (h : Halo) (b : Bool), 0 < p.unit ∧
    p.maxMass ≠ some 0 ∧ readList p [(List.ofFn x).map some] = .ok ([h], b) ∧ h.m = x 16 ∧
    ¬ Within p (h.m * p.unit) :=
  ⟨⟨1, 10, none, -1, 0⟩, fun i => if i = 19 then 20 else 1,
    ⟨[1, 1, 1], [1, 1, 1], [1, 1, 1], [1, 1, 1], [1, 1, 1], 1, 1, 20⟩, true,
    by decide +kernel, by decide, by decide +kernel, by decide +kernel, by decide +kernel⟩

/-- An upper bound of zero raises instead of selecting nothing. -/
theorem C47_raises_zero : ∃ (p : Sel) (xs : List (Fin 19 → ℚ)), 0 < p.unit ∧
    p.maxMass = some 0 ∧ readList p (xs.map lineOf) = .error .unbound :=
  ⟨⟨1, 0, some 0, -1, 0⟩, [fun _ => 5], by decide +kernel, rfl, by decide +kernel⟩

/-- A short line that is read raises. -/
theorem C47_raises (p : Sel) (r : Row) (rs : List Row) (h : r.length < 3) (hs : p.startline ≤ 1)
    (hlim : p.limit ≠ 0) : readList p (r :: rs) = .error .index := by
  unfold readList readLines
  rw [if_neg (by omega), if_neg (by simp only [List.length_nil]; push_cast; omega)]
  have : gridMass r = .error .index := if_pos h
  simp only [listRow, this, bind, Except.bind]

example : ([some 1] : Row).length < 3 := by decide

theorem nums_some (xs : List ℚ) (i j : ℕ) : ∃ l, nums (xs.map some) i j = .ok l := by
  refine ⟨(xs.take j).drop i, ?_⟩
  unfold nums
  rw [← List.map_take, ← List.map_drop]
  generalize (xs.take j).drop i = l
  induction l with
  | nil => rfl
  | cons x l ih =>
    rw [List.map_cons, List.mapM_cons]
    simp only [float, bind, Except.bind, ih]
    rfl

theorem num_some (xs : List ℚ) (i : ℕ) :
    num (xs.map some) i = match xs[i]? with
      | some x => .ok x
      | none => .error .index := by
  unfold num
  rw [List.getElem?_map]
  cases xs[i]? <;> rfl

/-- A line of numbers that has too few of them for a halo raises if its mass lies between the bounds. -/
theorem C47_raises_short (p : Sel) (hu : 0 < p.unit) (h0 : p.maxMass ≠ some 0) (xs : List ℚ) (rs : List Row)
    (h3 : 3 ≤ xs.length) (h : xs.length < 19) (hw : Within p (xs[xs.length - 3] * p.unit))
    (hs : p.startline ≤ 1) (hlim : p.limit ≠ 0) : readList p (xs.map some :: rs) = .error .index := by
  unfold readList readLines
  rw [if_neg (by omega), if_neg (by simp only [List.length_nil]; push_cast; omega)]
  have hg : gridMass (xs.map some) = .ok (xs[xs.length - 3]) := by
    unfold gridMass
    rw [List.length_map, if_neg (by omega), num_some, List.getElem?_eq_getElem (by omega)]
  have hh : halo p (xs.map some) (xs[xs.length - 3]) = .error .index := by
    obtain ⟨a, ha⟩ := nums_some xs 0 3
    obtain ⟨b, hb⟩ := nums_some xs 3 6
    obtain ⟨c, hc⟩ := nums_some xs 6 9
    obtain ⟨d, hd⟩ := nums_some xs 9 12
    obtain ⟨e, he⟩ := nums_some xs 12 15
    have h18 : xs[18]? = none := List.getElem?_eq_none (by omega)
    unfold halo
    simp only [ha, hb, hc, hd, he, num_some, h18, bind, Except.bind]
    cases xs[16]? with
    | none => rfl
    | some m =>
      cases xs[17]? with
      | none => rfl
      | some m' => rfl
  simp only [listRow, hg, accept_eq p hu h0, hw, decide_true, bind, Except.bind, if_true, hh]

example : readList ⟨2, 3, none, -1, 0⟩ [[some 1, some 2, some 3, some 7, some 8, some 9]] = .error .index :=
  C47_raises_short ⟨2, 3, none, -1, 0⟩ (by norm_num) (by simp) [1, 2, 3, 7, 8, 9] [] (by decide) (by decide)
    (by refine ⟨by norm_num, fun M h => ?_⟩; cases h) (by norm_num) (by norm_num)

/-! ### The full catalogue -/

/-- The halo of a line of nineteen numbers of the full catalogue. -/
def fullOfNumbers (unit L : ℚ) (n : ℕ) (x : Fin 19 → ℚ) : Halo :=
  { ofNumbers unit x with
    pos := [repositionOne L (x 0 * L / n), repositionOne L (x 1 * L / n),
      repositionOne L (x 2 * L / n)]
    posCm := [repositionOne L (x 3 * L / n), repositionOne L (x 4 * L / n),
      repositionOne L (x 5 * L / n)] }

theorem fullRow_eq (p : Sel) (hu : 0 < p.unit) (h0 : p.maxMass ≠ some 0) (L : ℚ) (n : ℕ)
    (x : Fin 19 → ℚ) : fullRow p L n (lineOf x) =
      .ok (if Within p (x 16 * p.unit) then some (fullOfNumbers p.unit L n x) else none) := by
  have hg : gridMass (lineOf x) = .ok (x 16) := by rw [lineOf_eq]; rfl
  have hl : (lineOf x).length = 19 := by simp [lineOf]
  unfold fullRow
  rw [if_neg (by omega)]
  simp only [hg, accept_eq p hu h0, bind, Except.bind]
  by_cases c : Within p (x 16 * p.unit)
  · simp only [c, decide_true, if_true]
    rw [lineOf_eq]
    rfl
  · simp only [c, decide_false, Bool.false_eq_true, if_false]

/-- A line of the full catalogue: a lone field (a node's number of haloes) or a halo. -/
def fullLine (x : Option (Fin 19 → ℚ)) : Row :=
  match x with
  | none => [some 0]
  | some x => lineOf x

/-- The same for `HaloCubeP3MFull`, where lines of one field are passed over. -/
theorem C47_full_partial (p : Sel) (hu : 0 < p.unit) (h0 : p.maxMass ≠ some 0) (L : ℚ) (n : ℕ)
    (lines : List Row) (xs : List (Option (Fin 19 → ℚ)))
    (hl : lines.drop (p.startline - 1).toNat = xs.map fullLine) :
    ∃ b, readFull p L n lines = .ok (firstOf p.limit
        ((xs.reduceOption.filter fun x => Within p (x 16 * p.unit)).map
          (fullOfNumbers p.unit L n)), b) ∧
      (b = true → p.limit < 0 ∨
        ((xs.reduceOption.filter fun x => Within p (x 16 * p.unit)).length : ℤ) ≤ p.limit) ∧
      (b = false → p.limit ≤ (xs.reduceOption.filter fun x => Within p (x 16 * p.unit)).length ∧
        0 ≤ p.limit) := by
  classical
  let f : Row → Option Halo := fun r => if h : ∃ x, r = lineOf x then
    (if Within p (h.choose 16 * p.unit) then some (fullOfNumbers p.unit L n h.choose) else none)
    else none
  have inj : ∀ x, f (lineOf x) =
      if Within p (x 16 * p.unit) then some (fullOfNumbers p.unit L n x) else none := by
    intro x
    have h : ∃ y, lineOf x = lineOf y := ⟨x, rfl⟩
    have e : h.choose = x := (lineOf_inj h.choose_spec).symm
    simp only [f, dif_pos h]
    rw [e]
  have fnone : f [some 0] = none := by
    refine dif_neg ?_
    rintro ⟨x, hx⟩
    have := congrArg List.length hx
    simp [lineOf] at this
  have hr : ∀ r ∈ lines.drop (p.startline - 1).toNat, fullRow p L n r = .ok (f r) := by
    intro r hr
    rw [hl, List.mem_map] at hr
    obtain ⟨x, _, rfl⟩ := hr
    cases x with
    | none => rw [fullLine, fnone]; rfl
    | some x => rw [fullLine, inj, fullRow_eq p hu h0]
  obtain ⟨b, h1, h2, h3⟩ := readLines_ok p (fullRow p L n) f lines hr
  have e : (lines.drop (p.startline - 1).toNat).filterMap f =
      (xs.reduceOption.filter fun x => Within p (x 16 * p.unit)).map (fullOfNumbers p.unit L n) := by
    rw [hl, List.filterMap_map, ← List.filterMap_eq_map, List.filterMap_filter, List.reduceOption,
      List.filterMap_filterMap]
    congr 1
    funext x
    cases x with
    | none => simp [fullLine, fnone]
    | some x => simp [fullLine, inj]
  rw [e] at h1 h2 h3
  refine ⟨b, h1, fun hb => ?_, fun hb => ?_⟩
  · by_contra hc
    push Not at hc
    have := congrArg List.length (h2 hb)
    unfold firstOf at this
    rw [if_neg (by omega), List.length_take, List.length_map] at this
    omega
  · have := h3 hb
    unfold firstOf at this
    split_ifs at this with c
    · omega
    · rw [List.length_take, List.length_map] at this
      omega

example : readFull ⟨2, 3, some 100, -1, 0⟩ 10 20
    ([none, some fun _ => (1 : ℚ), none, some fun _ => -4, some fun _ => 22].map fullLine) =
      .ok ([{ ofNumbers 2 (fun _ => 22) with pos := [1, 1, 1], posCm := [1, 1, 1] }], true) := by
  decide +kernel

/-! ## C48 -/

/-- Positions up to one box length outside come back into the box, by a whole number of box
lengths; positions in the box stay. -/
theorem C48_inside (L : ℚ) (pos : List ℚ) (h : ∀ x ∈ pos, -L ≤ x ∧ x ≤ 2 * L) :
    (reposition L pos).length = pos.length ∧
    ∀ (i : ℕ) (x : ℚ), pos[i]? = some x → ∃ y, (reposition L pos)[i]? = some y ∧ 0 ≤ y ∧ y ≤ L ∧
      (∃ k : ℤ, y = x + k * L) ∧ (0 ≤ x → x ≤ L → y = x) := by
  refine ⟨by simp [reposition], fun i x hx => ⟨repositionOne L x, by simp [reposition, hx], ?_⟩⟩
  obtain ⟨h1, h2⟩ := h x (List.mem_of_getElem? hx)
  unfold repositionOne
  split_ifs with a b
  · exact ⟨by linarith, by linarith, ⟨1, by push_cast; ring⟩, fun c => absurd c (by linarith)⟩
  · exact ⟨by linarith, by linarith, ⟨-1, by push_cast; ring⟩, fun _ c => absurd c (by linarith)⟩
  · exact ⟨by linarith, by linarith, ⟨0, by simp⟩, fun _ _ => rfl⟩

example : ∀ x ∈ [(-3 : ℚ), 4, 12], -10 ≤ x ∧ x ≤ 2 * 10 := by decide +kernel
example : reposition 10 [-3, 4, 12] = [7, 4, 2] := by decide +kernel

/-- Exactly: whatever the position, it moves by at most one box length, and it ends in the box
only if it was at most one box length away. -/
theorem C48_once (L : ℚ) (hL : 0 ≤ L) (x : ℚ) :
    |repositionOne L x - x| ≤ L ∧
      ((0 ≤ repositionOne L x ∧ repositionOne L x ≤ L) ↔ (-L ≤ x ∧ x ≤ 2 * L)) := by
  unfold repositionOne
  split_ifs with a b
  · refine ⟨by rw [add_sub_cancel_right, abs_of_nonneg hL], ?_⟩
    constructor
    · rintro ⟨h1, h2⟩; constructor <;> linarith
    · rintro ⟨h1, h2⟩; constructor <;> linarith
  · refine ⟨by rw [sub_sub_cancel_left, abs_neg, abs_of_nonneg hL], ?_⟩
    constructor
    · rintro ⟨h1, h2⟩; constructor <;> linarith
    · rintro ⟨h1, h2⟩; constructor <;> linarith
  · refine ⟨by simpa using hL, ?_⟩
    constructor
    · rintro ⟨h1, h2⟩; constructor <;> linarith
    · rintro ⟨h1, h2⟩; constructor <;> linarith

example : |repositionOne 10 (-3) - -3| ≤ 10 ∧ 0 ≤ repositionOne 10 (-3) ∧ repositionOne 10 (-3) ≤ 10 :=
  ⟨(C48_once 10 (by norm_num) (-3)).1, (C48_once 10 (by norm_num) (-3)).2.mpr (by norm_num)⟩

/-- A second call changes nothing. -/
theorem C48_again (L : ℚ) (hL : 0 ≤ L) (pos : List ℚ) (h : ∀ x ∈ pos, -L ≤ x ∧ x ≤ 2 * L) :
    reposition L (reposition L pos) = reposition L pos := by
  unfold reposition
  rw [List.map_map]
  refine List.map_congr_left fun x hx => ?_
  obtain ⟨h1, h2⟩ := ((C48_once L hL x).2).mpr (h x hx)
  simp only [Function.comp_apply]
  generalize repositionOne L x = y at *
  unfold repositionOne
  rw [if_neg (not_lt.mpr h1), if_neg (not_lt.mpr h2)]

example : reposition 10 (reposition 10 [-3, 4, 17]) = reposition 10 [-3, 4, 17] := C48_again 10 (by norm_num) _ (by norm_num)

/-! ## C87 and the Rockstar reader -/

theorem rockstar_rows (rd : String → Option ℚ) (limit : ℤ) (c : Layout) (hlim : limit < 0)
    (h1 : 1 ≤ c.lnrVals) (hc : c.lnrCosm ≤ c.lnrVals) (hp : c.lnrPart ≤ c.lnrVals) :
    ∀ (vs : List (List String)) (n : ℕ) (s s' : Cat), c.lnrVals < n →
      rockstarLines rd limit (some c) n s vs = .ok s' →
      s'.partMass = s.partMass ∧ ∃ hs, s'.halos = s.halos ++ hs ∧
        List.Forall₂ (fun v h => rockstarHalo rd c s.partMass v = .ok h) vs hs := by
  intro vs
  induction vs with
  | nil =>
    intro n s s' _ h
    obtain rfl : s = s' := by simpa [rockstarLines] using h
    exact ⟨rfl, [], by simp, .nil⟩
  | cons v vs ih =>
    intro n s s' hn h
    rw [rockstarLines, if_neg (by omega)] at h
    rw [if_neg (by omega), if_neg (by omega), if_pos hn, if_pos (by omega)] at h
    cases e : rockstarHalo rd c s.partMass v with
    | error x => rw [e] at h; cases h
    | ok x =>
      rw [e] at h
      obtain ⟨a, hs, b, f⟩ := ih (n + 1) _ s' (by omega) h
      exact ⟨a, x :: hs, by rw [b]; simp, .cons e f⟩

theorem rockstar_all (rd : String → Option ℚ) (limit : ℤ) (c : Layout) (hlim : limit < 0)
    (h2 : 2 ≤ c.lnrCosm) (hcp : c.lnrCosm < c.lnrPart) (hp : c.lnrPart ≤ c.lnrVals) :
    ∀ (vs : List (List String)) (n : ℕ) (s s' : Cat), 1 ≤ n → n ≤ c.lnrVals + 1 →
      rockstarLines rd limit (some c) n s vs = .ok s' →
      (n ≤ c.lnrPart → ∀ v, vs[c.lnrPart - n]? = some v →
        ∃ q, txt rd v 2 = .ok q ∧ s'.partMass = some q) ∧
      (c.lnrPart < n → s'.partMass = s.partMass) ∧
      ∃ hs, s'.halos = s.halos ++ hs ∧
        List.Forall₂ (fun v h => rockstarHalo rd c s'.partMass v = .ok h)
          (vs.drop (c.lnrVals + 1 - n)) hs := by
  intro vs
  induction vs with
  | nil =>
    intro n s s' _ _ h
    obtain rfl : s = s' := by simpa [rockstarLines] using h
    exact ⟨by simp, fun _ => rfl, [], by simp, by simp⟩
  | cons v vs ih =>
    intro n s s' hn1 hn h
    by_cases hlast : n = c.lnrVals + 1
    · obtain ⟨a, hs, b, f⟩ := rockstar_rows rd limit c hlim (by omega) (by omega) hp (v :: vs) n s s'
        (by omega) h
      refine ⟨fun h => by omega, fun _ => a, hs, b, ?_⟩
      rw [a, hlast]
      simpa using f
    · have hd : c.lnrVals + 1 - n = (c.lnrVals + 1 - (n + 1)) + 1 := by omega
      have hpart : ∀ w, n + 1 ≤ c.lnrPart → (v :: vs)[c.lnrPart - n]? = some w →
          vs[c.lnrPart - (n + 1)]? = some w := by
        intro w h1 h2
        rwa [show c.lnrPart - n = (c.lnrPart - (n + 1)) + 1 by omega, List.getElem?_cons_succ] at h2
      rw [rockstarLines] at h
      rw [hd, List.drop_succ_cons]
      by_cases e1 : n = 1
      · rw [if_pos e1] at h
        cases ea : lastTxt rd v with
        | error x => rw [ea] at h; cases h
        | ok a =>
          rw [ea] at h
          simp only at h
          by_cases a0 : a = 0
          · rw [if_pos a0] at h; cases h
          · rw [if_neg a0] at h
            obtain ⟨p1, p2, hs, p3, p4⟩ := ih (n + 1) _ s' (by omega) (by omega) h
            exact ⟨fun _ w hw => p1 (by omega) w (hpart w (by omega) hw), fun _ => p2 (by omega), hs, p3, p4⟩
      · rw [if_neg e1] at h
        by_cases e2 : n = c.lnrCosm
        · rw [if_pos e2] at h
          split at h
          · cases h
          · obtain ⟨p1, p2, hs, p3, p4⟩ := ih (n + 1) _ s' (by omega) (by omega) h
            exact ⟨fun _ w hw => p1 (by omega) w (hpart w (by omega) hw), fun _ => by omega, hs, p3, p4⟩
        · rw [if_neg e2] at h
          by_cases e3 : n = c.lnrPart
          · rw [if_pos e3] at h
            cases ea : txt rd v 2 with
            | error x => rw [ea] at h; cases h
            | ok q =>
              rw [ea] at h
              obtain ⟨p1, p2, hs, p3, p4⟩ := ih (n + 1) _ s' (by omega) (by omega) h
              refine ⟨fun _ w hw => ⟨q, ?_, p2 (by omega)⟩, fun _ => by omega, hs, p3, p4⟩
              rw [e3, Nat.sub_self, List.getElem?_cons_zero] at hw
              cases hw
              exact ea
          · rw [if_neg e3, if_neg (by omega)] at h
            obtain ⟨p1, p2, hs, p3, p4⟩ := ih (n + 1) _ s' (by omega) (by omega) h
            exact ⟨fun _ w hw => p1 (by omega) w (hpart w (by omega) hw), fun _ => p2 (by omega), hs, p3, p4⟩

/-- Names of the columns in the two formats, and the number of the first line with a halo and
of the line with the particle mass (counted from zero). -/
structure Format where
  pos : String
  vel : String
  l : String
  vrms : String
  r : String
  m : String
  first : ℕ
  part : ℕ

/-- The `.list` and the `.ascii` format of Rockstar. -/
def formatOf (ascii : Bool) (massDef : String) : Format :=
  if ascii then ⟨"x", "vx", "Jx", "vrms", "r" ++ massDef, "m" ++ massDef, 20, 6⟩
  else ⟨"X", "VX", "JX", "Vrms", "R" ++ massDef, "M" ++ massDef, 16, 5⟩

/-- Column `i` is the first one called `name`. -/
def Called (header : List String) (name : String) (i : ℕ) : Prop :=
  header[i]? = some name ∧ ∀ j < i, header[j]? ≠ some name

/-- The number in the column called `name`. -/
def Entry (rd : String → Option ℚ) (header row : List String) (name : String) (x : ℚ) : Prop :=
  ∃ i, Called header name i ∧ (row[i]?).bind rd = some x

/-- The numbers in the column called `name` and the two after it. -/
def Triple (rd : String → Option ℚ) (header row : List String) (name : String) (xs : List ℚ) : Prop :=
  ∃ i, Called header name i ∧ ((row.drop i).take 3).map rd = xs.map some

/-- `n` is an integer nearest to `x`, the even one if there are two. -/
def Nearest (x : ℚ) (n : ℤ) : Prop := |x - n| ≤ 1 / 2 ∧ (|x - n| = 1 / 2 → n % 2 = 0)

/-- The halo that a line of the catalogue describes. -/
structure Describes (rd : String → Option ℚ) (f : Format) (header : List String) (part : ℚ)
    (row : List String) (h : RHalo) : Prop where
  pos : Triple rd header row f.pos h.pos
  vel : Triple rd header row f.vel h.vel
  l : Triple rd header row f.l h.l
  velDisp : Entry rd header row f.vrms h.velDisp
  r : Entry rd header row f.r h.r
  m : Entry rd header row f.m h.m
  mp : part ≠ 0 ∧ Nearest (h.m / part) h.mp

theorem called_of_column {header : List String} {name : String} {i : ℕ}
    (h : column header name = .ok i) : Called header name i := by
  unfold column at h
  cases e : header.idxOf? name with
  | none => rw [e] at h; cases h
  | some j =>
    rw [e] at h
    obtain rfl : j = i := by simpa using h
    rw [List.idxOf?, List.findIdx?_eq_some_iff_getElem] at e
    obtain ⟨hlt, a, b⟩ := e
    refine ⟨by rw [List.getElem?_eq_getElem hlt]; simpa using a, fun k hk hc => ?_⟩
    have := b k hk
    rw [List.getElem?_eq_getElem (by omega)] at hc
    simp at this hc
    exact this hc

theorem float_ok {x : Option ℚ} {q : ℚ} (h : float x = .ok q) : x = some q := by
  cases x with
  | none => cases h
  | some y => simpa [float] using h

theorem txt_ok {rd : String → Option ℚ} {v : List String} {i : ℕ} {q : ℚ} (h : txt rd v i = .ok q) :
    (v[i]?).bind rd = some q := by
  unfold txt at h
  cases e : v[i]? with
  | none => rw [e] at h; cases h
  | some s => rw [e] at h; exact float_ok h

theorem mapM_float {l : List String} {rd : String → Option ℚ} : ∀ {xs : List ℚ},
    l.mapM (fun s => float (rd s)) = .ok xs → l.map rd = xs.map some := by
  induction l with
  | nil => intro xs h; simp [pure, Except.pure] at h; subst h; rfl
  | cons a l ih =>
    intro xs h
    rw [List.mapM_cons] at h
    cases e : float (rd a) with
    | error x => rw [e] at h; cases h
    | ok y =>
      rw [e] at h
      cases e2 : l.mapM fun s => float (rd s) with
      | error x => rw [e2] at h; cases h
      | ok ys =>
        rw [e2] at h
        simp [bind, Except.bind, pure, Except.pure] at h
        subst h
        simp [float_ok e, ih e2]

theorem txts_ok {rd : String → Option ℚ} {v : List String} {i : ℕ} {xs : List ℚ}
    (h : txts rd v i = .ok xs) : ((v.drop i).take 3).map rd = xs.map some := mapM_float h

theorem roundEven_nearest (x : ℚ) : Nearest x (roundEven x) := by
  have h1 := Int.floor_le x
  have h2 := Int.lt_floor_add_one x
  unfold roundEven Nearest
  simp only
  split_ifs with a b c
  · rw [abs_of_nonneg (by linarith)]
    exact ⟨by linarith, fun e => by linarith⟩
  · push_cast
    rw [abs_of_nonpos (by linarith)]
    exact ⟨by linarith, fun e => by linarith⟩
  · have e : x - ⌊x⌋ = 1 / 2 := le_antisymm (by linarith) (by linarith)
    rw [e]
    exact ⟨by norm_num, fun _ => c⟩
  · have e : x - ⌊x⌋ = 1 / 2 := le_antisymm (by linarith) (by linarith)
    push_cast
    rw [show x - (⌊x⌋ + 1) = -(1 / 2) by linarith]
    refine ⟨by norm_num, fun _ => by omega⟩

theorem bind_ok {α β : Type} {x : Except Err α} {f : α → Except Err β} {b : β}
    (h : (x >>= f) = .ok b) : ∃ a, x = .ok a ∧ f a = .ok b := by
  cases x with
  | error e => cases h
  | ok a => exact ⟨a, rfl, h⟩

/-- What the names of the columns tell about the layout. -/
structure Fits (f : Format) (header : List String) (c : Layout) : Prop where
  pos : Called header f.pos c.pos
  vel : Called header f.vel c.vel
  l : Called header f.l c.l
  vrms : Called header f.vrms c.vrms
  r : Called header f.r c.r
  m : Called header f.m c.m

theorem halo_describes {rd : String → Option ℚ} {f : Format} {header : List String} {c : Layout}
    (hc : Fits f header c) {part : Option ℚ} {v : List String} {h : RHalo}
    (e : rockstarHalo rd c part v = .ok h) : ∃ q, part = some q ∧ Describes rd f header q v h := by
  unfold rockstarHalo at e
  obtain ⟨pos, e1, e⟩ := bind_ok e
  obtain ⟨vel, e2, e⟩ := bind_ok e
  obtain ⟨l, e3, e⟩ := bind_ok e
  obtain ⟨d, e4, e⟩ := bind_ok e
  obtain ⟨r, e5, e⟩ := bind_ok e
  obtain ⟨m, e6, e⟩ := bind_ok e
  obtain ⟨q, e7, e⟩ := bind_ok e
  cases part with
  | none => cases e7
  | some q' =>
    simp only at e7
    by_cases h0 : q' = 0
    · rw [if_pos h0] at e7; cases e7
    · rw [if_neg h0] at e7
      obtain rfl : q' = q := by simpa using e7
      obtain rfl : _ = h := by simpa using e
      exact ⟨q', rfl, ⟨_, hc.pos, txts_ok e1⟩, ⟨_, hc.vel, txts_ok e2⟩, ⟨_, hc.l, txts_ok e3⟩,
        ⟨_, hc.vrms, txt_ok e4⟩, ⟨_, hc.r, txt_ok e5⟩, ⟨_, hc.m, txt_ok e6⟩, h0,
        roundEven_nearest _⟩

theorem layout_fits {ascii : Bool} {massDef : String} {header : List String} {c : Option Layout}
    (h : layout (if ascii then .ascii else .list) massDef header = .ok c) :
    ∃ c', c = some c' ∧ Fits (formatOf ascii massDef) header c' ∧ 2 ≤ c'.lnrCosm ∧
      c'.lnrCosm < c'.lnrPart ∧ c'.lnrPart = (formatOf ascii massDef).part ∧
      c'.lnrVals + 1 = (formatOf ascii massDef).first := by
  cases ascii <;>
  · simp only [if_true, Bool.false_eq_true, if_false, layout] at h
    obtain ⟨a1, e1, h⟩ := bind_ok h
    obtain ⟨a2, e2, h⟩ := bind_ok h
    obtain ⟨a3, e3, h⟩ := bind_ok h
    obtain ⟨a4, e4, h⟩ := bind_ok h
    obtain ⟨a5, e5, h⟩ := bind_ok h
    obtain ⟨a6, e6, h⟩ := bind_ok h
    obtain rfl := (Except.ok.inj h).symm
    exact ⟨_, rfl, ⟨called_of_column e1, called_of_column e2, called_of_column e3,
      called_of_column e4, called_of_column e5, called_of_column e6⟩, by norm_num, by norm_num, rfl, rfl⟩

/-- The full statement of C87: reading a Rockstar catalogue gives the object exactly the haloes
of the file, at most `max_select_number` of them if that is not negative, each with the values
in the columns of these names.  Proved without a limit, and for the haloes added to those that
the object held before. -/
theorem C87_partial (rd : String → Option ℚ) (ascii : Bool) (massDef : String) (limit : ℤ)
    (hlim : limit < 0) (s s' : Cat) (b : Bool) (header : List String) (rest : List (List String))
    (h : readRockstar rd (if ascii then .ascii else .list) massDef limit s (header :: rest) =
      .ok (s', b)) :
    b = true ∧ ∃ hs, s'.halos = s.halos ++ hs ∧
      (∀ row, (header :: rest)[(formatOf ascii massDef).part]? = some row →
        (row[2]?).bind rd = s'.partMass) ∧
      List.Forall₂ (fun row h => ∃ part, s'.partMass = some part ∧
          Describes rd (formatOf ascii massDef) header part row h)
        ((header :: rest).drop (formatOf ascii massDef).first) hs := by
  unfold readRockstar at h
  simp only at h
  obtain ⟨c, e1, h⟩ := bind_ok h
  obtain ⟨t, e2, h⟩ := bind_ok h
  obtain ⟨rfl, rfl⟩ : t = s' ∧ true = b := by simpa using h
  obtain ⟨c', rfl, fits, h2, hcp, hpart, hfirst⟩ := layout_fits e1
  have hp : c'.lnrPart ≤ c'.lnrVals := by
    have : (formatOf ascii massDef).part < (formatOf ascii massDef).first := by
      cases ascii <;> simp [formatOf]
    omega
  obtain ⟨p1, _, hs, p3, p4⟩ := rockstar_all rd limit c' hlim h2 hcp hp rest 1 s t le_rfl (by omega) e2
  refine ⟨rfl, hs, p3, fun row hrow => ?_, ?_⟩
  · rw [← hpart] at hrow
    have : rest[c'.lnrPart - 1]? = some row := by
      rwa [show c'.lnrPart = (c'.lnrPart - 1) + 1 by omega, List.getElem?_cons_succ] at hrow
    obtain ⟨q, hq, hq'⟩ := p1 (by omega) row this
    rw [hq', txt_ok hq]
  · rw [← hfirst, List.drop_succ_cons]
    rw [Nat.add_sub_cancel] at p4
    exact p4.imp fun row h e => halo_describes fits e

/-- A small catalogue in the `.list` format, its fields written as single letters: `a` to `z`
count from zero. -/
def letters (s : String) : Option ℚ :=
  match s.toList with
  | [c] => if 'a' ≤ c ∧ c ≤ 'z' then some (c.toNat - 97 : ℕ) else none
  | _ => none

/-- The lines before the haloes. -/
def sampleHeader : List (List String) :=
  [["#ID", "Mvir", "Rvir", "Vrms", "X", "Y", "Z", "VX", "VY", "VZ", "JX", "JY", "JZ"],
    ["#a", "=", "b"], ["#Om", "=", "b;", "Ol", "=", "c;", "h", "=", "d"], [], [],
    ["#Particle", "mass:", "c"], [], [], [], [], [], [], [], [], [], []]

/-- Two haloes. -/
def sampleRows : List (List String) :=
  [["a", "f", "c", "d", "e", "f", "g", "h", "i", "j", "k", "l", "m"],
    ["b", "h", "c", "d", "e", "f", "g", "h", "i", "j", "k", "l", "m"]]

/-- An object without haloes. -/
def fresh : Cat := ⟨none, none, none, []⟩

example : (readRockstar letters .list "vir" (-1) fresh (sampleHeader ++ sampleRows)).map
    (fun c => c.1.halos) = .ok [⟨[4, 5, 6], [7, 8, 9], [10, 11, 12], 3, 2, 5, 2⟩,
      ⟨[4, 5, 6], [7, 8, 9], [10, 11, 12], 3, 2, 7, 4⟩] := by decide +kernel

theorem rockstar_none (rd : String → Option ℚ) (limit : ℤ) (c : Option Layout) :
    ∀ (vs : List (List String)) (n : ℕ) (s s' : Cat), (s.halos.length : ℤ) ≤ limit →
      rockstarLines rd limit c n s vs = .ok s' → s'.halos = s.halos := by
  intro vs
  induction vs with
  | nil =>
    intro n s s' _ h
    obtain rfl : s = s' := by simpa [rockstarLines] using h
    rfl
  | cons v vs ih =>
    intro n s s' hl h
    rw [rockstarLines.eq_def] at h
    simp only at h
    by_cases e1 : n = 1
    · rw [if_pos e1] at h
      split at h
      · cases h
      · split_ifs at h
        refine (ih _ _ _ ?_ h).trans rfl; exact hl
    · rw [if_neg e1] at h
      cases c with
      | none => cases h
      | some c =>
        simp only at h
        split_ifs at h with e2 e3 e4 e5
        · split at h
          · cases h
          · refine (ih _ _ _ ?_ h).trans rfl; exact hl
        · split at h
          · cases h
          · refine (ih _ _ _ ?_ h).trans rfl; exact hl
        · omega
        · obtain rfl : s = s' := by simpa using h
          rfl
        · exact ih _ _ _ hl h

/-- With any limit that is not negative a new object reads no halo at all, and still reports
that all were read: the comparison in line 98 is the wrong way round. -/
theorem C87_limit (rd : String → Option ℚ) (ext : Ext) (massDef : String) (limit : ℤ)
    (hlim : 0 ≤ limit) (s s' : Cat) (hs : s.halos = []) (b : Bool) (lines : List (List String))
    (h : readRockstar rd ext massDef limit s lines = .ok (s', b)) : s'.halos = [] ∧ b = true := by
  unfold readRockstar at h
  cases lines with
  | nil =>
    obtain ⟨rfl, rfl⟩ : s = s' ∧ true = b := by simpa using h
    exact ⟨hs, rfl⟩
  | cons header rest =>
    simp only at h
    obtain ⟨c, _, h⟩ := bind_ok h
    obtain ⟨t, e2, h⟩ := bind_ok h
    obtain ⟨rfl, rfl⟩ : t = s' ∧ true = b := by simpa using h
    exact ⟨(rockstar_none rd limit c rest 1 s t (by rw [hs]; simpa using hlim) e2).trans hs, rfl⟩

/-- Claim of C47 for the Rockstar reader.  False: two haloes, a limit of one, none read. -/
theorem C47_false_rockstar : ¬ ∀ (rd : String → Option ℚ) (ascii : Bool) (massDef : String)
    (limit : ℤ) (s s' all : Cat) (b b' : Bool) (lines : List (List String)), 0 ≤ limit →
    s.halos = [] →
    readRockstar rd (if ascii then .ascii else .list) massDef limit s lines = .ok (s', b) →
    readRockstar rd (if ascii then .ascii else .list) massDef (-1) s lines = .ok (all, b') →
    s'.halos = all.halos.take limit.toNat := by
  intro h
  have e : ∀ lim, ∃ c, readRockstar letters (if false = true then .ascii else .list) "vir" lim fresh
      (sampleHeader ++ sampleRows) = .ok (c, true) ∨
      ∃ x, readRockstar letters (if false = true then .ascii else .list) "vir" lim fresh
      (sampleHeader ++ sampleRows) = .error x := by
    intro lim
    cases e : readRockstar letters (if false = true then .ascii else .list) "vir" lim fresh
      (sampleHeader ++ sampleRows) with
    | error x => exact ⟨fresh, Or.inr ⟨x, rfl⟩⟩
    | ok c =>
      refine ⟨c.1, Or.inl ?_⟩
      unfold readRockstar at e
      obtain ⟨c', _, e⟩ := bind_ok e
      obtain ⟨t, _, e⟩ := bind_ok e
      rw [← Except.ok.inj e]
  have n1 : (readRockstar letters (if false = true then .ascii else .list) "vir" 1 fresh
      (sampleHeader ++ sampleRows)).map (fun c => c.1.halos.length) = .ok 0 := by decide +kernel
  have n2 : (readRockstar letters (if false = true then .ascii else .list) "vir" (-1) fresh
      (sampleHeader ++ sampleRows)).map (fun c => c.1.halos.length) = .ok 2 := by decide +kernel
  obtain ⟨c1, h1⟩ := e 1
  obtain ⟨c2, h2⟩ := e (-1)
  rcases h1 with h1 | ⟨x, h1⟩
  · rcases h2 with h2 | ⟨x, h2⟩
    · have key := congrArg List.length (h letters false "vir" 1 fresh c1 c2 true true _ (by decide) rfl h1 h2)
      rw [h1] at n1
      rw [h2] at n2
      have m1 : c1.halos.length = 0 := by simpa [Except.map] using n1
      have m2 : c2.halos.length = 2 := by simpa [Except.map] using n2
      rw [List.length_take, m1, m2] at key
      simp at key
    · rw [h2] at n2; cases n2
  · rw [h1] at n1; cases n1

/-- Reading a second catalogue keeps the haloes of the first (`HaloList` empties its list). -/
theorem C87_false_again : ∃ (s s' : Cat) (b : Bool), s.halos ≠ [] ∧
    readRockstar letters .list "vir" (-1) s sampleHeader = .ok (s', b) ∧ s'.halos = s.halos :=
  ⟨⟨none, none, none, [⟨[], [], [], 1, 1, 1, 1⟩]⟩, _, _, by simp, rfl, rfl⟩

/-- A file of another extension is not refused at once, but raises on its third line. -/
theorem C87_raises (rd : String → Option ℚ) (massDef : String) (limit : ℤ) (s : Cat)
    (l0 l1 l2 : List String) (rest : List (List String)) :
    ∃ e, readRockstar rd .other massDef limit s (l0 :: l1 :: l2 :: rest) = .error e := by
  simp only [readRockstar, layout, bind, Except.bind, rockstarLines, if_true]
  cases lastTxt rd l1 with
  | error x => exact ⟨x, rfl⟩
  | ok a =>
    simp only
    by_cases h : a = 0
    · exact ⟨.zeroDivision, by rw [if_pos h]⟩
    · exact ⟨.unbound, by rw [if_neg h]; simp⟩

end Verif.Halo
