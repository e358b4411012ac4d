import Verif.Model.HaloGrid
import Mathlib.Algebra.Order.Floor.Semiring
import Mathlib.Algebra.Order.Archimedean.Real.Basic
import Mathlib.Tactic.FieldSimp
import Mathlib.Tactic.Linarith
import Mathlib.Tactic.Positivity
import Mathlib.Tactic.NormNum
import Mathlib.Tactic.Ring
/-!
# C126 and C127: haloes on a grid
-/

namespace Verif.HaloGrid

/-! ## Specification -/

/-- The cells of a grid. -/
def cells (n : ℕ) : Finset (Fin 3 → ℤ) := Fintype.piFinset fun _ => Finset.Ico (0 : ℤ) n

/-- The position lies in the cell `c` of the cuboid from `lo` to `hi`, of which the last cells include their upper face. -/
def InCell (lo hi : Pos) (n : ℕ) (c : Fin 3 → ℤ) (p : Pos) : Prop :=
  ∀ j, 0 ≤ c j ∧ c j < n ∧ lo j + c j * (hi j - lo j) / n ≤ p j ∧
    (p j < lo j + (c j + 1) * (hi j - lo j) / n ∨ (p j = hi j ∧ c j = n - 1))

open Classical in
/-- The sum of the values of the haloes in the cell. -/
noncomputable def inside (lo hi : Pos) (n : ℕ) (pos : List Pos) (values : List ℝ) (c : Fin 3 → ℤ) : ℝ :=
  (((pos.zip values).filter fun h => InCell lo hi n c h.1).map fun h => h.2).sum

/-- `lo` and `hi` are the least and greatest coordinates. -/
def Extent (pos : List Pos) (lo hi : Pos) : Prop :=
  ∀ j, (∃ p ∈ pos, p j = lo j) ∧ (∃ p ∈ pos, p j = hi j) ∧ ∀ p ∈ pos, lo j ≤ p j ∧ p j ≤ hi j

/-! ## The bins -/

theorem digitize_eq {lo hi : ℝ} (h : lo < hi) {n : ℕ} (hn : 0 < n) {x : ℝ} (h1 : lo ≤ x) (h2 : x ≤ hi) :
    digitize (lo, hi) n x = ⌊(x - lo) / ((hi - lo) / n)⌋₊ + 1 := by
  classical
  have hn' : (0 : ℝ) < n := by exact_mod_cast hn
  have hw : 0 < (hi - lo) / n := div_pos (by linarith) hn'
  unfold digitize
  have hf : ⌊(x - lo) / ((hi - lo) / n)⌋₊ ≤ n := by
    refine Nat.floor_le_of_le ?_
    rw [div_le_iff₀ hw]
    field_simp
    linarith
  have : (Finset.range (n + 1)).filter (fun i => edge (lo, hi) n i ≤ x) =
      Finset.range (⌊(x - lo) / ((hi - lo) / n)⌋₊ + 1) := by
    ext i
    rw [Finset.mem_filter, Finset.mem_range, Finset.mem_range]
    have : edge (lo, hi) n i ≤ x ↔ i ≤ ⌊(x - lo) / ((hi - lo) / n)⌋₊ := by
      rw [Nat.le_floor_iff (div_nonneg (by linarith) hw.le), le_div_iff₀ hw]
      unfold edge
      constructor <;> intro h <;> linarith
    rw [this]
    omega
  rw [this, Finset.card_range]

theorem edge_last (lo hi : ℝ) {n : ℕ} (hn : 0 < n) : edge (lo, hi) n n = hi := by
  have hn' : (n : ℝ) ≠ 0 := by exact_mod_cast hn.ne'
  unfold edge
  field_simp
  ring

/-- The cell of a sample between the first and the last edge. -/
theorem cell_iff {lo hi : ℝ} (h : lo < hi) {n : ℕ} (hn : 0 < n) {x : ℝ} (h1 : lo ≤ x) (h2 : x ≤ hi) (c : ℤ) :
    cell (lo, hi) n x = c ↔ 0 ≤ c ∧ c < n ∧ lo + c * (hi - lo) / n ≤ x ∧
      (x < lo + (c + 1) * (hi - lo) / n ∨ (x = hi ∧ c = n - 1)) := by
  have hn' : (0 : ℝ) < n := by exact_mod_cast hn
  have hw : 0 < (hi - lo) / n := div_pos (by linarith) hn'
  unfold cell
  rw [digitize_eq h hn h1 h2, edge_last lo hi hn]
  have e : ∀ c : ℝ, lo + c * (hi - lo) / n = lo + c * ((hi - lo) / n) := fun c => by ring
  rw [e, e]
  have hnw : (n : ℝ) * ((hi - lo) / n) = hi - lo := by field_simp
  set w := (hi - lo) / n with hwd
  by_cases hx : x = hi
  · rw [if_pos hx, hx]
    have : (hi - lo) / w = n := by rw [div_eq_iff hw.ne', hnw]
    rw [this, Nat.floor_natCast]
    constructor
    · intro hc
      refine ⟨by omega, by omega, ?_, Or.inr ⟨rfl, by push_cast at hc; omega⟩⟩
      have : ((c : ℤ) : ℝ) = n - 1 := by
        have : c = n - 1 := by push_cast at hc; omega
        rw [this]; push_cast; ring
      rw [this]
      nlinarith
    · rintro ⟨a, b, -, d | d⟩
      · exfalso
        have : ((c : ℤ) : ℝ) + 1 ≤ n := by exact_mod_cast b
        nlinarith
      · push_cast; omega
  · rw [if_neg hx]
    have hlt : x < hi := lt_of_le_of_ne h2 hx
    constructor
    · intro hc
      have hc0 : c = (⌊(x - lo) / w⌋₊ : ℤ) := by push_cast at hc; omega
      have f1 := Nat.floor_le (div_nonneg (sub_nonneg.2 h1) hw.le)
      have f2 := Nat.lt_floor_add_one ((x - lo) / w)
      rw [le_div_iff₀ hw] at f1
      rw [div_lt_iff₀ hw] at f2
      have f3 : ⌊(x - lo) / w⌋₊ < n := by
        rw [Nat.floor_lt (div_nonneg (sub_nonneg.2 h1) hw.le), div_lt_iff₀ hw, hnw]
        linarith
      have hcr : ((c : ℤ) : ℝ) = (⌊(x - lo) / w⌋₊ : ℝ) := by rw [hc0]; push_cast; rfl
      refine ⟨by omega, by omega, ?_, Or.inl ?_⟩
      · rw [hcr]; linarith
      · rw [hcr]; linarith
    · rintro ⟨a, b, d, e | e⟩
      · have : ⌊(x - lo) / w⌋₊ = c.toNat := by
          rw [Nat.floor_eq_iff (div_nonneg (sub_nonneg.2 h1) hw.le), le_div_iff₀ hw, div_lt_iff₀ hw]
          have : ((c.toNat : ℕ) : ℝ) = c := by
            have : ((c.toNat : ℤ) : ℝ) = c := by rw [Int.toNat_of_nonneg a]
            exact_mod_cast this
          rw [this]
          constructor <;> linarith
        rw [this]
        push_cast
        omega
      · exact absurd e.1 hx

theorem cell_mem {lo hi : ℝ} (h : lo < hi) {n : ℕ} (hn : 0 < n) {x : ℝ} (h1 : lo ≤ x) (h2 : x ≤ hi) :
    0 ≤ cell (lo, hi) n x ∧ cell (lo, hi) n x < n := by
  have := (cell_iff h hn h1 h2 _).1 rfl
  exact ⟨this.1, this.2.1⟩

theorem min_eq {l : List ℝ} {m : ℝ} (h1 : m ∈ l) (h2 : ∀ x ∈ l, m ≤ x) : l.min?.getD 0 = m := by
  rw [(List.min?_eq_some_iff).2 ⟨h1, h2⟩]
  rfl

theorem max_eq {l : List ℝ} {m : ℝ} (h1 : m ∈ l) (h2 : ∀ x ∈ l, x ≤ m) : l.max?.getD 0 = m := by
  rw [(List.max?_eq_some_iff).2 ⟨h1, h2⟩]
  rfl

/-- The bins contain the samples. -/
theorem range_spec {l : List ℝ} (hl : l ≠ []) :
    (range l).1 < (range l).2 ∧ ∀ x ∈ l, (range l).1 ≤ x ∧ x ≤ (range l).2 := by
  obtain ⟨m, hm⟩ := Option.isSome_iff_exists.1 (List.isSome_min?_of_ne_nil hl)
  obtain ⟨M, hM⟩ := Option.isSome_iff_exists.1 (List.isSome_max?_of_ne_nil hl)
  have h1 := (List.min?_eq_some_iff).1 hm
  have h2 := (List.max?_eq_some_iff).1 hM
  unfold range
  rw [hm, hM]
  simp only [Option.getD_some]
  have hmM : m ≤ M := h2.2 m h1.1
  split_ifs with h
  · exact ⟨by linarith, fun x hx => ⟨by linarith [h1.2 x hx], by linarith [h2.2 x hx]⟩⟩
  · exact ⟨lt_of_le_of_ne hmM h, fun x hx => ⟨h1.2 x hx, h2.2 x hx⟩⟩

example : (range [2, 5, 3]).1 < (range [2, 5, 3]).2 := (range_spec (by simp)).1

/-- Every element counted once. -/
theorem sum_once {α β : Type} (B : Finset β) (P : β → α → Bool) (f : α → ℝ) (l : List α)
    (h : ∀ a ∈ l, ∃ c ∈ B, P c a = true ∧ ∀ c', P c' a = true → c' = c) :
    ∑ c ∈ B, ((l.filter fun a => P c a).map f).sum = (l.map f).sum := by
  classical
  induction l with
  | nil => simp
  | cons a l ih =>
    have ih' := ih fun b hb => h b (List.mem_cons_of_mem a hb)
    obtain ⟨c, hc, hP, hu⟩ := h a List.mem_cons_self
    have e : ∀ c', (((a :: l).filter fun b => P c' b).map f).sum =
        (if c' = c then f a else 0) + ((l.filter fun b => P c' b).map f).sum := by
      intro c'
      by_cases h' : P c' a = true
      · rw [List.filter_cons_of_pos h', if_pos (hu c' h'), List.map_cons, List.sum_cons]
      · rw [List.filter_cons_of_neg h', if_neg (fun q : c' = c => h' (by rw [q]; exact hP)), zero_add]
    simp only [e]
    rw [Finset.sum_add_distrib, ih', Finset.sum_ite_eq' B c, if_pos hc, List.map_cons, List.sum_cons]

theorem sum_zip {pos : List Pos} {values : List ℝ} (h : pos.length = values.length) :
    ((pos.zip values).map fun q => q.2).sum = values.sum := by
  have : (pos.zip values).map (fun q => q.2) = values := List.map_snd_zip (by omega)
  rw [this]

theorem cells_mem {n : ℕ} (hn : 0 < n) {pos : List Pos} (hp : pos ≠ []) {q : Pos} (hq : q ∈ pos) :
    (fun j => cell (range (pos.map fun p => p j)) n (q j)) ∈ cells n := by
  refine Fintype.mem_piFinset.2 fun j => Finset.mem_Ico.2 ?_
  have hs := range_spec (l := pos.map fun p => p j) (by simpa using hp)
  have hm := hs.2 (q j) (List.mem_map.2 ⟨q, hq, rfl⟩)
  exact cell_mem hs.1 hn hm.1 hm.2

theorem valueOnGrid_ok {n : ℕ} (hn : 0 < n) {pos : List Pos} {values : List ℝ} (h : pos.length = values.length)
    (hp : pos ≠ []) : ∃ g, valueOnGrid n pos values = .ok g ∧ ∑ c ∈ cells n, g c = values.sum := by
  classical
  unfold valueOnGrid
  rw [if_neg (not_not.2 h), if_neg (not_or.2 ⟨hp, hn.ne'⟩)]
  refine ⟨_, rfl, ?_⟩
  refine (sum_once (cells n) _ _ _ ?_).trans (sum_zip h)
  intro q hq
  exact ⟨_, cells_mem hn hp (List.of_mem_zip hq).1, decide_eq_true fun _ => rfl,
    fun c hc => (funext (of_decide_eq_true hc)).symm⟩

theorem valueOnGrid_extent {n : ℕ} (hn : 0 < n) {pos : List Pos} {values : List ℝ} (h : pos.length = values.length)
    {lo hi : Pos} (he : Extent pos lo hi) (hlt : ∀ j, lo j < hi j) :
    valueOnGrid n pos values = .ok (inside lo hi n pos values) := by
  classical
  have hp : pos ≠ [] := by
    rintro rfl
    obtain ⟨p, hp, -⟩ := (he 0).1
    simp at hp
  unfold valueOnGrid
  rw [if_neg (by simpa using h), if_neg (by push Not; exact ⟨hp, hn.ne'⟩)]
  congr 1
  funext c
  unfold inside
  congr 2
  refine List.filter_congr fun q hq => ?_
  simp only [decide_eq_decide]
  unfold InCell
  refine forall_congr' fun j => ?_
  have hr : range (pos.map fun p => p j) = (lo j, hi j) := by
    unfold range
    obtain ⟨⟨p, hp, hpl⟩, ⟨p', hp', hph⟩, hall⟩ := he j
    rw [min_eq (m := lo j) (List.mem_map.2 ⟨p, hp, hpl⟩) (by
        intro x hx
        obtain ⟨y, hy, rfl⟩ := List.mem_map.1 hx
        exact (hall y hy).1),
      max_eq (m := hi j) (List.mem_map.2 ⟨p', hp', hph⟩) (by
        intro x hx
        obtain ⟨y, hy, rfl⟩ := List.mem_map.1 hx
        exact (hall y hy).2)]
    simp only []
    rw [if_neg (hlt j).ne]
  rw [hr]
  have := (he j).2.2 q.1 (List.of_mem_zip hq).1
  exact cell_iff (hlt j) hn this.1 this.2 (c j)

/-! ## C126 -/

/-- Scaling positions and cuboid alike changes nothing. -/
theorem inside_scale {s : ℝ} (hs : 0 < s) (lo hi : Pos) (n : ℕ) (pos : List Pos) (values : List ℝ) (c : Fin 3 → ℤ) :
    inside (fun j => lo j * s) (fun j => hi j * s) n (pos.map fun p j => p j * s) values c =
      inside lo hi n pos values c := by
  classical
  unfold inside
  rw [List.zip_map_left, List.filter_map, List.map_map]
  congr 1
  have : ((fun h : Pos × ℝ => h.2) ∘ Prod.map (fun (p : Pos) j => p j * s) id) = fun h => h.2 := rfl
  rw [this]
  congr 1
  refine List.filter_congr fun q _ => ?_
  simp only [Function.comp, Prod.map_fst, decide_eq_decide]
  unfold InCell
  refine forall_congr' fun j => and_congr_right fun _ => and_congr_right fun _ => ?_
  have e1 : lo j * s + c j * (hi j * s - lo j * s) / n = (lo j + c j * (hi j - lo j) / n) * s := by ring
  have e2 : lo j * s + (c j + 1) * (hi j * s - lo j * s) / n = (lo j + (c j + 1) * (hi j - lo j) / n) * s := by ring
  rw [e1, e2, mul_le_mul_iff_left₀ hs, mul_lt_mul_iff_left₀ hs, mul_left_inj' hs.ne']

theorem extent_scale {s : ℝ} (hs : 0 < s) {pos : List Pos} {lo hi : Pos} (h : Extent pos lo hi) :
    Extent (pos.map fun p j => p j * s) (fun j => lo j * s) (fun j => hi j * s) := by
  intro j
  obtain ⟨⟨p, hp, hpl⟩, ⟨p', hp', hph⟩, hall⟩ := h j
  refine ⟨⟨_, List.mem_map.2 ⟨p, hp, rfl⟩, by simp only [hpl]⟩, ⟨_, List.mem_map.2 ⟨p', hp', rfl⟩, by simp only [hph]⟩, ?_⟩
  intro q hq
  obtain ⟨y, hy, rfl⟩ := List.mem_map.1 hq
  exact ⟨mul_le_mul_of_nonneg_right (hall y hy).1 hs.le, mul_le_mul_of_nonneg_right (hall y hy).2 hs.le⟩

theorem mpcToGrid_eq (box : ℝ) (n : ℕ) : mpcToGrid box n = fun p j => p j * (n / box) := by
  funext p j
  unfold mpcToGrid
  ring

/-- **C126, what is computed.** The cells are those of the least cuboid which contains the haloes, whatever the box. -/
theorem C126_extent {box : ℝ} (hb : 0 < box) {n : ℕ} (hn : 0 < n) {pos : List Pos} {mass : List ℝ}
    (h : pos.length = mass.length) {lo hi : Pos} (he : Extent pos lo hi) (hlt : ∀ j, lo j < hi j) :
    haloListToGrid (.plain mass) (.plain pos) box n = some (.ok (inside lo hi n pos mass)) := by
  have hs : (0 : ℝ) < n / box := div_pos (by exact_mod_cast hn) hb
  unfold haloListToGrid
  simp only []
  rw [mpcToGrid_eq, valueOnGrid_extent hn (by rw [List.length_map, h]) (extent_scale hs he)
    (fun j => mul_lt_mul_of_pos_right (hlt j) hs)]
  congr 2
  funext c
  exact inside_scale hs lo hi n pos mass c

/-- **C126 (partial).** When haloes reach both ends of the box along each axis, the mass of every halo is in the cell of
the box which contains it. Missing: haloes which do not reach the ends, for which this is false (`C126_false`). -/
theorem C126_partial {box : ℝ} (hb : 0 < box) {n : ℕ} (hn : 0 < n) {pos : List Pos} {mass : List ℝ}
    (h : pos.length = mass.length) (hin : ∀ p ∈ pos, ∀ j, 0 ≤ p j ∧ p j ≤ box)
    (h0 : ∀ j, ∃ p ∈ pos, p j = 0) (h1 : ∀ j, ∃ p ∈ pos, p j = box) :
    haloListToGrid (.plain mass) (.plain pos) box n = some (.ok (inside (fun _ => 0) (fun _ => box) n pos mass)) :=
  C126_extent hb hn h (fun j => ⟨h0 j, h1 j, fun p hp => hin p hp j⟩) fun _ => hb

/-- **C126, total.** No mass is lost: the sum over the cells is the sum over the haloes. -/
theorem C126_total (box : ℝ) {n : ℕ} (hn : 0 < n) {pos : List Pos} {mass : List ℝ} (h : pos.length = mass.length)
    (hp : pos ≠ []) :
    ∃ g, haloListToGrid (.plain mass) (.plain pos) box n = some (.ok g) ∧ ∑ c ∈ cells n, g c = mass.sum := by
  obtain ⟨g, hg, hs⟩ := valueOnGrid_ok (pos := pos.map (mpcToGrid box n)) hn (by rw [List.length_map]; exact h)
    (by simpa using hp)
  exact ⟨g, by unfold haloListToGrid; simp only []; rw [hg], hs⟩

example : ∃ g, haloListToGrid (.plain [3, 4]) (.plain [![0, 0, 0], ![1, 2, 5]]) 10 8 = some (.ok g) ∧ ∑ c ∈ cells 8, g c = [3, 4].sum :=
  C126_total 10 (by norm_num) rfl (by simp)

/-- **C126, units.** Masses and positions with units are converted. -/
theorem C126_units (u v box : ℝ) (n : ℕ) (pos : List Pos) (mass : List ℝ) :
    haloListToGrid (.quantity mass u) (.quantity pos v) box n =
      haloListToGrid (.plain (mass.map fun x => x * u)) (.plain (pos.map fun p j => p j * v)) box n := rfl

/-- **C126 is false**: the box length has no effect, and neither has moving all haloes together. -/
theorem C126_box_false {box box' : ℝ} (hb : 0 < box) (hb' : 0 < box') {n : ℕ} (hn : 0 < n) {pos : List Pos}
    {mass : List ℝ} (h : pos.length = mass.length) {lo hi : Pos} (he : Extent pos lo hi) (hlt : ∀ j, lo j < hi j)
    (v : Pos) :
    haloListToGrid (.plain mass) (.plain (pos.map fun p j => p j + v j)) box' n =
      haloListToGrid (.plain mass) (.plain pos) box n := by
  classical
  rw [C126_extent hb hn h he hlt, C126_extent (lo := fun j => lo j + v j) (hi := fun j => hi j + v j) hb' hn
    (by rw [List.length_map, h]) ?_ (fun j => by have := hlt j; linarith)]
  · congr 2
    funext c
    unfold inside
    rw [List.zip_map_left, List.filter_map, List.map_map]
    congr 1
    have : ((fun h : Pos × ℝ => h.2) ∘ Prod.map (fun (p : Pos) j => p j + v j) id) = fun h => h.2 := rfl
    rw [this]
    congr 1
    refine List.filter_congr fun q _ => ?_
    simp only [Function.comp, Prod.map_fst, decide_eq_decide]
    unfold InCell
    refine forall_congr' fun j => and_congr_right fun _ => and_congr_right fun _ => ?_
    have e1 : hi j + v j - (lo j + v j) = hi j - lo j := by ring
    rw [e1]
    refine and_congr ⟨fun h => by linarith, fun h => by linarith⟩ (or_congr ⟨fun h => by linarith, fun h => by linarith⟩ ?_)
    rw [add_left_inj]
  · intro j
    obtain ⟨⟨p, hp, hpl⟩, ⟨p', hp', hph⟩, hall⟩ := he j
    refine ⟨⟨_, List.mem_map.2 ⟨p, hp, rfl⟩, by simp only [hpl]⟩, ⟨_, List.mem_map.2 ⟨p', hp', rfl⟩, by simp only [hph]⟩, ?_⟩
    intro q hq
    obtain ⟨y, hy, rfl⟩ := List.mem_map.1 hq
    exact ⟨by linarith [(hall y hy).1], by linarith [(hall y hy).2]⟩

/-- **C126 is false for a single halo**: it is put in the middle of the grid, wherever it is. -/
theorem C126_single_false (box : ℝ) {n : ℕ} (hn : 0 < n) (p : Pos) (m : ℝ) :
    ∃ g, haloListToGrid (.plain [m]) (.plain [p]) box n = some (.ok g) ∧ g (fun _ => ((n / 2 : ℕ) : ℤ)) = m := by
  classical
  unfold haloListToGrid valueOnGrid
  simp only [List.map_cons, List.map_nil, List.length_cons, List.length_nil]
  rw [if_neg (by simp), if_neg (by simp; omega)]
  refine ⟨_, rfl, ?_⟩
  have hc : ∀ j, cell (range [mpcToGrid box n p j]) n (mpcToGrid box n p j) = ((n / 2 : ℕ) : ℤ) := by
    intro j
    generalize mpcToGrid box n p j = x
    have hr : range [x] = (x - 1 / 2, x + 1 / 2) := by simp [range]
    have hn' : (0 : ℝ) < n := by exact_mod_cast hn
    rw [hr, cell_iff (by linarith) hn (by linarith) (by linarith)]
    have hd : ((n / 2 : ℕ) : ℝ) * 2 ≤ n ∧ (n : ℝ) < ((n / 2 : ℕ) : ℝ) * 2 + 2 := by
      constructor
      · exact_mod_cast Nat.div_mul_le_self n 2
      · exact_mod_cast (by omega : n < n / 2 * 2 + 2)
    refine ⟨by omega, by omega, ?_, Or.inl ?_⟩
    · rw [show x + 1 / 2 - (x - 1 / 2) = 1 by ring, mul_one]
      have : (((n / 2 : ℕ) : ℤ) : ℝ) / n ≤ 1 / 2 := by
        rw [div_le_iff₀ hn', Int.cast_natCast]
        linarith
      linarith
    · rw [show x + 1 / 2 - (x - 1 / 2) = 1 by ring, mul_one]
      have : (1 : ℝ) / 2 < ((((n / 2 : ℕ) : ℤ) : ℝ) + 1) / n := by
        rw [lt_div_iff₀ hn', Int.cast_natCast]
        linarith
      linarith
  simp only [List.zip_cons_cons, List.zip_nil_right]
  rw [List.filter_cons_of_pos (by simpa using hc)]
  simp

/-- **C126 is false**, a witness: of two haloes at 0 and 10 Mpc along the diagonal of a box of 100 Mpc, the second is put
into the last of ten cells per side instead of the second. -/
theorem C126_false : ∃ g, haloListToGrid (.plain [1, 2]) (.plain [fun _ => 0, fun _ => 10]) 100 10 = some (.ok g) ∧
    g (fun _ => 9) = 2 ∧ inside (fun _ => 0) (fun _ => 100) 10 [fun _ => 0, fun _ => 10] [1, 2] (fun _ => 9) = 0 ∧
    inside (fun _ => 0) (fun _ => 100) 10 [fun _ => 0, fun _ => 10] [1, 2] (fun _ => 1) = 2 := by
  classical
  refine ⟨_, C126_extent (lo := fun _ => 0) (hi := fun _ => 10) (by norm_num) (by norm_num) rfl ?_ (fun _ => by norm_num),
    ?_, ?_, ?_⟩
  · intro j
    refine ⟨⟨fun _ => 0, by simp, rfl⟩, ⟨fun _ => 10, by simp, rfl⟩, ?_⟩
    intro p hp
    rcases List.mem_pair.1 hp with rfl | rfl <;> norm_num
  · unfold inside
    simp only [List.zip_cons_cons, List.zip_nil_right]
    rw [List.filter_cons_of_neg, List.filter_cons_of_pos]
    · simp
    · simp [InCell]
      try norm_num
    · simp [InCell]
      try norm_num
  · unfold inside
    simp only [List.zip_cons_cons, List.zip_nil_right]
    rw [List.filter_cons_of_neg, List.filter_cons_of_neg]
    · simp
    · simp [InCell]
      try norm_num
    · simp [InCell]
      try norm_num
  · unfold inside
    simp only [List.zip_cons_cons, List.zip_nil_right]
    rw [List.filter_cons_of_neg, List.filter_cons_of_pos]
    · simp
    · simp [InCell]
      try norm_num
    · simp [InCell]
      try norm_num

/-- **C126, exceptions.** Masses with a unit and positions without raise; so do lists of different lengths, no haloes and
no cells. -/
theorem C126_raises (box u : ℝ) (n : ℕ) (pos : List Pos) (mass : List ℝ) :
    haloListToGrid (.quantity mass u) (.plain pos) box n = some (.error .attribute) ∧
      (pos.length ≠ mass.length → haloListToGrid (.plain mass) (.plain pos) box n = some (.error .attribute)) ∧
      haloListToGrid (.plain []) (.plain []) box n = some (.error .value) ∧
      (pos.length = mass.length → haloListToGrid (.plain mass) (.plain pos) box 0 = some (.error .value)) := by
  refine ⟨rfl, fun h => ?_, ?_, fun h => ?_⟩
  · unfold haloListToGrid valueOnGrid
    simp only [List.length_map]
    rw [if_pos h]
  · unfold haloListToGrid valueOnGrid
    simp
  · unfold haloListToGrid valueOnGrid
    simp only []
    rw [if_neg (by simpa using h), if_pos (Or.inr trivial)]

example : haloListToGrid (.plain [3, 4]) (.plain [![0, 0, 0]]) 10 8 = some (.error .attribute) := (C126_raises 10 1 8 _ _).2.1 (by simp)

/-! ## C127 -/

/-- **C127 (partial).** With the masses given as an argument, the cells returned are those with a positive total, each with
its total, and the totals add up to the mass of all haloes. Missing: masses set before, which are not used
(`C127_false`). -/
theorem C127_partial (box : ℝ) {n : ℕ} (hn : 0 < n) {pos : List Pos} {mass : List ℝ} (h : pos.length = mass.length)
    (hp : pos ≠ []) (hm : ∀ m ∈ mass, 0 ≤ m) :
    ∃ s g r, setPos (init box n) pos (some .mpc) = .ok s ∧
      haloListToGrid (.plain mass) (.plain pos) box n = some (.ok g) ∧ massOnGrid s (some mass) = some (.ok (some r)) ∧
      (∀ c x, (c, x) ∈ r ↔ c ∈ cells n ∧ 0 < g c ∧ x = g c) ∧ ∑ q ∈ r, q.2 = mass.sum := by
  classical
  obtain ⟨g, hg, hs⟩ := valueOnGrid_ok (pos := pos.map (mpcToGrid box n)) hn (by rw [List.length_map]; exact h)
    (by simpa using hp)
  refine ⟨_, g, positive n g, rfl, by unfold haloListToGrid; simp only []; rw [hg], ?_, ?_, ?_⟩
  · unfold massOnGrid
    simp only [init]
    rw [hg]
  · intro c x
    unfold positive
    rw [Finset.mem_image]
    constructor
    · rintro ⟨c', hc', he⟩
      rw [Prod.mk.injEq] at he
      obtain ⟨rfl, rfl⟩ := he
      rw [Finset.mem_filter] at hc'
      exact ⟨hc'.1, hc'.2, rfl⟩
    · rintro ⟨h1, h2, rfl⟩
      exact ⟨c, Finset.mem_filter.2 ⟨h1, h2⟩, rfl⟩
  · unfold positive
    rw [Finset.sum_image (by intro a _ b _ hab; exact (Prod.mk.inj hab).1), Finset.sum_filter, ← hs]
    refine Finset.sum_congr rfl fun c _ => ?_
    split_ifs with hc
    · rfl
    · refine (le_antisymm (not_lt.1 hc) ?_).symm
      unfold valueOnGrid at hg
      rw [if_neg (by simpa using h), if_neg (by push Not; exact ⟨by simpa using hp, hn.ne'⟩)] at hg
      injection hg with hg
      rw [← hg]
      refine List.sum_nonneg fun x hx => ?_
      obtain ⟨q, hq, rfl⟩ := List.mem_map.1 hx
      exact hm _ (List.of_mem_zip (List.mem_filter.1 hq).1).2

/-- **C127, units of positions.** Positions in cm are those in Mpc times `3.0857e24`, positions in any other unit are taken
as they are. -/
theorem C127_positions (s : State) (pos : List Pos) :
    setPos s (pos.map fun p j => p j * 3.085677581491367e+24) (some .cm) = setPos s pos (some .mpc) ∧
      ∃ s', setPos s pos (some .other) = .ok s' ∧ s'.posGrid = some pos := by
  refine ⟨?_, _, rfl, rfl⟩
  unfold setPos
  simp only []
  congr 3
  rw [List.map_map]
  refine List.map_congr_left fun p _ => ?_
  funext j
  simp only [Function.comp, cmToGrid, mpcToGrid, mpcToCm]
  field_simp

/-- **C127, units of masses.** A mass of `x` solar masses may be given in grams or in kilograms. -/
theorem C127_masses (s : State) (mass : List ℝ) :
    setMass s (mass.map fun x => x * 1.988409870698051e+33) (some .gram) = setMass s mass (some .msun) ∧
      setMass s (mass.map fun x => x * 1.988409870698051e+30) (some .kg) = setMass s mass (some .msun) ∧
      ∃ s', setMass s mass (some .msun) = .ok s' ∧ s'.mass = some mass := by
  refine ⟨?_, ?_, _, rfl, rfl⟩
  · unfold setMass
    simp only []
    congr 3
    rw [List.map_map]
    conv_rhs => rw [← List.map_id mass]
    refine List.map_congr_left fun p _ => ?_
    simp only [Function.comp, msunToG, id]
    field_simp
  · unfold setMass
    simp only []
    congr 3
    rw [List.map_map]
    conv_rhs => rw [← List.map_id mass]
    refine List.map_congr_left fun p _ => ?_
    simp only [Function.comp, msunToG, id]
    norm_num
    ring

/-- **C127 is false**: the masses which were set are not used; without the argument the method raises, unless there are
three haloes. -/
theorem C127_false (box : ℝ) (n : ℕ) (pos : List Pos) (mass : List ℝ) (h3 : pos.length ≠ 3) :
    ∃ s s', setPos (init box n) pos (some .mpc) = .ok s ∧ setMass s mass (some .msun) = .ok s' ∧
      massOnGrid s' none = some (.error .attribute) := by
  refine ⟨_, _, rfl, rfl, ?_⟩
  unfold massOnGrid
  simp only []
  rw [if_neg (by simpa using h3)]

/-- **C127 is false for negative values**, such as velocities: the cells with a negative total are left out. -/
theorem C127_negative_false (box : ℝ) {n : ℕ} (hn : 0 < n) (p : Pos) :
    ∃ s, setPos (init box n) [p] (some .mpc) = .ok s ∧ haloValueOnGrid s [-1] = .ok (some ∅) := by
  classical
  refine ⟨_, rfl, ?_⟩
  obtain ⟨g, hg, -⟩ := valueOnGrid_ok (pos := [mpcToGrid box n p]) (values := [-1]) hn rfl (by simp)
  unfold haloValueOnGrid
  simp only [init, List.map_cons, List.map_nil]
  rw [hg]
  simp only []
  congr 2
  unfold positive
  rw [Finset.image_eq_empty, Finset.filter_eq_empty_iff]
  intro c _
  unfold valueOnGrid at hg
  rw [if_neg (by simp), if_neg (by simp; omega)] at hg
  injection hg with hg
  rw [← hg, not_lt]
  simp only [List.zip_cons_cons, List.zip_nil_right, List.filter_cons, List.filter_nil]
  split_ifs <;> simp

/-- **C127, exceptions.** The default units raise, nothing is returned without positions, and an unknown unit of mass
leaves the masses as they were. -/
theorem C127_raises (s : State) (pos : List Pos) (mass : List ℝ) (box : ℝ) (n : ℕ) :
    setPos s pos none = .error .attribute ∧ setMass s mass none = .error .attribute ∧
      setMass s mass (some .other) = .ok s ∧ massOnGrid (init box n) (some mass) = some (.ok none) :=
  ⟨rfl, rfl, rfl, rfl⟩

/-! ## Examples -/

example : haloListToGrid (.plain [1, 2, 3]) (.plain [fun _ => 0, fun _ => 30, fun _ => 100]) 100 10 =
    some (.ok (inside (fun _ => 0) (fun _ => 100) 10 [fun _ => 0, fun _ => 30, fun _ => 100] [1, 2, 3])) :=
  C126_partial (by norm_num) (by norm_num) rfl
    (by intro p hp j; simp only [List.mem_cons, List.not_mem_nil, or_false] at hp; rcases hp with rfl | rfl | rfl <;> norm_num)
    (fun _ => ⟨fun _ => 0, by simp, rfl⟩) (fun _ => ⟨fun _ => 100, by simp, rfl⟩)

example : haloListToGrid (.plain [1, 2]) (.plain ([fun _ => 0, fun _ => 10].map fun p j => p j + (fun _ => 7 : Pos) j)) 50 10 =
    haloListToGrid (.plain [1, 2]) (.plain [fun _ => 0, fun _ => 10]) 100 10 :=
  C126_box_false (by norm_num) (by norm_num) (by norm_num) rfl (lo := fun _ => 0) (hi := fun _ => 10)
    (fun j => ⟨⟨fun _ => 0, by simp, rfl⟩, ⟨fun _ => 10, by simp, rfl⟩, by
      intro p hp
      rcases List.mem_pair.1 hp with rfl | rfl <;> norm_num⟩) (fun _ => by norm_num) _

example : ∃ s g r, setPos (init 100 8) [fun _ => 3, fun _ => 40] (some .mpc) = .ok s ∧
    haloListToGrid (.plain [1, 5]) (.plain [fun _ => 3, fun _ => 40]) 100 8 = some (.ok g) ∧
    massOnGrid s (some [1, 5]) = some (.ok (some r)) ∧
    (∀ c x, (c, x) ∈ r ↔ c ∈ cells 8 ∧ 0 < g c ∧ x = g c) ∧ ∑ q ∈ r, q.2 = [1, 5].sum :=
  C127_partial 100 (by norm_num) rfl (by simp) (by
    intro m hm
    rcases List.mem_pair.1 hm with rfl | rfl <;> norm_num)

example : ∃ s s', setPos (init 100 8) [fun _ => 3, fun _ => 40] (some .mpc) = .ok s ∧
    setMass s [1, 5] (some .msun) = .ok s' ∧ massOnGrid s' none = some (.error .attribute) :=
  C127_false 100 8 _ [1, 5] (by simp)

end Verif.HaloGrid
