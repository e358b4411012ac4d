import Verif.Props.Distort
import Mathlib.Tactic.FinCases
/-!
# C246: lines of sight are distorted alike, separately and linearly

The box is periodic, so a box that is rolled along an axis together with its velocities is the same
universe seen from another corner: its distorted box should be the distorted box, rolled.  This
holds across the line of sight and fails along it.
-/

namespace Verif.Distort

open Verif.Constants Verif.Conversions

/-! ## Specification -/

/-- The cell from which a box rolled by `-s` along axis `a` (`np.roll(x, -s, axis=a)`) takes the
value of cell `x`; the axis has `n` cells. -/
def rolled (n : ℕ) (a : Fin 3) (s : ℕ) (x : Fin 3 → ℕ) : Fin 3 → ℕ :=
  fun d => if d = a then (x a + s) % n else x d

/-- The cells of a box. -/
def Inside (shape x : Fin 3 → ℕ) : Prop := ∀ d, x d < shape d

/-- Rolling a box and its velocities along axis `a` rolls the distorted box. -/
def Rolls (k : Const) (LB : ℝ) (b : Box) (v : (Fin 3 → ℕ) → ℝ) (z : ℕ → ℝ) (los : Fin 3) (P : ℕ)
    (a : Fin 3) (s : ℕ) : Prop :=
  ∃ out out', distorted k LB b v z los P true = .ok out ∧
    distorted k LB ⟨b.shape, b.isInt, fun x => b.val (rolled (b.shape a) a s x)⟩
      (fun x => v (rolled (b.shape a) a s x)) z los P true = .ok out' ∧
    ∀ x, Inside b.shape x → out'.val x = out.val (rolled (b.shape a) a s x)

/-! ## Proofs -/

theorem interpolated_congr {G : ℕ} {y y' : ℕ → ℝ} (hG : 2 ≤ G) (h : ∀ m < G, y m = y' m)
    (n k : ℕ) : interpolated G y n k = interpolated G y' n k := by
  unfold interpolated
  simp only
  rw [h _ (by omega), h _ (by omega)]

theorem skewer_congr {D : ℝ} {G P : ℕ} {p : Bool} {t t' r r' : ℕ → ℝ} (hG : 2 ≤ G)
    (ht : ∀ m < G, t m = t' m) (hr : ∀ m < G, r m = r' m) (g : ℕ) :
    skewer D G P p t r g = skewer D G P p t' r' g := by
  unfold skewer
  refine Finset.sum_congr rfl fun k hk => ?_
  have hk' : k / P < G := by
    rw [Finset.mem_range] at hk
    exact Nat.div_lt_of_lt_mul (by rwa [Nat.mul_comm] at hk)
  have e : position D G P p r k = position D G P p r' k := by
    unfold position
    rw [interpolated_congr hG hr]
  rw [e, ht _ hk']

/-- Every line of sight is distorted alike and separately: two lines of sight, of one box or of two,
which hold the same signal, velocities and redshifts give the same distorted line of sight. -/
theorem C246_alike (k : Const) (LB : ℝ) (b b' : Box) (v v' : (Fin 3 → ℕ) → ℝ) (z z' : ℕ → ℝ)
    (los : Fin 3) (P : ℕ) (periodic : Bool) {G w : ℕ} (hb : Column b los G w)
    (hb' : Column b' los G w) (hG : 2 ≤ G) (hw : 1 ≤ w) (hi : b.isInt = b'.isInt) :
    ∃ out out', distorted k LB b v z los P periodic = .ok out ∧
      distorted k LB b' v' z' los P periodic = .ok out' ∧
      ∀ i < w, ∀ j < w, ∀ i' < w, ∀ j' < w,
        (∀ m < G, b.val (cell los i j m) = b'.val (cell los i' j' m) ∧
          v (cell los i j m) = v' (cell los i' j' m) ∧
          z (cell los i j m 2) = z' (cell los i' j' m 2)) →
        ∀ m, out.val (cell los i j m) = out'.val (cell los i' j' m) := by
  obtain ⟨o, h1, _, h3⟩ := distorted_column k LB b v z los P periodic hb hG hw
  obtain ⟨o', h1', _, h3'⟩ := distorted_column k LB b' v' z' los P periodic hb' hG hw
  refine ⟨o, o', h1, h1', fun i hi' j hj i' hi2 j' hj2 h m => ?_⟩
  rw [h3 i hi' j hj, h3' i' hi2 j' hj2, hi]
  congr 1
  refine skewer_congr hG (fun m hm => (h m hm).1) (fun m hm => ?_) m
  rw [(h m hm).2.1, (h m hm).2.2]

/-- Two different boxes with a common line of sight: the first lines of sight agree. -/
example : (∀ m < 3, (fun x : Fin 3 → ℕ => ((x 2 : ℝ)) + x 0) (cell 2 0 0 m) =
    (fun x : Fin 3 → ℕ => ((x 2 : ℝ)) + 7 * x 1) (cell 2 0 0 m)) ∧
    Column ⟨![2, 2, 3], false, fun x => (x 2 : ℝ) + x 0⟩ 2 3 2 := by
  refine ⟨fun m _ => ?_, rfl, rfl, rfl⟩
  simp [cell]

/-- The distorted box of a combination of float boxes is the combination of their distorted
boxes. -/
theorem C246_linear (k : Const) (LB : ℝ) (a b : Box) (v : (Fin 3 → ℕ) → ℝ) (z : ℕ → ℝ)
    (los : Fin 3) (P : ℕ) (periodic : Bool) (hs : a.shape = b.shape) (ha : a.isInt = false)
    (hb : b.isInt = false) (α β : ℝ) :
    (∃ e, distorted k LB a v z los P periodic = .error e ∧
      distorted k LB b v z los P periodic = .error e ∧
      distorted k LB ⟨a.shape, false, fun x => α * a.val x + β * b.val x⟩ v z los P periodic =
        .error e) ∨
    ∃ A B S, distorted k LB a v z los P periodic = .ok A ∧
      distorted k LB b v z los P periodic = .ok B ∧
      distorted k LB ⟨a.shape, false, fun x => α * a.val x + β * b.val x⟩ v z los P periodic =
        .ok S ∧ ∀ x, S.val x = α * A.val x + β * B.val x := by
  unfold distorted
  simp only [← hs, ha, hb]
  by_cases h1 : ¬ (a.shape 0 = a.shape 1 ∨ a.shape 1 = a.shape 2 ∨ a.shape 0 = a.shape 2)
  · simp only [if_pos h1]
    exact .inl ⟨_, rfl, rfl, rfl⟩
  by_cases h2 : a.shape (los + 1) = 0
  · simp only [if_neg h1, if_pos h2]
    exact .inl ⟨_, rfl, rfl, rfl⟩
  by_cases h3 : a.shape los < 2
  · simp only [if_neg h1, if_neg h2, if_pos h3]
    exact .inl ⟨_, rfl, rfl, rfl⟩
  by_cases h4 : a.shape (los + 2) < a.shape (los + 1)
  · simp only [if_neg h1, if_neg h2, if_neg h3, if_pos h4]
    exact .inl ⟨_, rfl, rfl, rfl⟩
  simp only [if_neg h1, if_neg h2, if_neg h3, if_neg h4]
  refine .inr ⟨_, _, _, rfl, rfl, rfl, fun x => ?_⟩
  dsimp only
  split_ifs with h5
  · simp only [store, Bool.false_eq_true, if_false, skewer]
    rw [Finset.mul_sum, Finset.mul_sum, ← Finset.sum_add_distrib]
    refine Finset.sum_congr rfl fun i _ => ?_
    split_ifs
    · ring
    · ring
  · ring

/-- The second alternative is met: a box of two unequal cells without velocities. -/
example : ∃ A, distorted (Const.init 3) 100 ⟨fun _ => 2, false, fun x => x 0⟩ (fun _ => 0)
    (fun _ => 8) 0 10 true = .ok A := by
  obtain ⟨o, h, _⟩ := distorted_column (Const.init 3) 100 ⟨fun _ => 2, false, fun x => x 0⟩
    (fun _ => 0) (fun _ => 8) 0 10 true (G := 2) (w := 2) ⟨rfl, rfl, rfl⟩ le_rfl (by norm_num)
  exact ⟨o, h⟩

theorem exists_cell {b : Box} {los : Fin 3} {G w : ℕ} (hb : Column b los G w) {x : Fin 3 → ℕ}
    (hx : Inside b.shape x) : ∃ i < w, ∃ j < w, ∃ m < G, x = cell los i j m := by
  obtain ⟨h1, h2, h3⟩ := hb
  have a0 := hx 0
  have a1 := hx 1
  have a2 := hx 2
  match los with
  | 0 =>
    refine ⟨x 1, h2 ▸ a1, x 2, h3 ▸ a2, x 0, h1 ▸ a0, ?_⟩
    funext d; fin_cases d <;> rfl
  | 1 =>
    refine ⟨x 0, h3 ▸ a0, x 2, h2 ▸ a2, x 1, h1 ▸ a1, ?_⟩
    funext d; fin_cases d <;> rfl
  | 2 =>
    refine ⟨x 0, h2 ▸ a0, x 1, h3 ▸ a1, x 2, h1 ▸ a2, ?_⟩
    funext d; fin_cases d <;> rfl

theorem rolled_cell {los a : Fin 3} (ha : a ≠ los) {n w s i j : ℕ} (hn : n = w) (hw : 1 ≤ w)
    (hi : i < w) (hj : j < w) : ∃ i' < w, ∃ j' < w, ∀ m,
      rolled n a s (cell los i j m) = cell los i' j' m := by
  subst hn
  have hm : ∀ q, q % n < n := fun q => Nat.mod_lt _ hw
  fin_cases los <;> fin_cases a <;> first
    | exact absurd rfl ha
    | (refine ⟨_, hm (i + s), j, hj, fun m => ?_⟩; funext d; fin_cases d <;> rfl; done)
    | (refine ⟨i, hi, _, hm (j + s), fun m => ?_⟩; funext d; fin_cases d <;> rfl; done)

/-- Rolling a box and its velocities across the line of sight rolls the distorted box; the redshift
has to be constant if it is given along the axis. -/
theorem C246_partial (k : Const) (LB : ℝ) (b : Box) (v : (Fin 3 → ℕ) → ℝ) (z : ℕ → ℝ)
    (los : Fin 3) (P : ℕ) {G w : ℕ} (hb : Column b los G w) (hG : 2 ≤ G) (hw : 1 ≤ w)
    (a : Fin 3) (ha : a ≠ los) (hz : a = 2 → ∀ n, z n = z 0) (s : ℕ) :
    Rolls k LB b v z los P a s := by
  have hn : b.shape a = w := by
    obtain ⟨_, h2, h3⟩ := hb
    fin_cases los <;> fin_cases a <;> first | exact absurd rfl ha | exact h2 | exact h3
  obtain ⟨o, o', h1, h2, h3⟩ := C246_alike k LB
    ⟨b.shape, b.isInt, fun x => b.val (rolled (b.shape a) a s x)⟩ b
    (fun x => v (rolled (b.shape a) a s x)) v z z los P true (G := G) (w := w) hb hb hG hw rfl
  refine ⟨o', o, h2, h1, fun x hx => ?_⟩
  obtain ⟨i, hi, j, hj, m, hm, rfl⟩ := exists_cell hb hx
  obtain ⟨i', hi', j', hj', e⟩ := rolled_cell (s := s) ha hn hw hi hj
  rw [e]
  refine h3 i hi j hj i' hi' j' hj' (fun m _ => ⟨congrArg b.val (e m), congrArg v (e m), ?_⟩) m
  by_cases h : a = 2
  · rw [hz h, hz h (cell los i' j' m 2)]
  · rw [← e]
    unfold rolled
    rw [if_neg (fun q => h q.symm)]

/-- The redshift may change along the line of sight, here the last axis. -/
example (v : (Fin 3 → ℕ) → ℝ) : Rolls (Const.init 3) 100 ⟨![4, 4, 6], false, fun x => x 1⟩ v
    (fun n => 8 + n) 2 10 1 3 :=
  C246_partial _ _ _ _ _ 2 10 (G := 6) (w := 4) ⟨rfl, rfl, rfl⟩ (by norm_num) (by norm_num) 1
    (by decide) (fun h => absurd h (by decide)) 3

/-! ## Along the line of sight -/

theorem wrap_inside {D p : ℝ} (h0 : 0 ≤ p) (h1 : p ≤ D) : wrap D p = p := by
  simp only [wrap, if_neg (not_lt.mpr h0), if_neg (not_lt.mpr h1)]

theorem wrap_above {D p : ℝ} (h0 : 0 ≤ D) (h1 : D < p) : wrap D p = p - D := by
  simp only [wrap, if_neg (not_lt.mpr (h0.trans h1.le)), if_pos h1]

theorem position_two (D : ℝ) (r : ℕ → ℝ) :
    position D 2 1 true r 0 = wrap D (r 0) ∧ position D 2 1 true r 1 = wrap D (D + r 1) := by
  constructor <;> norm_num [position, node, interpolated]

theorem inBin_two {D p : ℝ} (hD : 0 < D) : (InBin D 2 0 p ↔ 0 ≤ p ∧ p < D / 2) ∧
    (InBin D 2 1 p ↔ D / 2 ≤ p ∧ (p < D ∨ p = D)) := by
  have e : (2 : ℝ) * (D / 2) = D := by ring
  constructor <;> norm_num [InBin, node, e]

/-- Along the line of sight the distorted box does not follow: the velocities are interpolated
between the centres of the first and of the last cell only, and the last particle lies on the far
side of the box, not in the last cell. -/
theorem C246_false : ¬ ∀ (k : Const) (LB : ℝ), 0 < LB → ∀ (b : Box), b.isInt = false →
    ∀ (v : (Fin 3 → ℕ) → ℝ), (∀ x, |v x| < c) → ∀ (z : ℕ → ℝ), (∀ n, z n = z 0) → -1 < z 0 →
    ∀ (los : Fin 3) (P : ℕ), 1 ≤ P → ∀ (G w : ℕ), Column b los G w → 2 ≤ G → 1 ≤ w →
    ∀ (a : Fin 3) (s : ℕ), Rolls k LB b v z los P a s := by
  intro h
  have hs := shift_pos physical_init (z := 8) (by norm_num) one_pos (by norm_num [c])
  have h0 : shift (Const.init 3) 8 0 = 0 := by simp [shift]
  generalize hd : shift (Const.init 3) 8 1 = d at hs
  have hb : Column (⟨fun _ => 2, false, fun x => if x 0 = 0 then 1 else 10⟩ : Box) 0 2 2 :=
    ⟨rfl, rfl, rfl⟩
  obtain ⟨out, out', h1, h2, h3⟩ := h (Const.init 3) (4 * d) (by positivity)
    ⟨fun _ => 2, false, fun x => if x 0 = 0 then 1 else 10⟩ rfl
    (fun x => if x 0 = 0 then 1 else 0) (by intro x; split_ifs <;> norm_num [c]) (fun _ => 8)
    (fun _ => rfl) (by norm_num) 0 1 le_rfl 2 2 hb le_rfl (by norm_num) 0 1
  obtain ⟨o, e1, _, e2⟩ := distorted_column (Const.init 3) (4 * d) _
    (fun x => if x 0 = 0 then 1 else 0) (fun _ => 8) 0 1 true hb le_rfl (by norm_num)
  obtain ⟨o', e1', _, e2'⟩ := distorted_column (Const.init 3) (4 * d)
    ⟨fun _ => 2, false, fun x => if rolled 2 0 1 x 0 = 0 then 1 else 10⟩
    (fun x => if rolled 2 0 1 x 0 = 0 then 1 else 0) (fun _ => 8) 0 1 true (G := 2) (w := 2)
    ⟨rfl, rfl, rfl⟩ le_rfl (by norm_num)
  rw [h1] at e1
  rw [h2] at e1'
  obtain rfl : out = o := by simpa using e1
  obtain rfl : out' = o' := by simpa using e1'
  have hx := h3 (cell 0 0 0 0) (by intro q; fin_cases q <;> decide)
  have hr : rolled 2 0 1 (cell 0 0 0 0) = cell 0 0 0 1 := by funext q; fin_cases q <;> rfl
  change out'.val _ = out.val (rolled 2 0 1 (cell 0 0 0 0)) at hx
  rw [hr, e2 0 (by norm_num) 0 (by norm_num), e2' 0 (by norm_num) 0 (by norm_num)] at hx
  have hD : ((2 : ℕ) : ℝ) * (4 * d / (2 : ℕ)) = 4 * d := by push_cast; ring
  have hD' : 0 < 4 * d := by positivity
  rw [hD] at hx
  simp only [store, Bool.false_eq_true, if_false, skewer, Nat.mul_one, Finset.sum_range_succ,
    Finset.sum_range_zero, position_two, (inBin_two hD').1, (inBin_two hD').2] at hx
  have a0 : wrap (4 * d) d = d := wrap_inside hs.le (by linarith)
  have a1 : wrap (4 * d) (4 * d + 0) = 4 * d := by
    rw [add_zero]
    exact wrap_inside hD'.le le_rfl
  have a2 : wrap (4 * d) 0 = 0 := wrap_inside le_rfl hD'.le
  have a3 : wrap (4 * d) (4 * d + d) = d := by
    rw [wrap_above hD'.le (by linarith)]
    ring
  have r0 : rolled 2 0 1 (cell 0 0 0 0) 0 = 1 := rfl
  have r1 : rolled 2 0 1 (cell 0 0 0 1) 0 = 0 := rfl
  have c0 : cell 0 0 0 0 0 = 0 := rfl
  have c1 : cell 0 0 0 1 0 = 1 := rfl
  simp only [r0, r1, c0, c1, one_ne_zero, if_true, if_false, hd, h0, a0, a1, a2, a3] at hx
  rw [if_pos ⟨le_rfl, by linarith⟩, if_pos ⟨hs.le, by linarith⟩,
    if_neg (by rintro ⟨q, _⟩; linarith), if_pos ⟨by linarith, Or.inr trivial⟩] at hx
  norm_num at hx

end Verif.Distort
