import Verif.Model.PvBox
import Verif.Props.Distort
/-!
# C239: the redshift space box of `make_pv_box`
-/

namespace Verif.PvBox

open Verif.Constants Verif.Conversions Verif.Distort

/-- `out` is `b` moved by `s` cells along the line of sight with periodic boundaries, but for one of the `P` particles of the last cell (C86). -/
def Moved (b out : Box) (los : Fin 3) (G w s P : ℕ) : Prop :=
  out.shape = b.shape ∧ ∀ i < w, ∀ j < w, ∀ g < G, out.val (cell los i j g) =
    b.val (cell los i j ((g + (G - s)) % G)) +
      (if s = 0 then 0 else if g = s then b.val (cell los i j (G - 1)) / P
        else if g + 1 = s then -(b.val (cell los i j (G - 1)) / P) else 0)

/-- A velocity that displaces everything by `s` cells along the line of sight. -/
def Flow (k : Const) (LB z : ℝ) (w s : ℕ) (v : (Fin 3 → ℕ) → ℝ) : Prop := ∀ x, Displaces k z (v x) (s * (LB / w))

/-- What happens on any line of sight: the box is moved by the first component of the velocity, whatever the others are. -/
theorem C239_component (k : Const) (LB : ℝ) (hLB : 0 < LB) (b : Box) (hf : b.isInt = false) (kms : Velocities) (z : ℝ) (los : Fin 3)
    (P : ℕ) (hP : 1 ≤ P) {G w s : ℕ} (hb : Column b los G w) (hG : 2 ≤ G) (hw : 1 ≤ w) (hs : s < G) (hv : Flow k LB z w s (kms 0)) :
    ∃ out, makePvBox k LB b kms z los P = .ok out ∧ Moved b out los G w s P := by
  obtain ⟨out, h1, h2⟩ := C86_partial k LB hLB b hf (kms 0) (fun _ => z) los P hP hb hG hw hs hv
  obtain ⟨out', h1', hs', -⟩ := distorted_column k LB b (kms 0) (fun _ => z) los P true hb hG hw
  rw [h1] at h1'
  obtain rfl : out = out' := by simpa using h1'
  exact ⟨out, h1, hs', h2⟩

/-- **C239** (partial).  With the first axis as the line of sight the box is displaced along it by the velocities along it: velocities that displace by
whole cells move the box, and the sum over any skewer is kept for displacements up to the depth of the box.  Missing: the other two axes
(`C239_false`). -/
theorem C239_partial (k : Const) (LB : ℝ) (hLB : 0 < LB) (b : Box) (hf : b.isInt = false) (kms : Velocities) (z : ℝ) (P : ℕ) (hP : 1 ≤ P)
    {G w : ℕ} (hb : Column b 0 G w) (hG : 2 ≤ G) (hw : 1 ≤ w) :
    (∀ s < G, Flow k LB z w s (kms 0) → ∃ out, makePvBox k LB b kms z 0 P = .ok out ∧ Moved b out 0 G w s P) ∧
    ((∀ x, ∃ d, Displaces k z (kms 0 x) d ∧ |d| ≤ G * (LB / w)) →
      ∃ out, makePvBox k LB b kms z 0 P = .ok out ∧ out.shape = b.shape ∧ ∀ i < w, ∀ j < w,
        ∑ m ∈ Finset.range G, out.val ![m, i, j] = ∑ m ∈ Finset.range G, b.val ![m, i, j]) := by
  refine ⟨fun s hs hv => C239_component k LB hLB b hf kms z 0 P hP hb hG hw hs hv, fun hv => ?_⟩
  exact C44_partial k LB hLB b hf (kms 0) (fun _ => z) 0 P hP hb hG hw hv

/-- On the other lines of sight the velocities along them have no effect: if those along the first axis are zero, the box is returned as it was. -/
theorem C239_unmoved (k : Const) (p : Physical k) (LB : ℝ) (hLB : 0 < LB) (b : Box) (hf : b.isInt = false) (kms : Velocities) (z : ℝ)
    (hz : -1 < z) (los : Fin 3) (P : ℕ) (hP : 1 ≤ P) {G w : ℕ} (hb : Column b los G w) (hG : 2 ≤ G) (hw : 1 ≤ w) (hv : ∀ x, kms 0 x = 0) :
    ∃ out, makePvBox k LB b kms z los P = .ok out ∧ out.shape = b.shape ∧
      ∀ i < w, ∀ j < w, ∀ m < G, out.val (cell los i j m) = b.val (cell los i j m) := by
  have e : kms 0 = fun _ => 0 := funext hv
  obtain ⟨out, h1, h2⟩ := C44_identity k p LB hLB b (fun _ => z) (fun _ => hz) los P hP true hb hG hw (by simp [hf])
  refine ⟨out, ?_, h2⟩
  unfold makePvBox getDistorted
  dsimp only
  rw [e]
  exact h1

/-- The claim of C239 for a line of sight: velocities along it that displace everything by `s` cells move the box by `s` cells. -/
def Claim (los : Fin 3) : Prop :=
  ∀ (k : Const) (LB : ℝ), Physical k → 0 < LB → ∀ b : Box, b.isInt = false → ∀ (kms : Velocities) (z : ℝ), -1 < z → ∀ P : ℕ, 1 ≤ P →
    ∀ G w s : ℕ, Column b los G w → 2 ≤ G → 1 ≤ w → s < G → Flow k LB z w s (kms los) →
      ∃ out, makePvBox k LB b kms z los P = .ok out ∧ Moved b out los G w s P

/-- A cube of side three that is one in the cells at the beginning of the line of sight. -/
def wall (los : Fin 3) : Box := ⟨fun _ => 3, false, fun c => if c los = 0 then 1 else 0⟩

theorem wall_column (los : Fin 3) : Column (wall los) los 3 3 := ⟨rfl, rfl, rfl⟩

/-- A box size for which 1 km/s at redshift 8 displaces by one of three cells. -/
noncomputable def side : ℝ := 3 * shift (Const.init 3) 8 1

theorem side_pos : 0 < side :=
  mul_pos (by norm_num) (shift_pos physical_init (by norm_num) one_pos (by norm_num [c]))

theorem flow_one : Flow (Const.init 3) side 8 3 1 fun _ => 1 := by
  intro _
  have := displaces physical_init (z := 8) (v := 1) (by norm_num) (by norm_num [c])
  convert this using 1
  unfold side
  push_cast
  ring

/-- Velocities along one axis. -/
def only (los : Fin 3) : Velocities := fun a _ => if a = los then 1 else 0

/-- The claim holds for the first axis only. -/
theorem C239_false (los : Fin 3) : Claim los ↔ los = 0 := by
  constructor
  · intro h
    by_contra h0
    have hk : ∀ x, only los 0 x = 0 := fun _ => if_neg (Ne.symm h0)
    have hflow : Flow (Const.init 3) side 8 3 1 (only los los) := by
      have e : only los los = fun _ => 1 := funext fun _ => if_pos rfl
      rw [e]
      exact flow_one
    obtain ⟨out, h1, -, h2⟩ := h (Const.init 3) side physical_init side_pos (wall los) rfl (only los) 8 (by norm_num) 10 (by norm_num) 3 3 1 (wall_column los)
      (by norm_num) (by norm_num) (by norm_num) hflow
    obtain ⟨out', h1', -, h2'⟩ := C239_unmoved (Const.init 3) physical_init side side_pos (wall los) rfl (only los) 8 (by norm_num) los 10 (by norm_num)
      (wall_column los) (by norm_num) (by norm_num) hk
    rw [h1] at h1'
    obtain rfl : out = out' := by simpa using h1'
    have a := h2 0 (by norm_num) 0 (by norm_num) 0 (by norm_num)
    have a' := h2' 0 (by norm_num) 0 (by norm_num) 0 (by norm_num)
    rw [a'] at a
    simp [wall, cell_los] at a
  · rintro rfl
    intro k LB _ hLB b hf kms z _ P hP G w s hb hG hw hs hv
    exact (C239_partial k LB hLB b hf kms z P hP hb hG hw).1 s hs hv

/-- Boxes with three different sides raise, as do boxes of one cell along the line of sight. -/
theorem C239_raises (k : Const) (LB : ℝ) (b : Box) (kms : Velocities) (z : ℝ) (los : Fin 3) (P : ℕ) :
    (b.shape 0 ≠ b.shape 1 → b.shape 1 ≠ b.shape 2 → b.shape 0 ≠ b.shape 2 → makePvBox k LB b kms z los P = .error "AssertionError") ∧
    ∀ w, 1 ≤ w → Column b los 1 w → makePvBox k LB b kms z los P = .error "ValueError" := by
  constructor
  · intro h1 h2 h3
    unfold makePvBox getDistorted distorted
    dsimp only
    rw [if_pos (by tauto)]
  · intro w hw hb
    unfold makePvBox getDistorted distorted
    dsimp only
    rw [if_neg (not_not.2 (column_assert hb)), hb.1, hb.2.1, if_neg (by omega), if_pos (by norm_num)]

example : ∃ out, makePvBox (Const.init 3) side (wall 0) (fun a _ => if a = 0 then 1 else 5) 8 0 10 = .ok out ∧ Moved (wall 0) out 0 3 3 1 10 :=
  (C239_partial _ _ side_pos _ rfl (fun a _ => if a = 0 then 1 else 5) 8 10 (by norm_num) (wall_column 0) (by norm_num) (by norm_num)).1 1 (by norm_num)
    (by simpa using flow_one)

example : makePvBox (Const.init 3) 100 ⟨![2, 3, 4], false, fun _ => 1⟩ (fun _ _ => 0) 8 2 10 = .error "AssertionError" :=
  (C239_raises _ _ _ _ _ _ _).1 (by decide) (by decide) (by decide)

end Verif.PvBox
