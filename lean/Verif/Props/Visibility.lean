import Verif.Model.Visibility
import Mathlib.Tactic.NormNum
import Mathlib.Tactic.Ring

/-!
# C231: visibilities are divided by the root of the number of baselines
-/

namespace Verif.Visibility

/-- What a visibility becomes that `w` baselines observe: nothing is left without baselines, and a negative number has no root. -/
noncomputable def Degraded (v : ℂ) (w : ℝ) (out : Option ℂ) : Prop :=
  (w = 0 → out = some 0) ∧ (w < 0 → out = none) ∧ (0 < w → ∃ x, out = some x ∧ x * (Real.sqrt w : ℂ) = v)

/-- The property: for an array and a map of one shape, every cell of the result is the degraded visibility. -/
def Response (f : Arr ℂ → Arr ℝ → Except Err (Arr (Option ℂ))) (a : Arr ℂ) (uv : Arr ℝ) : Prop :=
  ∃ r, f a uv = .ok r ∧ r.rows = a.rows ∧ r.cols = a.cols ∧ ∀ i < a.rows, ∀ j < a.cols, Degraded (a.val i j) (uv.val i j) (r.val i j)

open Classical in
/-- The value that a visit sets. -/
noncomputable def cellValue (v : ℂ) (w : ℝ) : Option ℂ :=
  if w = 0 then some 0
  else if w < 0 then none
  else some ((v.re / Real.sqrt w : ℝ) + Complex.I * (v.im : ℂ) / (Real.sqrt w : ℝ))

theorem cellValue_degraded (v : ℂ) (w : ℝ) : Degraded v w (cellValue v w) := by
  refine ⟨fun h => by simp [cellValue, h], fun h => by simp [cellValue, h, h.ne], fun h => ?_⟩
  refine ⟨(v.re / Real.sqrt w : ℝ) + Complex.I * (v.im : ℂ) / (Real.sqrt w : ℝ), by simp [cellValue, h.ne', not_lt.mpr h.le], ?_⟩
  have hs : (Real.sqrt w : ℂ) ≠ 0 := by exact_mod_cast (Real.sqrt_pos.mpr h).ne'
  rw [add_mul, div_mul_cancel₀ _ hs, Complex.ofReal_div, div_mul_cancel₀ _ hs, mul_comm Complex.I]
  exact Complex.re_add_im v

theorem step_ok (a : Arr ℂ) (uv : Arr ℝ) (s : ℕ → ℕ → Option ℂ) (i j : ℕ) (h1 : i < uv.rows ∧ j < uv.cols) (h2 : i < a.rows ∧ j < a.cols) :
    step a uv s i j = .ok fun i' j' => if i' = i ∧ j' = j then cellValue (a.val i j) (uv.val i j) else s i' j' := by
  unfold step cellValue
  rw [if_neg (not_not.mpr h1), if_neg (not_not.mpr h2)]

theorem loop_ok (a : Arr ℂ) (uv : Arr ℝ) (ps : List (ℕ × ℕ)) (hps : ∀ p ∈ ps, (p.1 < uv.rows ∧ p.2 < uv.cols) ∧ (p.1 < a.rows ∧ p.2 < a.cols)) :
    ∀ s, ∃ t, loop a uv ps s = .ok t ∧ ∀ i j, ((i, j) ∈ ps → t i j = cellValue (a.val i j) (uv.val i j)) ∧ ((i, j) ∉ ps → t i j = s i j) := by
  induction ps with
  | nil => intro s; exact ⟨s, rfl, fun i j => ⟨by simp, fun _ => rfl⟩⟩
  | cons p ps ih =>
    intro s
    obtain ⟨h1, h2⟩ := hps p (List.mem_cons_self ..)
    obtain ⟨t, ht, hv⟩ := ih (fun q hq => hps q (List.mem_cons_of_mem _ hq))
      (fun i' j' => if i' = p.1 ∧ j' = p.2 then cellValue (a.val p.1 p.2) (uv.val p.1 p.2) else s i' j')
    refine ⟨t, ?_, fun i j => ⟨fun hm => ?_, fun hm => ?_⟩⟩
    · rw [loop, step_ok a uv s p.1 p.2 h1 h2]; exact ht
    · by_cases hps : (i, j) ∈ ps
      · exact (hv i j).1 hps
      · have : (i, j) = p := by
          rcases List.mem_cons.mp hm with h | h
          · exact h
          · exact absurd h hps
        rw [(hv i j).2 hps]
        subst this
        simp
    · rw [List.mem_cons, not_or] at hm
      rw [(hv i j).2 hm.2]
      have : ¬(i = p.1 ∧ j = p.2) := fun h => hm.1 (Prod.ext h.1 h.2)
      rw [if_neg this]

theorem loop_err (a : Arr ℂ) (uv : Arr ℝ) (ps : List (ℕ × ℕ)) (hps : ∃ p ∈ ps, ¬(p.1 < uv.rows ∧ p.2 < uv.cols) ∨ ¬(p.1 < a.rows ∧ p.2 < a.cols)) :
    ∀ s, loop a uv ps s = .error .index := by
  induction ps with
  | nil => simp at hps
  | cons p ps ih =>
    intro s
    by_cases h1 : p.1 < uv.rows ∧ p.2 < uv.cols
    · by_cases h2 : p.1 < a.rows ∧ p.2 < a.cols
      · rw [loop, step_ok a uv s p.1 p.2 h1 h2]
        refine ih ?_ _
        obtain ⟨q, hq, hb⟩ := hps
        rcases List.mem_cons.mp hq with h | h
        · subst h; rcases hb with hb | hb
          · exact absurd h1 hb
          · exact absurd h2 hb
        · exact ⟨q, h, hb⟩
      · rw [loop, step, if_neg (not_not.mpr h1), if_pos h2]
    · rw [loop, step, if_pos h1]

theorem mem_pairs (n i j : ℕ) : (i, j) ∈ ((List.range n).flatMap fun i => (List.range n).map fun j => (i, j)) ↔ i < n ∧ j < n := by
  simp

/-- **C231**, for all maps that are large enough: the columns below the number of rows are degraded, and those from there on are zero, observed or not. -/
theorem C231_columns (a : Arr ℂ) (uv : Arr ℝ) (hc : a.rows ≤ a.cols) (hr : a.rows ≤ uv.rows) (hu : a.rows ≤ uv.cols) :
    ∃ r, applyResponse a uv = .ok r ∧ r.rows = a.rows ∧ r.cols = a.cols ∧ ∀ i < a.rows, ∀ j,
      (j < a.rows → Degraded (a.val i j) (uv.val i j) (r.val i j)) ∧ (a.rows ≤ j → j < a.cols → r.val i j = some 0) := by
  obtain ⟨t, ht, hv⟩ := loop_ok a uv ((List.range a.rows).flatMap fun i => (List.range a.rows).map fun j => (i, j)) (by
    rintro ⟨i, j⟩ hp
    rw [mem_pairs] at hp
    exact ⟨⟨by omega, by omega⟩, ⟨by omega, by omega⟩⟩) fun _ _ => some 0
  refine ⟨⟨a.rows, a.cols, t⟩, by rw [applyResponse, ht], rfl, rfl, fun i hi j => ⟨fun hj => ?_, fun hj _ => ?_⟩⟩
  · show Degraded _ _ (t i j)
    rw [(hv i j).1 ((mem_pairs _ _ _).mpr ⟨hi, hj⟩)]
    exact cellValue_degraded _ _
  · exact (hv i j).2 fun h => by rw [mem_pairs] at h; omega

/-- **C231**, proved for square arrays and maps of their shape.  What is missing: other shapes, see `C231_false` and `C231_raises`. -/
theorem C231_partial (a : Arr ℂ) (uv : Arr ℝ) (hsq : a.cols = a.rows) (hr : uv.rows = a.rows) (hc : uv.cols = a.cols) : Response applyResponse a uv := by
  obtain ⟨r, h, h1, h2, h3⟩ := C231_columns a uv hsq.ge hr.ge (by omega)
  exact ⟨r, h, h1, h2, fun i hi j hj => (h3 i hi j).1 (by omega)⟩

example : Response applyResponse ⟨2, 2, fun i j => i + Complex.I * j⟩ ⟨2, 2, fun i j => i + j⟩ := C231_partial _ _ rfl rfl rfl

/-- **C231** is false for arrays with more columns than rows that are observed there: the visibility is lost, without an exception. -/
theorem C231_false (a : Arr ℂ) (uv : Arr ℝ) (hr : uv.rows = a.rows) (hc : uv.cols = a.cols) (i j : ℕ) (hi : i < a.rows) (hj : a.rows ≤ j) (hj' : j < a.cols)
    (hv : a.val i j ≠ 0) (hw : 0 < uv.val i j) : (∃ r, applyResponse a uv = .ok r) ∧ ¬Response applyResponse a uv := by
  obtain ⟨r, h, h1, h2, h3⟩ := C231_columns a uv (by omega) hr.ge (by omega)
  refine ⟨⟨r, h⟩, ?_⟩
  rintro ⟨r', h', -, -, h4⟩
  rw [h] at h'
  cases h'
  obtain ⟨x, hx, hxv⟩ := (h4 i hi j hj').2.2 hw
  rw [(h3 i hi j).2 hj hj'] at hx
  cases hx
  exact hv (by rw [← hxv, zero_mul])

example : ¬Response applyResponse ⟨1, 2, fun _ _ => 1⟩ ⟨1, 2, fun _ _ => 1⟩ :=
  (C231_false ⟨1, 2, fun _ _ => 1⟩ ⟨1, 2, fun _ _ => 1⟩ rfl rfl 0 1 (by norm_num) (by norm_num) (by norm_num) one_ne_zero one_pos).2

/-- **C231**: arrays with fewer columns than rows raise, and so do maps with fewer rows or columns than the array has rows. -/
theorem C231_raises (a : Arr ℂ) (uv : Arr ℝ) (h0 : 0 < a.rows) (h : a.cols < a.rows ∨ uv.rows < a.rows ∨ uv.cols < a.rows) :
    applyResponse a uv = .error .index := by
  rw [applyResponse, loop_err]
  refine ⟨(a.rows - 1, a.rows - 1), (mem_pairs _ _ _).mpr ⟨by omega, by omega⟩, ?_⟩
  dsimp only
  omega

example : applyResponse ⟨2, 1, fun _ _ => 1⟩ ⟨2, 1, fun _ _ => 1⟩ = .error .index := C231_raises _ _ (by norm_num) (Or.inl (by norm_num))

end Verif.Visibility
