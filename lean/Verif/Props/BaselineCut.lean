import Verif.Props.UVResponse
import Mathlib.Analysis.Complex.Norm
import Mathlib.Analysis.SpecialFunctions.Pow.Real
import Mathlib.Analysis.SpecialFunctions.Pow.Asymptotics
/-!
# C118: `max_baseline`; C119: Briggs weights
-/

namespace Verif.UVResponse
open Verif.Convolve Verif.PowerSpectrum Verif.Conversions Verif.Constants

/-! ## C118 -/

/-- Specification: the length in km of the baseline for one cell of the UV map: `cdist / L` wavelengths of 21 cm at
redshift `z`. -/
noncomputable def cellLength (k : Const) (z L : ℝ) : ℝ := cdist k z / L * (21 / 100 * (1 + z)) / 1000

/-- Specification: the length in cells of the baseline of the cell `m`, counted from the zero baseline. -/
noncomputable def cells2 (m : Fin 2 → ℤ) : ℝ := Real.sqrt ((m 0 : ℝ) ^ 2 + (m 1 : ℝ) ^ 2)

/-- Specification: the cell of the map (with the zero baseline first) for the baseline `m`. -/
def cellOf (n : ℕ) (m : Fin 2 → ℤ) : Fin 2 → ℤ := fun j => m j % (n : ℤ)

theorem cell_pos {k : Const} (p : Physical k) {z L : ℝ} (hz : 0 < z) (hL : 0 < L) : 0 < cellLength k z L := by
  have := cdist_pos p hz
  unfold cellLength
  positivity

/-- The wave number of the cut in units of the cells. -/
theorem maxK_eq {k : Const} (p : Physical k) {z L : ℝ} (hz : 0 < z) (hL : 0 < L) (B : ℝ) (hB : B ≠ 0) :
    maxK k z B = B / cellLength k z L * Real.pi / L := by
  have h1 := (cdist_pos p hz).ne'
  have h2 : (1 + z) ≠ 0 := by linarith
  unfold maxK cellLength
  field_simp

/-- **C118, the wave number.** `max_baseline_to_max_k` gives half the wave number 2π u / D of the longest baseline, `u`
being its length in wavelengths. -/
theorem C118_half {k : Const} (p : Physical k) {z : ℝ} (hz : 0 < z) (B : ℝ) (hB : 0 < B) :
    2 * maxK k z B = 2 * Real.pi * (B * 1000 / (21 / 100 * (1 + z))) / cdist k z ∧
    maxK k z B ≠ 2 * Real.pi * (B * 1000 / (21 / 100 * (1 + z))) / cdist k z := by
  have h1 := cdist_pos p hz
  have h2 : 0 < 1 + z := by linarith
  have e : 2 * maxK k z B = 2 * Real.pi * (B * 1000 / (21 / 100 * (1 + z))) / cdist k z := by
    unfold maxK
    field_simp
  refine ⟨e, fun h => ?_⟩
  have : 0 < maxK k z B := by
    unfold maxK
    have := Real.pi_pos
    positivity
  rw [← h] at e
  linarith

example : 2 * maxK (Const.init 3) 8 2 = 2 * Real.pi * (2 * 1000 / (21 / 100 * (1 + 8))) / cdist (Const.init 3) 8 :=
  (C118_half physical_init (by norm_num) 2 (by norm_num)).1

theorem sq_lt_scaled {L : ℝ} (hL : 0 < L) (R x y : ℝ) :
    (R * Real.pi / L) ^ 2 < (x * Real.pi / L) ^ 2 + (y * Real.pi / L) ^ 2 ↔ R ^ 2 < x ^ 2 + y ^ 2 := by
  have hp : 0 < (Real.pi / L) ^ 2 := by
    have := Real.pi_pos
    positivity
  rw [show (R * Real.pi / L) ^ 2 = R ^ 2 * (Real.pi / L) ^ 2 by ring,
    show (x * Real.pi / L) ^ 2 + (y * Real.pi / L) ^ 2 = (x ^ 2 + y ^ 2) * (Real.pi / L) ^ 2 by ring]
  exact mul_lt_mul_iff_left₀ hp

/-- Place of the cell `m` on the code's axis, for an even number of cells. -/
noncomputable def place (h : ℕ) (m : ℤ) : ℝ := m + ((h : ℝ) + m) / (2 * h - 1)

theorem cutAxis_eq (h : ℕ) (hh : 1 ≤ h) (L : ℝ) (m : ℤ) :
    cutAxis (2 * h) L (m + h) = place h m * Real.pi / L := by
  have : (1 : ℝ) ≤ h := by exact_mod_cast hh
  have h2 : (2 * (h : ℝ) - 1) ≠ 0 := by linarith
  unfold cutAxis place
  push_cast
  congr 2
  field_simp
  ring

open Classical in
/-- The cut for even numbers of cells. -/
theorem cutMap_even (h : ℕ) (hh : 1 ≤ h) {L : ℝ} (hL : 0 < L) (R : ℝ) (uv : (Fin 2 → ℤ) → ℝ) (m : Fin 2 → ℤ)
    (hm : ∀ j, -(h : ℤ) ≤ m j ∧ m j < h) :
    cutMap (2 * h) L (R * Real.pi / L) uv (cellOf (2 * h) m) =
      if R ^ 2 < place h (m 0) ^ 2 + place h (m 1) ^ 2 then 0 else uv (cellOf (2 * h) m) := by
  have hd : (2 * h / 2 : ℕ) = h := by omega
  have e : md (fun _ : Fin 2 => 2 * h) (fun j => cellOf (2 * h) m j - ((2 * h / 2 : ℕ) : ℤ)) = fun j => m j + h := by
    funext j
    have := hm j
    simp only [md, cellOf, hd]
    rw [Int.sub_emod, Int.emod_emod, ← Int.sub_emod]
    rw [show m j - (h : ℤ) = (m j + h) + (-1) * ((2 * h : ℕ) : ℤ) by push_cast; ring, Int.add_mul_emod_self_right]
    exact Int.emod_eq_of_lt (by omega) (by push_cast; omega)
  unfold cutMap shift
  rw [e]
  have e2 : md (fun _ : Fin 2 => 2 * h) (fun j => (fun j => m j + (h : ℤ)) j - ((2 * h / 2 : ℕ) : ℤ)) =
      cellOf (2 * h) m := by
    funext j
    simp only [md, cellOf, hd]
    congr 1
    ring
  show (if (R * Real.pi / L) ^ 2 < cutAxis (2 * h) L (m 1 + h) ^ 2 + cutAxis (2 * h) L (m 0 + h) ^ 2 then 0
    else uv (md (fun _ : Fin 2 => 2 * h) (fun j => (fun j => m j + (h : ℤ)) j - ((2 * h / 2 : ℕ) : ℤ)))) = _
  rw [e2]
  refine if_congr ?_ rfl rfl
  rw [cutAxis_eq h hh L (m 1), cutAxis_eq h hh L (m 0), sq_lt_scaled hL, add_comm]

theorem place_near (h : ℕ) (hh : 1 ≤ h) (m : ℤ) (hm : -(h : ℤ) ≤ m ∧ m < h) :
    0 ≤ place h m - m ∧ place h m - m ≤ 1 := by
  have h1 : (1 : ℝ) ≤ h := by exact_mod_cast hh
  have h2 : -(h : ℝ) ≤ m := by exact_mod_cast hm.1
  have h3 : (m : ℝ) + 1 ≤ h := by exact_mod_cast hm.2
  unfold place
  rw [add_sub_cancel_left]
  exact ⟨div_nonneg (by linarith) (by linarith), (div_le_one (by linarith)).2 (by linarith)⟩

theorem norm_pair (x y : ℝ) : ‖(⟨x, y⟩ : ℂ)‖ = Real.sqrt (x ^ 2 + y ^ 2) := by
  rw [Complex.norm_def, Complex.normSq_mk]
  congr 1
  ring

theorem near_bound (x y u v : ℝ) (hu : 0 ≤ u ∧ u ≤ 1) (hv : 0 ≤ v ∧ v ≤ 1) :
    Real.sqrt ((x + u) ^ 2 + (y + v) ^ 2) ≤ Real.sqrt (x ^ 2 + y ^ 2) + Real.sqrt 2 ∧
    Real.sqrt (x ^ 2 + y ^ 2) - Real.sqrt 2 ≤ Real.sqrt ((x + u) ^ 2 + (y + v) ^ 2) := by
  have hd : Real.sqrt (u ^ 2 + v ^ 2) ≤ Real.sqrt 2 := Real.sqrt_le_sqrt (by nlinarith [hu.1, hu.2, hv.1, hv.2])
  rw [← norm_pair u v] at hd
  rw [← norm_pair x y, ← norm_pair (x + u) (y + v)]
  have e : (⟨x + u, y + v⟩ : ℂ) = ⟨x, y⟩ + ⟨u, v⟩ := rfl
  rw [e]
  have h1 := norm_add_le (⟨x, y⟩ : ℂ) ⟨u, v⟩
  have h2 := norm_le_add_norm_add (⟨x, y⟩ : ℂ) ⟨u, v⟩
  constructor <;> linarith

/-- **C118, even numbers of cells.** Up to √2 cells the cut is at `max_baseline`: baselines which are shorter by this
are kept with their counts, baselines which are longer by this are removed, and no other value occurs. -/
theorem C118_partial {k : Const} (p : Physical k) {z L B : ℝ} (hz : 0 < z) (hL : 0 < L) (hB : 0 < B) (h : ℕ)
    (hh : 1 ≤ h) (uv : (Fin 2 → ℤ) → ℝ) (m : Fin 2 → ℤ) (hm : ∀ j, -(h : ℤ) ≤ m j ∧ m j < h) :
    ((cells2 m + Real.sqrt 2) * cellLength k z L ≤ B →
      cutMap (2 * h) L (maxK k z B) uv (cellOf (2 * h) m) = uv (cellOf (2 * h) m)) ∧
    (B < (cells2 m - Real.sqrt 2) * cellLength k z L →
      cutMap (2 * h) L (maxK k z B) uv (cellOf (2 * h) m) = 0) ∧
    (cutMap (2 * h) L (maxK k z B) uv (cellOf (2 * h) m) = uv (cellOf (2 * h) m) ∨
      cutMap (2 * h) L (maxK k z B) uv (cellOf (2 * h) m) = 0) := by
  classical
  have hc := cell_pos p hz hL
  have hR : 0 < B / cellLength k z L := div_pos hB hc
  rw [maxK_eq p hz hL B hB.ne', cutMap_even h hh hL _ uv m hm]
  have hn := near_bound (m 0) (m 1) (place h (m 0) - m 0) (place h (m 1) - m 1) (place_near h hh _ (hm 0))
    (place_near h hh _ (hm 1))
  rw [add_sub_cancel, add_sub_cancel] at hn
  refine ⟨fun h1 => if_neg ?_, fun h1 => if_pos ?_, ?_⟩
  · rw [not_lt]
    have : Real.sqrt (place h (m 0) ^ 2 + place h (m 1) ^ 2) ≤ B / cellLength k z L :=
      hn.1.trans ((le_div_iff₀ hc).2 h1)
    exact (Real.sqrt_le_left hR.le).mp this
  · have : B / cellLength k z L < Real.sqrt (place h (m 0) ^ 2 + place h (m 1) ^ 2) :=
      ((div_lt_iff₀ hc).2 h1).trans_le hn.2
    exact (Real.lt_sqrt hR.le).mp this
  · split_ifs
    · exact .inr rfl
    · exact .inl rfl

/-- **C118 is false for even numbers of cells**: for the baseline of one cell, the cell on one side of the zero baseline
is removed and the one on the other side kept, though both have the length `max_baseline`. -/
theorem C118_false {k : Const} (p : Physical k) {z L : ℝ} (hz : 0 < z) (hL : 0 < L) (h : ℕ) (hh : 2 ≤ h)
    (uv : (Fin 2 → ℤ) → ℝ) :
    ∃ B > 0, cells2 ![1, 0] * cellLength k z L = B ∧ cells2 ![-1, 0] * cellLength k z L = B ∧
      cutMap (2 * h) L (maxK k z B) uv (cellOf (2 * h) ![1, 0]) = 0 ∧
      cutMap (2 * h) L (maxK k z B) uv (cellOf (2 * h) ![-1, 0]) = uv (cellOf (2 * h) ![-1, 0]) := by
  classical
  have hc := cell_pos p hz hL
  have h1 : (2 : ℝ) ≤ h := by exact_mod_cast hh
  have hpos : (0 : ℝ) < 2 * h - 1 := by linarith
  have hr : cellLength k z L / cellLength k z L = 1 := div_self hc.ne'
  have hm : ∀ s : ℤ, -1 ≤ s → s ≤ 1 → ∀ j, -(h : ℤ) ≤ (![s, 0] : Fin 2 → ℤ) j ∧ (![s, 0] : Fin 2 → ℤ) j < h := by
    intro s hs hs' j
    match j with
    | 0 => show -(h : ℤ) ≤ s ∧ s < h; omega
    | 1 => show -(h : ℤ) ≤ 0 ∧ (0 : ℤ) < h; omega
  refine ⟨cellLength k z L, hc, by simp [cells2], by simp [cells2], ?_, ?_⟩
  · rw [maxK_eq p hz hL _ hc.ne', cutMap_even h (by omega) hL _ uv _ (hm 1 (by norm_num) (by norm_num)), hr]
    refine if_pos ?_
    show (1 : ℝ) ^ 2 < place h 1 ^ 2 + place h 0 ^ 2
    have : 1 < place h 1 := by
      unfold place
      push_cast
      have : 0 < ((h : ℝ) + 1) / (2 * h - 1) := by positivity
      linarith
    nlinarith [sq_nonneg (place h 0)]
  · rw [maxK_eq p hz hL _ hc.ne', cutMap_even h (by omega) hL _ uv _ (hm (-1) (by norm_num) (by norm_num)), hr]
    refine if_neg ?_
    rw [not_lt]
    show place h (-1) ^ 2 + place h 0 ^ 2 ≤ (1 : ℝ) ^ 2
    have e1 : place h (-1) = -(h : ℝ) / (2 * h - 1) := by
      unfold place
      push_cast
      rw [eq_div_iff hpos.ne', add_mul, div_mul_cancel₀ _ hpos.ne']
      ring
    have e2 : place h 0 = (h : ℝ) / (2 * h - 1) := by
      unfold place
      push_cast
      ring
    rw [e1, e2, neg_div, neg_sq, div_pow, ← add_div, div_le_iff₀ (by positivity)]
    nlinarith

theorem cutAxis_bound {n : ℕ} (hn : 2 ≤ n) (L : ℝ) (i : ℤ) (h0 : 0 ≤ i) (h1 : i < n) :
    ∃ x, cutAxis n L i = x * Real.pi / L ∧ x ^ 2 ≤ ((n : ℝ) / 2) ^ 2 := by
  have h2 : (2 : ℝ) ≤ n := by exact_mod_cast hn
  have hi0 : (0 : ℝ) ≤ i := by exact_mod_cast h0
  have hi1 : (i : ℝ) + 1 ≤ n := by exact_mod_cast h1
  refine ⟨_, rfl, ?_⟩
  have ha : 0 ≤ (n : ℝ) * i / ((n : ℝ) - 1) := div_nonneg (by positivity) (by linarith)
  have hb : (n : ℝ) * i / ((n : ℝ) - 1) ≤ n := by
    rw [div_le_iff₀ (by linarith)]
    exact mul_le_mul_of_nonneg_left (by linarith) (by linarith)
  apply sq_le_sq'
  · linarith
  · linarith

/-- **C118 is false for odd numbers of cells**: a `max_baseline` beyond all cells does not leave the map as it is, but
rolls it by one cell along both axes. -/
theorem C118_odd_false {k : Const} (p : Physical k) {z L B : ℝ} (hz : 0 < z) (hL : 0 < L) (h : ℕ) (hh : 1 ≤ h)
    (hB : (2 * h + 1) * cellLength k z L ≤ B) (uv : (Fin 2 → ℤ) → ℝ) (m : Fin 2 → ℤ) :
    cutMap (2 * h + 1) L (maxK k z B) uv (cellOf (2 * h + 1) m) = uv (cellOf (2 * h + 1) fun j => m j + 1) := by
  classical
  have hc := cell_pos p hz hL
  have hB0 : 0 < B := lt_of_lt_of_le (by positivity) hB
  have hR : ((2 * h + 1 : ℕ) : ℝ) ≤ B / cellLength k z L := by
    rw [le_div_iff₀ hc]
    push_cast
    exact hB
  rw [maxK_eq p hz hL B hB0.ne']
  have hd : ((2 * h + 1) / 2 : ℕ) = h := by omega
  unfold cutMap shift
  set J := md (fun _ : Fin 2 => 2 * h + 1) (fun j => cellOf (2 * h + 1) m j - (((2 * h + 1) / 2 : ℕ) : ℤ)) with hJ
  have hJm : J ∈ box (fun _ : Fin 2 => 2 * h + 1) := md_mem _ (fun _ => by omega) _
  have hb := (mem_box _ _).1 hJm
  simp only []
  rw [if_neg]
  · congr 1
    funext j
    simp only [hJ, md, cellOf, hd]
    rw [Int.sub_emod, Int.emod_emod, ← Int.sub_emod]
    rw [show m j % ((2 * h + 1 : ℕ) : ℤ) - (h : ℤ) - h = m j % ((2 * h + 1 : ℕ) : ℤ) - (2 * h : ℤ) by ring, Int.sub_emod,
      Int.emod_emod, ← Int.sub_emod]
    rw [show m j - 2 * (h : ℤ) = (m j + 1) + (-1) * ((2 * h + 1 : ℕ) : ℤ) by push_cast; ring, Int.add_mul_emod_self_right]
  · obtain ⟨x, hx, hx2⟩ := cutAxis_bound (n := 2 * h + 1) (by omega) L (J 1) (hb 1).1 (hb 1).2
    obtain ⟨y, hy, hy2⟩ := cutAxis_bound (n := 2 * h + 1) (by omega) L (J 0) (hb 0).1 (hb 0).2
    rw [hx, hy, sq_lt_scaled hL, not_lt]
    have : ((2 * h + 1 : ℕ) : ℝ) ^ 2 ≤ (B / cellLength k z L) ^ 2 := pow_le_pow_left₀ (by positivity) hR 2
    nlinarith

/-- With 5 × 5 cells the count of the zero baseline moves to the cell `(-1, -1)`. -/
example (z : ℝ) (hz : 0 < z) : ∃ B : ℝ, cutMap 5 100 (maxK (Const.init 3) z B) (fun i => if i = 0 then 7 else 0)
    (cellOf 5 ![-1, -1]) = 7 := by
  refine ⟨(2 * (2 : ℕ) + 1) * cellLength (Const.init 3) z 100, ?_⟩
  have := C118_odd_false physical_init hz (L := 100) (by norm_num) 2 (by norm_num) le_rfl
    (fun i => if i = 0 then 7 else 0) ![-1, -1]
  refine this.trans (if_pos ?_)
  funext j
  match j with
  | 0 => rfl
  | 1 => rfl

/-- A map of 8 × 8 cells: the cell of the zero baseline is kept for a `max_baseline` of two cells. -/
example (z : ℝ) (hz : 0 < z) : cutMap 8 100 (maxK (Const.init 3) z (2 * cellLength (Const.init 3) z 100))
    (fun _ => 7) (cellOf 8 0) = 7 := by
  have hc := cell_pos physical_init hz (L := 100) (by norm_num)
  have := (C118_partial physical_init hz (L := 100) (by norm_num) (mul_pos two_pos hc) 4 (by norm_num) (fun _ => 7) 0
    (by intro j; simp)).1
  apply this
  apply mul_le_mul_of_nonneg_right _ hc.le
  have : Real.sqrt 2 ≤ 2 := by
    rw [Real.sqrt_le_left (by norm_num)]
    norm_num
  simpa [cells2] using this

/-! ## C119 -/

/-- **C119, cells without baselines** have no noise. -/
theorem C119_zero (noise : (Fin 2 → ℤ) → ℝ) (uv : Arr (Fin 2) ℝ) (R ε : ℝ) (i : Fin 2 → ℤ) (h : uv.val i = 0) :
    briggs noise uv R ε i = 0 := if_pos h

example (noise : (Fin 2 → ℤ) → ℝ) : briggs noise ⟨![3, 3], fun i => if i = 0 then 9 else 0⟩ 0 1 ![1, 2] = 0 :=
  C119_zero _ _ _ _ _ (by simp)

theorem mean_pos (uv : Arr (Fin 2) ℝ) {ε : ℝ} (hε : 0 < ε) : 0 < meanWeight uv ε := by
  classical
  unfold meanWeight
  have : 0 ≤ (∑ i ∈ (box uv.shape).filter (fun i => 0 < uv.val i), uv.val i) /
      ((box uv.shape).filter (fun i => 0 < uv.val i)).card := by
    refine div_nonneg (Finset.sum_nonneg fun i hi => ?_) (by positivity)
    exact (Finset.mem_filter.mp hi).2.le
  linarith

theorem pow_tendsto_top : Filter.Tendsto (fun R : ℝ => (10 : ℝ) ^ (2 * R)) Filter.atTop Filter.atTop := by
  have e : (fun R : ℝ => (10 : ℝ) ^ (2 * R)) = fun R => Real.exp (Real.log 10 * (2 * R)) := by
    funext R
    rw [Real.rpow_def_of_pos (by norm_num)]
  rw [e]
  refine Real.tendsto_exp_atTop.comp ?_
  have hl : 0 < Real.log 10 := Real.log_pos (by norm_num)
  refine Filter.Tendsto.const_mul_atTop hl ?_
  exact Filter.Tendsto.const_mul_atTop (by norm_num) Filter.tendsto_id

theorem pow_tendsto_bot : Filter.Tendsto (fun R : ℝ => (10 : ℝ) ^ (2 * R)) Filter.atBot (nhds 0) := by
  have e : (fun R : ℝ => (10 : ℝ) ^ (2 * R)) = fun R => Real.exp (Real.log 10 * (2 * R)) := by
    funext R
    rw [Real.rpow_def_of_pos (by norm_num)]
  rw [e]
  refine Real.tendsto_exp_atBot.comp ?_
  have hl : 0 < Real.log 10 := Real.log_pos (by norm_num)
  refine Filter.Tendsto.const_mul_atBot hl ?_
  exact Filter.Tendsto.const_mul_atBot (by norm_num) Filter.tendsto_id

/-- Specification: the noise of a cell with `w` baselines when they are added with equal weights (natural weighting),
regularised by `ε`. -/
noncomputable def naturalNoise (σ w ε : ℝ) : ℝ := σ / Real.sqrt (w + ε)

/-- **C119 is false: the parameter `robust` runs the other way.**  For `robust → -∞` the noise of a sampled cell is that
of natural weighting, and for `robust → +∞` it no longer depends on the number of baselines. -/
theorem C119_false (noise : (Fin 2 → ℤ) → ℝ) (uv : Arr (Fin 2) ℝ) {ε : ℝ} (hε : 0 < ε) (i : Fin 2 → ℤ)
    (h : 0 < uv.val i) :
    Filter.Tendsto (fun R => briggs noise uv R ε i) Filter.atBot (nhds (naturalNoise (noise i) (uv.val i) ε)) ∧
    Filter.Tendsto (fun R => briggs noise uv R ε i) Filter.atTop (nhds (noise i / Real.sqrt ε)) := by
  have hm := mean_pos uv hε
  have hb : ∀ R, briggs noise uv R ε i =
      noise i / Real.sqrt (uv.val i / (1 + (uv.val i / meanWeight uv ε) ^ 2 * (10 : ℝ) ^ (2 * R)) + ε) := fun R =>
    if_neg h.ne'
  have hq : 0 < (uv.val i / meanWeight uv ε) ^ 2 := by positivity
  simp only [hb]
  constructor
  · have hden : Filter.Tendsto (fun R : ℝ => 1 + (uv.val i / meanWeight uv ε) ^ 2 * (10 : ℝ) ^ (2 * R)) Filter.atBot
        (nhds 1) := by
      simpa using (pow_tendsto_bot.const_mul ((uv.val i / meanWeight uv ε) ^ 2)).const_add 1
    have h1 := (Filter.Tendsto.div (tendsto_const_nhds (x := uv.val i)) hden one_ne_zero).add_const ε
    rw [div_one] at h1
    exact Filter.Tendsto.div tendsto_const_nhds h1.sqrt (Real.sqrt_pos.2 (by linarith)).ne'
  · have hden : Filter.Tendsto (fun R : ℝ => 1 + (uv.val i / meanWeight uv ε) ^ 2 * (10 : ℝ) ^ (2 * R)) Filter.atTop
        Filter.atTop := Filter.tendsto_atTop_add_const_left _ _ (pow_tendsto_top.const_mul_atTop hq)
    have h1 := (hden.const_div_atTop (uv.val i)).add_const ε
    rw [zero_add] at h1
    exact Filter.Tendsto.div tendsto_const_nhds h1.sqrt (Real.sqrt_pos.2 hε).ne'

/-- **C119, what holds.** The noise of a sampled cell lies between that of natural weighting and that of a cell
without baselines, and it grows with `robust`. -/
theorem C119_partial (noise : (Fin 2 → ℤ) → ℝ) (uv : Arr (Fin 2) ℝ) {ε : ℝ} (hε : 0 < ε) (i : Fin 2 → ℤ)
    (h : 0 < uv.val i) (hn : 0 < noise i) :
    (∀ R, naturalNoise (noise i) (uv.val i) ε < briggs noise uv R ε i ∧ briggs noise uv R ε i < noise i / Real.sqrt ε) ∧
    StrictMono fun R => briggs noise uv R ε i := by
  have hm := mean_pos uv hε
  have hb : ∀ R, briggs noise uv R ε i =
      noise i / Real.sqrt (uv.val i / (1 + (uv.val i / meanWeight uv ε) ^ 2 * (10 : ℝ) ^ (2 * R)) + ε) := fun R =>
    if_neg h.ne'
  have hq : 0 < (uv.val i / meanWeight uv ε) ^ 2 := by positivity
  have hp : ∀ R : ℝ, 0 < (10 : ℝ) ^ (2 * R) := fun R => Real.rpow_pos_of_pos (by norm_num) _
  refine ⟨fun R => ?_, fun R S hRS => ?_⟩
  · have hd : 1 < 1 + (uv.val i / meanWeight uv ε) ^ 2 * (10 : ℝ) ^ (2 * R) := by
      have := mul_pos hq (hp R)
      linarith
    have hw : uv.val i / (1 + (uv.val i / meanWeight uv ε) ^ 2 * (10 : ℝ) ^ (2 * R)) < uv.val i := div_lt_self h hd
    have hw0 : 0 < uv.val i / (1 + (uv.val i / meanWeight uv ε) ^ 2 * (10 : ℝ) ^ (2 * R)) :=
      div_pos h (by linarith)
    rw [hb]
    unfold naturalNoise
    constructor
    · exact div_lt_div_of_pos_left hn (Real.sqrt_pos.2 (by linarith)) (Real.sqrt_lt_sqrt (by linarith) (by linarith))
    · exact div_lt_div_of_pos_left hn (Real.sqrt_pos.2 hε) (Real.sqrt_lt_sqrt hε.le (by linarith))
  · simp only [hb]
    have h1 : (10 : ℝ) ^ (2 * R) < (10 : ℝ) ^ (2 * S) :=
      Real.rpow_lt_rpow_of_exponent_lt (by norm_num) (by linarith)
    have h2 : uv.val i / (1 + (uv.val i / meanWeight uv ε) ^ 2 * (10 : ℝ) ^ (2 * S)) <
        uv.val i / (1 + (uv.val i / meanWeight uv ε) ^ 2 * (10 : ℝ) ^ (2 * R)) := by
      apply div_lt_div_of_pos_left h
      · have := mul_pos hq (hp R)
        linarith
      · have := mul_lt_mul_of_pos_left h1 hq
        linarith
    have h3 : 0 < uv.val i / (1 + (uv.val i / meanWeight uv ε) ^ 2 * (10 : ℝ) ^ (2 * S)) :=
      div_pos h (by have := mul_pos hq (hp S); linarith)
    exact div_lt_div_of_pos_left hn (Real.sqrt_pos.2 (by linarith)) (Real.sqrt_lt_sqrt (by linarith) (by linarith))

open Classical in
/-- **C119, where the weights turn over.** The weight of a cell is halved where its number of baselines is the mean of
the sampled cells, plus `ε`, divided by `10 ^ robust`. -/
theorem C119_turnover (noise : (Fin 2 → ℤ) → ℝ) (uv : Arr (Fin 2) ℝ) {R ε mean : ℝ} (hε : 0 < ε) (i : Fin 2 → ℤ)
    (hmean : mean * ((Fintype.piFinset fun j => Finset.Ico 0 (uv.shape j : ℤ)).filter fun i => 0 < uv.val i).card =
      ∑ i ∈ (Fintype.piFinset fun j => Finset.Ico 0 (uv.shape j : ℤ)).filter (fun i => 0 < uv.val i), uv.val i)
    (hc : ∃ i ∈ Fintype.piFinset fun j => Finset.Ico 0 (uv.shape j : ℤ), 0 < uv.val i)
    (h : uv.val i * (10 : ℝ) ^ R = mean + ε) (h0 : uv.val i ≠ 0) :
    briggs noise uv R ε i = noise i / Real.sqrt (uv.val i / 2 + ε) := by
  have hm := mean_pos uv hε
  have hcard : ((((Fintype.piFinset fun j => Finset.Ico 0 (uv.shape j : ℤ)).filter fun i => 0 < uv.val i).card : ℕ) : ℝ)
      ≠ 0 := by
    obtain ⟨c, hc1, hc2⟩ := hc
    have : 0 < ((Fintype.piFinset fun j => Finset.Ico 0 (uv.shape j : ℤ)).filter fun i => 0 < uv.val i).card :=
      Finset.card_pos.2 ⟨c, Finset.mem_filter.2 ⟨hc1, hc2⟩⟩
    exact_mod_cast this.ne'
  have e : meanWeight uv ε = mean + ε := by
    unfold meanWeight
    congr 1
    exact ((eq_div_iff hcard).2 hmean).symm
  rw [show briggs noise uv R ε i = _ from if_neg h0]
  rw [e] at hm ⊢
  have hp : (0 : ℝ) < (10 : ℝ) ^ R := Real.rpow_pos_of_pos (by norm_num) _
  have h2 : (uv.val i / (mean + ε)) ^ 2 * (10 : ℝ) ^ (2 * R) = 1 := by
    rw [mul_comm 2 R, Real.rpow_mul (by norm_num), Real.rpow_two, ← mul_pow, div_mul_eq_mul_div, h, div_self hm.ne',
      one_pow]
  rw [h2]
  norm_num

/-- A map with one sampled cell of nine baselines. -/
example : (0 : ℝ) < (⟨![3, 3], fun i => if i = 0 then 9 else 0⟩ : Arr (Fin 2) ℝ).val 0 := by norm_num

end Verif.UVResponse
