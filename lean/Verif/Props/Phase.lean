import Verif.Model.Phase
import Verif.Lemmas.Convolve
import Mathlib.Analysis.SpecialFunctions.Complex.Arg
import Mathlib.Analysis.SpecialFunctions.Complex.Arctan
import Mathlib.Tactic.Linarith
import Mathlib.Tactic.FieldSimp
/-!
# Properties of `real_to_fourier_amplitude_phase` (C165)
-/

namespace Verif.Phase
open Verif.Convolve

/-! ## Specification -/

/-- The discrete Fourier transform of an array at the wave vector `k`. -/
noncomputable def mode {d : ℕ} (data : Arr (Fin d) ℝ) (k : Fin d → ℤ) : ℂ :=
  ∑ x ∈ box data.shape, (data.val x : ℂ) * ∏ j, Complex.exp (-2 * Real.pi * Complex.I * (k j * x j) / data.shape j)

/-- The complex number with an amplitude and a phase. -/
noncomputable def polar (R φ : ℝ) : ℂ := R * Complex.exp (φ * Complex.I)

/-! ## Lemmas -/

theorem mode_eq {d : ℕ} (data : Arr (Fin d) ℝ) (k : Fin d → ℤ) : fftn data.shape (fun x => (data.val x : ℂ)) k = mode data k := by
  unfold fftn mode
  refine Finset.sum_congr rfl fun x _ => ?_
  rw [← Complex.exp_sum, Finset.mul_sum]
  congr 2
  refine Finset.sum_congr rfl fun j _ => ?_
  ring

theorem polar_parts (R φ : ℝ) : (polar R φ).re = R * Real.cos φ ∧ (polar R φ).im = R * Real.sin φ := by
  unfold polar
  rw [Complex.exp_mul_I, ← Complex.ofReal_cos, ← Complex.ofReal_sin]
  constructor <;> simp [-Complex.ofReal_cos, -Complex.ofReal_sin]

theorem polar_arctan (a b : ℝ) (ha : a ≠ 0) :
    polar (Real.sqrt (a ^ 2 + b ^ 2)) (Real.arctan (b / a)) = (⟨|a|, |a| * (b / a)⟩ : ℂ) := by
  have hR : Real.sqrt (a ^ 2 + b ^ 2) = |a| * Real.sqrt (1 + (b / a) ^ 2) := by
    rw [← Real.sqrt_sq_eq_abs, ← Real.sqrt_mul (sq_nonneg a)]
    congr 1
    field_simp
  have hpos : Real.sqrt (1 + (b / a) ^ 2) ≠ 0 := (Real.sqrt_pos.2 (by positivity)).ne'
  obtain ⟨h1, h2⟩ := polar_parts (Real.sqrt (a ^ 2 + b ^ 2)) (Real.arctan (b / a))
  apply Complex.ext
  · rw [h1, Real.cos_arctan, hR]
    field_simp
  · rw [h2, Real.sin_arctan, hR]
    field_simp

/-! ## C165 -/

/-- The amplitude is the absolute value of the mode, everywhere. -/
theorem C165_amplitude {d : ℕ} (data : Arr (Fin d) ℝ) (k : Fin d → ℤ) :
    (amplitudePhase data).1.shape = data.shape ∧ (amplitudePhase data).2.shape = data.shape ∧
      (amplitudePhase data).1.val k = ‖mode data k‖ := by
  refine ⟨rfl, rfl, ?_⟩
  unfold amplitudePhase
  dsimp only
  rw [mode_eq, Complex.norm_def, Complex.normSq_apply]
  congr 1
  ring

/-- **C165, partial**: the amplitude and the phase give the mode back if its real part is positive, or zero with an imaginary part.
The full property: every mode is given back. -/
theorem C165_partial {d : ℕ} (data : Arr (Fin d) ℝ) (k : Fin d → ℤ)
    (h : 0 < (mode data k).re ∨ (mode data k).re = 0 ∧ (mode data k).im ≠ 0) :
    ∃ φ, (amplitudePhase data).2.val k = some φ ∧ polar ((amplitudePhase data).1.val k) φ = mode data k := by
  unfold amplitudePhase arctanQuotient
  dsimp only
  rw [mode_eq]
  generalize mode data k = z at *
  rcases h with h | ⟨h0, h1⟩
  · refine ⟨Real.arctan (z.im / z.re), by rw [if_neg h.ne'], ?_⟩
    rw [polar_arctan _ _ h.ne', abs_of_pos h]
    apply Complex.ext
    · rfl
    · show z.re * (z.im / z.re) = z.im
      field_simp
  · rw [if_pos h0, if_neg h1, h0]
    have hR : Real.sqrt ((0 : ℝ) ^ 2 + z.im ^ 2) = |z.im| := by
      rw [← Real.sqrt_sq_eq_abs]
      congr 1
      ring
    by_cases hp : 0 < z.im
    · refine ⟨Real.pi / 2, by rw [if_pos hp], ?_⟩
      obtain ⟨e1, e2⟩ := polar_parts (Real.sqrt ((0 : ℝ) ^ 2 + z.im ^ 2)) (Real.pi / 2)
      apply Complex.ext
      · rw [e1, Real.cos_pi_div_two, h0, mul_zero]
      · rw [e2, Real.sin_pi_div_two, hR, abs_of_pos hp, mul_one]
    · have hn : z.im < 0 := lt_of_le_of_ne (not_lt.1 hp) h1
      refine ⟨-(Real.pi / 2), by rw [if_neg hp], ?_⟩
      obtain ⟨e1, e2⟩ := polar_parts (Real.sqrt ((0 : ℝ) ^ 2 + z.im ^ 2)) (-(Real.pi / 2))
      apply Complex.ext
      · rw [e1, Real.cos_neg, Real.cos_pi_div_two, h0, mul_zero]
      · rw [e2, Real.sin_neg, Real.sin_pi_div_two, hR, abs_of_neg hn]
        ring

/-- **C165 is false** for every mode with a negative real part: the opposite mode is given back. -/
theorem C165_opposite {d : ℕ} (data : Arr (Fin d) ℝ) (k : Fin d → ℤ) (h : (mode data k).re < 0) :
    ∃ φ, (amplitudePhase data).2.val k = some φ ∧ polar ((amplitudePhase data).1.val k) φ = -mode data k := by
  unfold amplitudePhase arctanQuotient
  dsimp only
  rw [mode_eq]
  generalize mode data k = z at *
  refine ⟨Real.arctan (z.im / z.re), by rw [if_neg h.ne], ?_⟩
  rw [polar_arctan _ _ h.ne, abs_of_neg h]
  apply Complex.ext
  · rfl
  · show -z.re * (z.im / z.re) = -z.im
    have := h.ne
    field_simp

/-- Two cells with the values -1. -/
noncomputable def negative : Arr (Fin 1) ℝ := ⟨fun _ => 2, fun _ => -1⟩

theorem negative_mode : mode negative 0 = -2 := by
  have hb : box negative.shape = {fun _ => 0, fun _ => 1} := by
    ext x
    rw [mem_box]
    simp only [negative, Finset.mem_insert, Finset.mem_singleton]
    constructor
    · intro h
      have := h 0
      have h01 : x 0 = 0 ∨ x 0 = 1 := by
        obtain ⟨h1, h2⟩ := this
        push_cast at h2
        omega
      rcases h01 with h | h
      · left; funext j; rw [Subsingleton.elim j 0]; exact h
      · right; funext j; rw [Subsingleton.elim j 0]; exact h
    · rintro (rfl | rfl) j <;> simp
  unfold mode
  rw [hb, Finset.sum_pair]
  · simp [negative]
    norm_num
  · intro h
    have := congrFun h 0
    simp at this

/-- **C165 is false**: a witness. -/
theorem C165_false : ∃ (data : Arr (Fin 1) ℝ) (k : Fin 1 → ℤ) (φ : ℝ), (amplitudePhase data).2.val k = some φ ∧
    polar ((amplitudePhase data).1.val k) φ ≠ mode data k := by
  obtain ⟨φ, h1, h2⟩ := C165_opposite negative 0 (by rw [negative_mode]; norm_num)
  refine ⟨negative, 0, φ, h1, ?_⟩
  rw [h2, negative_mode]
  norm_num

/-- A mode that vanishes has no phase: the result is not a number. -/
theorem C165_nan {d : ℕ} (data : Arr (Fin d) ℝ) (k : Fin d → ℤ) : (amplitudePhase data).2.val k = none ↔ mode data k = 0 := by
  unfold amplitudePhase arctanQuotient
  dsimp only
  rw [mode_eq]
  generalize mode data k = z
  rw [Complex.ext_iff]
  by_cases ha : z.re = 0
  · by_cases hb : z.im = 0
    · simp [ha, hb]
    · by_cases hp : 0 < z.im <;> simp [ha, hb, hp]
  · simp [ha]

/-! ## Examples -/

example : ∃ φ, (amplitudePhase (⟨fun _ => 1, fun _ => 3⟩ : Arr (Fin 1) ℝ)).2.val 0 = some φ ∧
    polar ((amplitudePhase (⟨fun _ => 1, fun _ => 3⟩ : Arr (Fin 1) ℝ)).1.val 0) φ = mode (⟨fun _ => 1, fun _ => 3⟩ : Arr (Fin 1) ℝ) 0 := by
  refine C165_partial _ _ (Or.inl ?_)
  have hb : box (fun _ : Fin 1 => 1) = {0} := by
    ext x
    rw [mem_box, Finset.mem_singleton, funext_iff]
    refine forall_congr' fun j => ?_
    simp only [Nat.cast_one, Pi.zero_apply]
    omega
  unfold mode
  simp [hb]

example : (amplitudePhase negative).1.val 0 = 2 := by
  rw [(C165_amplitude negative 0).2.2, negative_mode]
  simp

end Verif.Phase
