import Verif.Model.Beam
import Verif.Lemmas.UVResponse
import Verif.Props.Distances
import Mathlib.Tactic.FieldSimp
import Mathlib.Tactic.NormNum
import Mathlib.Tactic.Positivity
import Mathlib.Analysis.SpecialFunctions.Pow.Real
/-!
# C121: the primary beam
-/

namespace Verif.Beam
open Verif.Convolve Verif.Conversions Verif.Constants Verif.UVResponse

/-- Specification: the distance in Mpc of two positions, in units of cells, of an image of `n` cells and size `L`. -/
noncomputable def dist2 (n : ℕ) (L x y x' y' : ℝ) : ℝ := Real.sqrt ((x - x') ^ 2 + (y - y') ^ 2) * (L / n)

/-- The distances are taken from the position `n / 2` along both axes. -/
theorem radius_eq (n : ℕ) {L : ℝ} (hL : 0 < L) (i : Fin 2 → ℤ) :
    radius n L i = dist2 n L (i 0) (i 1) ((n : ℝ) / 2) ((n : ℝ) / 2) := by
  unfold radius dist2
  have h0 : 0 ≤ L / n := div_nonneg hL.le (Nat.cast_nonneg n)
  conv_rhs => rw [← Real.sqrt_sq h0, ← Real.sqrt_mul (by positivity)]
  congr 1
  ring

theorem sigmoid_eq (j1 : ℝ → ℝ) (null r : ℝ) : rawBeam j1 .sigmoid null r =
    1 / (1 + Real.exp (1 / 2 * r ^ ((2 : ℝ) ^ (1 / 2 : ℝ)) - 1 / 2 * (null / 2))) := by
  unfold rawBeam
  simp only []
  set x := 1 / 2 * (null / 2) - 1 / 2 * r ^ ((2 : ℝ) ^ (1 / 2 : ℝ)) with hx
  rw [show 1 / 2 * r ^ ((2 : ℝ) ^ (1 / 2 : ℝ)) - 1 / 2 * (null / 2) = -x by rw [hx]; ring, Real.exp_neg]
  have := Real.exp_pos x
  field_simp
  ring

theorem raw_nonneg (j1 : ℝ → ℝ) (f : BeamFunc) (null r : ℝ) : 0 ≤ rawBeam j1 f null r := by
  match f with
  | .step => unfold rawBeam; simp only []; split_ifs <;> norm_num
  | .gaussian => exact (Real.exp_pos _).le
  | .bessel => unfold rawBeam; simp only []; split_ifs <;> positivity
  | .sigmoid => rw [sigmoid_eq]; positivity
  | .other => exact le_rfl

/-- The raw beams do not grow with the distance. -/
theorem raw_anti (j1 : ℝ → ℝ) (f : BeamFunc) (hf : f ≠ .bessel) {null r r' : ℝ} (hr : 0 ≤ r) (h : r ≤ r') :
    rawBeam j1 f null r' ≤ rawBeam j1 f null r := by
  match f with
  | .step =>
    unfold rawBeam
    simp only []
    split_ifs with h1 h2 h2
    · exact le_rfl
    · exact absurd (h.trans h1) h2
    · norm_num
    · exact le_rfl
  | .gaussian =>
    unfold rawBeam
    simp only []
    rw [Real.exp_le_exp]
    refine div_le_div_of_nonneg_right ?_ (by positivity)
    have := pow_le_pow_left₀ hr h 2
    linarith
  | .bessel => exact absurd rfl hf
  | .sigmoid =>
    rw [sigmoid_eq, sigmoid_eq]
    refine one_div_le_one_div_of_le (by positivity) ?_
    have : r ^ ((2 : ℝ) ^ (1 / 2 : ℝ)) ≤ r' ^ ((2 : ℝ) ^ (1 / 2 : ℝ)) :=
      Real.rpow_le_rpow hr h (by positivity)
    have : Real.exp (1 / 2 * r ^ ((2 : ℝ) ^ (1 / 2 : ℝ)) - 1 / 2 * (null / 2)) ≤
        Real.exp (1 / 2 * r' ^ ((2 : ℝ) ^ (1 / 2 : ℝ)) - 1 / 2 * (null / 2)) := Real.exp_le_exp.2 (by linarith)
    linarith
  | .other => exact le_rfl

theorem box_nonempty {n : ℕ} (hn : 0 < n) : (box fun _ : Fin 2 => n).Nonempty :=
  ⟨0, (mem_box _ _).2 fun _ => ⟨le_rfl, by simpa using hn⟩⟩

/-- What a result of `circular_beam` is. -/
theorem circular_ok {j1 : ℝ → ℝ} {f : BeamFunc} {n : ℕ} {null L : ℝ} {b : Arr (Fin 2) ℝ}
    (h : circularBeam j1 f n null L = .ok b) :
    ∃ m, m ≠ 0 ∧ (∃ i ∈ box (fun _ : Fin 2 => n), rawBeam j1 f null (radius n L i) = m) ∧
      (∀ i ∈ box (fun _ : Fin 2 => n), rawBeam j1 f null (radius n L i) ≤ m) ∧
      b = ⟨fun _ => n, fun i => rawBeam j1 f null (radius n L i) / m⟩ := by
  unfold circularBeam at h
  by_cases h1 : f = .other
  · rw [if_pos h1] at h
    cases h
  rw [if_neg h1] at h
  by_cases h2 : (box fun _ : Fin 2 => n).Nonempty
  · rw [dif_pos h2] at h
    simp only [] at h
    by_cases h3 : (box fun _ : Fin 2 => n).sup' h2 (fun i => rawBeam j1 f null (radius n L i)) = 0
    · rw [if_pos h3] at h
      cases h
    · rw [if_neg h3] at h
      refine ⟨_, h3, ?_, fun i hi => Finset.le_sup' (fun i => rawBeam j1 f null (radius n L i)) hi,
        (Except.ok.inj h).symm⟩
      obtain ⟨i, hi, he⟩ := Finset.exists_mem_eq_sup' h2 fun i => rawBeam j1 f null (radius n L i)
      exact ⟨i, hi, he.symm⟩
  · rw [dif_neg h2] at h
    cases h

theorem circular_exists (j1 : ℝ → ℝ) {f : BeamFunc} (hf : f ≠ .other) {n : ℕ} (null L : ℝ) {i : Fin 2 → ℤ}
    (hi : i ∈ box fun _ : Fin 2 => n) (hp : 0 < rawBeam j1 f null (radius n L i)) :
    ∃ b, circularBeam j1 f n null L = .ok b := by
  unfold circularBeam
  have h3 : (box fun _ : Fin 2 => n).sup' ⟨i, hi⟩ (fun i => rawBeam j1 f null (radius n L i)) ≠ 0 :=
    (lt_of_lt_of_le hp (Finset.le_sup' (fun i => rawBeam j1 f null (radius n L i)) hi)).ne'
  exact ⟨_, by rw [if_neg hf, dif_pos ⟨i, hi⟩]; exact if_neg h3⟩

/-- **C121, all beams.** A beam lies between 0 and 1, is 1 somewhere, and (but for the Bessel beam) does not grow with
the distance from the position `n / 2`. -/
theorem C121_partial (j1 : ℝ → ℝ) (f : BeamFunc) (n : ℕ) {null L : ℝ} (_hn : 0 < null) (hL : 0 < L) (b : Arr (Fin 2) ℝ)
    (h : circularBeam j1 f n null L = .ok b) :
    b.shape = (fun _ => n) ∧
    (∀ i : Fin 2 → ℤ, (∀ j, 0 ≤ i j ∧ i j < n) → 0 ≤ b.val i ∧ b.val i ≤ 1) ∧
    (∃ i : Fin 2 → ℤ, (∀ j, 0 ≤ i j ∧ i j < n) ∧ b.val i = 1) ∧
    (f ≠ .bessel → ∀ i i' : Fin 2 → ℤ,
      dist2 n L (i 0) (i 1) ((n : ℝ) / 2) ((n : ℝ) / 2) ≤ dist2 n L (i' 0) (i' 1) ((n : ℝ) / 2) ((n : ℝ) / 2) →
      b.val i' ≤ b.val i) := by
  obtain ⟨m, hm, ⟨i0, hi0, he⟩, hle, rfl⟩ := circular_ok h
  have hmp : 0 < m := lt_of_le_of_ne (he ▸ raw_nonneg j1 f null _) hm.symm
  refine ⟨rfl, fun i hi => ⟨div_nonneg (raw_nonneg j1 f null _) hmp.le, ?_⟩, ⟨i0, (mem_box _ _).1 hi0, ?_⟩,
    fun hf i i' hd => ?_⟩
  · exact (div_le_one hmp).2 (hle i ((mem_box _ _).2 hi))
  · show rawBeam j1 f null (radius n L i0) / m = 1
    rw [he, div_self hm]
  · rw [← radius_eq n hL, ← radius_eq n hL] at hd
    exact div_le_div_of_nonneg_right (raw_anti j1 f hf (Real.sqrt_nonneg _) hd) hmp.le

theorem centre_mem {h : ℕ} (hh : 1 ≤ h) : (fun _ : Fin 2 => (h : ℤ)) ∈ box fun _ : Fin 2 => 2 * h :=
  (mem_box _ _).2 fun _ => ⟨by omega, by push_cast; omega⟩

theorem radius_centre (h : ℕ) (L : ℝ) : radius (2 * h) L (fun _ => (h : ℤ)) = 0 := by
  unfold radius
  push_cast
  rw [show -(2 * (h : ℝ) / 2) + h = 0 by ring]
  simp

/-- The beam of an even number of cells is the raw beam if this is 1 at the centre and nowhere more. -/
theorem circular_even (j1 : ℝ → ℝ) (f : BeamFunc) (hf : f ≠ .other) (h : ℕ) (hh : 1 ≤ h) (null L : ℝ)
    (h1 : rawBeam j1 f null 0 = 1) (hle : ∀ r, 0 ≤ r → rawBeam j1 f null r ≤ 1) :
    circularBeam j1 f (2 * h) null L = .ok ⟨fun _ => 2 * h, fun i => rawBeam j1 f null (radius (2 * h) L i)⟩ := by
  have hc : rawBeam j1 f null (radius (2 * h) L (fun _ => (h : ℤ))) = 1 := by rw [radius_centre, h1]
  obtain ⟨b, hb⟩ := circular_exists j1 hf null L (centre_mem hh) (by rw [hc]; norm_num)
  obtain ⟨m, hm, ⟨i0, hi0, he⟩, hmax, rfl⟩ := circular_ok hb
  have : m = 1 := le_antisymm (he ▸ hle _ (Real.sqrt_nonneg _)) (hc ▸ hmax _ (centre_mem hh))
  rw [hb, this]
  simp only [div_one]

/-- **C121, the Gaussian beam of even numbers of cells**: full width at half maximum `l_null / 1.186`, up to the rounding
of `sqrt (8 ln 2)` to 2.355. -/
theorem C121_gaussian (j1 : ℝ → ℝ) (h : ℕ) (hh : 1 ≤ h) {null L : ℝ} (_hn : 0 < null) (hL : 0 < L)
    (i : Fin 2 → ℤ) (σ : ℝ)
    (hσ : σ * (1186 / 1000) * (2355 / 1000) = null) :
    ∃ b, circularBeam j1 .gaussian (2 * h) null L = .ok b ∧
      b.val i = Real.exp (-dist2 (2 * h) L (i 0) (i 1) h h ^ 2 / (2 * σ ^ 2)) := by
  refine ⟨_, circular_even j1 .gaussian (by decide) h hh null L (by simp [rawBeam]) (fun r _ => ?_), ?_⟩
  · unfold rawBeam
    simp only []
    rw [Real.exp_le_one_iff]
    exact div_nonpos_of_nonpos_of_nonneg (by nlinarith) (by positivity)
  · have hs : null / (1186 / 1000) / (2355 / 1000) = σ := by
      rw [← hσ]
      ring
    simp only [rawBeam]
    rw [hs, radius_eq _ hL]
    push_cast
    rw [show 2 * (h : ℝ) / 2 = h by ring]

/-- **C121, the step beam of even numbers of cells**: 1 up to half of `l_null`, 0 beyond. -/
theorem C121_step (j1 : ℝ → ℝ) (h : ℕ) (hh : 1 ≤ h) {null L : ℝ} (hn : 0 ≤ null) (hL : 0 < L) (i : Fin 2 → ℤ) :
    ∃ b, circularBeam j1 .step (2 * h) null L = .ok b ∧
      (dist2 (2 * h) L (i 0) (i 1) h h ≤ null / 2 → b.val i = 1) ∧
      (null / 2 < dist2 (2 * h) L (i 0) (i 1) h h → b.val i = 0) := by
  refine ⟨_, circular_even j1 .step (by decide) h hh null L (if_pos (by linarith)) (fun r _ => ?_), ?_⟩
  · unfold rawBeam
    simp only []
    split_ifs <;> norm_num
  · have e : radius (2 * h) L i = dist2 (2 * h) L (i 0) (i 1) h h := by
      rw [radius_eq _ hL]
      push_cast
      rw [show 2 * (h : ℝ) / 2 = h by ring]
    simp only [e]
    exact ⟨fun h1 => if_pos h1, fun h1 => if_neg (not_le.2 h1)⟩

/-- **C121, the Bessel beam of even numbers of cells**, for a function `j1` below half its argument: the Airy disk whose
null is at the distance `l_null`, not at half of it as for the step beam. -/
theorem C121_bessel (j1 : ℝ → ℝ) (hj : ∀ x, 0 < x → |2 * j1 x| ≤ x) (h : ℕ) (hh : 1 ≤ h) {null L : ℝ} (hn : 0 < null)
    (hL : 0 < L) (i : Fin 2 → ℤ) :
    ∃ b, circularBeam j1 .bessel (2 * h) null L = .ok b ∧ b.val (fun _ => h) = 1 ∧
      (0 < dist2 (2 * h) L (i 0) (i 1) h h → b.val i =
        (2 * j1 (38317 / 10000 * (dist2 (2 * h) L (i 0) (i 1) h h / null)) /
          (38317 / 10000 * (dist2 (2 * h) L (i 0) (i 1) h h / null))) ^ 2) ∧
      (j1 (38317 / 10000) = 0 → dist2 (2 * h) L (i 0) (i 1) h h = null → b.val i = 0) := by
  have e : ∀ i : Fin 2 → ℤ, radius (2 * h) L i = dist2 (2 * h) L (i 0) (i 1) h h := by
    intro i
    rw [radius_eq _ hL]
    push_cast
    rw [show 2 * (h : ℝ) / 2 = h by ring]
  refine ⟨_, circular_even j1 .bessel (by decide) h hh null L (if_pos rfl) (fun r hr => ?_), ?_, fun h1 => ?_,
    fun hz h1 => ?_⟩
  · unfold rawBeam
    simp only []
    split_ifs with h0
    · exact le_rfl
    · have hr' : 0 < r := lt_of_le_of_ne hr (Ne.symm h0)
      have hx : 0 < 38317 / 10000 / null * r := by positivity
      rw [sq_le_one_iff_abs_le_one, abs_div, abs_of_pos hx, div_le_one hx]
      exact hj _ hx
  · show rawBeam j1 .bessel null (radius (2 * h) L fun _ => (h : ℤ)) = 1
    rw [radius_centre]
    exact if_pos rfl
  · simp only [e]
    refine (if_neg h1.ne').trans ?_
    rw [div_mul_eq_mul_div, mul_div_assoc (38317 / 10000)]
  · simp only [e, h1]
    refine (if_neg hn.ne').trans ?_
    rw [div_mul_cancel₀ _ hn.ne', hz]
    norm_num

/-- A function that is at most half of its argument, with the zero asked for. -/
example : ∃ b, circularBeam (fun x => if x = 38317 / 10000 then 0 else x / 4) .bessel (2 * 2) 3 10 = .ok b ∧ b.val (fun _ => (2 : ℕ)) = 1 := by
  obtain ⟨b, h1, h2, -⟩ := C121_bessel (fun x => if x = 38317 / 10000 then 0 else x / 4) (fun x hx => by
    split_ifs
    · simpa using hx.le
    · rw [abs_of_nonneg (by positivity)]; linarith) 2 (by norm_num) (null := 3) (L := 10) (by norm_num) (by norm_num) 0
  exact ⟨b, h1, h2⟩

/-- **C121 is false for the sigmoid beam**: with the distance `r` its exponent does not contain `r` but `r` to the power
of the square root of 2.  For a first null at 32 Mpc the beam at 16 Mpc, where it should have fallen to half, is less
than one hundredth. -/
theorem C121_sigmoid_false (j1 : ℝ → ℝ) (h : ℕ) (hh : 1 ≤ h) {L : ℝ} (hL : 0 < L) (i : Fin 2 → ℤ)
    (hd : dist2 (2 * h) L (i 0) (i 1) h h = 16) :
    ∃ b, circularBeam j1 .sigmoid (2 * h) 32 L = .ok b ∧ b.val i < 1 / 100 := by
  have hc : 1 / 2 < rawBeam j1 .sigmoid 32 (radius (2 * h) L (fun _ => (h : ℤ))) := by
    rw [radius_centre, sigmoid_eq, Real.zero_rpow (by positivity)]
    have : Real.exp (1 / 2 * 0 - 1 / 2 * (32 / 2)) < 1 := by
      rw [Real.exp_lt_one_iff]
      norm_num
    rw [div_lt_div_iff₀ two_pos (by positivity)]
    linarith
  obtain ⟨b, hb⟩ := circular_exists j1 (f := .sigmoid) (by decide) 32 L (centre_mem hh) (by linarith)
  refine ⟨b, hb, ?_⟩
  obtain ⟨m, hm, -, hmax, rfl⟩ := circular_ok hb
  have hm2 : 1 / 2 < m := hc.trans_le (hmax _ (centre_mem hh))
  have e : radius (2 * h) L i = 16 := by
    rw [radius_eq _ hL]
    push_cast
    rw [show 2 * (h : ℝ) / 2 = h by ring]
    exact hd
  show rawBeam j1 .sigmoid 32 (radius (2 * h) L i) / m < 1 / 100
  rw [e, sigmoid_eq]
  have hs : (5 / 4 : ℝ) ≤ (2 : ℝ) ^ (1 / 2 : ℝ) := by
    rw [← Real.sqrt_eq_rpow]
    apply Real.le_sqrt_of_sq_le
    norm_num
  have hp : (32 : ℝ) ≤ 16 ^ ((2 : ℝ) ^ (1 / 2 : ℝ)) := by
    have h1 : (16 : ℝ) ^ (5 / 4 : ℝ) ≤ 16 ^ ((2 : ℝ) ^ (1 / 2 : ℝ)) :=
      Real.rpow_le_rpow_of_exponent_le (by norm_num) hs
    have h2 : (16 : ℝ) ^ (5 / 4 : ℝ) = 32 := by
      rw [show (16 : ℝ) = 2 ^ (4 : ℝ) by norm_num, ← Real.rpow_mul (by norm_num)]
      norm_num
    linarith
  have hx : (8 : ℝ) ≤ 1 / 2 * 16 ^ ((2 : ℝ) ^ (1 / 2 : ℝ)) - 1 / 2 * (32 / 2) := by linarith
  have h256 : (256 : ℝ) ≤ Real.exp (1 / 2 * 16 ^ ((2 : ℝ) ^ (1 / 2 : ℝ)) - 1 / 2 * (32 / 2)) := by
    have h2 : (2 : ℝ) ≤ Real.exp 1 := by
      have := Real.add_one_le_exp (1 : ℝ)
      linarith
    have h3 : (2 : ℝ) ^ 8 ≤ Real.exp 1 ^ 8 := pow_le_pow_left₀ (by norm_num) h2 8
    rw [← Real.exp_nat_mul] at h3
    have h4 := Real.exp_le_exp.2 hx
    have h5 : Real.exp (((8 : ℕ) : ℝ) * 1) = Real.exp 8 := by norm_num
    rw [h5] at h3
    norm_num at h3
    exact h3.trans h4
  rw [div_lt_iff₀ (by linarith)]
  have : 1 / (1 + Real.exp (1 / 2 * 16 ^ ((2 : ℝ) ^ (1 / 2 : ℝ)) - 1 / 2 * (32 / 2))) ≤ 1 / 257 :=
    one_div_le_one_div_of_le (by norm_num) (by linarith)
  have : (1 : ℝ) / 257 < 1 / 100 * m := by nlinarith
  linarith

/-- **C121 is false for odd numbers of cells**: the beam is not centred on the middle cell; its neighbours on the two sides have
different values. -/
theorem C121_odd_false (j1 : ℝ → ℝ) (h : ℕ) (hh : 1 ≤ h) {null L : ℝ} (hn : 0 < null) (hL : 0 < L) :
    ∃ b, circularBeam j1 .gaussian (2 * h + 1) null L = .ok b ∧ b.val ![h, h] = b.val ![h + 1, h] ∧
      b.val ![h - 1, h] < b.val ![h + 1, h] := by
  have hi : (fun _ : Fin 2 => (h : ℤ)) ∈ box fun _ : Fin 2 => 2 * h + 1 :=
    (mem_box _ _).2 fun _ => ⟨by omega, by push_cast; omega⟩
  obtain ⟨b, hb⟩ := circular_exists j1 (f := .gaussian) (by decide) null L hi (Real.exp_pos _)
  refine ⟨b, hb, ?_⟩
  obtain ⟨m, hm, ⟨i0, -, he⟩, hmax, rfl⟩ := circular_ok hb
  have hmp : 0 < m := he ▸ Real.exp_pos _
  have hsq : ∀ x y : ℤ, radius (2 * h + 1) L ![x, y] ^ 2 =
      ((x - (h + 1 / 2)) ^ 2 + (y - (h + 1 / 2)) ^ 2) * (L / (2 * h + 1)) ^ 2 := by
    intro x y
    unfold radius
    rw [Real.sq_sqrt (by positivity)]
    show ((-(((2 * h + 1 : ℕ) : ℝ) / 2) + x) * L / ((2 * h + 1 : ℕ) : ℝ)) ^ 2 +
      ((-(((2 * h + 1 : ℕ) : ℝ) / 2) + y) * L / ((2 * h + 1 : ℕ) : ℝ)) ^ 2 = _
    push_cast
    ring
  have hu : 0 < (L / (2 * (h : ℝ) + 1)) ^ 2 := by positivity
  constructor
  · show rawBeam j1 .gaussian null (radius (2 * h + 1) L ![h, h]) / m =
      rawBeam j1 .gaussian null (radius (2 * h + 1) L ![h + 1, h]) / m
    simp only [rawBeam]
    rw [hsq, hsq]
    push_cast
    ring_nf
  · show rawBeam j1 .gaussian null (radius (2 * h + 1) L ![h - 1, h]) / m <
      rawBeam j1 .gaussian null (radius (2 * h + 1) L ![h + 1, h]) / m
    refine (div_lt_div_iff_of_pos_right hmp).2 ?_
    simp only [rawBeam]
    rw [Real.exp_lt_exp, hsq, hsq]
    refine (div_lt_div_iff_of_pos_right (by positivity)).2 ?_
    push_cast
    nlinarith

/-- **C121 is false for odd numbers of cells, step beams**: if `l_null` is less than the size of a cell no cell lies within the
beam, not even the middle one, and all values are 0 / 0. -/
theorem C121_step_false (j1 : ℝ → ℝ) (h : ℕ) {null L : ℝ} (hL : 0 < L) (hn : null < L / (2 * h + 1)) :
    circularBeam j1 .step (2 * h + 1) null L = .error .nan := by
  have hne : (box fun _ : Fin 2 => 2 * h + 1).Nonempty := box_nonempty (by omega)
  have hz : ∀ i : Fin 2 → ℤ, rawBeam j1 .step null (radius (2 * h + 1) L i) = 0 := by
    intro i
    refine if_neg (not_le.2 ?_)
    have hu : 0 < L / (2 * (h : ℝ) + 1) := by positivity
    have hr : radius (2 * h + 1) L i = Real.sqrt (((i 0 - (h + 1 / 2)) ^ 2 + (i 1 - (h + 1 / 2)) ^ 2) *
        (L / (2 * (h : ℝ) + 1)) ^ 2) := by
      unfold radius
      congr 1
      push_cast
      ring
    rw [hr]
    refine lt_of_lt_of_le (b := L / (2 * (h : ℝ) + 1) / 2) (by linarith) ?_
    apply Real.le_sqrt_of_sq_le
    have h1 : (1 / 4 : ℝ) ≤ (i 0 - (h + 1 / 2)) ^ 2 := by
      rcases le_or_gt (i 0) (h : ℤ) with h2 | h2
      · have : (i 0 : ℝ) ≤ h := by exact_mod_cast h2
        nlinarith
      · have : (h : ℝ) + 1 ≤ i 0 := by exact_mod_cast h2
        nlinarith
    have h2 := sq_nonneg ((i 1 : ℝ) - (h + 1 / 2))
    nlinarith [sq_nonneg (L / (2 * (h : ℝ) + 1))]
  unfold circularBeam
  rw [if_neg (by decide), dif_pos hne]
  simp only [hz]
  rw [if_pos]
  exact Finset.sup'_const hne 0

/-! ## Beams of arrays -/

/-- **C121 is false for 2-D arrays**: `l_null` has no effect. -/
theorem C121_null_false (k : Const) (j1 : ℝ → ℝ) (a : Arr (Fin 2) ℝ) (z : ℝ) (f : BeamFunc) (L D : ℝ) (x y : Option ℝ) :
    primary2 k j1 a z f L D x = primary2 k j1 a z f L D y := rfl

/-- **C121, square images.** An image is multiplied by the beam for the first null at 1.22 λ / D. -/
theorem C121_image (k : Const) (j1 : ℝ → ℝ) (a : Arr (Fin 2) ℝ) (z : ℝ) (f : BeamFunc) (L D : ℝ) (x : Option ℝ) (n : ℕ)
    (ha : a.shape = fun _ => n) (b : Arr (Fin 2) ℝ) (null : ℝ)
    (hnull : null * D = cdist k z * nu_to_wavel (z_to_nu z) * (122 / 100)) (hD : D ≠ 0)
    (hb : circularBeam j1 f n null L = .ok b) :
    ∃ r, primary2 k j1 a z f L D x = .ok r ∧ r.shape = a.shape ∧ ∀ i, r.val i = a.val i * b.val i := by
  have : beamNull k z D = null := by
    unfold beamNull
    rw [div_mul_eq_mul_div, ← hnull]
    field_simp
  refine ⟨⟨a.shape, fun i => a.val i * b.val i⟩, ?_, rfl, fun i => rfl⟩
  unfold primary2
  rw [this, show a.shape 0 = n by rw [ha], hb]
  simp only []
  exact if_pos ha

theorem swapped_two {α : Type} (s : Fin 3 → α) : swapped 2 s = s := by
  funext j
  simp [swapped]

/-- **C121, lightcones.** Every slice is multiplied by the beam of its own redshift. -/
theorem C121_lightcone (k : Const) (j1 : ℝ → ℝ) (a : Arr (Fin 3) ℝ) (zs : List ℝ) (f : BeamFunc) (L D : ℝ)
    (null : Option ℝ) (n : ℕ) (h0 : a.shape 0 = n) (h1 : a.shape 1 = n) (hz : zs.length ≤ a.shape 2) (hz1 : zs.length ≠ 1)
    (b : ℕ → Arr (Fin 2) ℝ)
    (hb : ∀ i < zs.length, circularBeam j1 f n (null.getD (beamNull k (zs.getD i 0) D)) L = .ok (b i)) :
    ∃ r, primary3 k j1 a (.array zs) 2 f L D null = .ok r ∧ r.shape = a.shape ∧
      (∀ x : Fin 3 → ℤ, 0 ≤ x 2 → x 2 < zs.length → r.val x = a.val x * (b (x 2).toNat).val ![x 0, x 1]) ∧
      ∀ x : Fin 3 → ℤ, zs.length ≤ x 2 → r.val x = 0 := by
  have hs : (ZArg.array zs).slices (a.shape 2) = .ok zs := by
    unfold ZArg.slices
    simp only []
    split
    · exact absurd rfl hz1
    · rfl
  have hval : primary3 k j1 a (.array zs) 2 f L D null = .ok ⟨a.shape, fun x => a.val x *
      ((((List.range zs.length).map b)[(x 2).toNat]?).map fun b => b.val ![x 0, x 1]).getD 0⟩ := by
    unfold primary3
    simp only [swapped_two]
    rw [hs]
    simp only []
    rw [mapM_ok' _ b]
    · simp
    · intro i hi
      have hi' := List.mem_range.1 hi
      unfold sliceBeam
      rw [h0, hb i hi']
      simp only []
      rw [if_neg (by omega), if_pos ⟨trivial, h1⟩]
  refine ⟨_, hval, rfl, fun x hx0 hx => ?_, fun x hx => ?_⟩
  · have : (x 2).toNat < zs.length := by omega
    simp [this]
  · have : ¬ (x 2).toNat < zs.length := by omega
    simp [this]

/-- Specification: the coordinates across the line of sight if it is the axis `ν`; the last axis takes its place. -/
def across (ν : Fin 3) (x : Fin 3 → ℤ) : Fin 2 → ℤ := ![if ν = 0 then x 2 else x 0, if ν = 1 then x 2 else x 1]

/-- **C121, other axes.** Every slice of a cube along `nu_axis` is multiplied by the beam of its own redshift. -/
theorem C121_axis (k : Const) (j1 : ℝ → ℝ) (a : Arr (Fin 3) ℝ) (zs : List ℝ) (f : BeamFunc) (L D : ℝ)
    (null : Option ℝ) (n : ℕ) (hn : ∀ j, a.shape j = n) (hz : zs.length ≤ n) (hz1 : zs.length ≠ 1) (ν : Fin 3)
    (b : ℕ → Arr (Fin 2) ℝ)
    (hb : ∀ i < zs.length, circularBeam j1 f n (null.getD (beamNull k (zs.getD i 0) D)) L = .ok (b i)) :
    ∃ r, primary3 k j1 a (.array zs) ν f L D null = .ok r ∧ r.shape = a.shape ∧
      (∀ x : Fin 3 → ℤ, 0 ≤ x ν → x ν < zs.length → r.val x = a.val x * (b (x ν).toNat).val (across ν x)) ∧
      ∀ x : Fin 3 → ℤ, zs.length ≤ x ν → r.val x = 0 := by
  have hsw : swapped ν a.shape = a.shape := by
    funext j
    unfold swapped
    rw [hn, hn]
  have hac : ∀ x : Fin 3 → ℤ, ![swapped ν x 0, swapped ν x 1] = across ν x := by
    intro x
    unfold across swapped
    match ν with
    | 0 | 1 | 2 => rfl
  have hs : (ZArg.array zs).slices (a.shape 2) = .ok zs := by
    unfold ZArg.slices
    simp only []
    split
    · exact absurd rfl hz1
    · rfl
  have hval : primary3 k j1 a (.array zs) ν f L D null = .ok ⟨a.shape, fun x => a.val x *
      ((((List.range zs.length).map b)[(x ν).toNat]?).map fun b => b.val (across ν x)).getD 0⟩ := by
    unfold primary3
    simp only [hac]
    rw [hsw, hs]
    simp only []
    rw [mapM_ok' _ b]
    · simp
    · intro i hi
      have hi' := List.mem_range.1 hi
      unfold sliceBeam
      rw [hn 0, hb i hi']
      simp only []
      rw [if_neg (by rw [hn]; omega), if_pos ⟨trivial, hn 1⟩]
  refine ⟨_, hval, rfl, fun x hx0 hx => ?_, fun x hx => ?_⟩
  · have : (x ν).toNat < zs.length := by omega
    simp [this]
  · have : ¬ (x ν).toNat < zs.length := by omega
    simp [this]

/-- **C121, one redshift.** With one redshift all slices have the same beam. -/
theorem C121_coeval (k : Const) (j1 : ℝ → ℝ) (a : Arr (Fin 3) ℝ) (z : ℝ) (f : BeamFunc) (L D : ℝ)
    (null : Option ℝ) (n : ℕ) (h0 : a.shape 0 = n) (h1 : a.shape 1 = n) (b : Arr (Fin 2) ℝ)
    (hb : circularBeam j1 f n (null.getD (beamNull k z D)) L = .ok b) :
    ∃ r, primary3 k j1 a (.one z) 2 f L D null = .ok r ∧ r.shape = a.shape ∧
      ∀ x : Fin 3 → ℤ, 0 ≤ x 2 → x 2 < a.shape 2 → r.val x = a.val x * b.val ![x 0, x 1] := by
  have hval : primary3 k j1 a (.one z) 2 f L D null = .ok ⟨a.shape, fun x => a.val x *
      ((((List.range (a.shape 2)).map fun _ => b)[(x 2).toNat]?).map fun b => b.val ![x 0, x 1]).getD 0⟩ := by
    unfold primary3
    simp only [swapped_two, ZArg.slices, List.length_replicate]
    rw [mapM_ok' _ fun _ => b]
    · simp
    · intro i hi
      have hi' := List.mem_range.1 hi
      have hg : (List.replicate (a.shape 2) z).getD i 0 = z := by simp [hi']
      unfold sliceBeam
      rw [h0, hg, hb]
      simp only []
      rw [if_neg (by omega), if_pos ⟨trivial, h1⟩]
  refine ⟨_, hval, rfl, fun x hx0 hx => ?_⟩
  have : (x 2).toNat < a.shape 2 := by omega
  simp [this]

/-- **C121, errors.** A list of several redshifts raises; so do more redshifts than slices, an unknown `beam_func` and,
if the frequency axis is not the last one, every array which has another length along it than along the last axis. -/
theorem C121_raises (k : Const) (j1 : ℝ → ℝ) (a : Arr (Fin 3) ℝ) (_ha : ∀ j, 2 ≤ a.shape j) (f : BeamFunc) (L D : ℝ)
    (null : Option ℝ) :
    (∀ zs : List ℝ, 2 ≤ zs.length → ∀ ν, ∃ e, primary3 k j1 a (.list zs) ν f L D null = .error e) ∧
    (∀ zs : List ℝ, zs.length ≠ 1 → a.shape 2 < zs.length →
      ∃ e, primary3 k j1 a (.array zs) 2 f L D null = .error e) ∧
    (∀ z ν, 0 < a.shape ν → f = .other → ∃ e, primary3 k j1 a (.one z) ν f L D null = .error e) ∧
    (∀ z ν, ν ≠ 2 → a.shape ν ≠ a.shape 2 → ∃ e, primary3 k j1 a z ν f L D null = .error e) := by
  have mapM_mem : ∀ {α : Type} {g : ℕ → Except Err α} {l : List ℕ} {i : ℕ}, i ∈ l → (∃ e, g i = .error e) →
      ∃ e, l.mapM g = .error e := by
    intro α g l i hi hg
    induction l with
    | nil => cases hi
    | cons a l ih =>
      rw [List.mapM_cons]
      cases ha : g a with
      | error e => exact ⟨e, rfl⟩
      | ok x =>
        rcases List.mem_cons.1 hi with rfl | h
        · obtain ⟨e, he⟩ := hg
          rw [ha] at he
          cases he
        · obtain ⟨e, he⟩ := ih h
          exact ⟨e, by rw [he]; rfl⟩
  have slot : ∀ z ν zs, ZArg.slices (swapped ν a.shape 2) z = .ok zs → (∃ i < zs.length, ∃ e,
      sliceBeam k j1 a.shape (swapped ν a.shape 0) zs f L D null i = .error e) →
      ∃ e, primary3 k j1 a z ν f L D null = .error e := by
    rintro z ν zs hz ⟨i, hi, hg⟩
    obtain ⟨e, he⟩ := mapM_mem (List.mem_range.2 hi) hg
    refine ⟨e, ?_⟩
    unfold primary3
    rw [hz]
    simp only []
    rw [he]
  refine ⟨fun zs hl ν => ?_, fun zs h1 hl => ?_, fun z ν hν hf => ?_, fun z ν hν hne => ?_⟩
  · unfold primary3
    have : (ZArg.list zs).slices (swapped ν a.shape 2) = .error .attribute := by
      unfold ZArg.slices
      simp only []
      split
      · simp at hl
      · rfl
    rw [this]
    exact ⟨_, rfl⟩
  · have hs : (ZArg.array zs).slices (swapped 2 a.shape 2) = .ok zs := by
      unfold ZArg.slices
      simp only []
      split
      · exact absurd rfl h1
      · rfl
    refine slot _ _ zs hs ⟨a.shape 2, hl, ?_⟩
    unfold sliceBeam
    cases hc : circularBeam j1 f (swapped 2 a.shape 0) (null.getD (beamNull k (zs.getD (a.shape 2) 0) D)) L with
    | error e => exact ⟨e, rfl⟩
    | ok b => exact ⟨.index, if_pos le_rfl⟩
  · refine slot (.one z) ν _ rfl ⟨0, by simpa [swapped] using hν, .value, ?_⟩
    unfold sliceBeam
    rw [show circularBeam j1 f _ _ L = .error .value from if_pos hf]
  · unfold primary3
    cases z.slices (swapped ν a.shape 2) with
    | error e => exact ⟨e, rfl⟩
    | ok zs =>
      simp only []
      generalize hbm : (List.mapM (m := Except Err) _ (List.range zs.length)) = beams
      cases beams with
      | error e => exact ⟨e, rfl⟩
      | ok l =>
        refine ⟨.value, if_neg fun he => hne ?_⟩
        have := congrFun he 2
        simpa [swapped] using this

/-- A Gaussian beam of 4 × 4 cells. -/
example (j1 : ℝ → ℝ) : ∃ b, circularBeam j1 .gaussian 4 3 10 = .ok b ∧ b.val ![2, 2] = 1 := by
  obtain ⟨b, hb, hv⟩ := C121_gaussian j1 2 (by norm_num) (null := 3) (L := 10) (by norm_num) (by norm_num) ![2, 2]
    (3 / (1186 / 1000) / (2355 / 1000)) (by norm_num)
  refine ⟨b, hb, ?_⟩
  rw [hv]
  simp [dist2]

/-- 5 × 5 cells of 20 Mpc and a first null at 15 Mpc. -/
example (j1 : ℝ → ℝ) : circularBeam j1 .step 5 15 100 = .error .nan :=
  C121_step_false j1 2 (by norm_num) (by norm_num)

/-- A cell at 16 Mpc from the centre of a box of 4 cells and 64 Mpc. -/
example : dist2 (2 * 2) 64 ((![3, 2] : Fin 2 → ℤ) 0) ((![3, 2] : Fin 2 → ℤ) 1) (2 : ℕ) (2 : ℕ) = 16 := by
  unfold dist2
  norm_num

/-- A lightcone of 4 × 4 × 9 cells with two redshifts: only two slices are filled. -/
example (j1 : ℝ → ℝ) : ∃ r, primary3 (Const.init 3) j1 ⟨![4, 4, 9], fun _ => 1⟩ (.array [8, 9]) 2 .gaussian 100 40 none =
    .ok r ∧ r.val ![0, 0, 5] = 0 := by
  have hex : ∀ i, ∃ b, circularBeam j1 .gaussian 4 ((none : Option ℝ).getD (beamNull (Const.init 3) (([8, 9] : List ℝ).getD i 0) 40)) 100 =
      .ok b := fun i => circular_exists j1 (by decide) _ _ (centre_mem (h := 2) (by norm_num)) (Real.exp_pos _)
  choose b hb using hex
  obtain ⟨r, h1, -, -, h2⟩ := C121_lightcone (Const.init 3) j1 ⟨![4, 4, 9], fun _ => 1⟩ [8, 9] .gaussian 100 40 none 4 rfl
    rfl (by simp) (by simp) b (fun i _ => hb i)
  exact ⟨r, h1, h2 _ (by simp)⟩

/-- A cube whose first axis is the frequency. -/
example (j1 : ℝ → ℝ) : ∃ r, primary3 (Const.init 3) j1 ⟨fun _ => 4, fun _ => 1⟩ (.array [8, 9]) 0 .gaussian 100 40 none =
    .ok r ∧ r.val ![3, 0, 0] = 0 := by
  have hex : ∀ i, ∃ b, circularBeam j1 .gaussian 4 ((none : Option ℝ).getD (beamNull (Const.init 3) (([8, 9] : List ℝ).getD i 0) 40)) 100 =
      .ok b := fun i => circular_exists j1 (by decide) _ _ (centre_mem (h := 2) (by norm_num)) (Real.exp_pos _)
  choose b hb using hex
  obtain ⟨r, h1, -, -, h2⟩ := C121_axis (Const.init 3) j1 ⟨fun _ => 4, fun _ => 1⟩ [8, 9] .gaussian 100 40 none 4
    (fun _ => rfl) (by simp) (by simp) 0 b (fun i _ => hb i)
  exact ⟨r, h1, h2 _ (by simp)⟩

end Verif.Beam
