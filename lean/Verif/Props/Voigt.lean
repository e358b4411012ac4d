import Verif.Model.Lyman
import Mathlib.Analysis.Convolution
import Mathlib.Analysis.SpecialFunctions.ImproperIntegrals
import Mathlib.Analysis.Real.Pi.Bounds
import Mathlib.Tactic.Linarith
import Mathlib.Tactic.Ring
import Mathlib.Tactic.NormNum
import Mathlib.Tactic.Positivity
import Mathlib.Tactic.FieldSimp
/-!
# Profile and cross section of the Lyman-alpha line (C145, C146)
-/

namespace Verif.Lyman
open MeasureTheory Real

/-- A normalised Lorentz profile. -/
noncomputable def lorentz (a t : ℝ) : ℝ := a / π / (t ^ 2 + a ^ 2)

theorem lorentz_eq {a : ℝ} (ha : 0 < a) : lorentz a = fun t => 1 / (π * a) * (1 + (t / a) ^ 2)⁻¹ := by
  funext t
  unfold lorentz
  have := Real.pi_pos
  have h1 : t ^ 2 + a ^ 2 ≠ 0 := by positivity
  have h2 : 1 + (t / a) ^ 2 ≠ 0 := by positivity
  field_simp
  ring

theorem lorentz_integrable {a : ℝ} (ha : 0 < a) : Integrable (lorentz a) := by
  rw [lorentz_eq ha]
  exact (integrable_inv_one_add_sq.comp_div ha.ne').const_mul _

theorem lorentz_integral {a : ℝ} (ha : 0 < a) : ∫ t, lorentz a t = 1 := by
  rw [lorentz_eq ha, integral_const_mul, Measure.integral_comp_div (fun t : ℝ => (1 + t ^ 2)⁻¹) a, integral_univ_inv_one_add_sq,
    abs_of_pos ha, smul_eq_mul]
  have := Real.pi_pos
  field_simp

theorem gauss_integrable : Integrable fun y : ℝ => exp (-y ^ 2) := by
  simpa using integrable_exp_neg_mul_sq (b := 1) one_pos

theorem gauss_integral : ∫ y : ℝ, exp (-y ^ 2) = √π := by
  simpa using integral_gaussian 1

theorem voigt_conv (x a : ℝ) : voigt x a = (MeasureTheory.convolution (fun y : ℝ => exp (-y ^ 2)) (lorentz a) (ContinuousLinearMap.mul ℝ ℝ) volume) x := by
  unfold voigt MeasureTheory.convolution lorentz
  rw [← integral_const_mul]
  refine integral_congr_ae (Filter.Eventually.of_forall fun y => ?_)
  simp only [ContinuousLinearMap.mul_apply']
  rw [show (x - y) ^ 2 = (y - x) ^ 2 by ring]
  ring

theorem voigt_integral {a : ℝ} (ha : 0 < a) : ∫ x, voigt x a = √π := by
  simp only [voigt_conv]
  rw [integral_convolution _ gauss_integrable (lorentz_integrable ha), lorentz_integral ha, gauss_integral]
  simp

theorem voigt_integrand {a : ℝ} (ha : 0 < a) (x : ℝ) : Integrable fun y : ℝ => exp (-y ^ 2) / ((y - x) ^ 2 + a ^ 2) := by
  refine (gauss_integrable.div_const (a ^ 2)).mono ?_ (Filter.Eventually.of_forall fun y => ?_)
  · refine Continuous.aestronglyMeasurable ?_
    refine Continuous.div (by fun_prop) (by fun_prop) fun y => ?_
    positivity
  · rw [Real.norm_of_nonneg (by positivity), Real.norm_of_nonneg (by positivity)]
    refine div_le_div_of_nonneg_left (exp_pos _).le (by positivity) ?_
    nlinarith [sq_nonneg (y - x)]

theorem voigt_pos {a : ℝ} (ha : 0 < a) (x : ℝ) : 0 < voigt x a := by
  unfold voigt
  refine mul_pos (div_pos ha Real.pi_pos) ?_
  rw [integral_pos_iff_support_of_nonneg (fun y => by positivity) (voigt_integrand ha x)]
  have : Function.support (fun y : ℝ => exp (-y ^ 2) / ((y - x) ^ 2 + a ^ 2)) = Set.univ := by
    ext y
    simp only [Function.mem_support, Set.mem_univ, iff_true]
    positivity
  rw [this]
  simp

theorem voigt_even (x a : ℝ) : voigt (-x) a = voigt x a := by
  unfold voigt
  congr 1
  rw [← integral_neg_eq_self]
  congr 1
  funext y
  rw [show (-y - -x) ^ 2 = (y - x) ^ 2 by ring, show (-y) ^ 2 = y ^ 2 by ring]

theorem voigt_le {a : ℝ} (ha : 0 < a) (x : ℝ) : voigt x a ≤ 1 / (√π * a) := by
  unfold voigt
  have h : ∫ y : ℝ, exp (-y ^ 2) / ((y - x) ^ 2 + a ^ 2) ≤ ∫ y : ℝ, exp (-y ^ 2) / a ^ 2 := by
    refine integral_mono (voigt_integrand ha x) (gauss_integrable.div_const _) fun y => ?_
    refine div_le_div_of_nonneg_left (exp_pos _).le (by positivity) ?_
    nlinarith [sq_nonneg (y - x)]
  rw [integral_div, gauss_integral] at h
  have hp := Real.pi_pos
  calc a / π * ∫ y : ℝ, exp (-y ^ 2) / ((y - x) ^ 2 + a ^ 2) ≤ a / π * (√π / a ^ 2) := mul_le_mul_of_nonneg_left h (by positivity)
    _ = 1 / (√π * a) := by
      have : √π * √π = π := Real.mul_self_sqrt hp.le
      have h2 : √π ≠ 0 := (Real.sqrt_pos.2 hp).ne'
      field_simp
      nlinarith

/-- **C145 (part).** The profile is positive, symmetric, bounded and has area √π for every damping; the cross section is positive,
symmetric around the line centre, and its integral over frequency is the same for all temperatures. -/
theorem C145_partial (K : Consts) (hk : 0 < K.kB) (hm : 0 < K.mp) (hc : 0 < K.c) :
    (∀ a x : ℝ, 0 < a → 0 < voigt x a ∧ voigt (-x) a = voigt x a ∧ voigt x a ≤ 1 / (√π * a) ∧ ∫ t, voigt t a = √π) ∧
    ∀ T : ℝ, 0 < T → ∃ s : ℝ → ℝ, (∀ nu, crossSection K nu T = .ok (s nu) ∧ 0 < s nu) ∧
      (∀ d, s (2.46 * 10 ^ 15 + d) = s (2.46 * 10 ^ 15 - d)) ∧
      ∫ nu, s nu = 5.9 / 10 ^ 14 * (2.46 * 10 ^ 15) * √(π * (K.kB * 10 ^ 4 / (K.mp * K.c ^ 2))) := by
  refine ⟨fun a x ha => ⟨voigt_pos ha x, voigt_even x a, voigt_le ha x, voigt_integral ha⟩, fun T hT => ?_⟩
  have hq : 0 < √(T / 10 ^ 4) := Real.sqrt_pos.2 (by positivity)
  have hd : 0 < doppler K T := by
    unfold doppler
    have : 0 < √(K.kB * T / K.mp / K.c ^ 2) := Real.sqrt_pos.2 (by positivity)
    positivity
  have ha : 0 < 4.7 / 10 ^ 4 / √(T / 10 ^ 4) := by positivity
  refine ⟨fun nu => 5.9 / 10 ^ 14 / √(T / 10 ^ 4) * voigt ((nu - 2.46 * 10 ^ 15) / doppler K T) (4.7 / 10 ^ 4 / √(T / 10 ^ 4)), ?_, ?_, ?_⟩
  · intro nu
    constructor
    · unfold crossSection
      rw [if_neg (not_le.2 hT)]
    · exact mul_pos (by positivity) (voigt_pos ha _)
  · intro d
    simp only []
    rw [show (2.46 * 10 ^ 15 - d - 2.46 * 10 ^ 15) / doppler K T = -((2.46 * 10 ^ 15 + d - 2.46 * 10 ^ 15) / doppler K T) by ring,
      voigt_even]
  · rw [integral_const_mul, integral_sub_right_eq_self (fun nu : ℝ => voigt (nu / doppler K T) (4.7 / 10 ^ 4 / √(T / 10 ^ 4))),
      Measure.integral_comp_div (fun t : ℝ => voigt t (4.7 / 10 ^ 4 / √(T / 10 ^ 4))), voigt_integral ha, abs_of_pos hd, smul_eq_mul]
    unfold doppler
    have e : √(K.kB * T / K.mp / K.c ^ 2) = √(K.kB * 10 ^ 4 / (K.mp * K.c ^ 2)) * √(T / 10 ^ 4) := by
      rw [← Real.sqrt_mul (by positivity)]
      congr 1
      field_simp
    rw [e, Real.sqrt_mul Real.pi_pos.le]
    field_simp

/-- The constants of astropy (CODATA 2018), SI units. -/
noncomputable def codata : Consts := ⟨1.380649 / 10 ^ 23, 1.67262192369 / 10 ^ 27, 299792458⟩

/-- **C145 is false in its scale**: the integral over frequency should be that of the classical oscillator times its strength,
`π e² f / (m_e c)`, which is more than 0.011 cm² Hz; it is less than 0.0079. The Doppler width lacks a factor √2. -/
theorem C145_false (T : ℝ) (hT : 0 < T) : ∃ s : ℝ → ℝ, (∀ nu, crossSection codata nu T = .ok (s nu)) ∧ ∫ nu, s nu < 0.0079 := by
  have hk : 0 < codata.kB := by unfold codata; norm_num
  have hm : 0 < codata.mp := by unfold codata; norm_num
  have hc : 0 < codata.c := by unfold codata; norm_num
  obtain ⟨s, h1, _, h3⟩ := (C145_partial codata hk hm hc).2 T hT
  refine ⟨s, fun nu => (h1 nu).1, ?_⟩
  rw [h3]
  have hb : √(π * (codata.kB * 10 ^ 4 / (codata.mp * codata.c ^ 2))) ≤ 5.4 / 10 ^ 5 := by
    rw [Real.sqrt_le_left (by norm_num)]
    calc π * (codata.kB * 10 ^ 4 / (codata.mp * codata.c ^ 2)) ≤ 3.1416 * (codata.kB * 10 ^ 4 / (codata.mp * codata.c ^ 2)) :=
          mul_le_mul_of_nonneg_right Real.pi_lt_d4.le (by positivity)
      _ ≤ _ := by unfold codata; norm_num
  calc 5.9 / 10 ^ 14 * (2.46 * 10 ^ 15) * √(π * (codata.kB * 10 ^ 4 / (codata.mp * codata.c ^ 2)))
      ≤ 5.9 / 10 ^ 14 * (2.46 * 10 ^ 15) * (5.4 / 10 ^ 5) := mul_le_mul_of_nonneg_left hb (by norm_num)
    _ < _ := by norm_num

/-- The classical value with the CGS constants of electron charge, electron mass and light: more than 0.011. -/
example : (0.011 : ℝ) < π * (4.80320471 / 10 ^ 10) ^ 2 * 0.416 / (9.1093837 / 10 ^ 28 * 29979245800) := by
  have := Real.pi_gt_d2
  have h : (3.14 : ℝ) * (4.80320471 / 10 ^ 10) ^ 2 * 0.416 / (9.1093837 / 10 ^ 28 * 29979245800) ≤
      π * (4.80320471 / 10 ^ 10) ^ 2 * 0.416 / (9.1093837 / 10 ^ 28 * 29979245800) := by gcongr
  refine lt_of_lt_of_le ?_ h
  norm_num

/-- **C145, errors**: temperatures that are not positive. -/
theorem C145_raises (K : Consts) (nu T : ℝ) (h : T ≤ 0) : crossSection K nu T = .error "nan" := by
  unfold crossSection
  rw [if_pos h]

/-- Optical depth of a path: cross section (cm²), density of atoms (1/cm³) and proper length in pc (3.0857 · 10¹⁸ cm). -/
noncomputable def pathDepth (sigma n pc : ℝ) : ℝ := sigma * n * (pc * (3.0856775814913674 * 10 ^ 18))

/-- **C146 (part).** The depth of a cell is the cross section times the column of neutral atoms of the mean density today, up to 0.04%. -/
theorem C146_partial (K : Consts) (hk : 0 < K.kB) (hm : 0 < K.mp) (hc : 0 < K.c) (C : Cosmo) (hC : 0 < C.omegaB ∧ 0 < C.critical ∧ 0 < C.mp)
    (z x T dr nu XH : ℝ) (hT : 0 < T) (hx : 0 ≤ x) (hdr : 0 ≤ dr) (hX : 0 ≤ XH) :
    ∃ s t, crossSection K nu T = .ok s ∧ depth K C z x T dr nu XH = .ok t ∧
      0.9996 * pathDepth s (x * (XH * C.omegaB * C.critical / C.mp)) dr ≤ t ∧
      t ≤ pathDepth s (x * (XH * C.omegaB * C.critical / C.mp)) dr := by
  obtain ⟨s, h1, _, _⟩ := (C145_partial K hk hm hc).2 T hT
  have e : s nu = 5.9 / 10 ^ 14 / √(T / 10 ^ 4) * voigt ((nu - 2.46 * 10 ^ 15) / doppler K T) (4.7 / 10 ^ 4 / √(T / 10 ^ 4)) := by
    have := (h1 nu).1
    unfold crossSection at this
    rw [if_neg (not_le.2 hT)] at this
    exact (Except.ok.inj this).symm
  have hv : 0 ≤ voigt ((nu - 2.46 * 10 ^ 15) / doppler K T) (4.7 / 10 ^ 4 / √(T / 10 ^ 4)) :=
    (voigt_pos (by have : 0 < √(T / 10 ^ 4) := Real.sqrt_pos.2 (by positivity)
                   positivity) _).le
  refine ⟨s nu, 1.820 * 10 ^ 5 * voigt ((nu - 2.46 * 10 ^ 15) / doppler K T) (4.7 / 10 ^ 4 / √(T / 10 ^ 4)) / √(T / 10 ^ 4) *
    (x * (XH * C.omegaB * C.critical / C.mp)) * dr, (h1 nu).1, ?_, ?_⟩
  · unfold depth
    rw [if_neg (not_le.2 hT)]
  · obtain ⟨c1, c2, c3⟩ := hC
    set V := voigt ((nu - 2.46 * 10 ^ 15) / doppler K T) (4.7 / 10 ^ 4 / √(T / 10 ^ 4))
    have hq : 0 ≤ V / √(T / 10 ^ 4) * (x * (XH * C.omegaB * C.critical / C.mp)) * dr := by positivity
    rw [e]
    unfold pathDepth
    set Q := V / √(T / 10 ^ 4) * (x * (XH * C.omegaB * C.critical / C.mp)) * dr
    have e1 : 1.820 * 10 ^ 5 * V / √(T / 10 ^ 4) * (x * (XH * C.omegaB * C.critical / C.mp)) * dr = 182000 * Q := by ring
    have e2 : 5.9 / 10 ^ 14 / √(T / 10 ^ 4) * V * (x * (XH * C.omegaB * C.critical / C.mp)) * (dr * (3.0856775814913674 * 10 ^ 18)) =
        182054.9773079906766 * Q := by ring
    rw [e1, e2]
    constructor <;> linarith

/-- **C146 is false in its redshift**: the density of the gas grows with `(1 + z)³` and the proper length of a comoving path shrinks with
`1 + z`, so the depth of a comoving path should grow with `(1 + z)²`; the result is the same at all redshifts. -/
theorem C146_false (K : Consts) (hk : 0 < K.kB) (hm : 0 < K.mp) (hc : 0 < K.c) (C : Cosmo) (hC : 0 < C.omegaB ∧ 0 < C.critical ∧ 0 < C.mp)
    (x T dr nu XH : ℝ) (hT : 0 < T) (hx : 0 < x) (hdr : 0 < dr) (hX : 0 < XH) (z : ℝ) (hz : 0 < z) :
    ∃ t₀ t, depth K C 0 x T dr nu XH = .ok t₀ ∧ depth K C z x T dr nu XH = .ok t ∧ t ≠ (1 + z) ^ 2 * t₀ := by
  obtain ⟨s, h1, _, _⟩ := (C145_partial K hk hm hc).2 T hT
  obtain ⟨s', t, hs, ht, hl, _⟩ := C146_partial K hk hm hc C hC 0 x T dr nu XH hT hx.le hdr.le hX.le
  refine ⟨t, t, ht, ?_, ?_⟩
  · rw [← ht]
    rfl
  · have : 0 < t := by
      refine lt_of_lt_of_le ?_ hl
      rw [(h1 nu).1] at hs
      rw [← Except.ok.inj hs]
      have := (h1 nu).2
      obtain ⟨c1, c2, c3⟩ := hC
      unfold pathDepth
      positivity
    intro h
    have h2 : 0 < z * t := mul_pos hz this
    have h3 : 0 < z * (z * t) := mul_pos hz h2
    linarith

/-- A gas of 10⁴ K at the mean density, one Mpc long, at redshift 6. -/
example : 0 < codata.kB ∧ 0 < codata.mp ∧ 0 < codata.c ∧ (0 : ℝ) < 10 ^ 4 ∧ (0 : ℝ) < 6 := by
  unfold codata
  norm_num

end Verif.Lyman
