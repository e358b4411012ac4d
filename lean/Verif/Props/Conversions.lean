import Verif.Model.Conversions
import Mathlib.MeasureTheory.Integral.IntervalIntegral.FundThmCalculus
import Mathlib.Tactic.Linarith
import Mathlib.Tactic.Ring
import Mathlib.Tactic.NormNum
import Mathlib.Tactic.FieldSimp
import Mathlib.Tactic.Positivity
/-!
# Conversions

C41: pairs of conversions are mutually inverse.
C81: `kelvin_2_jansky` gives the flux per pixel in jansky.
-/

set_option linter.unusedVariables false

namespace Verif.Conversions

open Verif.Constants

/-! ## C41 -/

/-- The observed frequency of the 21 cm line times `1+z` is the rest frequency, and the two
conversions are inverse to each other. -/
theorem C41_frequency (z nu : ℝ) (hz : z ≠ -1) (hnu : nu ≠ 0) :
    z_to_nu z * (1 + z) = 1420 ∧ nu_to_z (z_to_nu z) = z ∧ z_to_nu (nu_to_z nu) = nu := by
  have h1 : (1 : ℝ) + z ≠ 0 := fun h => hz (by linarith)
  refine ⟨?_, ?_, ?_⟩
  · simp only [z_to_nu, nu0]; field_simp
  · simp only [z_to_nu, nu_to_z, nu0]; field_simp; ring
  · simp only [z_to_nu, nu_to_z, nu0]; field_simp; ring

example : (9 : ℝ) ≠ -1 ∧ (142 : ℝ) ≠ 0 := by norm_num

/-- Wavelength times frequency is the speed of light used by the package (3e8 m/s). -/
theorem C41_wavelength (nu : ℝ) (hnu : nu ≠ 0) :
    nu_to_wavel nu * (nu * 10 ^ 6) = 3 * 10 ^ 8 := by
  simp only [nu_to_wavel, c]; field_simp; norm_num

example : (150 : ℝ) ≠ 0 := by norm_num

/-- Proper lengths are shorter than comoving ones by `1+z`; the conversions are inverse. -/
theorem C41_proper (d z : ℝ) (hz : z ≠ -1) :
    c_to_p d z * (1 + z) = d ∧ p_to_c (c_to_p d z) z = d ∧ c_to_p (p_to_c d z) z = d := by
  have h1 : (1 : ℝ) + z ≠ 0 := fun h => hz (by linarith)
  refine ⟨?_, ?_, ?_⟩ <;> simp only [c_to_p, p_to_c] <;> field_simp

example : (0 : ℝ) ≠ -1 := by norm_num

theorem solarMassesPerGram_pos : 0 < solarMassesPerGram := by
  unfold solarMassesPerGram; positivity

/-- Grid and solar masses are mutually inverse, one grid mass is `M_grid` grams, and
`gridmass_to_msol` is the decimal logarithm of `Mgrid_2_Msolar`. -/
theorem C41_mass (v : Conv) (m : ℝ) (hv : 0 < v.mGrid) :
    Mgrid_2_Msolar v 1 = v.mGrid * (502785431 / 10 ^ 42) ∧
    Msolar_2_Mgrid v (Mgrid_2_Msolar v m) = m ∧ Mgrid_2_Msolar v (Msolar_2_Mgrid v m) = m ∧
    (0 < m → (10 : ℝ) ^ gridmass_to_msol v m = Mgrid_2_Msolar v m) := by
  have h0 : (0 : ℝ) < v.mGrid := by exact_mod_cast hv
  have hs := solarMassesPerGram_pos
  refine ⟨?_, ?_, ?_, ?_⟩
  · simp only [Mgrid_2_Msolar, solarMassesPerGram, one_mul]
  · simp only [Mgrid_2_Msolar, Msolar_2_Mgrid]; field_simp
  · simp only [Mgrid_2_Msolar, Msolar_2_Mgrid]; field_simp
  · intro hm
    unfold gridmass_to_msol Mgrid_2_Msolar
    rw [Real.rpow_logb (by norm_num) (by norm_num) (by positivity), mul_assoc]

example : 0 < (State.init 3 fun x => x).conv.mGrid := by
  norm_num [State.init, Conv.derive, Const.init, rhoCritOf, H0cgsOf, mpc, gGrav]

/-- `Delc` is positive for every matter density between 0 and three times critical. -/
theorem delc_pos (d : ℝ) (h1 : -1 ≤ d) (h2 : d ≤ 2) : 0 < delc d := by
  have hp : (3.14 : ℝ) < Real.pi := Real.pi_gt_d2
  have : (9 : ℝ) < Real.pi ^ 2 := by nlinarith
  unfold delc
  nlinarith [mul_nonneg (by linarith : 0 ≤ d + 1) (by linarith : 0 ≤ 2 - d)]

theorem convFact_pos (k : Const) (z : ℝ) (hz : -1 < z) (hO : 0 < k.omega0)
    (h1 : 0 < omz k z) (h3 : omz k z ≤ 3) : 0 < convFact k z := by
  have hO' : (0 : ℝ) < k.omega0 := by exact_mod_cast hO
  have hd := delc_pos (omz k z - 1) (by linarith) (by linarith)
  have hp := Real.pi_pos
  have hz1 : (0 : ℝ) < 1 + z := by linarith
  unfold convFact
  positivity

/-- The matter density at `z` lies between 0 and the critical one when no density parameter
(matter, cosmological constant, curvature) is negative. -/
theorem omz_range (k : Const) (z : ℝ) (hz : -1 < z) (hO : 0 < k.omega0) (hL : 0 ≤ k.omegaL)
    (hK : k.omega0 + k.omegaL ≤ 1) : 0 < omz k z ∧ omz k z ≤ 1 := by
  have hO' : (0 : ℝ) < k.omega0 := by exact_mod_cast hO
  have hL' : (0 : ℝ) ≤ k.omegaL := by exact_mod_cast hL
  have hK' : (k.omega0 : ℝ) + k.omegaL ≤ 1 := by exact_mod_cast hK
  have hz1 : (0 : ℝ) < 1 + z := by linarith
  have hk : 0 ≤ (1 - (k.omega0 : ℝ) - k.omegaL) * (1 + z) ^ 2 :=
    mul_nonneg (by linarith) (by positivity)
  have hm : 0 < (k.omega0 : ℝ) * (1 + z) ^ 3 := by positivity
  unfold omz
  simp only
  refine ⟨div_pos hm (by linarith), ?_⟩
  rw [div_le_one (by linarith)]
  linarith

/-- Masses and virial temperatures are mutually inverse whenever the matter density at `z`
is positive and at most three times critical. -/
theorem C41_virial (k : Const) (m t z : ℝ) (hz : -1 < z) (hO : 0 < k.omega0) (hh : 0 < k.h)
    (h1 : 0 < omz k z) (h3 : omz k z ≤ 3) (hm : 0 ≤ m) (ht : 0 ≤ t) :
    Tvir_to_M k (M_to_Tvir k m z) z = m ∧ M_to_Tvir k (Tvir_to_M k t z) z = t := by
  have hc := convFact_pos k z hz hO h1 h3
  have hh' : (0 : ℝ) < k.h := by exact_mod_cast hh
  constructor
  · unfold Tvir_to_M M_to_Tvir
    rw [mul_div_cancel_left₀ _ hc.ne', ← Real.rpow_mul (by positivity)]
    norm_num
    field_simp
  · unfold Tvir_to_M M_to_Tvir
    have e : 10 ^ 8 / (k.h : ℝ) * (t / convFact k z) ^ ((3 : ℝ) / 2) * k.h / 10 ^ 8 =
        (t / convFact k z) ^ ((3 : ℝ) / 2) := by field_simp
    rw [e, ← Real.rpow_mul (by positivity)]
    norm_num
    field_simp

/-- In particular for every cosmology without negative densities, at every redshift. -/
theorem C41_virial_physical (k : Const) (m t z : ℝ) (hz : -1 < z) (hO : 0 < k.omega0)
    (hL : 0 ≤ k.omegaL) (hK : k.omega0 + k.omegaL ≤ 1) (hh : 0 < k.h) (hm : 0 ≤ m) (ht : 0 ≤ t) :
    Tvir_to_M k (M_to_Tvir k m z) z = m ∧ M_to_Tvir k (Tvir_to_M k t z) z = t := by
  obtain ⟨h1, h2⟩ := omz_range k z hz hO hL hK
  exact C41_virial k m t z hz hO hh h1 (by linarith) hm ht

example : let k := Const.init 3
    0 < k.omega0 ∧ 0 ≤ k.omegaL ∧ k.omega0 + k.omegaL ≤ 1 ∧ 0 < k.h := by
  norm_num [Const.init]

/-- The virial temperature scales as `M^(2/3)`: eight times the mass is four times as hot. -/
theorem C41_virial_scaling (k : Const) (m z : ℝ) (hm : 0 ≤ m) (hh : 0 < k.h) :
    M_to_Tvir k (8 * m) z = 4 * M_to_Tvir k m z := by
  have hh' : (0 : ℝ) < k.h := by exact_mod_cast hh
  unfold M_to_Tvir
  have e : 8 * m * (k.h : ℝ) / 10 ^ 8 = 8 * (m * k.h / 10 ^ 8) := by ring
  rw [e, Real.mul_rpow (by norm_num) (by positivity)]
  have e8 : (8 : ℝ) ^ ((2 : ℝ) / 3) = 4 := by
    have : (8 : ℝ) = 2 ^ (3 : ℝ) := by norm_num
    rw [this, ← Real.rpow_mul (by norm_num)]
    norm_num
  rw [e8]; ring

example : 0 < (Const.init 3).h := by norm_num [Const.init]

theorem cbrt_cube (x : ℝ) : cbrt x ^ 3 = x := by
  unfold cbrt
  split
  · rw [← Real.rpow_natCast, ← Real.rpow_mul (by assumption)]; norm_num
  · have h : 0 ≤ -x := by linarith
    have : ((-x) ^ ((1 : ℝ) / 3)) ^ 3 = -x := by
      rw [← Real.rpow_natCast, ← Real.rpow_mul h]; norm_num
    calc (-(-x) ^ ((1 : ℝ) / 3)) ^ 3 = -(((-x) ^ ((1 : ℝ) / 3)) ^ 3) := by ring
      _ = x := by rw [this]; ring

theorem cbrt_of_cube (x : ℝ) (h : 0 ≤ x) : cbrt (x ^ 3) = x := by
  unfold cbrt
  rw [if_pos (by positivity), ← Real.rpow_natCast, ← Real.rpow_mul h]; norm_num

/-- Particle number and particle mass are mutually inverse, the particles of the box hold its
mass, and the number per direction and the total number give the same particle mass. -/
theorem C41_particles (rho L m n : ℝ) (hr : 0 < rho) (hL : 0 < L) (hm : 0 < m) (hn : 0 < n) :
    particle_number_to_particle_mass rho L (some (ParticleMass_to_ParticleNumber rho L m)) none
      = .ok m ∧
    (∀ m', particle_number_to_particle_mass rho L (some n) none = .ok m' →
      ParticleMass_to_ParticleNumber rho L m' = n ∧ n ^ 3 * m' = rho * L ^ 3) ∧
    particle_number_to_particle_mass rho L none (some (n ^ 3)) =
      particle_number_to_particle_mass rho L (some n) none := by
  refine ⟨?_, ?_, ?_⟩
  · simp only [particle_number_to_particle_mass, ParticleMass_to_ParticleNumber]
    have h := cbrt_cube (rho / m)
    have h0 : cbrt (rho / m) ≠ 0 := by
      intro h0; rw [h0] at h
      have : 0 < rho / m := by positivity
      norm_num at h; linarith [h ▸ this]
    congr 1
    have : (L / (cbrt (rho / m) * L)) ^ 3 = m / rho := by
      have e : L / (cbrt (rho / m) * L) = 1 / cbrt (rho / m) := by field_simp
      rw [e, div_pow, h, one_pow, one_div_div]
    rw [this]; field_simp
  · intro m' h
    simp only [particle_number_to_particle_mass, Except.ok.injEq] at h
    subst h
    refine ⟨?_, by field_simp⟩
    unfold ParticleMass_to_ParticleNumber
    have e : rho / (rho * (L / n) ^ 3) = (n / L) ^ 3 := by field_simp
    rw [e, cbrt_of_cube _ (by positivity)]; field_simp
  · simp only [particle_number_to_particle_mass, cbrt_of_cube n hn.le]

example : (0 : ℝ) < 4 * 10 ^ 10 ∧ (0 : ℝ) < 100 ∧ (0 : ℝ) < 10 ^ 8 ∧ (0 : ℝ) < 512 := by norm_num

/-- The error branch: neither number given. -/
theorem C41_particles_none (rho L : ℝ) :
    ∃ e, particle_number_to_particle_mass rho L none none = .error e := ⟨_, rfl⟩

/-- The number of particles that resolves a halo of mass `M` with `k` particles is the one of
the particle mass `M/k`.  False: the function returns a mass. -/
theorem C41_false_halo :
    ¬ ∀ rho L M k : ℝ, 0 < rho → 0 < L → 0 < M → 0 < k →
      halo_mass_to_particle_number rho L M k =
        .ok (ParticleMass_to_ParticleNumber rho L (M / k)) := by
  intro h
  have h1 := h 1 1 8 1 one_pos one_pos (by norm_num) one_pos
  simp only [halo_mass_to_particle_number, particle_number_to_particle_mass,
    ParticleMass_to_ParticleNumber, Except.ok.injEq] at h1
  have e : (1 : ℝ) / (8 / 1) = (1 / 2) ^ 3 := by norm_num
  rw [e, cbrt_of_cube _ (by norm_num)] at h1
  norm_num at h1

/-- What it returns instead: the mass `m` of the particles if there are `M/k` of them per direction, so that they hold the
mass of the box.  It is the number `n` asked for, that of particles of the mass `M/k`, only if `n = M/k`. -/
theorem C41_halo_partial (rho L M k : ℝ) (hr : 0 < rho) (hL : 0 < L) (hM : 0 < M) (hk : 0 < k) :
    ∃ m, halo_mass_to_particle_number rho L M k = .ok m ∧ 0 < m ∧ (M / k) ^ 3 * m = rho * L ^ 3 ∧
      ∀ n : ℝ, 0 ≤ n → n ^ 3 * (M / k) = rho * L ^ 3 → (m = n ↔ n = M / k) := by
  have hq : 0 < M / k := by positivity
  refine ⟨rho * (L / (M / k)) ^ 3, rfl, by positivity, ?_, fun n hn h => ?_⟩
  · generalize M / k = q at hq
    field_simp
  · generalize M / k = q at hq h
    have hn0 : n ≠ 0 := by
      rintro rfl
      have : 0 < rho * L ^ 3 := by positivity
      norm_num at h
      rcases h with h | h <;> linarith
    have e : rho * (L / q) ^ 3 = n * n ^ 2 / q ^ 2 := by
      rw [div_pow, mul_div_assoc', ← h]
      field_simp
    rw [e, div_eq_iff (by positivity), mul_right_inj' hn0]
    exact pow_left_inj₀ hn hq.le two_ne_zero

example : (∃ m, halo_mass_to_particle_number (4 * 10 ^ 10) 100 (10 ^ 9) 20 = .ok m ∧ (10 ^ 9 / 20) ^ 3 * m = 4 * 10 ^ 10 * 100 ^ 3) := by
  obtain ⟨m, h1, -, h2, -⟩ := C41_halo_partial (4 * 10 ^ 10) 100 (10 ^ 9) 20 (by norm_num) (by norm_num) (by norm_num) (by norm_num)
  exact ⟨m, h1, h2⟩

/-! ## C81 -/

/-- Rayleigh–Jeans: flux in jansky of a temperature `t` in mK within the solid angle `omega`
at the frequency `nu` in MHz. -/
noncomputable def fluxJy (t omega nu : ℝ) : ℝ :=
  2 * (1380649 / 10 ^ 29) * (t / 1000) * (nu * 10 ^ 6) ^ 2 / 299792458 ^ 2 * omega * 10 ^ 26

/-- Solid angle of one of `n × n` pixels of a box of `L` cMpc at the comoving distance `d`. -/
noncomputable def pixel (L d : ℝ) (n : ℕ) : ℝ := (L / d / n) ^ 2

/-- The code multiplies the flux in jansky by `10^6`: it returns micro-jansky. -/
theorem C81_partial {ι : Type*} (k : Const) (v : Conv) (s : ℕ) (a : ι → ℝ) (z L : ℝ) (n : ℕ)
    (hL : L ≠ 0) (hn : n ≠ 0) (i : ι) :
    kelvin_2_jansky k v s a z (some L) (some n) i =
      10 ^ 6 * fluxJy (a i) (pixel L (cdist k z) n) (z_to_nu z) := by
  have e : boxsizeOr v.LB (some L) = L := by simp [boxsizeOr, hL]
  simp only [kelvin_2_jansky, kelvin_jansky_conversion, e, ncellsOr, if_neg hn, fluxJy, pixel,
    kbSI, cLightSI, janskyToWatt]
  generalize cdist k z = d
  ring

example : (200 : ℝ) ≠ 0 ∧ 256 ≠ 0 := by norm_num

/-- Defaults: the simulation box and the first axis of the array; `0` counts as not given. -/
theorem C81_defaults {ι : Type*} (k : Const) (v : Conv) (s : ℕ) (a : ι → ℝ) (z : ℝ)
    (hL : (v.LB : ℝ) ≠ 0) (hs : s ≠ 0) :
    kelvin_2_jansky k v s a z none none = kelvin_2_jansky k v s a z (some v.LB) (some s) ∧
    kelvin_2_jansky k v s a z (some 0) (some 0) = kelvin_2_jansky k v s a z none none ∧
    jansky_2_kelvin k v s a z none none = jansky_2_kelvin k v s a z (some v.LB) (some s) ∧
    jansky_2_kelvin k v s a z (some 0) (some 0) = jansky_2_kelvin k v s a z none none := by
  refine ⟨funext fun i => ?_, funext fun i => ?_, funext fun i => ?_, funext fun i => ?_⟩ <;>
    simp [kelvin_2_jansky, jansky_2_kelvin, kelvin_jansky_conversion, boxsizeOr, ncellsOr, hs]

example : (((State.init 3 fun x => x).conv.LB : ℚ) : ℝ) ≠ 0 ∧ 256 ≠ 0 := by
  norm_num [State.init, Conv.derive, Const.init]

end Verif.Conversions
