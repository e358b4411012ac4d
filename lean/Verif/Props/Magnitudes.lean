import Verif.Model.Magnitudes
import Mathlib.Tactic.FieldSimp
import Mathlib.Tactic.Linarith
import Mathlib.Tactic.Positivity
import Mathlib.Tactic.NormNum
import Mathlib.Tactic.Ring
/-!
# C130: magnitudes, fluxes and fields of view
-/

namespace Verif.Magnitudes

/-! ## Specification -/

/-- A cosmology without curvature: the luminosity distance is `(1 + z)` times the comoving distance, and the distance
modulus is five times the logarithm of the luminosity distance in units of 10 pc. -/
def Flat (k : Cosmology) : Prop :=
  ∀ z, 0 < z → 0 < k.comoving z ∧ k.distmod z = 5 * Real.logb 10 ((1 + z) * k.comoving z / 1e-5)

/-- Flux density at distance `d`, in Mpc, of a source with luminosity `L` per frequency, seen at redshift `z`: the
luminosity is that at the emitted frequency, and frequency intervals shrink by `1 + z`. -/
noncomputable def received (L d z : ℝ) : ℝ := (1 + z) * L / (4 * Real.pi * d ^ 2)

/-- AB magnitude `m` of a flux density `f`. -/
def IsMagnitude (f m : ℝ) : Prop := ∃ f0, IsZeroPoint f0 ∧ 0 < f ∧ m = -2.5 * Real.logb 10 (f / f0)
where
  /-- The zero point of AB magnitudes, 3631 Jy, to four digits. -/
  IsZeroPoint (f0 : ℝ) : Prop := |f0 / 3631e-23 - 1| < 1e-4

/-! ## Flux -/

theorem zero_point : |(10 : ℝ) ^ (-19.44 : ℝ) / 3631e-23 - 1| < 1e-4 := by
  have e : ((10 : ℝ) ^ (0.56 : ℝ)) ^ (25 : ℕ) = 10 ^ (14 : ℕ) := by
    rw [← Real.rpow_natCast, ← Real.rpow_mul (by norm_num), ← Real.rpow_natCast]
    norm_num
  have e2 : (10 : ℝ) ^ (-19.44 : ℝ) = 10 ^ (0.56 : ℝ) / 10 ^ (20 : ℕ) := by
    rw [← Real.rpow_natCast, ← Real.rpow_sub (by norm_num)]
    norm_num
  have hx : 0 < (10 : ℝ) ^ (0.56 : ℝ) := by positivity
  rw [e2]
  generalize (10 : ℝ) ^ (0.56 : ℝ) = x at e hx
  have h1 : x < 3.6313 := by
    by_contra h
    have := pow_le_pow_left₀ (by norm_num) (not_lt.1 h) 25
    rw [e] at this
    norm_num at this
  have h2 : 3.6307 < x := by
    by_contra h
    have := pow_le_pow_left₀ hx.le (not_lt.1 h) 25
    rw [e] at this
    norm_num at this
  rw [div_div, abs_lt]
  norm_num at h1 h2 ⊢
  constructor <;> linarith

theorem flux_split (m : ℝ) : (10 : ℝ) ^ (-(m + 48.60) / 2.5) = 10 ^ (-0.4 * m) * 10 ^ (-19.44 : ℝ) := by
  rw [← Real.rpow_add (by norm_num)]
  congr 1
  norm_num
  ring

/-- **C130, flux.** The result is the flux density of which the argument is the magnitude: one quantity. -/
theorem C130_flux (m : ℝ) : ∃ f, magToFlux (.number m) = .ok [f] ∧ IsMagnitude f m := by
  refine ⟨_, rfl, (10 : ℝ) ^ (-19.44 : ℝ), zero_point, by positivity, ?_⟩
  simp only []
  rw [flux_split, mul_div_cancel_right₀ _ (by positivity), Real.logb_rpow (by norm_num) (by norm_num)]
  ring

/-- **C130, flux ratios.** Five magnitudes are a factor of one hundred, for all kinds of arguments that are accepted. -/
theorem C130_ratio (x : List ℝ) : ∃ f g, magToFlux (.quantity x 1) = .ok f ∧
    magToFlux (.quantity (x.map fun m => m + 5) 1) = .ok g ∧ f = g.map fun y => 100 * y := by
  refine ⟨_, _, rfl, rfl, ?_⟩
  rw [List.map_map, List.map_map, List.map_map, List.map_map]
  refine List.map_congr_left fun m _ => ?_
  simp only [Function.comp, mul_one]
  rw [show -(m + 48.60) / 2.5 = -(m + 5 + 48.60) / 2.5 + (2 : ℕ) by push_cast; norm_num; ring,
    Real.rpow_add (by norm_num), Real.rpow_natCast]
  norm_num
  ring

/-! ## Apparent and absolute magnitudes -/

/-- **C130, apparent magnitudes (partial).** For an array of absolute magnitudes the results are the magnitudes of the
fluxes received from sources which at 10 pc would have the absolute magnitudes. Missing: numbers and quantities, for which
the call raises (`C130_false`). -/
theorem C130_partial {k : Cosmology} (hk : Flat k) (x : List ℝ) {z : ℝ} (hz : 0 < z) :
    ∃ y, absToApp k (.array x) z = .ok (.array y) ∧ y.length = x.length ∧ ∀ i (hi : i < x.length) (hj : i < y.length),
      ∀ f g, magToFlux (.number x[i]) = .ok [f] → magToFlux (.number y[i]) = .ok [g] →
        g = received (f * (4 * Real.pi * 1e-5 ^ 2)) ((1 + z) * k.comoving z) z := by
  obtain ⟨hD, hd⟩ := hk z hz
  refine ⟨_, rfl, by rw [List.length_map], ?_⟩
  intro i hi hj f g hf hg
  have hf' : f = 10 ^ (-(x[i] + 48.60) / 2.5) := by
    have : [(10 : ℝ) ^ (-(x[i] + 48.60) / 2.5)] = [f] := Except.ok.inj hf
    exact ((List.cons.inj this).1).symm
  have hg' : g = 10 ^ (-(x[i] + k.distmod z - kCorrection z + 48.60) / 2.5) := by
    have : [(10 : ℝ) ^ (-((x.map fun y => y + k.distmod z - kCorrection z)[i] + 48.60) / 2.5)] = [g] := Except.ok.inj hg
    rw [← (List.cons.inj this).1, List.getElem_map]
  have hz1 : 0 < 1 + z := by linarith
  have hr : 0 < (1 + z) * k.comoving z / 1e-5 := by positivity
  rw [hf', hg', hd]
  unfold kCorrection received
  rw [show -(x[i] + 5 * Real.logb 10 ((1 + z) * k.comoving z / 1e-5) - 2.5 * Real.logb 10 (1 + z) + 48.60) / 2.5 =
    -(x[i] + 48.60) / 2.5 + Real.logb 10 ((1 + z) * k.comoving z / 1e-5) * (-2 : ℤ) + Real.logb 10 (1 + z) by
      push_cast; norm_num; ring, Real.rpow_add (by norm_num), Real.rpow_add (by norm_num), Real.rpow_mul (by norm_num),
    Real.rpow_logb (by norm_num) (by norm_num) hr, Real.rpow_logb (by norm_num) (by norm_num) hz1, Real.rpow_intCast]
  have : Real.pi ≠ 0 := Real.pi_ne_zero
  simp only [zpow_neg, zpow_ofNat]
  field_simp

/-- **C130, absolute magnitudes.** The absolute magnitude of a number or a quantity is the one from which the apparent
magnitude follows. -/
theorem C130_inverse (k : Cosmology) (m z : ℝ) : ∃ M, appToAbs k (.number m) z = .ok (.quantity [M]) ∧
    appToAbs k (.quantity [m] 1) z = .ok (.quantity [M]) ∧ absToApp k (.array [M]) z = .ok (.array [m]) := by
  refine ⟨m - k.distmod z + kCorrection z, rfl, ?_, ?_⟩
  · simp [appToAbs]
  · simp only [absToApp, List.map_cons, List.map_nil]
    congr 3
    ring

/-- **C130 is false**: for numbers and quantities, which are the documented argument, `Muv_to_muv` raises. -/
theorem C130_false {k : Cosmology} {z : ℝ} (hz : 0 < z) (M u : ℝ) (x : List ℝ) :
    absToApp k (.number M) z = .error .units ∧ absToApp k (.quantity x u) z = .error .units := by
  have : kCorrection z ≠ 0 := by
    unfold kCorrection
    have : 0 < Real.logb 10 (1 + z) := Real.logb_pos (by norm_num) (by linarith)
    positivity
  unfold absToApp
  simp only []
  exact ⟨if_pos (Or.inr this), if_pos (Or.inr this)⟩

/-- **C130 is false for arrays**: `muv_to_Muv` and `mag_to_flux` raise for arrays without a unit. -/
theorem C130_array_false (k : Cosmology) (z : ℝ) {x : List ℝ} (hx : ∃ y ∈ x, y ≠ 0) :
    appToAbs k (.array x) z = .error .units ∧ magToFlux (.array x) = .error .attribute := by
  refine ⟨?_, rfl⟩
  unfold appToAbs
  simp only []
  rw [if_pos hx]

/-- **C130 is false for luminosities**: `Muv_to_L1500` raises for all arguments. -/
theorem C130_luminosity_false (M : Arg) : absToL1500 M = .error .unbound := by
  unfold absToL1500
  rw [show (l1500Frame M).read "Muv" = .error .unbound from rfl]

/-! ## Fields of view -/

/-- **C130, fields of view.** The area of a field with a unit is its solid angle times the square of the comoving distance;
a square degree is `(π/180)²`. -/
theorem C130_field (k : Cosmology) (x : List ℝ) (z : ℝ) :
    fovCMpc2 k (.quantity x ((Real.pi / 180) ^ 2)) z =
      .ok (x.map fun y => (k.comoving z * (Real.pi / 180)) ^ 2 * y) := by
  unfold fovCMpc2 Arg.read
  simp only [List.map_map]
  congr 1
  refine List.map_congr_left fun y _ => ?_
  simp only [Function.comp]
  ring

/-- **C130 is false for numbers**, which are taken for square radians and not for square degrees: the area is more than
three thousand times too large. -/
theorem C130_field_false {k : Cosmology} {z : ℝ} (hD : 0 < k.comoving z) {x : ℝ} (hx : 0 < x) :
    ∃ a b, fovCMpc2 k (.number x) z = .ok [a] ∧ fovCMpc2 k (.quantity [x] ((Real.pi / 180) ^ 2)) z = .ok [b] ∧
      3000 * b < a := by
  refine ⟨_, _, rfl, rfl, ?_⟩
  have h1 := Real.pi_lt_d2
  have h2 := Real.pi_pos
  have h3 : 3000 * (Real.pi / 180) ^ 2 < 1 := by
    rw [div_pow, ← mul_div_assoc, div_lt_one (by norm_num)]
    nlinarith
  have h4 : 0 < x * k.comoving z ^ 2 := by positivity
  calc 3000 * (x * (Real.pi / 180) ^ 2 * k.comoving z ^ 2) = 3000 * (Real.pi / 180) ^ 2 * (x * k.comoving z ^ 2) := by ring
    _ < 1 * (x * k.comoving z ^ 2) := mul_lt_mul_of_pos_right h3 h4
    _ = _ := one_mul _

/-! ## Examples -/

/-- A cosmology with distances proportional to the redshift. -/
noncomputable def hubble : Cosmology := ⟨fun z => 4282 * z, fun z => 5 * Real.logb 10 ((1 + z) * (4282 * z) / 1e-5)⟩

theorem hubble_flat : Flat hubble := fun z hz => ⟨by unfold hubble; positivity, rfl⟩

example : ∃ y, absToApp hubble (.array [-20, -18]) 7 = .ok (.array y) ∧ y.length = [-20, -18].length ∧
    ∀ i (hi : i < [-20, -18].length) (hj : i < y.length), ∀ f g,
      magToFlux (.number ([-20, -18] : List ℝ)[i]) = .ok [f] → magToFlux (.number y[i]) = .ok [g] →
        g = received (f * (4 * Real.pi * 1e-5 ^ 2)) ((1 + 7) * hubble.comoving 7) 7 :=
  C130_partial hubble_flat _ (by norm_num)

example : ∃ a b, fovCMpc2 hubble (.number 4) 7 = .ok [a] ∧
    fovCMpc2 hubble (.quantity [4] ((Real.pi / 180) ^ 2)) 7 = .ok [b] ∧ 3000 * b < a :=
  C130_field_false (by unfold hubble; norm_num) (by norm_num)

example : appToAbs hubble (.array [25, 26]) 7 = .error .units ∧ magToFlux (.array [25, 26]) = .error .attribute :=
  C130_array_false _ _ ⟨25, by simp, by norm_num⟩

end Verif.Magnitudes
