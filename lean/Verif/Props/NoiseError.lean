import Verif.Model.NoiseError
import Verif.Props.Distances
import Mathlib.Analysis.Convex.Deriv
import Mathlib.Analysis.Convex.Slope
import Mathlib.Tactic.FieldSimp
import Mathlib.Tactic.Linarith
import Mathlib.Tactic.Positivity
import Mathlib.Tactic.NormNum
import Mathlib.Tactic.Ring
/-!
# C132: the analytical error of the power spectrum
-/

namespace Verif.NoiseError

open Verif.Constants Verif.Conversions
open Verif.Binning (nu_to_cdist)

/-! ## Specification -/

/-- An interferometer: radius of the core and area of a station in square metres, number of stations, system temperature in
mK, bandwidth in MHz. -/
structure Array where
  radius : ℝ
  area : ℝ
  stations : ℝ
  temperature : ℝ
  bandwidth : ℝ

/-- The depth in Mpc of a band above the frequency. -/
noncomputable def depth (cst : Const) (nu B : ℝ) : ℝ := cdist cst (1420 / nu - 1) - cdist cst (1420 / (nu + B) - 1)

/-- Equation 11 of Mellema et al. (2013) with the bins `epsilon * k` wide, in SI units: temperature per thermal noise of the
band, area of the core over the collecting area, and the volume of the field of view. -/
noncomputable def mellema (cst : Const) (a : Array) (nu hours k epsilon : ℝ) : ℝ :=
  let wavelength := (300000 * 1000) / (nu * 1000000)
  let volume := cdist cst (1420 / nu - 1) ^ 2 * depth cst nu a.bandwidth * (wavelength ^ 2 / a.area)
  2 / Real.pi * Real.sqrt (k ^ 3 * volume / epsilon) * (a.temperature ^ 2 / (a.bandwidth * 1000000 * (3600 * hours))) *
    (Real.pi * a.radius ^ 2 / (a.stations ^ 2 * a.area))

/-- The options of an array. -/
noncomputable def Array.options (a : Array) (epsilon l : ℝ) : Options :=
  { Rmax := some a.radius, Aeff := some (.number a.area), Nstat := some a.stations, Tsys := some (.number a.temperature),
    B := some a.bandwidth, epsilon := some epsilon, multipole := some l }

/-- Positive numbers everywhere. -/
structure Array.Real (a : Array) : Prop where
  radius : 0 < a.radius
  area : 0 < a.area
  stations : 0 < a.stations
  temperature : 0 < a.temperature
  bandwidth : 0 < a.bandwidth

/-! ## Depth of the band -/

theorem depth_pos {cst : Const} (p : Physical cst) {nu B : ℝ} (hn : 0 < nu) (hB : 0 < B) : 0 < depth cst nu B := by
  unfold depth
  have h1 : (-1 : ℝ) < 1420 / (nu + B) - 1 := by
    have : 0 < 1420 / (nu + B) := by positivity
    linarith
  have h2 : 1420 / (nu + B) - 1 < 1420 / nu - 1 := by
    have : 1420 / (nu + B) < 1420 / nu := by
      rw [div_lt_div_iff₀ (by positivity) hn]
      nlinarith
    linarith
  have := C78_monotone cst p h1 h2
  linarith

theorem depth_eq {cst : Const} (p : Physical cst) {nu B : ℝ} (hn : 0 < nu) (hB : 0 < B) :
    |nu_to_cdist cst nu - nu_to_cdist cst (nu + B)| = depth cst nu B := by
  have h := depth_pos p hn hB
  have e : nu_to_cdist cst nu - nu_to_cdist cst (nu + B) = depth cst nu B := rfl
  rw [e, abs_of_pos h]

/-! ## C132 -/

theorem rpow_three_half {k : ℝ} (hk : 0 ≤ k) : k ^ (3 / 2 : ℝ) = Real.sqrt (k ^ 3) := by
  rw [Real.sqrt_eq_rpow, ← Real.rpow_natCast k 3, ← Real.rpow_mul hk]
  norm_num

/-- The value in SI units. -/
theorem value_eq {cst : Const} (p : Physical cst) {a : Array} (ha : a.Real) {nu t k epsilon l : ℝ} (hn : 0 < nu)
    (ht : 0 < t) (hk : 0 ≤ k) (he : 0 < epsilon) :
    noiseValue cst nu t (a.options epsilon l) k = Real.sqrt (2 * l + 1) * mellema cst a nu t k epsilon := by
  obtain ⟨h1, h2, h3, h4, h5⟩ := ha
  unfold noiseValue mellema Array.options
  simp only [Option.getD_some, Param.at]
  rw [depth_eq p hn h5, rpow_three_half hk]
  have hd := depth_pos p hn h5
  have ew : c / nu * (1 / 1000) = 300000 * 1000 / (nu * 1000000) := by
    unfold c
    field_simp
    norm_num
  rw [ew]
  have hD : nu_to_cdist cst nu = cdist cst (1420 / nu - 1) := rfl
  rw [hD]
  generalize hV : cdist cst (1420 / nu - 1) ^ 2 * depth cst nu a.bandwidth *
    ((300000 * 1000 / (nu * 1000000)) ^ 2 / a.area) = V
  have hV0 : 0 ≤ V := by
    rw [← hV]
    positivity
  rw [Real.sqrt_div (by positivity), Real.sqrt_mul (by positivity : 0 ≤ k ^ 3), div_pow, Real.sq_sqrt (by positivity)]
  have hs : 0 < Real.sqrt epsilon := Real.sqrt_pos.2 he
  field_simp
  ring

/-- **C132.** With numbers for the parameters the error of every mode is that of Mellema et al. (2013), times
`√(2 l + 1)` for the multipole `l`. -/
theorem C132_formula {cst : Const} (p : Physical cst) {a : Array} (ha : a.Real) {nu t epsilon l : ℝ} (hn : 0 < nu)
    (ht : 0 < t) (he : 0 < epsilon) :
    (∀ k, 0 ≤ k → noiseError cst nu (.number k) t (a.options epsilon l) =
      .ok (.number (Real.sqrt (2 * l + 1) * mellema cst a nu t k epsilon))) ∧
    ∀ ks : List ℝ, (∀ k ∈ ks, 0 ≤ k) → noiseError cst nu (.array ks) t (a.options epsilon l) =
      .ok (.array (ks.map fun k => Real.sqrt (2 * l + 1) * mellema cst a nu t k epsilon)) := by
  constructor
  · intro k hk
    unfold noiseError
    simp only []
    rw [value_eq p ha hn ht hk he]
  · intro ks hks
    unfold noiseError
    simp only []
    rw [List.map_congr_left fun k hk => value_eq p ha hn ht (hks k hk) he]

/-- A LOFAR-like array at the frequency. -/
noncomputable def lofar (nu : ℝ) : Array :=
  { radius := 1500, area := 526 * (150 / nu) ^ 2, stations := 48, temperature := (140 + 60 * (nu / 300) ^ (-2.55 : ℝ)) * 1000,
    bandwidth := 10 }

/-- **C132, defaults.** Without options the array is like LOFAR, bins are as wide as their mode and the error is that of the
monopole. -/
theorem C132_default {cst : Const} (p : Physical cst) {nu t k : ℝ} (hn : 0 < nu) (ht : 0 < t) (hk : 0 ≤ k) :
    noiseError cst nu (.number k) t {} = .ok (.number (mellema cst (lofar nu) nu t k 1)) := by
  have ha : (lofar nu).Real := ⟨by norm_num [lofar], by unfold lofar; positivity, by norm_num [lofar],
    by unfold lofar; positivity, by norm_num [lofar]⟩
  have h := (C132_formula p ha (epsilon := 1) (l := 0) hn ht one_pos).1 k hk
  rw [mul_zero, zero_add, Real.sqrt_one, one_mul] at h
  rw [← h]
  have hA : 526 * (nu / 150) ^ (-2 : ℝ) = 526 * (150 / nu) ^ 2 := by
    rw [Real.rpow_neg (by positivity), ← Real.inv_rpow (by positivity), inv_div]
    norm_num
  unfold noiseError noiseValue Array.options lofar
  simp only [Option.getD_none, Option.getD_some, Param.at, hA]

/-- **C132, functions.** A function for the area or the temperature acts by its value at the frequency. -/
theorem C132_function (cst : Const) (nu t : ℝ) (k : Arg) (f g : ℝ → ℝ) (o : Options) :
    noiseError cst nu k t { o with Aeff := some (.function f), Tsys := some (.function g) } =
      noiseError cst nu k t { o with Aeff := some (.number (f nu)), Tsys := some (.number (g nu)) } := rfl

/-- **C132, scaling.** Longer observations, more stations and wider bins reduce the error by the factors of the radiometer
equation; so do smaller cores and temperatures. -/
theorem C132_scaling (cst : Const) (a : Array) (nu t k epsilon s : ℝ) (hs : 0 < s) :
    mellema cst a nu (s * t) k epsilon = mellema cst a nu t k epsilon / s ∧
    mellema cst { a with stations := s * a.stations } nu t k epsilon = mellema cst a nu t k epsilon / s ^ 2 ∧
    mellema cst { a with temperature := s * a.temperature } nu t k epsilon = mellema cst a nu t k epsilon * s ^ 2 ∧
    mellema cst { a with radius := s * a.radius } nu t k epsilon = mellema cst a nu t k epsilon * s ^ 2 ∧
    mellema cst a nu t (s ^ 2 * k) epsilon = mellema cst a nu t k epsilon * s ^ 3 ∧
    mellema cst a nu t k (s ^ 2 * epsilon) = mellema cst a nu t k epsilon / s := by
  unfold mellema
  refine ⟨?_, ?_, ?_, ?_, ?_, ?_⟩ <;> simp only []
  · ring
  · ring
  · ring
  · ring
  · generalize cdist cst (1420 / nu - 1) ^ 2 * depth cst nu a.bandwidth *
      ((300000 * 1000 / (nu * 1000000)) ^ 2 / a.area) = V
    rw [show (s ^ 2 * k) ^ 3 * V / epsilon = (s ^ 3) ^ 2 * (k ^ 3 * V / epsilon) by ring,
      Real.sqrt_mul (by positivity), Real.sqrt_sq (by positivity)]
    ring
  · generalize cdist cst (1420 / nu - 1) ^ 2 * depth cst nu a.bandwidth *
      ((300000 * 1000 / (nu * 1000000)) ^ 2 / a.area) = V
    rw [show k ^ 3 * V / (s ^ 2 * epsilon) = (1 / s) ^ 2 * (k ^ 3 * V / epsilon) by ring,
      Real.sqrt_mul (by positivity), Real.sqrt_sq (by positivity)]
    ring

example (cst : Const) (a : Array) := C132_scaling cst a 150 1000 0.1 0.5 4 (by norm_num)

/-- **C132, area.** Larger stations reduce the error, to the power `-3/2` of their area. -/
theorem C132_area (cst : Const) (a : Array) (nu t k epsilon s : ℝ) (hs : 0 < s) :
    mellema cst { a with area := s ^ 2 * a.area } nu t k epsilon = mellema cst a nu t k epsilon / s ^ 3 := by
  unfold mellema
  simp only []
  rw [show ∀ x y : ℝ, k ^ 3 * (x * (y / (s ^ 2 * a.area))) / epsilon =
    (1 / s) ^ 2 * (k ^ 3 * (x * (y / a.area)) / epsilon) from fun x y => by ring, Real.sqrt_mul (by positivity),
    Real.sqrt_sq (by positivity)]
  ring

example (cst : Const) (a : Array) := C132_area cst a 150 1000 0.1 0.5 4 (by norm_num)

/-- **C132, positive.** The error is positive, for every frequency below that of the line. -/
theorem C132_positive {cst : Const} (p : Physical cst) {a : Array} (ha : a.Real) {nu t k epsilon : ℝ} (hn : 0 < nu)
    (hn1 : nu < 1420) (ht : 0 < t) (hk : 0 < k) (he : 0 < epsilon) : 0 < mellema cst a nu t k epsilon := by
  obtain ⟨h1, h2, h3, h4, h5⟩ := ha
  have hd := depth_pos p hn h5
  have hD : 0 < cdist cst (1420 / nu - 1) := cdist_pos p (by
    have : 1 < 1420 / nu := (one_lt_div hn).2 hn1
    linarith)
  unfold mellema
  simp only []
  positivity

/-! ### Bandwidth -/

theorem distance_deriv {cst : Const} (p : Physical cst) {x : ℝ} (hx : 0 < x) :
    HasDerivAt (fun x => cdist cst (1420 / x - 1))
      (-(300000 * 1420 / (cst.H0 * Real.sqrt (cst.omega0 * 1420 ^ 3 * x + cst.lam * x ^ 4)))) x := by
  have hz : (-1 : ℝ) < 1420 / x - 1 := by
    have : 0 < 1420 / x := by positivity
    linarith
  have h1 := (C78_distance cst p).2 _ hz
  have h2 : HasDerivAt (fun x : ℝ => 1420 / x - 1) (-(1420 / x ^ 2)) x := by
    have := ((hasDerivAt_inv hx.ne').const_mul (1420 : ℝ)).sub_const 1
    refine this.congr_deriv ?_
    ring
  have h3 := h1.comp x h2
  refine h3.congr_deriv ?_
  have e : Real.sqrt (cst.omega0 * 1420 ^ 3 * x + cst.lam * x ^ 4) =
      x ^ 2 * Real.sqrt (cst.omega0 * (1 + (1420 / x - 1)) ^ 3 + cst.lam) := by
    rw [show (cst.omega0 * 1420 ^ 3 * x + cst.lam * x ^ 4 : ℝ) =
      (x ^ 2) ^ 2 * (cst.omega0 * (1 + (1420 / x - 1)) ^ 3 + cst.lam) by field_simp; ring,
      Real.sqrt_mul (by positivity), Real.sqrt_sq (by positivity)]
  rw [e]
  unfold hubble_parameter
  have hr := Real.sqrt_pos.2 (rate_pos p hz)
  have := p.hubble'
  field_simp

theorem distance_convex {cst : Const} (p : Physical cst) :
    ConvexOn ℝ (Set.Ioi 0) fun x => cdist cst (1420 / x - 1) := by
  refine MonotoneOn.convexOn_of_deriv (convex_Ioi 0) ?_ ?_ ?_
  · intro x hx
    exact (distance_deriv p hx).continuousAt.continuousWithinAt
  · rw [interior_Ioi]
    intro x hx
    exact (distance_deriv p hx).differentiableAt.differentiableWithinAt
  · rw [interior_Ioi]
    intro x hx y hy hxy
    rw [(distance_deriv p hx).deriv, (distance_deriv p hy).deriv]
    have hx : (0 : ℝ) < x := hx
    have hy : (0 : ℝ) < y := hy
    have h1 := p.hubble'
    have h2 := p.matter'
    have h3 := p.lam'
    have hs : 0 < Real.sqrt (cst.omega0 * 1420 ^ 3 * x + cst.lam * x ^ 4) := Real.sqrt_pos.2 (by positivity)
    apply neg_le_neg
    gcongr

/-- **C132, bandwidth.** The error decreases with the bandwidth. -/
theorem C132_bandwidth {cst : Const} (p : Physical cst) {a : Array} (ha : a.Real) {nu t k epsilon : ℝ} (hn : 0 < nu)
    (hn1 : nu < 1420) (ht : 0 < t) (hk : 0 < k) (he : 0 < epsilon) {B : ℝ} (hB : a.bandwidth < B) :
    mellema cst { a with bandwidth := B } nu t k epsilon < mellema cst a nu t k epsilon := by
  obtain ⟨h1, h2, h3, h4, h5⟩ := ha
  have hB0 : 0 < B := h5.trans hB
  have hd1 := depth_pos p hn h5
  have hd2 := depth_pos p hn hB0
  have hD : 0 < cdist cst (1420 / nu - 1) := cdist_pos p (by
    have : 1 < 1420 / nu := (one_lt_div hn).2 hn1
    linarith)
  have hsec : depth cst nu B / B ≤ depth cst nu a.bandwidth / a.bandwidth := by
    have := (distance_convex p).secant_mono (a := nu) (x := nu + a.bandwidth) (y := nu + B) hn
      (Set.mem_Ioi.2 (by positivity)) (Set.mem_Ioi.2 (by positivity)) (by linarith) (by linarith) (by linarith)
    rw [add_sub_cancel_left, add_sub_cancel_left] at this
    unfold depth
    have e : ∀ u v w : ℝ, (u - v) / w = -((v - u) / w) := fun u v w => by ring
    rw [e, e _ _ a.bandwidth]
    exact neg_le_neg this
  have key : depth cst nu B / B ^ 2 < depth cst nu a.bandwidth / a.bandwidth ^ 2 := by
    have e : ∀ d w : ℝ, d / w ^ 2 = d / w * (1 / w) := fun d w => by ring
    rw [e, e]
    have h6 : 1 / B < 1 / a.bandwidth := one_div_lt_one_div_of_lt h5 hB
    exact mul_lt_mul' hsec h6 (by positivity) (by positivity)
  -- the error is a positive number times the square root of depth / B²
  have form : ∀ b, 0 < b → 0 < depth cst nu b → mellema cst { a with bandwidth := b } nu t k epsilon =
      2 / Real.pi * Real.sqrt (k ^ 3 * (cdist cst (1420 / nu - 1) ^ 2 *
        ((300000 * 1000 / (nu * 1000000)) ^ 2 / a.area)) / epsilon) *
      (a.temperature ^ 2 / (1000000 * (3600 * t))) * (Real.pi * a.radius ^ 2 / (a.stations ^ 2 * a.area)) *
      Real.sqrt (depth cst nu b / b ^ 2) := by
    intro b hb hdb
    unfold mellema
    simp only []
    rw [Real.sqrt_div hdb.le, Real.sqrt_sq hb.le]
    rw [show k ^ 3 * (cdist cst (1420 / nu - 1) ^ 2 * depth cst nu b * ((300000 * 1000 / (nu * 1000000)) ^ 2 / a.area)) /
      epsilon = k ^ 3 * (cdist cst (1420 / nu - 1) ^ 2 * ((300000 * 1000 / (nu * 1000000)) ^ 2 / a.area)) /
      epsilon * depth cst nu b by ring, Real.sqrt_mul (by positivity)]
    ring
  have f1 := form B hB0 hd2
  have f2 := form a.bandwidth h5 hd1
  rw [f1]
  have f2' : mellema cst a nu t k epsilon = _ := f2
  rw [f2']
  exact mul_lt_mul_of_pos_left (Real.sqrt_lt_sqrt (by positivity) key) (by positivity)

/-- **C132 is false for lists**: `k` is documented as array-like, but a list of modes raises. -/
theorem C132_list_false (cst : Const) (nu t : ℝ) (ks : List ℝ) (o : Options) :
    noiseError cst nu (.list ks) t o = .error "TypeError" := rfl

/-! ## Examples -/

example : noiseError (Const.init 3) 150 (.number (1 / 10)) 1000 {} =
    .ok (.number (mellema (Const.init 3) (lofar 150) 150 1000 (1 / 10) 1)) :=
  C132_default physical_init (by norm_num) (by norm_num) (by norm_num)

theorem lofar_real {nu : ℝ} (hn : 0 < nu) : (lofar nu).Real := ⟨by norm_num [lofar], by unfold lofar; positivity,
  by norm_num [lofar], by unfold lofar; positivity, by norm_num [lofar]⟩

example : mellema (Const.init 3) { lofar 150 with bandwidth := 20 } 150 1000 (1 / 10) 1 <
    mellema (Const.init 3) (lofar 150) 150 1000 (1 / 10) 1 :=
  C132_bandwidth physical_init (lofar_real (by norm_num)) (by norm_num) (by norm_num) (by norm_num) (by norm_num)
    (by norm_num) (by norm_num [lofar])

example : 0 < mellema (Const.init 3) (lofar 150) 150 1000 (1 / 10) 1 :=
  C132_positive physical_init (lofar_real (by norm_num)) (by norm_num) (by norm_num) (by norm_num) (by norm_num)
    (by norm_num)

end Verif.NoiseError
