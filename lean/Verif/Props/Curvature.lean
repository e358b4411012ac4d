import Verif.Model.Curvature
import Mathlib.Analysis.SpecialFunctions.Integrals.Basic
import Mathlib.Analysis.SpecialFunctions.Trigonometric.DerivHyp
import Mathlib.Analysis.SpecialFunctions.Trigonometric.ArctanDeriv
import Mathlib.Tactic.Ring
import Mathlib.Tactic.FieldSimp
import Mathlib.Tactic.Linarith
import Mathlib.Tactic.Positivity
/-!
# The luminosity distance in curved space

C234: `luminosity_distance(z, k)` is the distance of the Friedmann model.
-/

set_option linter.unusedVariables false

namespace Verif.Curvature

open Verif.Constants Verif.Conversions

/-! ## Specification -/

/-- The square of the expansion rate, in units of today's. -/
noncomputable def friedmann (m l x : ℝ) : ℝ :=
  m * (1 + x) ^ 3 + (1 - m - l) * (1 + x) ^ 2 + l

/-- The comoving distance in units of the Hubble length. -/
noncomputable def comoving (m l z : ℝ) : ℝ := ∫ x in (0 : ℝ)..z, 1 / Real.sqrt (friedmann m l x)

/-- The radius of a sphere at distance `d` in a space of curvature parameter `k`: the
solution of `S'' = k S` with `S(0) = 0` and `S'(0) = 1`. -/
structure IsRadius (k : ℝ) (S C : ℝ → ℝ) : Prop where
  zero : S 0 = 0 ∧ C 0 = 1
  first : ∀ d, HasDerivAt S (C d) d
  second : ∀ d, HasDerivAt C (k * S d) d

/-- The entries of a number or an array. -/
def Val.entries {α : Type} : Val α → List α
  | .num x => [x]
  | .arr l => l

/-- The luminosity distance in Mpc. -/
def IsDistance (H0 m l z d : ℝ) : Prop :=
  ∃ S C, IsRadius (1 - m - l) S C ∧ d = 300000 / H0 * (1 + z) * S (comoving m l z)

/-! ## The radius -/

theorem const_of_deriv {f : ℝ → ℝ} (h : ∀ d, HasDerivAt f 0 d) (d : ℝ) : f d = f 0 :=
  is_const_of_deriv_eq_zero (fun d => (h d).differentiableAt) (fun d => (h d).deriv) d 0

theorem IsRadius.square {k : ℝ} {S C : ℝ → ℝ} (h : IsRadius k S C) (d : ℝ) :
    C d ^ 2 - k * S d ^ 2 = 1 := by
  have := const_of_deriv (f := fun d => C d ^ 2 - k * S d ^ 2) (fun d => by
    refine (((h.second d).pow 2).sub (((h.first d).pow 2).const_mul k)).congr_deriv ?_
    push_cast; ring) d
  simp only [h.zero.1, h.zero.2] at this
  linarith

theorem IsRadius.unique {k : ℝ} {S C s c : ℝ → ℝ} (h : IsRadius k S C) (g : IsRadius k s c)
    (d : ℝ) : S d = s d := by
  have hW := const_of_deriv (f := fun d => S d * c d - C d * s d) (fun d => by
    refine (((h.first d).mul (g.second d)).sub ((h.second d).mul (g.first d))).congr_deriv ?_
    ring) d
  have hV := const_of_deriv (f := fun d => C d * c d - k * (S d * s d)) (fun d => by
    refine (((h.second d).mul (g.second d)).sub
      (((h.first d).mul (g.first d)).const_mul k)).congr_deriv ?_
    ring) d
  simp only [h.zero.1, h.zero.2, g.zero.1, g.zero.2] at hW hV
  have hq := g.square d
  linear_combination (-S d) * hq + c d * hW + s d * hV

/-- The cosine that goes with `bend`. -/
noncomputable def slope (k d : ℝ) : ℝ :=
  if k > 0 then Real.cosh (Real.sqrt k * d)
  else if k < 0 then Real.cos (Real.sqrt (-k) * d)
  else 1

theorem bend_radius (k : ℝ) : IsRadius k (bend k) (slope k) := by
  rcases lt_trichotomy k 0 with hk | hk | hk
  · have hs : 0 < Real.sqrt (-k) := Real.sqrt_pos.mpr (by linarith)
    have hss : Real.sqrt (-k) * Real.sqrt (-k) = -k := Real.mul_self_sqrt (by linarith)
    have eb : bend k = fun d => Real.sin (Real.sqrt (-k) * d) / Real.sqrt (-k) := by
      funext d; unfold bend; rw [if_neg (by linarith), if_pos hk]
    have es : slope k = fun d => Real.cos (Real.sqrt (-k) * d) := by
      funext d; unfold slope; rw [if_neg (by linarith), if_pos hk]
    rw [eb, es]
    refine ⟨by simp, fun d => ?_, fun d => ?_⟩
    · have := (((hasDerivAt_id d).const_mul (Real.sqrt (-k))).sin).div_const (Real.sqrt (-k))
      refine this.congr_deriv ?_
      simp only [id, mul_one]
      field_simp
    · have := ((hasDerivAt_id d).const_mul (Real.sqrt (-k))).cos
      refine this.congr_deriv ?_
      simp only [id, mul_one]
      field_simp
      rw [pow_two, hss]; ring
  · subst hk
    have eb : bend 0 = fun d => d := by funext d; simp [bend]
    have es : slope 0 = fun d => 1 := by funext d; simp [slope]
    rw [eb, es]
    refine ⟨by simp, fun d => hasDerivAt_id d, fun d => ?_⟩
    simpa using hasDerivAt_const d (1 : ℝ)
  · have hs : 0 < Real.sqrt k := Real.sqrt_pos.mpr hk
    have hss : Real.sqrt k * Real.sqrt k = k := Real.mul_self_sqrt hk.le
    have eb : bend k = fun d => Real.sinh (Real.sqrt k * d) / Real.sqrt k := by
      funext d; unfold bend; rw [if_pos hk]
    have es : slope k = fun d => Real.cosh (Real.sqrt k * d) := by
      funext d; unfold slope; rw [if_pos hk]
    rw [eb, es]
    refine ⟨by simp, fun d => ?_, fun d => ?_⟩
    · have := (((hasDerivAt_id d).const_mul (Real.sqrt k)).sinh).div_const (Real.sqrt k)
      refine this.congr_deriv ?_
      simp only [id, mul_one]
      field_simp
    · have := ((hasDerivAt_id d).const_mul (Real.sqrt k)).cosh
      refine this.congr_deriv ?_
      simp only [id, mul_one]
      field_simp
      rw [pow_two, hss]; ring

theorem isDistance_iff (H0 m l z d : ℝ) :
    IsDistance H0 m l z d ↔ d = 300000 / H0 * (1 + z) * bend (1 - m - l) (comoving m l z) := by
  constructor
  · rintro ⟨S, C, h, rfl⟩
    rw [h.unique (bend_radius _)]
  · intro h
    exact ⟨_, _, bend_radius _, h⟩

/-! ## The closed form without cosmological constant -/

theorem friedmann_zero (m x : ℝ) : friedmann m 0 x = (1 + x) ^ 2 * (1 + m * x) := by
  unfold friedmann; ring

theorem sqrt_friedmann {m x : ℝ} (hm : 0 ≤ m) (hx : 0 ≤ x) :
    Real.sqrt (friedmann m 0 x) = (1 + x) * Real.sqrt (1 + m * x) := by
  rw [friedmann_zero, Real.sqrt_mul (by positivity), Real.sqrt_sq (by linarith)]

theorem root_deriv {m x : ℝ} (hm : 0 ≤ m) (hx : 0 ≤ x) :
    HasDerivAt (fun x => Real.sqrt (1 + m * x)) (m / (2 * Real.sqrt (1 + m * x))) x := by
  have h : HasDerivAt (fun x => 1 + m * x) m x := by
    simpa using ((hasDerivAt_id x).const_mul m).const_add 1
  exact h.sqrt (by positivity)

theorem comoving_of_primitive {m z : ℝ} (hm : 0 ≤ m) (hz : 0 ≤ z) {F : ℝ → ℝ}
    (hF : ∀ x, 0 ≤ x → HasDerivAt F (1 / ((1 + x) * Real.sqrt (1 + m * x))) x) :
    comoving m 0 z = F z - F 0 := by
  unfold comoving
  have hpos : ∀ x : ℝ, 0 ≤ x → 0 < (1 + x) * Real.sqrt (1 + m * x) := fun x hx => by positivity
  have e : ∫ x in (0 : ℝ)..z, 1 / Real.sqrt (friedmann m 0 x) =
      ∫ x in (0 : ℝ)..z, 1 / ((1 + x) * Real.sqrt (1 + m * x)) := by
    refine intervalIntegral.integral_congr fun x hx => ?_
    rw [Set.uIcc_of_le hz] at hx
    simp only [sqrt_friedmann hm hx.1]
  rw [e]
  refine intervalIntegral.integral_eq_sub_of_hasDerivAt (fun x hx => ?_) ?_
  · rw [Set.uIcc_of_le hz] at hx
    exact hF x hx.1
  · refine ContinuousOn.intervalIntegrable ?_
    rw [Set.uIcc_of_le hz]
    refine ContinuousOn.div continuousOn_const (by fun_prop) fun x hx => (hpos x hx.1).ne'

/-- The closed form of Mattig. -/
noncomputable def closed (m z : ℝ) : ℝ :=
  z / (1 + z) * (1 + z * (1 - m / 2) / (Real.sqrt (1 + m * z) + 1 + m / 2 * z))

theorem mattig_open {m z : ℝ} (hm : 0 ≤ m) (h1 : m < 1) (hz : 0 ≤ z) :
    bend (1 - m) (comoving m 0 z) = closed m z := by
  have ha : 0 < Real.sqrt (1 - m) := Real.sqrt_pos.mpr (by linarith)
  have haa : Real.sqrt (1 - m) ^ 2 = 1 - m := Real.sq_sqrt (by linarith)
  set a := Real.sqrt (1 - m) with hadef
  have hs : ∀ x : ℝ, 0 ≤ x → 0 < Real.sqrt (1 + m * x) := fun x hx => by positivity
  have hss : ∀ x : ℝ, 0 ≤ x → Real.sqrt (1 + m * x) ^ 2 = 1 + m * x := fun x hx =>
    Real.sq_sqrt (by positivity)
  have hc := comoving_of_primitive (F := fun x =>
    (Real.log (1 + x) - 2 * Real.log (Real.sqrt (1 + m * x) + a)) / a) hm hz (fun x hx => by
      have h := hs x hx
      have h2 := hss x hx
      have d1 : HasDerivAt (fun x : ℝ => Real.log (1 + x)) (1 / (1 + x)) x :=
        ((hasDerivAt_id x).const_add 1).log (by simp; linarith)
      have d2 := (((root_deriv hm hx).add_const a).log (by positivity)).const_mul 2
      refine ((d1.sub d2).div_const a).congr_deriv ?_
      generalize Real.sqrt (1 + m * x) = s at *
      have : 0 < 1 + x := by linarith
      field_simp
      linear_combination h2 - haa)
  have h := hs z hz
  have h2 := hss z hz
  have hz1 : 0 < 1 + z := by linarith
  have hy : Real.sqrt (1 - m) * comoving m 0 z =
      Real.log ((1 + z) * (1 + a) ^ 2 / (Real.sqrt (1 + m * z) + a) ^ 2) := by
    rw [hc, Real.log_div (by positivity) (by positivity), Real.log_mul (by positivity) (by positivity),
      Real.log_pow, Real.log_pow, ← hadef]
    simp only [mul_zero, add_zero, Real.sqrt_one, Real.log_one]
    push_cast
    field_simp
    ring
  unfold bend
  rw [if_pos (by linarith), hy, ← hadef, Real.sinh_eq, ← Real.log_inv, Real.exp_log (by positivity),
    Real.exp_log (by positivity)]
  unfold closed
  have hm' : m = 1 - a ^ 2 := by linarith
  generalize Real.sqrt (1 + m * z) = s at *
  clear_value a
  clear hc hs hss hy hadef
  subst hm'
  have hd : s + 1 + (1 - a ^ 2) / 2 * z = (s + 1) ^ 2 / 2 := by linear_combination (-1 / 2) * h2
  rw [hd]
  rcases hm.eq_or_lt with h0 | h0
  · have : a = 1 := by nlinarith
    subst this
    have : s = 1 := by nlinarith
    subst this
    field_simp
    ring
  · have hz' : z = (s ^ 2 - 1) / (1 - a ^ 2) := by field_simp; linarith
    have hz2 : 1 + z = (s ^ 2 - a ^ 2) / (1 - a ^ 2) := by field_simp; linarith
    have h3 : 0 < s ^ 2 - a ^ 2 := by
      rw [hz2] at hz1
      by_contra hn
      have : (s ^ 2 - a ^ 2) / (1 - a ^ 2) ≤ 0 := div_nonpos_of_nonpos_of_nonneg (by linarith) h0.le
      linarith
    rw [hz2, hz']
    have h4 : 1 - a ^ 2 ≠ 0 := h0.ne'
    have h5 : s ^ 2 - a ^ 2 ≠ 0 := h3.ne'
    have h6 : s + a ≠ 0 := by positivity
    field_simp
    ring

theorem mattig_closed {m z : ℝ} (h1 : 1 < m) (hz : 0 ≤ z) :
    bend (1 - m) (comoving m 0 z) = closed m z := by
  have hm : 0 ≤ m := by linarith
  have hb : 0 < Real.sqrt (-(1 - m)) := Real.sqrt_pos.mpr (by linarith)
  have hbb : Real.sqrt (-(1 - m)) ^ 2 = -(1 - m) := Real.sq_sqrt (by linarith)
  set b := Real.sqrt (-(1 - m)) with hbdef
  have hs : ∀ x : ℝ, 0 ≤ x → 0 < Real.sqrt (1 + m * x) := fun x hx => by positivity
  have hss : ∀ x : ℝ, 0 ≤ x → Real.sqrt (1 + m * x) ^ 2 = 1 + m * x := fun x hx =>
    Real.sq_sqrt (by positivity)
  have hc := comoving_of_primitive (F := fun x =>
    2 * Real.arctan (Real.sqrt (1 + m * x) / b) / b) hm hz (fun x hx => by
      have h := hs x hx
      have h2 := hss x hx
      have d2 := ((((root_deriv hm hx).div_const b).arctan).const_mul 2).div_const b
      refine d2.congr_deriv ?_
      generalize Real.sqrt (1 + m * x) = s at *
      have : 0 < 1 + x := by linarith
      have : 0 < b ^ 2 + s ^ 2 := by positivity
      have e : 1 + (s / b) ^ 2 = (b ^ 2 + s ^ 2) / b ^ 2 := by field_simp
      rw [e]
      have e2 : b ^ 2 + s ^ 2 = m * (1 + x) := by rw [h2, hbb]; ring
      rw [e2]
      have : 0 < m := by linarith
      field_simp)
  have h := hs z hz
  have h2 := hss z hz
  have hz1 : 0 < 1 + z := by linarith
  have hy : b * comoving m 0 z =
      2 * (Real.arctan (Real.sqrt (1 + m * z) / b) - Real.arctan (1 / b)) := by
    rw [hc]
    simp only [mul_zero, add_zero, Real.sqrt_one]
    field_simp
  unfold bend
  rw [if_neg (by linarith), if_pos (by linarith), ← hbdef, hy, Real.sin_two_mul, Real.sin_sub,
    Real.cos_sub, Real.sin_arctan, Real.sin_arctan, Real.cos_arctan, Real.cos_arctan]
  unfold closed
  have hm' : m = 1 + b ^ 2 := by linarith
  generalize Real.sqrt (1 + m * z) = s at *
  clear_value b
  clear hc hs hss hy hbdef
  subst hm'
  have hp : Real.sqrt (1 + (s / b) ^ 2) ^ 2 = 1 + (s / b) ^ 2 := Real.sq_sqrt (by positivity)
  have hq : Real.sqrt (1 + (1 / b) ^ 2) ^ 2 = 1 + (1 / b) ^ 2 := Real.sq_sqrt (by positivity)
  have hp0 : 0 < Real.sqrt (1 + (s / b) ^ 2) := by positivity
  have hq0 : 0 < Real.sqrt (1 + (1 / b) ^ 2) := by positivity
  generalize Real.sqrt (1 + (s / b) ^ 2) = P at *
  generalize Real.sqrt (1 + (1 / b) ^ 2) = Q at *
  have hd : s + 1 + (1 + b ^ 2) / 2 * z = (s + 1) ^ 2 / 2 := by linear_combination (-1 / 2) * h2
  have hz' : z = (s ^ 2 - 1) / (1 + b ^ 2) := by field_simp; linarith
  have hz2 : 1 + z = (s ^ 2 + b ^ 2) / (1 + b ^ 2) := by field_simp; linarith
  rw [hd, hz2, hz']
  have e : 2 * (s / b / P * (1 / Q) - 1 / P * (1 / b / Q)) *
      (1 / P * (1 / Q) + s / b / P * (1 / b / Q)) =
      2 * (s / b - 1 / b) * (1 + s / b ^ 2) / (P ^ 2 * Q ^ 2) := by
    field_simp
  rw [e, hp, hq]
  field_simp
  ring

theorem mattig_flat {z : ℝ} (hz : 0 ≤ z) : bend (1 - 1) (comoving 1 0 z) = closed 1 z := by
  have hs : ∀ x : ℝ, 0 ≤ x → 0 < Real.sqrt (1 + 1 * x) := fun x hx => by positivity
  have hss : ∀ x : ℝ, 0 ≤ x → Real.sqrt (1 + 1 * x) ^ 2 = 1 + 1 * x := fun x hx =>
    Real.sq_sqrt (by positivity)
  have hc := comoving_of_primitive (m := 1) (F := fun x => -2 / Real.sqrt (1 + 1 * x)) (by norm_num) hz
    (fun x hx => by
      have h := hs x hx
      have h2 := hss x hx
      have d2 := (hasDerivAt_const x (-2 : ℝ)).div (root_deriv (m := 1) (by norm_num) hx) h.ne'
      refine d2.congr_deriv ?_
      have e : 1 + x = Real.sqrt (1 + 1 * x) ^ 2 := by rw [h2]; ring
      rw [e]
      generalize Real.sqrt (1 + 1 * x) = s at *
      field_simp
      ring)
  have h := hs z hz
  have h2 := hss z hz
  rw [hc]
  have e0 : bend (1 - 1) = fun d => d := by funext d; simp [bend]
  rw [e0]
  unfold closed
  simp only [mul_zero, add_zero, Real.sqrt_one]
  generalize Real.sqrt (1 + 1 * z) = s at *
  have hz' : z = s ^ 2 - 1 := by linarith
  have hd : s + 1 + 1 / 2 * z = (s + 1) ^ 2 / 2 := by linear_combination (-1 / 2) * h2
  have hz2 : 1 + z = s ^ 2 := by linarith
  rw [hd, hz2, hz']
  field_simp
  ring

theorem mattig_radius {m z : ℝ} (hm : 0 ≤ m) (hz : 0 ≤ z) :
    bend (1 - m) (comoving m 0 z) = closed m z := by
  rcases lt_trichotomy m 1 with h | h | h
  · exact mattig_open hm h hz
  · subst h; exact mattig_flat hz
  · exact mattig_closed h hz

theorem ldist_friedmann {c : Const} (hq : c.q0 = c.omega0 / 2 - c.lam) {x : ℝ}
    (hx : 0 < friedmann c.omega0 c.lam x) :
    ldist c x = 1 / Real.sqrt (friedmann c.omega0 c.lam x) := by
  have e : ldistDenom c x = friedmann c.omega0 c.lam x := by
    unfold ldistDenom friedmann
    rw [hq]; push_cast; ring
  unfold ldist
  rw [e, if_pos hx.le]

theorem depth_comoving {c : Const} (hq : c.q0 = c.omega0 / 2 - c.lam) {z : ℝ} (hz : 0 ≤ z)
    (hp : ∀ x, 0 ≤ x → x ≤ z → 0 < friedmann c.omega0 c.lam x) :
    depth c z = comoving c.omega0 c.lam z := by
  unfold depth comoving
  split
  · have : z = 0 := by linarith
    subst this
    simp
  · refine intervalIntegral.integral_congr fun x hx => ?_
    rw [Set.uIcc_of_le hz] at hx
    exact ldist_friedmann hq (hp x hx.1 hx.2)

theorem entries_outputify {α : Type} (l : List α) : (outputify l).entries = l := by
  unfold outputify
  split <;> rfl

theorem entries_atleast {α : Type} (v : Val α) : v.atleast = v.entries := by cases v <;> rfl

theorem forall₂_map {α β : Type} {R : α → β → Prop} {f : α → β} :
    ∀ {l : List α}, (∀ x ∈ l, R x (f x)) → List.Forall₂ R l (l.map f)
  | [], _ => .nil
  | x :: l, h => .cons (h x (by simp)) (forall₂_map fun y hy => h y (by simp [hy]))

/-! ## C234 -/

/-- With a cosmological constant, and with the deceleration parameter that belongs to the
densities, `luminosity_distance(z, k)` is the distance of the Friedmann model for every
redshift of the argument, if `k` is the curvature parameter of the densities. -/
theorem C234_partial (c : Const) (hH : 0 < c.H0) (hl : c.lam ≠ 0)
    (hq : c.q0 = c.omega0 / 2 - c.lam) (z : Val ℝ) (hz : ∀ x ∈ z.entries, 0 ≤ x)
    (hp : ∀ x ∈ z.entries, ∀ y, 0 ≤ y → y ≤ x → 0 < friedmann c.omega0 c.lam y) :
    List.Forall₂ (fun x d => ∃ v, d = some v ∧ IsDistance c.H0 c.omega0 c.lam x v) z.entries
      (luminosityDistance c z (1 - c.omega0 - c.lam)).entries := by
  unfold luminosityDistance
  rw [if_neg hl, entries_outputify, entries_atleast]
  refine forall₂_map fun x hx => ⟨_, rfl, ?_⟩
  rw [isDistance_iff, depth_comoving hq (hz x hx) (hp x hx)]
  unfold Conversions.c
  ring

/-- Matter, a cosmological constant and negative curvature. -/
def openConst : Const :=
  { Const.init 3 with omega0 := 3 / 10, lam := 1 / 2, q0 := 3 / 20 - 1 / 2 }

example := C234_partial openConst (by norm_num [openConst, Const.init]) (by norm_num [openConst])
  (by norm_num [openConst]) (.arr [1, 9]) (by simp [Val.entries])
  (fun x _ y hy _ => by
    unfold friedmann
    have : (0 : ℝ) < 1 + y := by linarith
    norm_num [openConst]
    positivity)

/-- Without cosmological constant the closed form is that distance too, in open, flat and
closed space, whatever `k` is given. -/
theorem C234_closed (c : Const) (hH : 0 < c.H0) (hl : c.lam = 0) (hm : 0 ≤ c.omega0)
    (hq : c.q0 = c.omega0 / 2) (k : ℝ) (z : Val ℝ) (hz : ∀ x ∈ z.entries, 0 ≤ x) :
    List.Forall₂ (fun x d => ∃ v, d = some v ∧ IsDistance c.H0 c.omega0 c.lam x v) z.entries
      (luminosityDistance c z k).entries := by
  have hm' : (0 : ℝ) ≤ c.omega0 := by exact_mod_cast hm
  have hq' : (c.q0 : ℝ) = c.omega0 / 2 := by rw [hq]; push_cast; ring
  have hH' : (0 : ℝ) < c.H0 := by exact_mod_cast hH
  have hl' : (c.lam : ℝ) = 0 := by exact_mod_cast hl
  unfold luminosityDistance
  rw [if_pos hl, entries_atleast]
  refine forall₂_map fun x hx => ?_
  have hx0 := hz x hx
  have h0 : ¬ 1 + 2 * (c.q0 : ℝ) * x < 0 := by
    rw [hq']
    have : 0 ≤ (c.omega0 : ℝ) * x := mul_nonneg hm' hx0
    linarith
  refine ⟨mattig c x, by unfold closedForm; rw [if_neg h0], ?_⟩
  rw [isDistance_iff, hl']
  have := mattig_radius hm' hx0
  rw [sub_zero, this]
  unfold mattig closed Conversions.c
  have hx1 : 0 < 1 + x := by linarith
  simp only [hq', show 2 * ((c.omega0 : ℝ) / 2) = c.omega0 by ring]
  generalize x * (1 - (c.omega0 : ℝ) / 2) / (Real.sqrt (1 + (c.omega0 : ℝ) * x) + 1 + c.omega0 / 2 * x) = D
  field_simp

example := C234_closed { Const.init 3 with omega0 := 3 / 10, lam := 0, q0 := 3 / 20 }
  (by norm_num [Const.init]) rfl (by norm_num) (by norm_num) 5 (.arr [1, 9])
  (by simp [Val.entries])

theorem comoving_pos {m l z : ℝ} (hz : 0 < z)
    (hp : ∀ x, 0 ≤ x → x ≤ z → 0 < friedmann m l x) : 0 < comoving m l z := by
  unfold comoving
  refine intervalIntegral.intervalIntegral_pos_of_pos_on ?_ (fun x hx => ?_) hz
  · refine ContinuousOn.intervalIntegrable ?_
    rw [Set.uIcc_of_le hz.le]
    refine ContinuousOn.div continuousOn_const ?_ fun x hx =>
      (Real.sqrt_pos.mpr (hp x hx.1 hx.2)).ne'
    unfold friedmann
    fun_prop
  · have := Real.sqrt_pos.mpr (hp x hx.1.le hx.2.le)
    positivity

/-- Left to its default, `k` gives too small a distance in an open universe with a
cosmological constant and too large a one in a closed universe, at every redshift. -/
theorem C234_default (c : Const) (hH : 0 < c.H0) (hl : c.lam ≠ 0)
    (hq : c.q0 = c.omega0 / 2 - c.lam) (z : ℝ) (hz : 0 < z)
    (hp : ∀ x, 0 ≤ x → x ≤ z → 0 < friedmann c.omega0 c.lam x) (v : ℝ)
    (hv : IsDistance c.H0 c.omega0 c.lam z v) :
    ∃ d, luminosityDistance c (.num z) = .num (some d) ∧
      (c.omega0 + c.lam < 1 → d < v) ∧ (1 < c.omega0 + c.lam → v < d) := by
  have hd := comoving_pos hz hp
  have hH' : (0 : ℝ) < c.H0 := by exact_mod_cast hH
  rw [isDistance_iff] at hv
  unfold luminosityDistance
  rw [if_neg hl]
  refine ⟨_, rfl, fun ho => ?_, fun ho => ?_⟩
  · have ho' : (0 : ℝ) < 1 - c.omega0 - c.lam := by
      have : (c.omega0 : ℝ) + c.lam < 1 := by exact_mod_cast ho
      linarith
    rw [hv, depth_comoving hq hz.le hp]
    generalize comoving c.omega0 c.lam z = d at *
    have hb : bend 0 d = d := by simp [bend]
    rw [hb]
    have hs := Real.sqrt_pos.mpr ho'
    have : d < bend (1 - c.omega0 - c.lam) d := by
      unfold bend
      rw [if_pos ho', lt_div_iff₀ hs, mul_comm]
      exact Real.self_lt_sinh_iff.mpr (by positivity)
    have h3 : 0 < 300000 / (c.H0 : ℝ) * (1 + z) := by positivity
    have e : Conversions.c * (1 + z) * d / c.H0 = 300000 / (c.H0 : ℝ) * (1 + z) * d := by
      unfold Conversions.c; ring
    rw [e]
    exact mul_lt_mul_of_pos_left this h3
  · have ho' : (1 : ℝ) - c.omega0 - c.lam < 0 := by
      have : (1 : ℝ) < c.omega0 + c.lam := by exact_mod_cast ho
      linarith
    rw [hv, depth_comoving hq hz.le hp]
    generalize comoving c.omega0 c.lam z = d at *
    have hb : bend 0 d = d := by simp [bend]
    rw [hb]
    have hs := Real.sqrt_pos.mpr (neg_pos.mpr ho')
    have : bend (1 - c.omega0 - c.lam) d < d := by
      unfold bend
      rw [if_neg (by linarith), if_pos ho', div_lt_iff₀ hs, mul_comm d]
      exact Real.sin_lt (by positivity)
    have h3 : 0 < 300000 / (c.H0 : ℝ) * (1 + z) := by positivity
    have e : Conversions.c * (1 + z) * d / c.H0 = 300000 / (c.H0 : ℝ) * (1 + z) * d := by
      unfold Conversions.c; ring
    rw [e]
    exact mul_lt_mul_of_pos_left this h3

example : openConst.omega0 + openConst.lam < 1 := by norm_num [openConst]

/-- After every history of calls of the setters the deceleration parameter belongs to the
densities only if the universe is flat. -/
theorem C234_setters (ops : List ConstOp) :
    (ops.foldl Const.step (Const.init 3)).q0 =
        (ops.foldl Const.step (Const.init 3)).omega0 / 2 - (ops.foldl Const.step (Const.init 3)).lam ↔
      (ops.foldl Const.step (Const.init 3)).omega0 + (ops.foldl Const.step (Const.init 3)).lam = 1 := by
  have h : ∀ (ops : List ConstOp) (c : Const), c.q0 = c.omega0 / 2 - (1 - c.omega0) →
      (ops.foldl Const.step c).q0 =
        (ops.foldl Const.step c).omega0 / 2 - (1 - (ops.foldl Const.step c).omega0) := by
    intro ops
    induction ops with
    | nil => exact fun c h => h
    | cons op ops ih =>
      intro c hc
      refine ih _ ?_
      cases op <;> simp [Const.step, hc]
  have := h ops (Const.init 3) (by norm_num [Const.init])
  constructor <;> intro h <;> linarith

/-- The luminosity distance is the distance of the Friedmann model in every cosmology the
setters can produce.  False: `set_omega_lambda(0)` leaves the deceleration parameter of the
old densities, and the distance to redshift one is not a number. -/
theorem C234_false :
    ¬ ∀ (ops : List ConstOp) (x : ℝ), 0 ≤ x →
      0 < (ops.foldl Const.step (Const.init 3)).omega0 →
      0 ≤ (ops.foldl Const.step (Const.init 3)).lam →
      ∃ v, IsDistance (ops.foldl Const.step (Const.init 3)).H0
          (ops.foldl Const.step (Const.init 3)).omega0 (ops.foldl Const.step (Const.init 3)).lam x v ∧
        (luminosityDistance (ops.foldl Const.step (Const.init 3)) (.num x)
          (1 - (ops.foldl Const.step (Const.init 3)).omega0 -
            (ops.foldl Const.step (Const.init 3)).lam)).entries = [some v] := by
  intro h
  obtain ⟨v, -, h⟩ := h [.omegaLambda 0] 1 (by norm_num) (by norm_num [Const.step, Const.init])
    (by norm_num [Const.step, Const.init])
  unfold luminosityDistance at h
  rw [if_pos (by norm_num [Const.step])] at h
  simp only [Val.entries, Val.atleast, List.map_cons, List.map_nil, closedForm] at h
  rw [if_pos (by norm_num [Const.step, Const.init])] at h
  simp at h

/-- With a cosmological constant a number gives a number, and so does an array of one
redshift; other arrays give arrays of their length. -/
theorem C234_type (c : Const) (hl : c.lam ≠ 0) (k : ℝ) (l : List ℝ) :
    (∀ x, ∃ d, luminosityDistance c (.num x) k = .num d) ∧
    (∃ l', l'.length = l.length ∧
      ((l.length = 1 ∧ ∃ d, luminosityDistance c (.arr l) k = .num d) ∨
        (l.length ≠ 1 ∧ luminosityDistance c (.arr l) k = .arr l'))) := by
  unfold luminosityDistance
  simp only [if_neg hl, Val.atleast]
  refine ⟨fun x => ⟨_, rfl⟩, l.map fun x =>
    some (Conversions.c * (1 + x) * bend k (depth c x) / c.H0), by simp, ?_⟩
  match l with
  | [] => exact Or.inr ⟨by simp, rfl⟩
  | [x] => exact Or.inl ⟨rfl, _, rfl⟩
  | x :: y :: l => exact Or.inr ⟨by simp, rfl⟩

example := C234_type openConst (by norm_num [openConst]) 0 [1, 2]

/-- A number gives a number.  False without a cosmological constant. -/
theorem C234_false_type :
    ¬ ∀ (c : Const) (x : ℝ), ∃ d, luminosityDistance c (.num x) = .num d := by
  intro h
  obtain ⟨d, h⟩ := h { Const.init 3 with lam := 0 } 1
  unfold luminosityDistance at h
  simp at h

/-- A distance is not negative.  False: for every redshift there is a positive curvature for
which it is, since the radius is periodic in closed space. -/
theorem C234_false_negative (c : Const) (hH : 0 < c.H0) (hl : c.lam ≠ 0)
    (hq : c.q0 = c.omega0 / 2 - c.lam) (z : ℝ) (hz : 0 < z)
    (hp : ∀ x, 0 ≤ x → x ≤ z → 0 < friedmann c.omega0 c.lam x) :
    ∃ k d, k < 0 ∧ luminosityDistance c (.num z) k = .num (some d) ∧ d < 0 := by
  have hd := comoving_pos hz hp
  have hH' : (0 : ℝ) < c.H0 := by exact_mod_cast hH
  unfold luminosityDistance
  simp only [if_neg hl]
  have hpi := Real.pi_pos
  have e : depth c z = comoving c.omega0 c.lam z := depth_comoving hq hz.le hp
  refine ⟨-(((Real.pi + Real.pi / 2) / depth c z) ^ 2), _, ?_, rfl, ?_⟩
  · rw [e]
    have : 0 < ((Real.pi + Real.pi / 2) / comoving c.omega0 c.lam z) ^ 2 := by positivity
    linarith
  · rw [e]
    generalize comoving c.omega0 c.lam z = d at *
    have h1 : 0 < (Real.pi + Real.pi / 2) / d := by positivity
    have h2 : 0 < ((Real.pi + Real.pi / 2) / d) ^ 2 := by positivity
    have h3 : bend (-(((Real.pi + Real.pi / 2) / d) ^ 2)) d < 0 := by
      unfold bend
      rw [if_neg (by linarith), if_pos (by linarith), neg_neg, Real.sqrt_sq h1.le,
        div_mul_cancel₀ _ hd.ne', add_comm Real.pi, Real.sin_add_pi, Real.sin_pi_div_two, add_comm]
      exact div_neg_of_neg_of_pos (by norm_num) (by positivity)
    have h4 : (0 : ℝ) < 300000 * (1 + z) := by linarith
    unfold Conversions.c
    exact div_neg_of_neg_of_pos (mul_neg_of_pos_of_neg h4 h3) hH'

example : openConst.lam ≠ 0 ∧ (0 : ℝ) < 1 := ⟨by norm_num [openConst], by norm_num⟩

end Verif.Curvature
