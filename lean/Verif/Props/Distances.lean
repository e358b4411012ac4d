import Verif.Props.Conversions
import Mathlib.Analysis.SpecialFunctions.Integrals.Basic
/-!
# Distances and ages

C41 (flux part): `jansky_2_kelvin` and `kelvin_2_jansky` are mutually inverse.
C78: comoving distance and age are the integrals of the Friedmann equation, whatever number
type the redshift has.
C79: luminosity distance, angular sizes and comoving distance agree.
C81: `kelvin_2_jansky` does not return jansky.
-/

set_option linter.unusedVariables false

namespace Verif.Conversions

open Verif.Constants

/-! ## The expansion rate -/

/-- A cosmology with matter, without a negative cosmological constant, expanding. -/
structure Physical (k : Const) : Prop where
  matter : 0 < k.omega0
  lam : 0 ≤ k.lam
  hubble : 0 < k.H0

theorem Physical.matter' {k : Const} (p : Physical k) : (0 : ℝ) < k.omega0 := by
  exact_mod_cast p.matter

theorem Physical.lam' {k : Const} (p : Physical k) : (0 : ℝ) ≤ k.lam := by
  exact_mod_cast p.lam

theorem Physical.hubble' {k : Const} (p : Physical k) : (0 : ℝ) < k.H0 := by
  exact_mod_cast p.hubble

theorem physical_init : Physical (Const.init 3) :=
  ⟨by norm_num [Const.init], by norm_num [Const.init], by norm_num [Const.init]⟩

theorem rate_pos {k : Const} (p : Physical k) {x : ℝ} (hx : -1 < x) :
    (0 : ℝ) < k.omega0 * (1 + x) ^ 3 + k.lam := by
  have := p.matter'
  have := p.lam'
  have : (0 : ℝ) < 1 + x := by linarith
  positivity

theorem ezFunc_pos {k : Const} (p : Physical k) {x : ℝ} (hx : -1 < x) : 0 < ezFunc k x := by
  have := Real.sqrt_pos.mpr (rate_pos p hx)
  unfold ezFunc
  positivity

theorem ezFunc_cont {k : Const} (p : Physical k) : ContinuousOn (ezFunc k) (Set.Ioi (-1)) := by
  unfold ezFunc
  refine ContinuousOn.div continuousOn_const (by fun_prop) fun x hx => ?_
  exact (Real.sqrt_pos.mpr (rate_pos p hx)).ne'

theorem uIcc_sub {a b : ℝ} (ha : -1 < a) (hb : -1 < b) : Set.uIcc a b ⊆ Set.Ioi (-1) := by
  intro x hx
  rw [Set.mem_uIcc] at hx
  rcases hx with h | h
  · exact lt_of_lt_of_le ha h.1
  · exact lt_of_lt_of_le hb h.1

theorem ezFunc_int {k : Const} (p : Physical k) {a b : ℝ} (ha : -1 < a) (hb : -1 < b) :
    IntervalIntegrable (ezFunc k) MeasureTheory.volume a b :=
  ((ezFunc_cont p).mono (uIcc_sub ha hb)).intervalIntegrable

/-! ## C78 -/

/-- The comoving distance vanishes here and grows at the rate `c/H(z)`. -/
theorem C78_distance (k : Const) (p : Physical k) :
    cdist k 0 = 0 ∧ ∀ z, -1 < z → HasDerivAt (cdist k) (300000 / hubble_parameter k z) z := by
  refine ⟨by simp [cdist], fun z hz => ?_⟩
  have h1 : HasDerivAt (fun z => ∫ x in (0 : ℝ)..z, ezFunc k x) (ezFunc k z) z :=
    intervalIntegral.integral_hasDerivAt_right (ezFunc_int p (by norm_num) hz)
      (ContinuousOn.stronglyMeasurableAtFilter isOpen_Ioi (ezFunc_cont p) z hz)
      ((ezFunc_cont p).continuousAt (isOpen_Ioi.mem_nhds hz))
  have h2 := h1.const_mul (c / (k.H0 : ℝ))
  have e : c / (k.H0 : ℝ) * ezFunc k z = 300000 / hubble_parameter k z := by
    unfold ezFunc hubble_parameter c
    rw [div_mul_div_comm, mul_one]
  rw [e] at h2
  exact h2

example : Physical (Const.init 3) := physical_init

theorem cdist_sub {k : Const} (p : Physical k) {a b : ℝ} (ha : -1 < a) (hb : -1 < b) :
    cdist k b - cdist k a = c / k.H0 * ∫ x in a..b, ezFunc k x := by
  unfold cdist
  rw [← mul_sub, intervalIntegral.integral_interval_sub_left (ezFunc_int p (by norm_num) hb)
    (ezFunc_int p (by norm_num) ha)]

theorem c_pos : 0 < c := by norm_num [c]

/-- Larger redshifts are farther away. -/
theorem C78_monotone (k : Const) (p : Physical k) {a b : ℝ} (ha : -1 < a) (hab : a < b) :
    cdist k a < cdist k b := by
  have h := cdist_sub p ha (ha.trans hab)
  have hi : 0 < ∫ x in a..b, ezFunc k x := by
    refine intervalIntegral.intervalIntegral_pos_of_pos_on (ezFunc_int p ha (ha.trans hab))
      (fun x hx => ezFunc_pos p (ha.trans hx.1)) hab
  have := mul_pos (div_pos c_pos p.hubble') hi
  linarith

example : (-1 : ℝ) < 0 ∧ (0 : ℝ) < 9 := by norm_num

theorem cdist_pos {k : Const} (p : Physical k) {z : ℝ} (hz : 0 < z) : 0 < cdist k z := by
  have h := C78_monotone k p (a := 0) (by norm_num) hz
  rwa [(C78_distance k p).1] at h

/-- `Ea_func` without the singular form. -/
theorem eaFunc_eq (k : Const) (p : Physical k) {x : ℝ} (hx : 0 ≤ x) :
    eaFunc k x = Real.sqrt x / Real.sqrt (k.omega0 + k.lam * x ^ 3) := by
  rcases hx.eq_or_lt with rfl | h
  · simp [eaFunc]
  · unfold eaFunc
    have hO := p.matter'
    have hl := p.lam'
    have e : (k.omega0 : ℝ) * (x ^ 3)⁻¹ + k.lam = (k.omega0 + k.lam * x ^ 3) / x ^ 3 := by
      field_simp
    have hs : Real.sqrt (x ^ 3) = x * Real.sqrt x := by
      rw [show x ^ 3 = x ^ 2 * x by ring, Real.sqrt_mul (by positivity), Real.sqrt_sq h.le]
    have h1 : Real.sqrt ((k.omega0 : ℝ) + k.lam * x ^ 3) ≠ 0 :=
      (Real.sqrt_pos.mpr (by positivity)).ne'
    have h2 : Real.sqrt x ≠ 0 := (Real.sqrt_pos.mpr h).ne'
    rw [e, Real.sqrt_div (by positivity), hs]
    field_simp

theorem smooth_cont (k : Const) (p : Physical k) : ContinuousOn
    (fun x : ℝ => Real.sqrt x / Real.sqrt (k.omega0 + k.lam * x ^ 3)) (Set.Ici 0) := by
  refine ContinuousOn.div (by fun_prop) (by fun_prop) fun x hx => ?_
  have hO := p.matter'
  have hl := p.lam'
  have hx' : (0 : ℝ) ≤ x := hx
  exact (Real.sqrt_pos.mpr (by positivity)).ne'

theorem eaFunc_cont (k : Const) (p : Physical k) : ContinuousOn (eaFunc k) (Set.Ici 0) :=
  (smooth_cont k p).congr fun x hx => eaFunc_eq k p hx

theorem eaFunc_int (k : Const) (p : Physical k) {a : ℝ} (ha : 0 ≤ a) :
    IntervalIntegrable (eaFunc k) MeasureTheory.volume 0 a := by
  refine ((eaFunc_cont k p).mono fun x hx => ?_).intervalIntegrable
  rw [Set.uIcc_of_le ha] at hx
  exact hx.1

theorem eaFunc_le (k : Const) (p : Physical k) {x : ℝ} (h0 : 0 < x) (h1 : x ≤ 1) :
    0 < eaFunc k x ∧ eaFunc k x ≤ 1 / Real.sqrt k.omega0 := by
  have hO := p.matter'
  have hl := p.lam'
  have hs := Real.sqrt_pos.mpr hO
  have hs2 : Real.sqrt k.omega0 ≤ Real.sqrt (k.omega0 + k.lam * x ^ 3) :=
    Real.sqrt_le_sqrt (by have : 0 ≤ (k.lam : ℝ) * x ^ 3 := by positivity
                          linarith)
  rw [eaFunc_eq k p h0.le]
  refine ⟨div_pos (Real.sqrt_pos.mpr h0) (by linarith), ?_⟩
  exact div_le_div₀ (by norm_num) (by rw [Real.sqrt_le_one]; exact h1) hs hs2

/-- The age falls with redshift at the rate `1/((1+z) H(z))`, is positive and tends to zero. -/
theorem C78_age (k : Const) (p : Physical k) {z : ℝ} :
    (-1 < z → HasDerivAt (age k) (-(1 / ((1 + z) * hubble_parameter k z))) z) ∧
    (0 ≤ z → 0 < age k z ∧ age k z ≤ 1 / (k.H0 * Real.sqrt k.omega0) / (1 + z)) := by
  constructor
  · intro hz
    have hz1 : (0 : ℝ) < 1 + z := by linarith
    have ha : (0 : ℝ) < 1 / (1 + z) := by positivity
    have hc : ContinuousOn (eaFunc k) (Set.Ioi 0) := (eaFunc_cont k p).mono Set.Ioi_subset_Ici_self
    have h1 : HasDerivAt (fun a => ∫ x in (0 : ℝ)..a, eaFunc k x) (eaFunc k (1 / (1 + z)))
        (1 / (1 + z)) :=
      intervalIntegral.integral_hasDerivAt_right (eaFunc_int k p ha.le)
        (ContinuousOn.stronglyMeasurableAtFilter isOpen_Ioi hc _ ha)
        (hc.continuousAt (isOpen_Ioi.mem_nhds ha))
    have h2 : HasDerivAt (fun z : ℝ => 1 / (1 + z)) (-1 / (1 + z) ^ 2) z := by
      have := ((hasDerivAt_id z).const_add 1).inv hz1.ne'
      simp only [one_div]
      exact this
    have h3 := (HasDerivAt.comp z h1 h2).const_mul (1 / (k.H0 : ℝ))
    have e : 1 / (k.H0 : ℝ) * (eaFunc k (1 / (1 + z)) * (-1 / (1 + z) ^ 2)) =
        -(1 / ((1 + z) * hubble_parameter k z)) := by
      unfold eaFunc hubble_parameter
      have e2 : (k.omega0 : ℝ) * ((1 / (1 + z)) ^ 3)⁻¹ + k.lam =
          k.omega0 * (1 + z) ^ 3 + k.lam := by field_simp
      rw [e2]
      have h4 := (Real.sqrt_pos.mpr (rate_pos p hz)).ne'
      have h5 := p.hubble'.ne'
      field_simp
    rw [e] at h3
    exact h3
  · intro hz
    have hz1 : (0 : ℝ) < 1 + z := by linarith
    have ha : (0 : ℝ) < 1 / (1 + z) := by positivity
    have ha1 : 1 / (1 + z) ≤ 1 := by rw [div_le_one hz1]; linarith
    have hH := p.hubble'
    have hO := Real.sqrt_pos.mpr p.matter'
    have hi : 0 < ∫ x in (0 : ℝ)..1 / (1 + z), eaFunc k x :=
      intervalIntegral.intervalIntegral_pos_of_pos_on (eaFunc_int k p ha.le)
        (fun x hx => (eaFunc_le k p hx.1 (hx.2.le.trans ha1)).1) ha
    have hb := intervalIntegral.norm_integral_le_of_norm_le_const (a := 0) (b := 1 / (1 + z))
      (f := eaFunc k) (C := 1 / Real.sqrt k.omega0) fun x hx => by
        rw [Set.uIoc_of_le ha.le] at hx
        have := eaFunc_le k p hx.1 (hx.2.trans ha1)
        rw [Real.norm_of_nonneg this.1.le]; exact this.2
    rw [Real.norm_of_nonneg hi.le, sub_zero, abs_of_pos ha] at hb
    unfold age
    refine ⟨by positivity, ?_⟩
    calc 1 / (k.H0 : ℝ) * ∫ x in (0 : ℝ)..1 / (1 + z), eaFunc k x
        ≤ 1 / k.H0 * (1 / Real.sqrt k.omega0 * (1 / (1 + z))) := by gcongr
      _ = _ := by field_simp

example : (-1 : ℝ) < 0 ∧ (0 : ℝ) ≤ 0 := by norm_num

/-- With float redshifts every entry gets its own distance and age; the age is in units of
Gyr: `1/(km/s/Mpc)` is `3.086e19` seconds. -/
theorem C78_float (k : Const) (l : List ℝ) :
    (z_to_cdist k (.float l)).floats = l.map (cdist k) ∧
    z_to_age k (.float l) = l.map fun z => age k z * (3086 * 10 ^ 16 / (3154 * 10 ^ 4) / 10 ^ 9) := by
  constructor
  · rfl
  · simp only [z_to_age, Vec.fill, List.map_map]
    refine List.map_congr_left fun z _ => ?_
    simp only [Function.comp, ageUnit]
    norm_num

/-- Claim of C78 for distances: whole redshifts may be given as integers. -/
def IntAsFloat (f : Vec → List ℝ) : Prop :=
  ∀ l : List ℤ, f (.int l) = f (.float (l.map fun (n : ℤ) => (n : ℝ)))

/-- False for `z_to_cdist` in every cosmology: integer redshifts give distances truncated to
whole Mpc. -/
theorem C78_false_distance (k : Const) (p : Physical k) :
    ¬ IntAsFloat fun z => (z_to_cdist k z).floats := by
  intro h
  have hO := p.matter'
  have hH := p.hubble'
  -- every distance at a whole redshift would be a whole number
  have hw : ∀ n : ℕ, ∃ m : ℤ, cdist k n = m := fun n => by
    have := h [(n : ℤ)]
    simp only [z_to_cdist, Vec.fill, Vec.floats, List.map_cons, List.map_nil, List.cons.injEq,
      and_true] at this
    exact ⟨_, by simpa using this.symm⟩
  -- but far away neighbouring distances differ by less than one
  obtain ⟨n, hn⟩ := exists_nat_gt ((c / k.H0) ^ 2 / (k.omega0 : ℝ))
  have hn0 : (0 : ℝ) ≤ n := Nat.cast_nonneg n
  have hlt := C78_monotone k p (a := n) (b := (n + 1 : ℕ)) (by linarith) (by push_cast; linarith)
  have hd : cdist k (n + 1 : ℕ) - cdist k n < 1 := by
    rw [cdist_sub p (by linarith) (by push_cast; linarith)]
    have hb := intervalIntegral.norm_integral_le_of_norm_le_const (a := (n : ℝ))
      (b := (n + 1 : ℕ)) (f := ezFunc k) (C := 1 / Real.sqrt (k.omega0 * n)) fun x hx => by
        rw [Set.uIoc_of_le (by push_cast; linarith)] at hx
        have hx1 := hx.1
        rw [Real.norm_of_nonneg (ezFunc_pos p (by linarith)).le]
        unfold ezFunc
        have hn1 : (0 : ℝ) < n := lt_of_le_of_lt (by positivity) hn
        refine one_div_le_one_div_of_le (Real.sqrt_pos.mpr (by positivity)) (Real.sqrt_le_sqrt ?_)
        have h1 : (1 : ℝ) ≤ 1 + x := by linarith
        have h3 : (n : ℝ) ≤ (1 + x) ^ 3 := by
          calc (n : ℝ) ≤ 1 + x := by linarith
            _ ≤ (1 + x) ^ 3 := by
              calc (1 + x) = (1 + x) ^ 1 := (pow_one _).symm
                _ ≤ (1 + x) ^ 3 := pow_le_pow_right₀ h1 (by norm_num)
        have := mul_le_mul_of_nonneg_left h3 hO.le
        linarith [p.lam']
    have hi : (∫ x in (n : ℝ)..(n + 1 : ℕ), ezFunc k x) ≤ 1 / Real.sqrt (k.omega0 * n) := by
      refine (Real.le_norm_self _).trans (hb.trans ?_)
      push_cast
      rw [show (n : ℝ) + 1 - n = 1 by ring, abs_one, mul_one]
    have hq : c / (k.H0 : ℝ) < Real.sqrt (k.omega0 * n) := by
      refine Real.lt_sqrt_of_sq_lt ?_
      rw [div_lt_iff₀ hO] at hn
      linarith
    have hq0 : 0 < c / (k.H0 : ℝ) := div_pos c_pos hH
    calc c / (k.H0 : ℝ) * ∫ x in (n : ℝ)..(n + 1 : ℕ), ezFunc k x
        ≤ c / k.H0 * (1 / Real.sqrt (k.omega0 * n)) := by gcongr
      _ = c / k.H0 / Real.sqrt (k.omega0 * n) := by ring
      _ < 1 := by rw [div_lt_one (hq0.trans hq)]; exact hq
  obtain ⟨m, hm⟩ := hw n
  obtain ⟨m', hm'⟩ := hw (n + 1)
  rw [hm, hm'] at hlt hd
  have h1 : m < m' := by exact_mod_cast hlt
  have h2 : m' - m < 1 := by exact_mod_cast hd
  omega

/-- The error of the truncation: less than one Mpc, always towards zero. -/
theorem C78_distance_partial (k : Const) (p : Physical k) (n : ℕ) :
    ∃ m : ℤ, (z_to_cdist k (.int [(n : ℤ)])).floats = [(m : ℝ)] ∧
      (m : ℝ) ≤ cdist k n ∧ cdist k n < m + 1 := by
  refine ⟨⌊cdist k n⌋, ?_, Int.floor_le _, Int.lt_floor_add_one _⟩
  have h : 0 ≤ cdist k n := by
    rcases Nat.eq_zero_or_pos n with rfl | h
    · simp [(C78_distance k p).1]
    · exact (cdist_pos p (by exact_mod_cast h)).le
  simp [z_to_cdist, Vec.fill, Vec.floats, trunc, h]

example := C78_distance_partial (Const.init 3) physical_init 9

/-- For `z_to_age` it is worse: whenever the Hubble time is less than `√Ω₀` in the units of
`1/H0` (always, for `H0` in km/s/Mpc) the age at every whole redshift given as integer is zero. -/
theorem C78_age_int (k : Const) (p : Physical k) (h : 1 < k.H0 * Real.sqrt k.omega0)
    (l : List ℤ) (hl : ∀ n ∈ l, 0 ≤ n) : z_to_age k (.int l) = l.map fun _ => 0 := by
  simp only [z_to_age, Vec.fill, List.map_map]
  refine List.map_congr_left fun n hn => ?_
  have hz : (0 : ℝ) ≤ n := by exact_mod_cast hl n hn
  obtain ⟨h1, h2⟩ := (C78_age k p (z := n)).2 hz
  have h3 : age k n < 1 := by
    refine h2.trans_lt ?_
    rw [div_div, div_lt_one (by positivity)]
    nlinarith
  have : trunc (age k n) = 0 := by
    unfold trunc
    rw [if_pos h1.le, Int.floor_eq_zero_iff]
    exact ⟨h1.le, h3⟩
  simp [Function.comp, this]

theorem init_age : 1 < ((Const.init 3).H0 : ℝ) * Real.sqrt (Const.init 3).omega0 := by
  have : (1 / 2 : ℝ) < Real.sqrt ((Const.init 3).omega0 : ℚ) := by
    refine Real.lt_sqrt_of_sq_lt ?_
    norm_num [Const.init]
  have h2 : ((Const.init 3).H0 : ℝ) = 70 := by norm_num [Const.init]
  rw [h2]; linarith

/-- So the age of the universe today, asked for with the integer 0, is zero instead of about
14 Gyr. -/
theorem C78_false_age : ¬ IntAsFloat (z_to_age (Const.init 3)) := by
  intro h
  have h1 := h [0]
  rw [C78_age_int _ physical_init init_age [0] (by simp), (C78_float _ _).2] at h1
  simp only [List.map_cons, List.map_nil, List.cons.injEq, and_true] at h1
  have h2 := ((C78_age (Const.init 3) physical_init (z := ((0 : ℤ) : ℝ))).2 (by norm_num)).1
  have : 0 < age (Const.init 3) ((0 : ℤ) : ℝ) * (3086 * 10 ^ 16 / (3154 * 10 ^ 4) / 10 ^ 9) := by
    positivity
  rw [← h1] at this
  exact lt_irrefl _ this

/-! ## C41, flux part, and C81 -/

theorem conversion_ne {k : Const} (p : Physical k) (v : Conv) (n : ℕ) (hn : n ≠ 0) {z : ℝ}
    (hz : 0 < z) (b : Option ℝ) (hb : boxsizeOr v.LB b ≠ 0) :
    kelvin_jansky_conversion k v n z b ≠ 0 := by
  have h1 := (cdist_pos p hz).ne'
  have h2 : z_to_nu z ≠ 0 := by
    unfold z_to_nu nu0
    have : (0 : ℝ) < 1 + z := by linarith
    positivity
  have hn' : (n : ℝ) ≠ 0 := by exact_mod_cast hn
  have h3 : kbSI ≠ 0 := by norm_num [kbSI]
  have h4 : cLightSI ≠ 0 := by norm_num [cLightSI]
  have h5 : janskyToWatt ≠ 0 := by norm_num [janskyToWatt]
  unfold kelvin_jansky_conversion
  simp only
  generalize z_to_nu z = nu at *
  generalize cdist k z = d at *
  generalize boxsizeOr v.LB b = L at *
  positivity

/-- Temperatures and fluxes are mutually inverse at every positive redshift. -/
theorem C41_jansky {ι : Type*} (k : Const) (p : Physical k) (v : Conv) (hv : v.LB ≠ 0) (s : ℕ)
    (hs : s ≠ 0) (a : ι → ℝ) (z : ℝ) (hz : 0 < z) (b : Option ℝ) (n : Option ℕ) :
    jansky_2_kelvin k v s (kelvin_2_jansky k v s a z b n) z b n = a ∧
    kelvin_2_jansky k v s (jansky_2_kelvin k v s a z b n) z b n = a := by
  have hb : boxsizeOr v.LB b ≠ 0 := by
    have hv' : (v.LB : ℝ) ≠ 0 := by exact_mod_cast hv
    cases b with
    | none => exact hv'
    | some b => simp only [boxsizeOr]; split <;> assumption
  have hn : ncellsOr s n ≠ 0 := by
    cases n with
    | none => exact hs
    | some n => simp only [ncellsOr]; split <;> assumption
  have h := conversion_ne p v _ hn hz b hb
  constructor <;> funext i <;> simp only [jansky_2_kelvin, kelvin_2_jansky] <;> field_simp

example : (State.init 3 fun x => x).conv.LB ≠ 0 ∧ 256 ≠ 0 ∧ (0 : ℝ) < 9 := by
  norm_num [State.init, Conv.derive, Const.init]

/-- `kelvin_2_jansky` is documented to return jansky.  False. -/
theorem C81_false : ¬ ∀ (v : Conv) (a : Unit → ℝ) (z L : ℝ) (n : ℕ), 0 < z → L ≠ 0 → n ≠ 0 →
    kelvin_2_jansky (Const.init 3) v n a z (some L) (some n) () =
      fluxJy (a ()) (pixel L (cdist (Const.init 3) z) n) (z_to_nu z) := by
  intro h
  have h1 := h (State.init 3 fun x => x).conv (fun _ => 1) 9 1 1 (by norm_num) one_ne_zero
    one_ne_zero
  rw [C81_partial _ _ _ _ _ _ _ one_ne_zero one_ne_zero] at h1
  have h2 : 0 < fluxJy 1 (pixel 1 (cdist (Const.init 3) 9) 1) (z_to_nu 9) := by
    have h3 := cdist_pos physical_init (z := 9) (by norm_num)
    unfold fluxJy pixel z_to_nu nu0
    positivity
  linarith

/-! ## C79 -/

/-- Flat cosmologies as left by importing the package and by every setter except
`set_omega_lambda`. -/
structure Flat (k : Const) : Prop where
  lam : k.lam = 1 - k.omega0
  q0 : k.q0 = k.omega0 / 2 - k.lam

/-- The setters keep the cosmology flat, except `set_omega_lambda`. -/
theorem C79_flat (pi : ℚ) (ops : List ConstOp) (h : ∀ o ∈ ops, ∀ v, o ≠ .omegaLambda v) :
    Flat (ops.foldl Const.step (Const.init pi)) := by
  have key : ∀ (ops : List ConstOp) (k : Const), (∀ o ∈ ops, ∀ v, o ≠ .omegaLambda v) →
      Flat k → Flat (ops.foldl Const.step k) := by
    intro ops
    induction ops with
    | nil => exact fun k _ f => f
    | cons o os ih =>
      intro k h f
      refine ih _ (fun o' ho' => h o' (List.mem_cons_of_mem _ ho')) ?_
      have ho := h o List.mem_cons_self
      cases o with
      | omegaLambda v => exact absurd rfl (ho v)
      | omegaMatter v => exact ⟨rfl, by simp [Const.step]⟩
      | hubble v => exact ⟨f.lam, f.q0⟩
      | omegaBaryon v => exact ⟨f.lam, f.q0⟩
      | ns v => exact ⟨f.lam, f.q0⟩
      | sigma8 v => exact ⟨f.lam, f.q0⟩
      | helium v => exact ⟨f.lam, f.q0⟩
  exact key ops _ h ⟨by simp [Const.init], by simp [Const.init]⟩

example : ∀ o ∈ [ConstOp.omegaMatter (31 / 100), .hubble (68 / 100)], ∀ v, o ≠ .omegaLambda v := by
  simp

theorem ldist_flat {k : Const} (p : Physical k) (f : Flat k) {x : ℝ} (hx : -1 < x) :
    ldist k x = ezFunc k x := by
  have e : ldistDenom k x = k.omega0 * (1 + x) ^ 3 + k.lam := by
    unfold ldistDenom
    have h1 : (k.lam : ℝ) = 1 - k.omega0 := by rw [f.lam]; push_cast; ring
    have h2 : (k.q0 : ℝ) = k.omega0 / 2 - k.lam := by rw [f.q0]; push_cast; ring
    rw [h2, h1]; ring
  unfold ldist ezFunc
  rw [e, if_pos (rate_pos p hx).le]

/-- In an Einstein–de Sitter universe the comoving distance is `2c/H0 (1 - 1/√(1+z))`. -/
theorem cdist_eds {k : Const} (p : Physical k) (hO : k.omega0 = 1) (hl : k.lam = 0) {z : ℝ}
    (hz : -1 < z) : cdist k z = 2 * c / k.H0 * (1 - 1 / Real.sqrt (1 + z)) := by
  have hd : ∀ x ∈ Set.uIcc 0 z, HasDerivAt (fun x : ℝ => -2 / Real.sqrt (1 + x)) (ezFunc k x) x := by
    intro x hx
    have hx1 : (0 : ℝ) < 1 + x := by
      have := uIcc_sub (by norm_num) hz hx
      have : -1 < x := this
      linarith
    have hs := Real.sqrt_pos.mpr hx1
    have h1 : HasDerivAt (fun x : ℝ => Real.sqrt (1 + x)) (1 / (2 * Real.sqrt (1 + x))) x := by
      have := ((hasDerivAt_id x).const_add 1).sqrt hx1.ne'
      exact this
    have h2 := (h1.inv hs.ne').const_mul (-2)
    have e : ezFunc k x = -2 * (-(1 / (2 * Real.sqrt (1 + x))) / Real.sqrt (1 + x) ^ 2) := by
      unfold ezFunc
      rw [hO, hl]
      have e3 : Real.sqrt (((1 : ℚ) : ℝ) * (1 + x) ^ 3 + ((0 : ℚ) : ℝ)) =
          (1 + x) * Real.sqrt (1 + x) := by
        push_cast
        rw [one_mul, add_zero, show (1 + x) ^ 3 = (1 + x) ^ 2 * (1 + x) by ring,
          Real.sqrt_mul (by positivity), Real.sqrt_sq hx1.le]
      rw [e3, Real.sq_sqrt hx1.le]
      field_simp
    rw [e]
    simpa [div_eq_mul_inv] using h2
  have hi := intervalIntegral.integral_eq_sub_of_hasDerivAt hd (ezFunc_int p (by norm_num) hz)
  unfold cdist
  rw [hi]
  simp only [add_zero, Real.sqrt_one]
  ring

/-- Luminosity distance is `1+z` times the comoving distance in every flat cosmology, both
for the integral and for the closed form without cosmological constant. -/
theorem C79_luminosity (k : Const) (p : Physical k) (f : Flat k) (z : ℝ) (hz : 0 ≤ z) :
    luminosity_distance k z = (1 + z) * cdist k z := by
  unfold luminosity_distance
  by_cases hl' : k.lam = 0
  · rw [if_pos hl']
    have hO : k.omega0 = 1 := by have := f.lam; linarith
    have hq : k.q0 = 1 / 2 := by rw [f.q0, hO, hl']; norm_num
    have hz1 : (0 : ℝ) < 1 + z := by linarith
    rw [cdist_eds p hO hl' (by linarith)]
    unfold mattig
    rw [hq]
    have hs := Real.sqrt_pos.mpr hz1
    have hss := Real.sq_sqrt hz1.le
    have hzs : z = Real.sqrt (1 + z) ^ 2 - 1 := by linarith
    have e : (1 : ℝ) + 2 * ((1 / 2 : ℚ) : ℝ) * z = 1 + z := by push_cast; ring
    simp only [e]
    generalize Real.sqrt (1 + z) = s at *
    subst hzs
    push_cast
    have hH := p.hubble'.ne'
    have : s + 1 + 1 / 2 * (s ^ 2 - 1) ≠ 0 := by nlinarith
    field_simp
    ring
  · rw [if_neg hl']
    simp only
    rcases hz.eq_or_lt with rfl | h
    · simp [cdist]
    · rw [if_neg (by linarith)]
      have : ∫ x in (0 : ℝ)..z, ldist k x = ∫ x in (0 : ℝ)..z, ezFunc k x := by
        refine intervalIntegral.integral_congr fun x hx => ldist_flat p f ?_
        exact uIcc_sub (by norm_num) (by linarith) hx
      rw [this]
      unfold cdist
      ring

example : Physical (Const.init 3) ∧ Flat (Const.init 3) :=
  ⟨physical_init, by simpa using C79_flat 3 [] (by simp)⟩

/-- Angular sizes: an object of `l` comoving Mpc subtends `l` over the comoving distance, in
degrees (with 3.1415 for π), and `deg_to_cdist` is the inverse. -/
theorem C79_angular (k : Const) (p : Physical k) (f : Flat k) (l z : ℝ) (hz : 0 < z) :
    angular_size_comoving k l z = l / cdist k z * (180 / (31415 / 10000)) ∧
    deg_to_cdist k (angular_size_comoving k l z) z = l ∧
    angular_size_comoving k (deg_to_cdist k l z) z = l := by
  have h1 := (cdist_pos p hz).ne'
  have hz1 : (1 : ℝ) + z ≠ 0 := by linarith
  have key : ∀ l, angular_size_comoving k l z = l / cdist k z * (180 / (31415 / 10000)) := by
    intro l
    unfold angular_size_comoving angular_size c_to_p
    rw [C79_luminosity k p f z hz.le]
    field_simp
    ring
  refine ⟨key l, ?_, ?_⟩
  · unfold deg_to_cdist; rw [key, key]; field_simp
  · rw [key]; unfold deg_to_cdist; rw [key]; field_simp

example : (0 : ℝ) < 9 := by norm_num

/-- Distances agree in every cosmology the setters can produce.  False after
`set_omega_lambda`: the deceleration parameter is not updated and the comoving distance knows
no curvature. -/
theorem C79_false_lambda :
    ¬ ∀ (ops : List ConstOp) (z : ℝ), 0 ≤ z → Physical (ops.foldl Const.step (Const.init 3)) →
      luminosity_distance (ops.foldl Const.step (Const.init 3)) z =
        (1 + z) * cdist (ops.foldl Const.step (Const.init 3)) z := by
  intro h
  have h1 := h [.omegaLambda 1] (1 / 4) (by norm_num)
    ⟨by norm_num [Const.step, Const.init], by norm_num [Const.step, Const.init],
      by norm_num [Const.step, Const.init]⟩
  set k := [ConstOp.omegaLambda 1].foldl Const.step (Const.init 3) with hk
  have hO : (k.omega0 : ℝ) = 27 / 100 := by norm_num [hk, Const.step, Const.init]
  have hl : (k.lam : ℝ) = 1 := by norm_num [hk, Const.step, Const.init]
  have hq : (k.q0 : ℝ) = -595 / 1000 := by norm_num [hk, Const.step, Const.init]
  have hH : (k.H0 : ℝ) = 70 := by norm_num [hk, Const.step, Const.init]
  have p : Physical k := ⟨by exact_mod_cast (hO ▸ by norm_num : (0 : ℝ) < k.omega0),
    by exact_mod_cast (hl ▸ by norm_num : (0 : ℝ) ≤ k.lam),
    by exact_mod_cast (hH ▸ by norm_num : (0 : ℝ) < k.H0)⟩
  have hden : ∀ x : ℝ, ldistDenom k x = 1 + 81 / 100 * x + 162 / 100 * x ^ 2 + 81 / 100 * x ^ 3 := by
    intro x; unfold ldistDenom; rw [hq, hl]; ring
  have hpos : ∀ x : ℝ, 0 ≤ x → 0 < ldistDenom k x := fun x hx => by rw [hden]; positivity
  have hlt : ∀ x ∈ Set.Icc (0 : ℝ) (1 / 4), ezFunc k x < ldist k x := by
    intro x hx
    have h0 := hpos x hx.1
    unfold ldist ezFunc
    rw [if_pos h0.le]
    refine one_div_lt_one_div_of_lt (Real.sqrt_pos.mpr h0) (Real.sqrt_lt_sqrt h0.le ?_)
    rw [hden, hO, hl]
    have h2 : x ^ 2 ≤ (1 / 4) ^ 2 := pow_le_pow_left₀ hx.1 hx.2 2
    have h3 : x ^ 3 ≤ (1 / 4) ^ 3 := pow_le_pow_left₀ hx.1 hx.2 3
    nlinarith
  have hc : ContinuousOn (ldist k) (Set.Icc 0 (1 / 4)) := by
    have : ContinuousOn (fun x => 1 / Real.sqrt (ldistDenom k x)) (Set.Icc 0 (1 / 4)) := by
      refine ContinuousOn.div continuousOn_const ?_ fun x hx =>
        (Real.sqrt_pos.mpr (hpos x hx.1)).ne'
      unfold ldistDenom
      fun_prop
    refine this.congr fun x hx => ?_
    unfold ldist
    rw [if_pos (hpos x hx.1).le]
  have hi : (∫ x in (0 : ℝ)..1 / 4, ezFunc k x) < ∫ x in (0 : ℝ)..1 / 4, ldist k x :=
    intervalIntegral.integral_lt_integral_of_continuousOn_of_le_of_exists_lt (by norm_num)
      ((ezFunc_cont p).mono fun x hx => by
        have := hx.1
        show -1 < x
        linarith) hc
      (fun x hx => (hlt x (Set.Ioc_subset_Icc_self hx)).le) ⟨0, by simp, hlt 0 (by simp)⟩
  unfold luminosity_distance cdist at h1
  rw [if_neg (by intro h; rw [h] at hl; norm_num at hl)] at h1
  simp only at h1
  rw [if_neg (by norm_num), hH] at h1
  unfold c at h1
  linarith

end Verif.Conversions
