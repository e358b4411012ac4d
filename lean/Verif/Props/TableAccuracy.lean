import Verif.Props.DistanceTable
import Mathlib.Data.List.GetD
import Mathlib.Tactic.NormNum
import Mathlib.Tactic.Linarith
import Mathlib.Tactic.Positivity
import Mathlib.Tactic.FieldSimp
/-!
# The tabulated distances of `cosmo.py`

C80: the table from which `cdist_to_z` takes its first guess belongs to the default cosmology.
-/

namespace Verif.Conversions

open Verif.Constants

/-! ### Rational bounds of the tabulated redshifts -/

/-- Below `10^(2/199)`. -/
def qLo : ℚ := 1023411402105 / 10 ^ 12

/-- Above `10^(2/199)`. -/
def qHi : ℚ := 1023411402106 / 10 ^ 12

/-- Lower bound of an entry of the table. -/
def zLo (i : ℕ) : ℚ := if i < 50 then (i : ℚ) * (2 / 100) else qLo ^ (i - 50)

/-- Upper bound of an entry of the table. -/
def zHi (i : ℕ) : ℚ := if i < 50 then (i : ℚ) * (2 / 100) else qHi ^ (i - 50)

theorem q_bounds : qLo ^ 199 ≤ 100 ∧ 100 ≤ qHi ^ 199 := by decide +kernel

theorem q_real : (qLo : ℝ) ≤ (10 : ℝ) ^ ((2 : ℝ) / 199) ∧ (10 : ℝ) ^ ((2 : ℝ) / 199) ≤ (qHi : ℝ) := by
  have h : ((10 : ℝ) ^ ((2 : ℝ) / 199)) ^ 199 = 100 := by
    rw [← Real.rpow_natCast, ← Real.rpow_mul (by norm_num)]
    norm_num
  have h0 : (0 : ℝ) ≤ (10 : ℝ) ^ ((2 : ℝ) / 199) := by positivity
  have h1 : (qLo : ℝ) ^ 199 ≤ 100 := by exact_mod_cast q_bounds.1
  have h2 : (100 : ℝ) ≤ (qHi : ℝ) ^ 199 := by exact_mod_cast q_bounds.2
  constructor
  · refine le_of_pow_le_pow_left₀ (n := 199) (by norm_num) h0 ?_
    rw [h]; exact h1
  · refine le_of_pow_le_pow_left₀ (n := 199) (by norm_num) ?_ ?_
    · unfold qHi; positivity
    · rw [h]; exact h2

theorem tableZ_bounds (i : ℕ) (hi : i < 250) :
    (zLo i : ℝ) ≤ tableZ.getD i 0 ∧ tableZ.getD i 0 ≤ (zHi i : ℝ) := by
  unfold zLo zHi tableZ
  by_cases h : i < 50
  · rw [if_pos h, if_pos h, List.getD_append _ _ _ _ (by simpa using h)]
    simp [List.getD_eq_getElem?_getD, h]
  · rw [if_neg h, if_neg h, List.getD_append_right _ _ _ _ (by simpa using h)]
    have h2 : i - 50 < 200 := by omega
    simp only [List.length_map, List.length_range, List.getD_eq_getElem?_getD, List.getElem?_map,
      List.getElem?_range h2, Option.map_some, Option.getD_some]
    have e : (10 : ℝ) ^ (2 * ((i - 50 : ℕ) : ℝ) / 199) = ((10 : ℝ) ^ ((2 : ℝ) / 199)) ^ (i - 50) := by
      rw [← Real.rpow_natCast, ← Real.rpow_mul (by norm_num)]
      congr 1
      ring
    rw [e]
    push_cast
    have hl : (0 : ℝ) ≤ (qLo : ℝ) := by unfold qLo; positivity
    exact ⟨pow_le_pow_left₀ hl q_real.1 _, pow_le_pow_left₀ (by positivity) q_real.2 _⟩

/-! ### One interval of the table -/

/-- The squared expansion rate of the default cosmology. -/
def rate2 (z : ℚ) : ℚ := 27 / 100 * (1 + z) ^ 3 + 73 / 100

/-- The increment of the table compared with the extreme slopes. -/
def Close (i : ℕ) : Prop :=
  let d : ℚ := ((tableCdist.getD (i + 1) 0 : ℕ) : ℚ) - ((tableCdist.getD i 0 : ℕ) : ℚ)
  0 < d ∧ zHi i ≤ zLo (i + 1) ∧ 0 ≤ zLo i ∧
  d ^ 2 * rate2 (zHi (i + 1)) ≤
    ((1018 / 1000) * 10 ^ 8 * (300000 / 70) * (zLo (i + 1) - zHi i)) ^ 2 ∧
  (10 ^ 8 * (300000 / 70) * (zHi (i + 1) - zLo i)) ^ 2 ≤ ((1018 / 1000) * d) ^ 2 * rate2 (zLo i)

instance (i : ℕ) : Decidable (Close i) := by unfold Close; infer_instance

theorem close_all : ∀ i < 249, Close i := by decide +kernel

theorem cdist_step (k : Const) (p : Physical k) {a b : ℝ} (ha : 0 ≤ a) (hab : a ≤ b) :
    c / k.H0 * ((b - a) * ezFunc k b) ≤ cdist k b - cdist k a ∧
      cdist k b - cdist k a ≤ c / k.H0 * ((b - a) * ezFunc k a) := by
  have hc : (0 : ℝ) < c := by unfold c; norm_num
  have hH := p.hubble'
  have anti : ∀ x y : ℝ, 0 ≤ x → x ≤ y → ezFunc k y ≤ ezFunc k x := by
    intro x y hx hxy
    unfold ezFunc
    have h1 := Real.sqrt_pos.mpr (rate_pos p (x := x) (by linarith))
    refine one_div_le_one_div_of_le h1 (Real.sqrt_le_sqrt ?_)
    have := p.matter'
    have h2 : (1 + x) ^ 3 ≤ (1 + y) ^ 3 := by gcongr
    nlinarith
  have hi := ezFunc_int p (a := a) (b := b) (by linarith) (by linarith)
  rw [cdist_sub p (by linarith) (by linarith)]
  have l : (b - a) * ezFunc k b ≤ ∫ x in a..b, ezFunc k x := by
    have h := intervalIntegral.integral_mono_on (f := fun _ => ezFunc k b) (g := ezFunc k) hab
      intervalIntegrable_const hi fun x hx => anti x b (by linarith [hx.1]) hx.2
    simpa using h
  have u : ∫ x in a..b, ezFunc k x ≤ (b - a) * ezFunc k a := by
    have h := intervalIntegral.integral_mono_on (f := ezFunc k) (g := fun _ => ezFunc k a) hab
      hi intervalIntegrable_const fun x hx => anti a x ha hx.1
    simpa using h
  have hpos : 0 < c / (k.H0 : ℝ) := div_pos hc hH
  exact ⟨mul_le_mul_of_nonneg_left l hpos.le, mul_le_mul_of_nonneg_left u hpos.le⟩

/-- Entry `i` of the table in Mpc. -/
noncomputable def tableEntry (i : ℕ) : ℝ := ((tableCdist.getD i 0 : ℕ) : ℝ) / 10 ^ 8

theorem mul_sqrt_le {d r x : ℝ} (hd : 0 ≤ d) (hx : 0 ≤ x) (h : d ^ 2 * r ≤ x ^ 2) :
    d * Real.sqrt r ≤ x := by
  have h1 : d * Real.sqrt r = Real.sqrt (d ^ 2 * r) := by
    rw [Real.sqrt_mul (sq_nonneg d), Real.sqrt_sq hd]
  rw [h1]
  exact (Real.sqrt_le_sqrt h).trans_eq (Real.sqrt_sq hx)

theorem le_mul_sqrt {d r x : ℝ} (hd : 0 ≤ d) (hx : 0 ≤ x) (h : x ^ 2 ≤ d ^ 2 * r) :
    x ≤ d * Real.sqrt r := by
  have h1 : d * Real.sqrt r = Real.sqrt (d ^ 2 * r) := by
    rw [Real.sqrt_mul (sq_nonneg d), Real.sqrt_sq hd]
  rw [h1, ← Real.sqrt_sq hx]
  exact Real.sqrt_le_sqrt h

theorem entry_step (i : ℕ) (hi : i < 249) (k : Const)
    (h1 : k.omega0 = 27 / 100) (h2 : k.lam = 73 / 100) (h3 : k.H0 = 70) :
    tableEntry (i + 1) - tableEntry i ≤
      1018 / 1000 * (cdist k (tableZ.getD (i + 1) 0) - cdist k (tableZ.getD i 0)) ∧
    cdist k (tableZ.getD (i + 1) 0) - cdist k (tableZ.getD i 0) ≤
      1018 / 1000 * (tableEntry (i + 1) - tableEntry i) := by
  have p : Physical k := ⟨by rw [h1]; norm_num, by rw [h2]; norm_num, by rw [h3]; norm_num⟩
  obtain ⟨c1, c2, c3, c4, c5⟩ := close_all i hi
  obtain ⟨a1, a2⟩ := tableZ_bounds i (by omega)
  obtain ⟨b1, b2⟩ := tableZ_bounds (i + 1) (by omega)
  generalize tableZ.getD i 0 = a at *
  generalize tableZ.getD (i + 1) 0 = b at *
  generalize hd : ((tableCdist.getD (i + 1) 0 : ℕ) : ℚ) - ((tableCdist.getD i 0 : ℕ) : ℚ) = d at *
  have e1 : tableEntry (i + 1) - tableEntry i = (d : ℝ) / 10 ^ 8 := by
    unfold tableEntry
    rw [← hd]
    push_cast
    ring
  have c1' : (0 : ℝ) < d := by exact_mod_cast c1
  have c2' : (zHi i : ℝ) ≤ zLo (i + 1) := by exact_mod_cast c2
  have c3' : (0 : ℝ) ≤ zLo i := by exact_mod_cast c3
  have c4' : (d : ℝ) ^ 2 * (27 / 100 * (1 + (zHi (i + 1) : ℝ)) ^ 3 + 73 / 100) ≤
      ((1018 / 1000) * 10 ^ 8 * (300000 / 70) * ((zLo (i + 1) : ℝ) - zHi i)) ^ 2 := by
    have := (Rat.cast_le (K := ℝ)).mpr c4
    unfold rate2 at this
    push_cast at this
    exact this
  have c5' : (10 ^ 8 * (300000 / 70) * ((zHi (i + 1) : ℝ) - zLo i)) ^ 2 ≤
      ((1018 / 1000) * (d : ℝ)) ^ 2 * (27 / 100 * (1 + (zLo i : ℝ)) ^ 3 + 73 / 100) := by
    have := (Rat.cast_le (K := ℝ)).mpr c5
    unfold rate2 at this
    push_cast at this
    exact this
  have ha : 0 ≤ a := c3'.trans a1
  have hab : a ≤ b := a2.trans (c2'.trans b1)
  obtain ⟨s1, s2⟩ := cdist_step k p ha hab
  have hR : ∀ x, ezFunc k x = 1 / Real.sqrt (27 / 100 * (1 + x) ^ 3 + 73 / 100) := by
    intro x
    unfold ezFunc
    rw [h1, h2]
    norm_num
  have hcH : c / (k.H0 : ℝ) = 300000 / 70 := by
    rw [h3]; unfold c; norm_num
  rw [hR, hcH] at s1 s2
  have ra : 0 < Real.sqrt (27 / 100 * (1 + a) ^ 3 + 73 / 100) := Real.sqrt_pos.mpr (by positivity)
  have rb : 0 < Real.sqrt (27 / 100 * (1 + b) ^ 3 + 73 / 100) :=
    Real.sqrt_pos.mpr (by have := ha.trans hab; positivity)
  rw [e1]
  constructor
  · have m : (d : ℝ) * Real.sqrt (27 / 100 * (1 + b) ^ 3 + 73 / 100) ≤
        (1018 / 1000) * 10 ^ 8 * (300000 / 70) * (b - a) := by
      refine mul_sqrt_le c1'.le ?_ ?_
      · have : 0 ≤ b - a := by linarith
        positivity
      · refine le_trans ?_ (c4'.trans ?_)
        · have := ha.trans hab
          gcongr
        · have : 0 ≤ (zLo (i + 1) : ℝ) - zHi i := by linarith
          gcongr
    have m2 : (d : ℝ) / 10 ^ 8 ≤ 1018 / 1000 *
        (300000 / 70 * ((b - a) * (1 / Real.sqrt (27 / 100 * (1 + b) ^ 3 + 73 / 100)))) := by
      rw [div_le_iff₀ (by positivity)]
      have : (d : ℝ) ≤ (1018 / 1000) * 10 ^ 8 * (300000 / 70) * (b - a) /
          Real.sqrt (27 / 100 * (1 + b) ^ 3 + 73 / 100) := by
        rw [le_div_iff₀ rb]; exact m
      refine this.trans_eq ?_
      ring
    refine m2.trans ?_
    linarith
  · have m : 10 ^ 8 * (300000 / 70) * (b - a) ≤
        (1018 / 1000) * (d : ℝ) * Real.sqrt (27 / 100 * (1 + a) ^ 3 + 73 / 100) := by
      refine le_mul_sqrt (by positivity) ?_ ?_
      · have : 0 ≤ b - a := by linarith
        positivity
      · refine le_trans ?_ (c5'.trans ?_)
        · have : 0 ≤ b - a := by linarith
          gcongr
        · gcongr
    refine s2.trans ?_
    have e2 : 300000 / 70 * ((b - a) * (1 / Real.sqrt (27 / 100 * (1 + a) ^ 3 + 73 / 100))) =
        10 ^ 8 * (300000 / 70) * (b - a) / Real.sqrt (27 / 100 * (1 + a) ^ 3 + 73 / 100) / 10 ^ 8 := by
      ring
    rw [e2]
    have : 10 ^ 8 * (300000 / 70) * (b - a) / Real.sqrt (27 / 100 * (1 + a) ^ 3 + 73 / 100) ≤
        (1018 / 1000) * (d : ℝ) := by
      rw [div_le_iff₀ ra]; exact m
    refine (div_le_div_of_nonneg_right this (by positivity)).trans_eq ?_
    ring

/-- Every entry of the table is the comoving distance of the default cosmology at its redshift,
within two per cent. -/
theorem C80_table (pi : ℚ) (i : ℕ) (hi : i < 250) :
    |tableEntry i - cdist (Const.init pi) (tableZ.getD i 0)| ≤
      2 / 100 * cdist (Const.init pi) (tableZ.getD i 0) := by
  have p : Physical (Const.init pi) :=
    ⟨by norm_num [Const.init], by norm_num [Const.init], by norm_num [Const.init]⟩
  have h0 : tableZ.getD 0 0 = 0 := by simp [tableZ]
  have key : ∀ i < 250, tableEntry i ≤ 1018 / 1000 * cdist (Const.init pi) (tableZ.getD i 0) ∧
      cdist (Const.init pi) (tableZ.getD i 0) ≤ 1018 / 1000 * tableEntry i := by
    intro i
    induction i with
    | zero =>
      intro _
      have e : tableEntry 0 = 0 := by
        unfold tableEntry
        rw [show tableCdist.getD 0 0 = 0 by decide +kernel]
        simp
      rw [h0, (C78_distance _ p).1, e]
      norm_num
    | succ i ih =>
      intro hi
      obtain ⟨h1, h2⟩ := ih (by omega)
      obtain ⟨h3, h4⟩ := entry_step i (by omega) (Const.init pi) (by norm_num [Const.init])
        (by norm_num [Const.init]) (by norm_num [Const.init])
      constructor <;> linarith
  obtain ⟨h1, h2⟩ := key i hi
  have h3 : 0 ≤ tableEntry i := by unfold tableEntry; positivity
  rw [abs_le]
  constructor <;> linarith

example : (249 : ℕ) < 250 := by norm_num

end Verif.Conversions
