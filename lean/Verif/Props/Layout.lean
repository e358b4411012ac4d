import Verif.Model.Layout
import Verif.Props.UVGrid
import Mathlib.Tactic.Positivity
import Mathlib.Analysis.SpecialFunctions.Pow.Real
/-!
# Geographic coordinates (C139) and layouts of antennas (C140)
-/

namespace Verif.Layout
open Verif.UVGrid

/-! ## C139 -/

/-- Specification: the point `p` (metres) has this longitude and latitude (radians) and this distance from the centre of the Earth:
its height over the plane of the equator belongs to the latitude, and it lies in the half-plane of the longitude. -/
structure At (r lon lat : ℝ) (p : V3) : Prop where
  distance : p 0 ^ 2 + p 1 ^ 2 + p 2 ^ 2 = r ^ 2
  height : p 2 = r * Real.sin lat
  meridian : p 0 * Real.sin lon = p 1 * Real.cos lon
  side : 0 ≤ p 0 * Real.cos lon + p 1 * Real.sin lon

/-- These conditions determine the point. -/
theorem At.unique {r lon lat : ℝ} {p q : V3} (h : At r lon lat p) (h' : At r lon lat q) : p = q := by
  have hs := Real.sin_sq_add_cos_sq lon
  have key : ∀ {p : V3}, At r lon lat p →
      (p 0 * Real.cos lon + p 1 * Real.sin lon) ^ 2 = r ^ 2 - (r * Real.sin lat) ^ 2 ∧
      p 0 = (p 0 * Real.cos lon + p 1 * Real.sin lon) * Real.cos lon ∧
      p 1 = (p 0 * Real.cos lon + p 1 * Real.sin lon) * Real.sin lon := by
    intro p h
    have hm := h.meridian
    refine ⟨?_, ?_, ?_⟩
    · rw [← h.height, ← h.distance]
      linear_combination (p 0 ^ 2 + p 1 ^ 2) * hs - (p 0 * Real.sin lon - p 1 * Real.cos lon) * hm
    · linear_combination (-p 0) * hs + Real.sin lon * hm
    · linear_combination (-p 1) * hs - Real.cos lon * hm
  obtain ⟨a1, a2, a3⟩ := key h
  obtain ⟨b1, b2, b3⟩ := key h'
  have e : p 0 * Real.cos lon + p 1 * Real.sin lon = q 0 * Real.cos lon + q 1 * Real.sin lon := by
    have hab := h.side
    have hab' := h'.side
    exact (sq_eq_sq₀ hab hab').1 (a1.trans b1.symm)
  funext i
  match i with
  | 0 => rw [a2, b2, e]
  | 1 => rw [a3, b3, e]
  | 2 => rw [h.height, h'.height]

theorem at_point {r lon lat : ℝ} (hr : 0 ≤ r) (hl : 0 ≤ Real.cos lat) :
    At r lon lat ![r * Real.cos lat * Real.cos lon, r * Real.cos lat * Real.sin lon, r * Real.sin lat] := by
  have hs := Real.sin_sq_add_cos_sq lon
  have hb := Real.sin_sq_add_cos_sq lat
  have e0 : ∀ x y z : ℝ, (![x, y, z] : V3) 0 = x := fun _ _ _ => rfl
  have e1 : ∀ x y z : ℝ, (![x, y, z] : V3) 1 = y := fun _ _ _ => rfl
  have e2 : ∀ x y z : ℝ, (![x, y, z] : V3) 2 = z := fun _ _ _ => rfl
  refine ⟨?_, ?_, ?_, ?_⟩ <;> simp only [e0, e1, e2]
  · linear_combination (r ^ 2 * Real.cos lat ^ 2) * hs + r ^ 2 * hb
  · ring
  · have : r * Real.cos lat * Real.cos lon * Real.cos lon + r * Real.cos lat * Real.sin lon * Real.sin lon =
        r * Real.cos lat := by linear_combination (r * Real.cos lat) * hs
    rw [this]
    positivity

/-- The mean radius of the Earth in metres, as documented. -/
abbrev radius : ℝ := 6371000

theorem earth_eq : earth = radius := by norm_num [earth]

/-- **C139, to Cartesian.** Every row with a latitude between the poles becomes the point of the sphere of 6371 km with this longitude
and latitude: degrees for a plain array, the unit of the Quantity otherwise; further columns are ignored. -/
theorem C139_cartesian (w : ℕ) (hw : 2 ≤ w) (rows : List (Fin w → ℝ)) :
    (∃ out, geoToCart (.plain ⟨w, rows⟩) = .ok out ∧ out.length = rows.length ∧
      ∀ i (hi : i < rows.length) (ho : i < out.length), |rows[i] ⟨1, by omega⟩| ≤ 90 →
        At radius (rows[i] ⟨0, by omega⟩ * Real.pi / 180) (rows[i] ⟨1, by omega⟩ * Real.pi / 180) out[i]) ∧
    ∀ u : ℝ, ∃ out, geoToCart (.quantity (some u) ⟨w, rows⟩) = .ok out ∧ out.length = rows.length ∧
      ∀ i (hi : i < rows.length) (ho : i < out.length), |rows[i] ⟨1, by omega⟩ * u| ≤ Real.pi / 2 →
        At radius (rows[i] ⟨0, by omega⟩ * u) (rows[i] ⟨1, by omega⟩ * u) out[i] := by
  have main : ∀ u : ℝ, ∃ out, geoToCart (.quantity (some u) ⟨w, rows⟩) = .ok out ∧ out.length = rows.length ∧
      ∀ i (hi : i < rows.length) (ho : i < out.length), |rows[i] ⟨1, by omega⟩ * u| ≤ Real.pi / 2 →
        At radius (rows[i] ⟨0, by omega⟩ * u) (rows[i] ⟨1, by omega⟩ * u) out[i] := by
    intro u
    refine ⟨List.zipWith (fun l b => ![earth * Real.cos (b * u) * Real.cos (l * u),
        earth * Real.cos (b * u) * Real.sin (l * u), earth * Real.sin (b * u)])
        (rows.map fun r => r ⟨0, by omega⟩) (rows.map fun r => r ⟨1, by omega⟩), ?_, ?_, ?_⟩
    · unfold geoToCart Table.column
      simp only [show 0 < w by omega, show 1 < w by omega, dite_true]
    · simp
    · intro i hi ho hb
      rw [abs_le] at hb
      simp only [List.getElem_zipWith, List.getElem_map]
      rw [← earth_eq]
      exact at_point (by norm_num [earth]) (Real.cos_nonneg_of_mem_Icc ⟨by linarith [hb.1], hb.2⟩)
  refine ⟨?_, main⟩
  obtain ⟨out, h1, h2, h3⟩ := main (Real.pi / 180)
  refine ⟨out, h1, h2, fun i hi ho hb => ?_⟩
  have hb' : |rows[i] ⟨1, by omega⟩ * (Real.pi / 180)| ≤ Real.pi / 2 := by
    rw [abs_mul, abs_of_pos (by positivity : 0 < Real.pi / 180)]
    have := mul_le_mul_of_nonneg_right hb (by positivity : 0 ≤ Real.pi / 180)
    linarith [this]
  have := h3 i hi ho hb'
  rw [show rows[i] ⟨0, by omega⟩ * Real.pi / 180 = rows[i] ⟨0, by omega⟩ * (Real.pi / 180) by ring,
    show rows[i] ⟨1, by omega⟩ * Real.pi / 180 = rows[i] ⟨1, by omega⟩ * (Real.pi / 180) by ring]
  exact this

/-- The geographic coordinates of one point. -/
theorem geographic_spec {s x y z : ℝ} (hs : 0 < s) (h : (x, y, z) ≠ (0, 0, 0)) :
    ∃ lat, (geographic s x y z).2.1 = some lat ∧ |lat| ≤ 90 ∧
      -180 < (geographic s x y z).1 ∧ (geographic s x y z).1 ≤ 180 ∧
      0 < radius + (geographic s x y z).2.2 ∧
      At (radius + (geographic s x y z).2.2) ((geographic s x y z).1 * Real.pi / 180) (lat * Real.pi / 180)
        ![s * x, s * y, s * z] := by
  have hpi := Real.pi_pos
  have h0 : 0 < x ^ 2 + y ^ 2 + z ^ 2 := by
    by_contra hc
    have hx : x ^ 2 = 0 := by nlinarith [sq_nonneg x, sq_nonneg y, sq_nonneg z]
    have hy : y ^ 2 = 0 := by nlinarith [sq_nonneg x, sq_nonneg y, sq_nonneg z]
    have hz : z ^ 2 = 0 := by nlinarith [sq_nonneg x, sq_nonneg y, sq_nonneg z]
    exact h (by rw [pow_eq_zero_iff two_ne_zero |>.1 hx, pow_eq_zero_iff two_ne_zero |>.1 hy,
      pow_eq_zero_iff two_ne_zero |>.1 hz])
  have hr : 0 < Real.sqrt (x ^ 2 + y ^ 2 + z ^ 2) := Real.sqrt_pos.2 h0
  have hr2 : Real.sqrt (x ^ 2 + y ^ 2 + z ^ 2) ^ 2 = x ^ 2 + y ^ 2 + z ^ 2 := Real.sq_sqrt h0.le
  unfold geographic
  simp only []
  generalize Real.sqrt (x ^ 2 + y ^ 2 + z ^ 2) = r at hr hr2
  rw [if_neg hr.ne', earth_eq]
  have hz1 : -1 ≤ z / r := by
    rw [le_div_iff₀ hr]; nlinarith [sq_nonneg x, sq_nonneg y]
  have hz2 : z / r ≤ 1 := by
    rw [div_le_iff₀ hr]; nlinarith [sq_nonneg x, sq_nonneg y]
  have ha1 := Real.neg_pi_div_two_le_arcsin (z / r)
  have ha2 := Real.arcsin_le_pi_div_two (z / r)
  have hc1 := Complex.neg_pi_lt_arg ⟨x, y⟩
  have hc2 := Complex.arg_le_pi ⟨x, y⟩
  refine ⟨_, rfl, ?_, ?_, ?_, ?_, ?_⟩
  · rw [abs_le]
    constructor
    · have : -90 = -(Real.pi / 2) * (180 / Real.pi) := by field_simp; norm_num
      rw [this]; gcongr
    · have : (90 : ℝ) = (Real.pi / 2) * (180 / Real.pi) := by field_simp; norm_num
      rw [this]; gcongr
  · have : (-180 : ℝ) = -Real.pi * (180 / Real.pi) := by field_simp
    rw [this]; gcongr
  · have : (180 : ℝ) = Real.pi * (180 / Real.pi) := by field_simp
    conv_rhs => rw [this]
    gcongr
  · have : 0 < r * s := by positivity
    linarith
  · have e1 : Complex.arg ⟨x, y⟩ * (180 / Real.pi) * Real.pi / 180 = Complex.arg ⟨x, y⟩ := by field_simp
    have e2 : Real.arcsin (z / r) * (180 / Real.pi) * Real.pi / 180 = Real.arcsin (z / r) := by field_simp
    rw [e1, e2, show radius + (r * s - radius) = r * s by ring]
    have hn := Complex.norm_mul_cos_arg ⟨x, y⟩
    have hm := Complex.norm_mul_sin_arg ⟨x, y⟩
    simp only at hn hm
    have hnn := norm_nonneg (⟨x, y⟩ : ℂ)
    generalize ‖(⟨x, y⟩ : ℂ)‖ = n at hn hm hnn
    have hs2 := Real.sin_sq_add_cos_sq (Complex.arg ⟨x, y⟩)
    generalize Complex.arg ⟨x, y⟩ = t at hn hm hs2
    have e0' : ∀ x y z : ℝ, (![x, y, z] : V3) 0 = x := fun _ _ _ => rfl
    have e1' : ∀ x y z : ℝ, (![x, y, z] : V3) 1 = y := fun _ _ _ => rfl
    have e2' : ∀ x y z : ℝ, (![x, y, z] : V3) 2 = z := fun _ _ _ => rfl
    refine ⟨?_, ?_, ?_, ?_⟩ <;> simp only [e0', e1', e2']
    · linear_combination (-s ^ 2) * hr2
    · rw [Real.sin_arcsin hz1 hz2]; field_simp
    · rw [← hn, ← hm]; ring
    · have : s * x * Real.cos t + s * y * Real.sin t = s * n := by
        rw [← hn, ← hm]; linear_combination (s * n) * hs2
      rw [this]; positivity

/-- **C139, to geographic** (the part that holds: Quantities without dimension). Every row but the centre of the Earth becomes the
longitude and latitude in degrees and the height over the sphere of 6371 km of the point, in metres. -/
theorem C139_geographic_partial (s : ℝ) (hs : 0 < s) (w : ℕ) (hw : 3 ≤ w) (rows : List (Fin w → ℝ)) :
    ∃ out, (cartToGeo (.quantity s 0 ⟨w, rows⟩)).1 = .ok out ∧ out.length = rows.length ∧
      ∀ i (hi : i < rows.length) (ho : i < out.length),
        (rows[i] ⟨0, by omega⟩, rows[i] ⟨1, by omega⟩, rows[i] ⟨2, by omega⟩) ≠ (0, 0, 0) →
        ∃ lat, out[i].2.1 = some lat ∧ |lat| ≤ 90 ∧ -180 < out[i].1 ∧ out[i].1 ≤ 180 ∧ 0 < radius + out[i].2.2 ∧
          At (radius + out[i].2.2) (out[i].1 * Real.pi / 180) (lat * Real.pi / 180)
            ![s * rows[i] ⟨0, by omega⟩, s * rows[i] ⟨1, by omega⟩, s * rows[i] ⟨2, by omega⟩] := by
  refine ⟨((rows.map fun r => r ⟨0, by omega⟩).zip ((rows.map fun r => r ⟨1, by omega⟩).zip
    (rows.map fun r => r ⟨2, by omega⟩))).map fun v => geographic s v.1 v.2.1 v.2.2, ?_, ?_, ?_⟩
  · unfold cartToGeo Table.column
    simp only [show 0 < w by omega, show 1 < w by omega, show 2 < w by omega, dite_true]
    rfl
  · simp
  · intro i hi ho h
    simp only [List.getElem_map, List.getElem_zip]
    exact geographic_spec hs h

example := C139_geographic_partial 1000 (by norm_num) 3 (by norm_num) [![6000, 100, -200], ![0, 0, 6400]]

/-- **C139, there and back**: a place with a longitude in (-180, 180] and a latitude between the poles is found again, at height zero,
when the positions are passed as a Quantity without dimension. -/
theorem C139_round_partial (w : ℕ) (hw : 2 ≤ w) (rows : List (Fin w → ℝ)) {xyz : List V3}
    (h : geoToCart (.plain ⟨w, rows⟩) = .ok xyz)
    (hr : ∀ r ∈ rows, -180 < r ⟨0, by omega⟩ ∧ r ⟨0, by omega⟩ ≤ 180 ∧ |r ⟨1, by omega⟩| < 90) :
    (cartToGeo (.quantity 1 0 ⟨3, xyz⟩)).1 =
      .ok (rows.map fun r => (r ⟨0, by omega⟩, some (r ⟨1, by omega⟩), 0)) := by
  have hpi := Real.pi_pos
  obtain ⟨out, h1, h2, h3⟩ := (C139_cartesian w hw rows).1
  rw [h] at h1
  cases h1
  unfold cartToGeo Table.column
  simp only [show 0 < 3 by omega, show 1 < 3 by omega, show 2 < 3 by omega, dite_true]
  rw [if_pos (by norm_num)]
  congr 1
  refine List.ext_getElem (by simp [h2]) fun i ha hb => ?_
  have hi : i < rows.length := by simpa using hb
  have ho : i < xyz.length := by omega
  simp only [List.getElem_map, List.getElem_zip]
  obtain ⟨r1, r2, r3⟩ := hr _ (List.getElem_mem hi)
  have hat := h3 i hi ho r3.le
  generalize rows[i] ⟨0, by omega⟩ = lon at r1 r2 hat ⊢
  generalize rows[i] ⟨1, by omega⟩ = lat at r3 hat ⊢
  rw [abs_lt] at r3
  have hcos : 0 < Real.cos (lat * Real.pi / 180) :=
    Real.cos_pos_of_mem_Ioo ⟨by nlinarith [r3.1], by nlinarith [r3.2]⟩
  have hp := hat.unique (at_point (by norm_num) hcos.le)
  have e0 : xyz[i] (⟨0, by omega⟩ : Fin 3) = radius * Real.cos (lat * Real.pi / 180) * Real.cos (lon * Real.pi / 180) := by
    rw [hp]; rfl
  have e1 : xyz[i] (⟨1, by omega⟩ : Fin 3) = radius * Real.cos (lat * Real.pi / 180) * Real.sin (lon * Real.pi / 180) := by
    rw [hp]; rfl
  have e2 : xyz[i] (⟨2, by omega⟩ : Fin 3) = radius * Real.sin (lat * Real.pi / 180) := by rw [hp]; rfl
  have hd := hat.distance
  unfold geographic
  simp only []
  have hr : Real.sqrt (xyz[i] (⟨0, by omega⟩ : Fin 3) ^ 2 + xyz[i] (⟨1, by omega⟩ : Fin 3) ^ 2 +
      xyz[i] (⟨2, by omega⟩ : Fin 3) ^ 2) = radius := by
    rw [show xyz[i] (⟨0, by omega⟩ : Fin 3) ^ 2 + xyz[i] (⟨1, by omega⟩ : Fin 3) ^ 2 +
      xyz[i] (⟨2, by omega⟩ : Fin 3) ^ 2 = radius ^ 2 from hd]
    exact Real.sqrt_sq (by norm_num)
  rw [hr, if_neg (by norm_num), e0, e1, e2, earth_eq]
  have harg : Complex.arg ⟨radius * Real.cos (lat * Real.pi / 180) * Real.cos (lon * Real.pi / 180),
      radius * Real.cos (lat * Real.pi / 180) * Real.sin (lon * Real.pi / 180)⟩ = lon * Real.pi / 180 := by
    have hlo : -Real.pi < lon * Real.pi / 180 := by nlinarith
    have hhi : lon * Real.pi / 180 ≤ Real.pi := by nlinarith
    have hR : 0 < radius * Real.cos (lat * Real.pi / 180) := by positivity
    generalize radius * Real.cos (lat * Real.pi / 180) = R at hR ⊢
    generalize lon * Real.pi / 180 = θ at hlo hhi ⊢
    have := Complex.arg_mul_cos_add_sin_mul_I hR ⟨hlo, hhi⟩
    conv_rhs => rw [← this]
    congr 1
    apply Complex.ext <;> simp [Complex.cos_ofReal_re, Complex.sin_ofReal_re]
  have hasin : Real.arcsin (radius * Real.sin (lat * Real.pi / 180) / radius) = lat * Real.pi / 180 := by
    rw [mul_div_cancel_left₀ _ (by norm_num)]
    exact Real.arcsin_sin (by nlinarith [r3.1]) (by nlinarith [r3.2])
  rw [harg, hasin]
  congr 1
  · field_simp
  · congr 1
    · congr 1
      field_simp
    · ring

/-- **C139 is false for the documented arguments.** A plain array, which is what `geographic_to_cartesian_coordinate_system` returns, and
a Quantity that is a length (or any power of a length but the zeroth) are refused; and the latter has another
unit after the call. -/
theorem C139_false (w : ℕ) (hw : 3 ≤ w) (rows : List (Fin w → ℝ)) :
    (cartToGeo (.plain ⟨w, rows⟩)).1 = .error .attribute ∧
    ∀ s : ℝ, (cartToGeo (.quantity s 1 ⟨w, rows⟩)).1 = .error .units ∧
      (cartToGeo (.quantity s 1 ⟨w, rows⟩)).2 = .quantity s 2 ⟨w, rows⟩ ∧
      ∀ k : ℤ, k ≠ 0 → (cartToGeo (.quantity s k ⟨w, rows⟩)).1 = .error .units := by
  have hk : ∀ (s : ℝ) (k : ℤ), k ≠ 0 → (cartToGeo (.quantity s k ⟨w, rows⟩)).1 = .error .units := by
    intro s k hk
    unfold cartToGeo Table.column
    simp only [show 0 < w by omega, show 1 < w by omega, show 2 < w by omega, dite_true]
    rw [if_neg (by omega)]
  refine ⟨?_, fun s => ⟨hk s 1 (by norm_num), rfl, hk s⟩⟩
  unfold cartToGeo Table.column
  simp only [show 0 < w by omega, show 1 < w by omega, show 2 < w by omega, dite_true]

/-- **C139, the argument is not left alone**: a second call with the same Quantity raises, whatever the first one
returned. -/
theorem C139_false_twice (s : ℝ) (w : ℕ) (hw : 3 ≤ w) (rows : List (Fin w → ℝ)) :
    (cartToGeo (cartToGeo (.quantity s 0 ⟨w, rows⟩)).2).1 = .error .units :=
  ((C139_false w hw rows).2 s).1

/-- **C139, errors**: arrays with too few columns and Quantities that are no angles are refused. -/
theorem C139_raises (w : ℕ) (rows : List (Fin w → ℝ)) :
    (w < 2 → geoToCart (.plain ⟨w, rows⟩) = .error .index ∧ ∀ u, geoToCart (.quantity u ⟨w, rows⟩) = .error .index) ∧
    (2 ≤ w → geoToCart (.quantity none ⟨w, rows⟩) = .error .units) ∧
    (w < 3 → (cartToGeo (.plain ⟨w, rows⟩)).1 = .error .index ∧
      ∀ s k, (cartToGeo (.quantity s k ⟨w, rows⟩)).1 = .error .index) := by
  refine ⟨fun h => ?_, fun h => ?_, fun h => ?_⟩
  · unfold geoToCart Table.column
    simp only [show ¬ 1 < w by omega, dite_false]
    by_cases h0 : 0 < w <;> simp [h0]
  · unfold geoToCart Table.column
    simp only [show 0 < w by omega, show 1 < w by omega, dite_true]
  · unfold cartToGeo Table.column
    simp only [show ¬ 2 < w by omega, dite_false]
    by_cases h0 : 0 < w <;> by_cases h1 : 1 < w <;> simp [h0, h1]

example : ∃ xyz, geoToCart (.plain ⟨2, [![116.7, -26.8]]⟩) = .ok xyz ∧
    (cartToGeo (.quantity 1 0 ⟨3, xyz⟩)).1 = .ok [(116.7, some (-26.8), 0)] := by
  obtain ⟨out, h, -, -⟩ := (C139_cartesian 2 le_rfl [![116.7, -26.8]]).1
  refine ⟨out, h, ?_⟩
  have := C139_round_partial 2 le_rfl [![116.7, -26.8]] h (by
    intro r hr
    rw [List.mem_singleton] at hr
    subst hr
    refine ⟨?_, ?_, ?_⟩
    · show (-180 : ℝ) < 116.7; norm_num
    · show (116.7 : ℝ) ≤ 180; norm_num
    · show |(-26.8 : ℝ)| < 90; rw [abs_lt]; norm_num)
  rw [this]
  rfl

/-! ## C140 -/

/-- Specification: the subarrays with a layout of their own, and the file of each. -/
def subarrays : List (String × String) :=
  [("AA4", "input_data/skalow_AA4_layout.txt"), ("AASTAR", "input_data/skalow_AAstar_layout.txt"),
    ("AA*", "input_data/skalow_AAstar_layout.txt"), ("AA2", "input_data/skalow_AA2_layout.txt"),
    ("AA1", "input_data/skalow_AA1_layout.txt"), ("AA0.5", "input_data/skalow_AA0.5_layout.txt")]

/-- Specification: the same name up to upper and lower case. -/
def Alike (s t : String) : Prop := s.toList.map Char.toUpper = t.toList.map Char.toUpper

/-- Specification: the same name up to upper and lower case, for names in small letters. -/
def AlikeSmall (s t : String) : Prop := s.toList.map Char.toLower = t.toList

/-- North: the direction in which the zenith moves when the latitude grows. -/
noncomputable def north (lat lon : ℝ) : V3 :=
  ![-Real.sin lat * Real.cos lon, -Real.sin lat * Real.sin lon, Real.cos lat]

/-- The position `p` at so many metres east, north and up of the centre, in the Earth-centred system. -/
noncomputable def onEarth (lat lon : ℝ) (centre p : V3) : V3 :=
  centre + p 0 • east lon + p 1 • north lat lon + p 2 • zenith lat lon

/-- The same with the axes turned to the meridian of the array: the first axis from the axis of the Earth towards the meridian,
the second to the east, the third to the pole. -/
noncomputable def onMeridian (lat : ℝ) (centre p : V3) : V3 :=
  centre + p 0 • ![0, 1, 0] + p 1 • ![-Real.sin lat, 0, Real.cos lat] + p 2 • ![Real.cos lat, 0, Real.sin lat]

theorem enu_eq (lat lon : ℝ) (c p : V3) : enuToEcef lat lon c p = onEarth lat lon c p := by
  rw [enu_apply]
  funext i
  match i with
  | 0 =>
    simp only [onEarth, Pi.add_apply, Pi.smul_apply, smul_eq_mul, east, north, zenith, Matrix.cons_val_zero,
      Matrix.cons_val_one, Matrix.cons_val]
    ring
  | 1 =>
    simp only [onEarth, Pi.add_apply, Pi.smul_apply, smul_eq_mul, east, north, zenith, Matrix.cons_val_zero,
      Matrix.cons_val_one, Matrix.cons_val]
    ring
  | 2 =>
    simp only [onEarth, Pi.add_apply, Pi.smul_apply, smul_eq_mul, east, north, zenith, Matrix.cons_val_zero,
      Matrix.cons_val_one, Matrix.cons_val]
    ring

theorem xyz_eq (lat lon : ℝ) (c p : V3) : ecefToXyz lon c (onEarth lat lon c p) = onMeridian lat c p := by
  have h2 := Real.sin_sq_add_cos_sq lon
  rw [xyz_apply]
  funext i
  match i with
  | 0 =>
    simp only [onEarth, onMeridian, Pi.add_apply, Pi.smul_apply, smul_eq_mul, east, north, zenith, Matrix.cons_val_zero,
      Matrix.cons_val_one, Matrix.cons_val]
    linear_combination (-Real.sin lat * p 1 + Real.cos lat * p 2) * h2
  | 1 =>
    simp only [onEarth, onMeridian, Pi.add_apply, Pi.smul_apply, smul_eq_mul, east, north, zenith, Matrix.cons_val_zero,
      Matrix.cons_val_one, Matrix.cons_val]
    linear_combination (p 0) * h2
  | 2 =>
    simp only [onEarth, onMeridian, Pi.add_apply, Pi.smul_apply, smul_eq_mul, east, north, zenith, Matrix.cons_val_zero,
      Matrix.cons_val_one, Matrix.cons_val]

theorem file_of {name n file : String} (hn : (n, file) ∈ subarrays) (h : Alike name n) : layoutFile name = file := by
  have hu : upper name = n.toList.map Char.toUpper := h
  unfold subarrays at hn
  simp only [List.mem_cons, Prod.mk.injEq, List.not_mem_nil, or_false] at hn
  unfold layoutFile
  rw [hu]
  rcases hn with h | h | h | h | h | h <;> (obtain ⟨rfl, rfl⟩ := h; decide)

theorem file_other {name : String} (h : ∀ p ∈ subarrays, ¬ Alike name p.1) :
    layoutFile name = "input_data/skalow1_layout.txt" := by
  unfold subarrays at h
  simp only [List.forall_mem_cons, Alike] at h
  obtain ⟨h1, h2, h3, h4, h5, h6, -⟩ := h
  unfold layoutFile upper
  rw [if_neg (by simpa using h1), if_neg (by simpa using ⟨h2, h3⟩), if_neg (by simpa using h4),
    if_neg (by simpa using h5), if_neg (by simpa using h6)]

/-- **C140 (the part that holds).** For each subarray, in any spelling with capital or small letters, the antennas of its file come back:
as local positions (east, north, up), as Earth-centred positions, or with the axes at the meridian of the array. -/
theorem C140_partial (pkg : Package) {name n file unit : String} (hn : (n, file) ∈ subarrays) (h : Alike name n)
    {enu : List V3} (hf : pkg.load file = some enu) :
    (AlikeSmall unit "enu" → getLayout pkg name unit = .ok enu) ∧
    (AlikeSmall unit "ecef" → getLayout pkg name unit =
      .ok (enu.map (onEarth (pkg.lat * (Real.pi / 180)) (pkg.lon * (Real.pi / 180)) pkg.origin))) ∧
    (AlikeSmall unit "xyz" → getLayout pkg name unit =
      .ok (enu.map (onMeridian (pkg.lat * (Real.pi / 180)) pkg.origin))) := by
  unfold getLayout AlikeSmall
  rw [file_of hn h, hf]
  refine ⟨fun hu => ?_, fun hu => ?_, fun hu => ?_⟩ <;> simp only [lower, hu]
  · rw [if_pos (by decide)]
  · rw [if_neg (by decide), if_pos (by decide)]
    congr 2
    funext p
    exact enu_eq _ _ _ _
  · rw [if_neg (by decide), if_neg (by decide), if_pos (by decide), List.map_map]
    congr 2
    funext p
    rw [Function.comp_apply, enu_eq]
    exact xyz_eq _ _ _ _

/-- **C140 is false for other names**: whatever the name is, the layout of another file is returned without an error. -/
theorem C140_false (pkg : Package) {name : String} (h : ∀ p ∈ subarrays, ¬ Alike name p.1) {enu : List V3}
    (hf : pkg.load "input_data/skalow1_layout.txt" = some enu) : getLayout pkg name "enu" = .ok enu := by
  unfold getLayout
  rw [file_other h, hf]
  simp only []
  rw [if_pos (by decide)]

example : ∀ p ∈ subarrays, ¬ Alike "AA3" p.1 := by unfold Alike subarrays; decide

/-- **C140 is false for geographic coordinates**, for which there is a branch: it always raises. -/
theorem C140_false_geodetic (pkg : Package) (name : String) (hf : ∀ f, (pkg.load f).isSome) {unit : String}
    (hu : unit = "latlon" ∨ unit = "geodetic") : getLayout pkg name unit = .error .unbound := by
  unfold getLayout
  have := hf (layoutFile name)
  cases hl : pkg.load (layoutFile name) with
  | none => rw [hl] at this; simp at this
  | some enu =>
    simp only []
    have e1 : ¬ lower unit = ['e', 'n', 'u'] := by rcases hu with rfl | rfl <;> decide
    have e2 : ¬ lower unit = ['e', 'c', 'e', 'f'] := by rcases hu with rfl | rfl <;> decide
    have e3 : ¬ lower unit = ['x', 'y', 'z'] := by rcases hu with rfl | rfl <;> decide
    rw [if_neg e1, if_neg e2, if_neg e3, if_pos hu]

/-- **C140, errors**: other units are refused. -/
theorem C140_raises (pkg : Package) (name : String) (hf : ∀ f, (pkg.load f).isSome) {unit : String}
    (h : ∀ u ∈ ["enu", "ecef", "xyz", "latlon", "geodetic"], ¬ AlikeSmall unit u) :
    getLayout pkg name unit = .error .value := by
  unfold AlikeSmall at h
  simp only [List.forall_mem_cons] at h
  obtain ⟨h1, h2, h3, h4, h5, -⟩ := h
  unfold getLayout
  have := hf (layoutFile name)
  cases hl : pkg.load (layoutFile name) with
  | none => rw [hl] at this; simp at this
  | some enu =>
    simp only []
    have e1 : ¬ lower unit = ['e', 'n', 'u'] := h1
    have e2 : ¬ lower unit = ['e', 'c', 'e', 'f'] := h2
    have e3 : ¬ lower unit = ['x', 'y', 'z'] := h3
    have e4 : ¬ (unit = "latlon" ∨ unit = "geodetic") := by
      rintro (rfl | rfl)
      · exact h4 (by decide)
      · exact h5 (by decide)
    rw [if_neg e1, if_neg e2, if_neg e3, if_neg e4]

/-- **C140, `subarray_type_to_antxyz`**: a name gives the positions of its antennas along the axes at the meridian, an array itself,
anything else the places of the old configuration on the sphere of 6371 km; with the number of antennas. -/
theorem C140_positions (pkg : Package) (w : ℕ) (hw : 2 ≤ w) (old : List (Fin w → ℝ)) :
    (∀ {name n file : String}, (n, file) ∈ subarrays → Alike name n → ∀ {enu : List V3}, pkg.load file = some enu →
      toXyz pkg ⟨w, old⟩ (.name name) =
        .ok (enu.map (onMeridian (pkg.lat * (Real.pi / 180)) pkg.origin), enu.length)) ∧
    (∀ rows, toXyz pkg ⟨w, old⟩ (.array rows) = .ok (rows, rows.length)) ∧
    ∃ out, toXyz pkg ⟨w, old⟩ .other = .ok (out, old.length) ∧ out.length = old.length ∧
      ∀ i (hi : i < old.length) (ho : i < out.length), |old[i] ⟨1, by omega⟩| ≤ 90 →
        At radius (old[i] ⟨0, by omega⟩ * Real.pi / 180) (old[i] ⟨1, by omega⟩ * Real.pi / 180) out[i] := by
  refine ⟨fun hn h enu hf => ?_, fun rows => rfl, ?_⟩
  · unfold toXyz
    simp only []
    rw [(C140_partial pkg hn h hf).2.2 (by unfold AlikeSmall; decide)]
    simp
  · obtain ⟨out, h1, h2, h3⟩ := (C139_cartesian w hw old).1
    refine ⟨out, ?_, h2, h3⟩
    unfold toXyz
    simp only []
    rw [h1]
    simp [h2]

example : ("AA*", "input_data/skalow_AAstar_layout.txt") ∈ subarrays ∧ Alike "aa*" "AA*" ∧ AlikeSmall "ECEF" "ecef" ∧
    onMeridian 0 0 ![1, 2, 3] = ![3, 1, 2] := by
  refine ⟨by decide, by unfold Alike; decide, by unfold AlikeSmall; decide, ?_⟩
  funext i
  match i with
  | 0 => simp [onMeridian]
  | 1 => simp [onMeridian]
  | 2 => simp [onMeridian]

example : ∀ u ∈ ["enu", "ecef", "xyz", "latlon", "geodetic"], ¬ AlikeSmall "m" u := by unfold AlikeSmall; decide

end Verif.Layout
