import Verif.Model.Foreground
import Verif.Props.NoiseCubes
import Mathlib.Analysis.SumIntegralComparisons
import Mathlib.Analysis.SpecialFunctions.Integrals.Basic
/-!
# C123: extragalactic point sources
-/

namespace Verif.Foreground
open Verif.Convolve Verif.Conversions Verif.Constants Verif.Noise MeasureTheory

/-- Specification: the temperature in mK of a source in its pixel. -/
noncomputable def temperature (k : Const) (n : ℕ) (L z : ℝ) (s : Source) : ℝ :=
  s.flux * (1420 / (1 + z) / 150) ^ (-s.alpha) / fluxOfOne k n L z

/-- Specification: the sources in the pixel `x`. -/
def here (x : Fin 2 → ℤ) (s : Source) : Bool := decide (x 0 = s.x ∧ x 1 = s.y)

/-- Specification: the integral of `S ^ (-1.6)` from 0.1 μJy to `S`. -/
noncomputable def counts (S : ℝ) : ℝ := (0.1 ^ (-0.6 : ℝ) - S ^ (-0.6 : ℝ)) / 0.6

theorem here_iff (x : Fin 2 → ℤ) (s : Source) : x = ![s.x, s.y] ↔ here x s = true := by
  simp only [here, decide_eq_true_eq]
  constructor
  · rintro h
    exact ⟨congrFun h 0, congrFun h 1⟩
  · rintro ⟨h0, h1⟩
    funext j
    match j with
    | 0 => exact h0
    | 1 => exact h1

/-! ## The number of sources -/

theorem counts_eq {S : ℝ} (hS : 0.1 ≤ S) : ∫ x in (0.1 : ℝ)..S, x ^ (-(16 / 10) : ℝ) = counts S := by
  rw [integral_rpow]
  · unfold counts
    rw [show (-(16 / 10) + 1 : ℝ) = -0.6 by norm_num]
    rw [div_neg, ← neg_div, neg_sub]
  · right
    refine ⟨by norm_num, fun h => ?_⟩
    rw [Set.uIcc_of_le hS] at h
    have := h.1
    norm_num at this

theorem grid_pos (j : ℕ) : (0.1 : ℝ) ≤ gridFlux j := by
  unfold gridFlux
  have : (0 : ℝ) ≤ j := Nat.cast_nonneg j
  norm_num

theorem trapz_near (m : ℕ) : |trapz (m + 1) - counts (gridFlux m)| ≤ 0.005 * 0.1 ^ (-1.6 : ℝ) := by
  set g : ℝ → ℝ := fun t => (0.1 + 0.01 * t) ^ (-(16 / 10) : ℝ) with hg
  have hanti : AntitoneOn g (Set.Icc 0 (0 + m)) := by
    intro a ha b _ hab
    have := ha.1
    exact Real.rpow_le_rpow_of_nonpos (by norm_num; positivity) (by linarith) (by norm_num)
  have h1 := hanti.integral_le_sum
  have h2 := hanti.sum_le_integral
  have hj : ∀ j : ℕ, gridFlux j ^ (-(16 / 10) : ℝ) = g j := by
    intro j
    simp only [hg, gridFlux]
    congr 1
    norm_num
    ring
  have hI : ∫ t in (0 : ℝ)..0 + m, g t = 100 * counts (gridFlux m) := by
    have h3 := intervalIntegral.integral_comp_add_mul (a := 0) (b := 0 + m) (fun x : ℝ => x ^ (-(16 / 10) : ℝ))
      (c := 0.01) (by norm_num) 0.1
    simp only [hg]
    rw [h3, ← counts_eq (grid_pos m), smul_eq_mul]
    congr 1
    · norm_num
    · congr 1
      · norm_num
      · unfold gridFlux
        norm_num
        ring
  have ht : trapz (m + 1) = 0.005 * ((∑ i ∈ Finset.range m, g (0 + i)) + ∑ i ∈ Finset.range m, g (0 + (i + 1 : ℕ))) := by
    unfold trapz
    rw [Nat.add_sub_cancel, ← Finset.sum_add_distrib, Finset.mul_sum]
    refine Finset.sum_congr rfl fun j _ => ?_
    rw [hj, hj, zero_add, zero_add]
    unfold gridFlux
    push_cast
    ring
  have htel : (∑ i ∈ Finset.range m, g (0 + i)) - ∑ i ∈ Finset.range m, g (0 + (i + 1 : ℕ)) = g 0 - g m := by
    rw [← Finset.sum_sub_distrib]
    have := Finset.sum_range_sub' (fun i : ℕ => g i) m
    simp only [zero_add]
    rw [this]
    norm_num
  have hg0 : g 0 = 0.1 ^ (-1.6 : ℝ) := by
    simp only [hg]
    norm_num
  have hgm : 0 < g m := Real.rpow_pos_of_pos (by positivity) _
  rw [hI] at h1 h2
  rw [ht, ← hg0, abs_le]
  constructor <;> linarith

/-- The number of sources is that of the counts, up to the rounding and the step of the fluxes. -/
theorem count_near (k : Const) {L Smax z : ℝ} (hS : 0.1 < Smax) :
    |(sourceCount k L Smax z : ℝ) - 10 ^ (3.75 : ℝ) * counts Smax * (L / cdist k z) ^ 2| ≤
      1 + 10 ^ (3.75 : ℝ) * (0.015 * 0.1 ^ (-1.6 : ℝ)) * (L / cdist k z) ^ 2 := by
  obtain ⟨m, hm⟩ : ∃ m, gridSize Smax = m + 1 := by
    refine ⟨gridSize Smax - 1, (Nat.sub_add_cancel ?_).symm⟩
    exact Nat.ceil_pos.2 (by norm_num at hS ⊢; linarith)
  have hlow : gridFlux m < Smax := by
    have : m < ⌈(Smax - 1 / 10) / (1 / 100)⌉₊ := by
      change m < gridSize Smax
      omega
    have := Nat.lt_ceil.1 this
    unfold gridFlux
    linarith
  have hup : Smax ≤ gridFlux m + 0.01 := by
    have := Nat.le_ceil ((Smax - 1 / 10) / (1 / 100))
    change _ ≤ ((gridSize Smax : ℕ) : ℝ) at this
    rw [hm] at this
    push_cast at this
    unfold gridFlux
    norm_num
    linarith
  have hg := grid_pos m
  have hlast : |counts Smax - counts (gridFlux m)| ≤ 0.01 * 0.1 ^ (-1.6 : ℝ) := by
    have hii : ∀ a b : ℝ, 0.1 ≤ a → 0.1 ≤ b → IntervalIntegrable (fun x : ℝ => x ^ (-(16 / 10) : ℝ)) volume a b := by
      intro a b ha hb
      refine intervalIntegral.intervalIntegrable_rpow (Or.inr fun h => ?_)
      have := (Set.mem_uIcc.1 h)
      norm_num at ha hb
      rcases this with h | h
      · linarith [h.1]
      · linarith [h.1]
    rw [← counts_eq hS.le, ← counts_eq hg, intervalIntegral.integral_interval_sub_left (hii _ _ le_rfl hS.le)
      (hii _ _ le_rfl hg)]
    have h1 := intervalIntegral.norm_integral_le_of_norm_le_const (a := gridFlux m) (b := Smax)
      (f := fun x : ℝ => x ^ (-(16 / 10) : ℝ)) (C := 0.1 ^ (-1.6 : ℝ)) (fun x hx => by
        rw [Set.uIoc_of_le hlow.le] at hx
        have hx0 : (0.1 : ℝ) ≤ x := hg.trans hx.1.le
        rw [Real.norm_of_nonneg (Real.rpow_nonneg (by norm_num at hx0 ⊢; linarith) _),
          show (-(16 / 10) : ℝ) = -1.6 by norm_num]
        exact Real.rpow_le_rpow_of_nonpos (by norm_num) hx0 (by norm_num))
    rw [Real.norm_eq_abs] at h1
    refine h1.trans ?_
    rw [abs_of_pos (by linarith), mul_comm]
    exact mul_le_mul_of_nonneg_right (by linarith) (Real.rpow_nonneg (by norm_num) _)
  have htr := trapz_near m
  set A : ℝ := 10 ^ (3.75 : ℝ) with hA
  have hA0 : 0 < A := Real.rpow_pos_of_pos (by norm_num) _
  set P : ℝ := 0.1 ^ (-1.6 : ℝ) with hP
  set w := (L / cdist k z) ^ 2 with hw
  have hw0 : 0 ≤ w := sq_nonneg _
  have hnon : 0 ≤ trapz (m + 1) := by
    unfold trapz
    refine Finset.sum_nonneg fun j _ => mul_nonneg ?_ ?_
    · unfold gridFlux
      push_cast
      linarith
    · have h1 := Real.rpow_nonneg ((by norm_num : (0 : ℝ) ≤ 0.1).trans (grid_pos j)) (-(16 / 10))
      have h2 := Real.rpow_nonneg ((by norm_num : (0 : ℝ) ≤ 0.1).trans (grid_pos (j + 1))) (-(16 / 10))
      linarith
  have hN : sourceCount k L Smax z = ⌊A * trapz (m + 1) * w⌋₊ := by
    unfold sourceCount
    rw [hm, hA, hw, div_pow]
    norm_num
  have hfl : |(sourceCount k L Smax z : ℝ) - A * trapz (m + 1) * w| ≤ 1 := by
    rw [hN, abs_le]
    have h1 := Nat.lt_floor_add_one (A * trapz (m + 1) * w)
    have h2 := Nat.floor_le (a := A * trapz (m + 1) * w) (by positivity)
    constructor <;> linarith
  have htot : |trapz (m + 1) - counts Smax| ≤ 0.015 * P := by
    rw [abs_le] at htr hlast ⊢
    constructor <;> linarith [htr.1, htr.2, hlast.1, hlast.2]
  calc |(sourceCount k L Smax z : ℝ) - A * counts Smax * w|
      = |((sourceCount k L Smax z : ℝ) - A * trapz (m + 1) * w) + A * w * (trapz (m + 1) - counts Smax)| := by
        congr 1
        ring
    _ ≤ |(sourceCount k L Smax z : ℝ) - A * trapz (m + 1) * w| + |A * w * (trapz (m + 1) - counts Smax)| :=
        abs_add_le _ _
    _ ≤ 1 + A * w * (0.015 * P) := by
        rw [abs_mul, abs_of_nonneg (by positivity : 0 ≤ A * w)]
        exact add_le_add hfl (mul_le_mul_of_nonneg_left htot (by positivity))
    _ = _ := by ring

/-! ## The maps -/

theorem point_one (k : Const) (v : Conv) {n : ℕ} (hn : 0 < n) {L : ℝ} (hL : 0 < L) (z : ℝ) (s : Source) :
    jansky_2_kelvin k v n (fun _ : Unit => s.flux * (z_to_nu z / 150) ^ (-s.alpha)) z (some L) (some n) () =
      temperature k n L z s := by
  simp only [jansky_2_kelvin]
  have : ncellsOr n (some n) = n := by
    simp [ncellsOr]
  rw [this, conversion_eq k v n z (some L) (by simpa using hL.ne')]
  simp only [Option.getD_some, temperature, z_to_nu, nu0]

theorem point_val (k : Const) (v : Conv) {n : ℕ} (hn : 0 < n) {L : ℝ} (hL : 0 < L) (z : ℝ) (src : List Source)
    (x : Fin 2 → ℤ) : (pointMap k v n L src z).val x =
      (((src.filter (here x)).getLast?).map (temperature k n L z)).getD 0 := by
  unfold pointMap
  simp only [point_one k v hn hL]
  have gen : ∀ (src : List Source) (m : (Fin 2 → ℤ) → ℝ),
      (src.foldl (fun m s x => if x = ![s.x, s.y] then temperature k n L z s else m x) m) x =
        (((src.filter (here x)).getLast?).map (temperature k n L z)).getD (m x) := by
    intro src
    induction src with
    | nil => intro m; simp
    | cons s src ih =>
      intro m
      rw [List.foldl_cons, ih]
      by_cases hs : here x s = true
      · rw [List.filter_cons_of_pos hs, if_pos ((here_iff x s).2 hs), List.getLast?_cons]
        cases (src.filter (here x)).getLast? <;> simp
      · rw [List.filter_cons_of_neg hs, if_neg fun h => hs ((here_iff x s).1 h)]
  exact gen src _

theorem foldl_min (l : List ℝ) (a : ℝ) : l.foldl min a ∈ a :: l ∧ ∀ z ∈ a :: l, l.foldl min a ≤ z := by
  induction l generalizing a with
  | nil => simp
  | cons b l ih =>
    rw [List.foldl_cons]
    obtain ⟨h1, h2⟩ := ih (min a b)
    refine ⟨?_, fun z hz => ?_⟩
    · rcases List.mem_cons.1 h1 with h | h
      · rw [h]
        rcases min_choice a b with h | h <;> simp [h]
      · simp [h]
    · have h3 := h2 (min a b) (by simp)
      rcases List.mem_cons.1 hz with rfl | hz
      · exact h3.trans (min_le_left _ _)
      · rcases List.mem_cons.1 hz with rfl | hz
        · exact h3.trans (min_le_right _ _)
        · exact h2 z (by simp [hz])

/-- What the result is. -/
theorem point_ok (k : Const) (v : Conv) (draw : ℕ → List Source) {n : ℕ} (hn : 0 < n) (L Smax : ℝ) (zs : List ℝ)
    (zmin : ℝ) (hmem : zmin ∈ zs) (hmin : ∀ z ∈ zs, zmin ≤ z) :
    pointSources k v draw (.array zs) n L Smax =
      .ok (zs.map (pointMap k v n L (draw (sourceCount k L Smax zmin)))) := by
  cases zs with
  | nil => simp at hmem
  | cons a l =>
    have h := foldl_min l a
    have e : l.foldl min a = zmin := le_antisymm (h.2 _ hmem) (hmin _ h.1)
    simp only [pointSources, ZArg.values]
    rw [if_neg hn.ne', e]

/-- **C123, maps.** If no two sources share a pixel, the map of each redshift holds the temperatures of the sources, with
their spectral indices, in their pixels, and is zero elsewhere; the number of sources is that of the counts in the field of the
least redshift. -/
theorem C123_partial (k : Const) (v : Conv) (draw : ℕ → List Source) {n : ℕ} (hn : 0 < n) {L Smax : ℝ} (hL : 0 < L)
    (hS : 0.1 < Smax) (zs : List ℝ) (zmin : ℝ) (hmem : zmin ∈ zs) (hmin : ∀ z ∈ zs, zmin ≤ z) :
    ∃ (N : ℕ) (M : ℝ → Arr (Fin 2) ℝ),
      |(N : ℝ) - 10 ^ (3.75 : ℝ) * counts Smax * (L / cdist k zmin) ^ 2| ≤
        1 + 10 ^ (3.75 : ℝ) * (0.015 * 0.1 ^ (-1.6 : ℝ)) * (L / cdist k zmin) ^ 2 ∧
      pointSources k v draw (.array zs) n L Smax = .ok (zs.map M) ∧
      (∀ z, zs = [z] → pointSources k v draw (.float z) n L Smax = .ok [M z]) ∧
      ∀ z, (M z).shape = (fun _ => n) ∧
        ((draw N).Pairwise (fun s t => ¬ (s.x = t.x ∧ s.y = t.y)) → ∀ x,
          (M z).val x = (((draw N).filter (here x)).map (temperature k n L z)).sum) := by
  refine ⟨sourceCount k L Smax zmin, pointMap k v n L (draw (sourceCount k L Smax zmin)), count_near k hS,
    point_ok k v draw hn L Smax zs zmin hmem hmin, fun z hz => ?_, fun z => ⟨rfl, fun hp x => ?_⟩⟩
  · subst hz
    exact point_ok k v draw hn L Smax [z] zmin hmem hmin
  · rw [point_val k v hn hL]
    have hlen : ((draw (sourceCount k L Smax zmin)).filter (here x)).length ≤ 1 := by
      by_contra hc
      push Not at hc
      have hp' := hp.filter (here x)
      match hl : (draw (sourceCount k L Smax zmin)).filter (here x), hc with
      | s :: t :: l, _ =>
        rw [hl] at hp'
        have h1 := (List.pairwise_cons.1 hp').1 t (by simp)
        have hs : here x s = true := (List.mem_filter.1 (hl ▸ List.mem_cons_self)).2
        have ht : here x t = true := (List.mem_filter.1 (hl ▸ List.mem_cons_of_mem _ List.mem_cons_self)).2
        simp only [here, decide_eq_true_eq] at hs ht
        exact h1 ⟨hs.1.symm.trans ht.1, hs.2.symm.trans ht.2⟩
    match hl : (draw (sourceCount k L Smax zmin)).filter (here x), hlen with
    | [], _ => simp
    | [s], _ => simp

/-- **C123 is false**: of several sources in a pixel only the last one drawn counts, so that the pixel is too faint. -/
theorem C123_false (k : Const) (p : Physical k) (v : Conv) (draw : ℕ → List Source) {n : ℕ} (hn : 0 < n) {L Smax : ℝ}
    (hL : 0 < L) {z : ℝ} (hz : 0 < z) :
    ∃ (N : ℕ) (M : Arr (Fin 2) ℝ), pointSources k v draw (.float z) n L Smax = .ok [M] ∧
      ∀ (A B C : List Source) (s t : Source), draw N = A ++ s :: B ++ t :: C → s.x = t.x → s.y = t.y →
        (∀ u ∈ draw N, 0 < u.flux) →
        M.val ![s.x, s.y] < (((draw N).filter (here ![s.x, s.y])).map (temperature k n L z)).sum := by
  refine ⟨sourceCount k L Smax z, pointMap k v n L (draw (sourceCount k L Smax z)) z,
    point_ok k v draw hn L Smax [z] z (by simp) (by simp), fun A B C s t hd hx hy hpos => ?_⟩
  have hf : 0 < fluxOfOne k n L z := by
    have hdist := cdist_pos p hz
    have hn' : (0 : ℝ) < n := by exact_mod_cast hn
    unfold fluxOfOne fluxJy pixel
    positivity
  have hT : ∀ u, 0 < u.flux → 0 < temperature k n L z u := by
    intro u hu
    unfold temperature
    have := Real.rpow_pos_of_pos (show (0 : ℝ) < 1420 / (1 + z) / 150 by positivity) (-u.alpha)
    positivity
  rw [point_val k v hn hL]
  have hs : here ![s.x, s.y] s = true := by simp [here]
  have ht : here ![s.x, s.y] t = true := by simp [here, hx, hy]
  set F := (draw (sourceCount k L Smax z)).filter (here ![s.x, s.y]) with hF
  have hFpos : ∀ u ∈ F, 0 < temperature k n L z u := fun u hu => hT u (hpos u (List.mem_filter.1 hu).1)
  have hlen : 2 ≤ F.length := by
    rw [hF, hd]
    simp only [List.filter_append, List.filter_cons_of_pos hs, List.filter_cons_of_pos ht, List.length_append,
      List.length_cons]
    omega
  clear_value F
  have hne : F ≠ [] := by
    intro h
    rw [h] at hlen
    simp at hlen
  rw [List.getLast?_eq_getLast_of_ne_nil hne]
  simp only [Option.map_some, Option.getD_some]
  conv_rhs => rw [← List.dropLast_append_getLast hne]
  rw [List.map_append, List.sum_append]
  simp only [List.map_cons, List.map_nil, List.sum_cons, List.sum_nil, add_zero]
  have : 0 < (F.dropLast.map (temperature k n L z)).sum := by
    refine List.sum_pos _ (fun y hy => ?_) ?_
    · obtain ⟨u, hu, rfl⟩ := List.mem_map.1 hy
      exact hFpos u (List.mem_of_mem_dropLast hu)
    · intro h
      have := congrArg List.length h
      simp at this
      omega
  linarith

/-- **C123 is false**: the fluxes do not follow the counts; their mean is larger than that of sources drawn in proportion to
`S ^ (-1.6)`. -/
theorem C123_flux_false {Smax : ℝ} (hS : 0.11 < Smax) (m : ℕ) (hm : m = ⌈(Smax - 0.1) / 0.01⌉₊) :
    (∑ j ∈ Finset.range m, (0.1 + 0.01 * j) * (0.1 + 0.01 * j : ℝ) ^ (-1.6 : ℝ)) /
      (∑ j ∈ Finset.range m, (0.1 + 0.01 * j : ℝ) ^ (-1.6 : ℝ)) < meanDraw Smax := by
  have hm2 : 1 < m := by
    rw [hm, Nat.lt_ceil]
    norm_num at hS ⊢
    linarith
  have hgs : gridSize Smax = m := by
    rw [hm]
    unfold gridSize
    norm_num
  set f : ℕ → ℝ := fun j => 0.1 + 0.01 * j with hf
  set w : ℕ → ℝ := fun j => (0.1 + 0.01 * j : ℝ) ^ (-1.6 : ℝ) with hw
  have hfp : ∀ j, 0 < f j := fun j => by simp only [hf]; positivity
  have hwp : ∀ j, 0 < w j := fun j => Real.rpow_pos_of_pos (hfp j) _
  have hmd : meanDraw Smax = (∑ j ∈ Finset.range m, f j) / m := by
    unfold meanDraw
    rw [hgs]
    congr 1
    refine Finset.sum_congr rfl fun j _ => ?_
    simp only [gridFlux, hf]
    norm_num
    ring
  have hterm : ∀ i j, (f i - f j) * (w i - w j) ≤ 0 := by
    intro i j
    rcases le_total (f i) (f j) with h | h
    · have : w j ≤ w i := Real.rpow_le_rpow_of_nonpos (hfp i) h (by norm_num)
      nlinarith
    · have : w i ≤ w j := Real.rpow_le_rpow_of_nonpos (hfp j) h (by norm_num)
      nlinarith
  have hstrict : (f 0 - f 1) * (w 0 - w 1) < 0 := by
    have h1 : f 0 < f 1 := by simp only [hf]; norm_num
    have : w 1 < w 0 := Real.rpow_lt_rpow_of_neg (hfp 0) h1 (by norm_num)
    nlinarith
  have hdouble : ∑ i ∈ Finset.range m, ∑ j ∈ Finset.range m, (f i - f j) * (w i - w j) =
      2 * (m * (∑ j ∈ Finset.range m, f j * w j) - (∑ j ∈ Finset.range m, f j) * ∑ j ∈ Finset.range m, w j) := by
    have e : ∀ i j, (f i - f j) * (w i - w j) = f i * w i + f j * w j - f i * w j - f j * w i := fun i j => by ring
    simp only [e, Finset.sum_sub_distrib, Finset.sum_add_distrib, Finset.sum_const, Finset.card_range, nsmul_eq_mul,
      ← Finset.mul_sum, ← Finset.sum_mul]
    ring
  have hneg : ∑ i ∈ Finset.range m, ∑ j ∈ Finset.range m, (f i - f j) * (w i - w j) < 0 := by
    refine Finset.sum_neg' (fun i _ => Finset.sum_nonpos fun j _ => hterm i j) ⟨0, by simp; omega, ?_⟩
    exact Finset.sum_neg' (fun j _ => hterm 0 j) ⟨1, by simpa using hm2, hstrict⟩
  have hW : 0 < ∑ j ∈ Finset.range m, w j := Finset.sum_pos (fun j _ => hwp j) ⟨0, by simp; omega⟩
  have hm0 : (0 : ℝ) < m := by exact_mod_cast (by omega : 0 < m)
  rw [hmd, div_lt_div_iff₀ hW hm0]
  rw [hdouble] at hneg
  change (∑ j ∈ Finset.range m, f j * w j) * _ < _
  linarith

/-- **C123, errors.** Integers `z`, arrays without redshifts and maps without cells raise. -/
theorem C123_raises (k : Const) (v : Conv) (draw : ℕ → List Source) (L Smax : ℝ) :
    (∀ (a : ℤ) n, pointSources k v draw (.int a) n L Smax = .error .index) ∧
    (∀ n, pointSources k v draw (.array []) n L Smax = .error .value) ∧
    ∀ zs : List ℝ, pointSources k v draw (.array zs) 0 L Smax = .error .value := by
  refine ⟨fun a n => rfl, fun n => rfl, fun zs => ?_⟩
  cases zs with
  | nil => rfl
  | cons a l => rfl

/-- Three sources, the last two in one pixel. -/
example : ∃ (A B C : List Source) (s t : Source),
    [(⟨1, 2, 0.7, 30⟩ : Source), ⟨3, 0, 0.75, 5⟩, ⟨3, 0, 0.72, 8⟩] = A ++ s :: B ++ t :: C ∧ s.x = t.x ∧ s.y = t.y :=
  ⟨[⟨1, 2, 0.7, 30⟩], [], [], _, _, rfl, rfl, rfl⟩

/-- Two sources in different pixels. -/
example : [(⟨1, 2, 0.7, 30⟩ : Source), ⟨3, 0, 0.75, 5⟩].Pairwise (fun s t => ¬ (s.x = t.x ∧ s.y = t.y)) := by
  simp

example : (0.11 : ℝ) < 100 := by norm_num

end Verif.Foreground
