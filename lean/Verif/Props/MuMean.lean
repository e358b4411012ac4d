import Verif.Props.PowerMu
import Verif.Model.CrossSpectrum
import Mathlib.Algebra.BigOperators.Group.Finset.Sigma
/-!
# The spectrum in `k` and `mu` averages to the spherical one

C262: the means over `mu` of `power_spectrum_mu`, weighted with the numbers of modes, are the values of `power_spectrum_1d`.
-/

namespace Verif.MuMean

open Verif.Convolve Verif.PowerSpectrum Verif.CrossSpectrum

/-! ## Specification -/

/-- The number of modes of all bins in `mu` that belong to the bin `b` in `k`. -/
def total (m : Anisotropic) (b : ℕ) : ℕ := (m.modes.map fun row => row.getD b 0).sum

/-- The sum of the values, each taken as often as there are modes. -/
noncomputable def weighted (m : Anisotropic) (b : ℕ) : ℝ :=
  ((List.zipWith (fun row ns => (row.getD b none).getD 0 * ((ns.getD b 0 : ℕ) : ℝ)) m.data m.modes)).sum

/-- In the bin `b` the spherical spectrum is the mean of the spectrum in `k` and `mu`. -/
def Agree (p : Radial) (m : Anisotropic) (b : ℕ) : Prop :=
  p.modes[b]? = some (total m b) ∧
    p.data[b]? = some (if total m b = 0 then none else some (weighted m b / total m b))

/-! ## Lemmas -/

theorem comp_le (s : Fin 3 → ℕ) (L : List ℝ) (los : Fin 3) (i : Fin 3 → ℤ) : |kComp s L los i| ≤ kMag s L i := by
  rw [kMag_three, ← Real.sqrt_sq_eq_abs]
  exact Real.sqrt_le_sqrt (Finset.single_le_sum (f := fun j => kComp s L j i ^ 2) (fun j _ => sq_nonneg _) (Finset.mem_univ los))

theorem cosine_range (s : Fin 3 → ℕ) (L : List ℝ) (los : Fin 3) (ab : Bool) (i : Fin 3 → ℤ) (h : 0 < kMag s L i) :
    (if ab then 0 else -1) ≤ cosine s L los ab i ∧ cosine s L los ab i ≤ 1 := by
  have h1 := comp_le s L los i
  have h2 := abs_le.1 h1
  unfold cosine
  cases ab with
  | true =>
    simp only [if_true]
    exact ⟨div_nonneg (abs_nonneg _) h.le, (div_le_one h).2 h1⟩
  | false =>
    simp only [Bool.false_eq_true, if_false]
    exact ⟨by rw [le_div_iff₀ h]; linarith [h2.1], (div_le_one h).2 h2.2⟩

open Classical in
/-- The modes of a bin in `k` that are in some bin in `mu`. -/
noncomputable def somewhere (s : Fin 3 → ℕ) (L : List ℝ) (los : Fin 3) (ab ex : Bool) (em ek : List ℝ) (b : ℕ) : Finset (Fin 3 → ℤ) :=
  (box s).filter fun i => ∃ mb, mb + 1 < em.length ∧ selected s L los ab ex em ek mb b i

open Classical in
theorem sum_selected (s : Fin 3 → ℕ) (L : List ℝ) (los : Fin 3) (ab ex : Bool) (em ek : List ℝ) (hm : em.Pairwise (· ≤ ·)) (b : ℕ)
    {R : Type} [AddCommMonoid R] (g : (Fin 3 → ℤ) → R) :
    ∑ mb ∈ Finset.range (em.length - 1), ∑ i ∈ (box s).filter (selected s L los ab ex em ek mb b), g i =
      ∑ i ∈ somewhere s L los ab ex em ek b, g i := by
  rw [← Finset.sum_biUnion]
  · refine Finset.sum_congr ?_ fun _ _ => rfl
    ext i
    simp only [somewhere, Finset.mem_biUnion, Finset.mem_range, Finset.mem_filter]
    constructor
    · rintro ⟨mb, h1, h2, h3⟩
      exact ⟨h2, mb, by omega, h3⟩
    · rintro ⟨h2, mb, h1, h3⟩
      exact ⟨mb, by omega, h2, h3⟩
  · intro x hx y hy hxy
    rw [Function.onFun, Finset.disjoint_left]
    intro i h1 h2
    obtain ⟨-, -, m, a1, a2, a3⟩ := (Finset.mem_filter.1 h1).2
    obtain ⟨-, -, m', b1, b2, b3⟩ := (Finset.mem_filter.1 h2).2
    rw [a1] at b1
    obtain rfl := Option.some.inj b1
    have hx' := Finset.mem_range.1 hx
    have hy' := Finset.mem_range.1 hy
    exact hxy (inBin_unique hm (by omega) (by omega) ⟨a2, Or.inl a3⟩ ⟨b2, Or.inl b3⟩)

theorem sum_range_list {R : Type} [AddCommMonoid R] (n : ℕ) (f : ℕ → R) : ((List.range n).map f).sum = ∑ i ∈ Finset.range n, f i := by
  rw [← List.sum_toFinset _ List.nodup_range, List.toFinset_range]

theorem row_get {α : Type} (n b : ℕ) (h : b < n) (f : ℕ → α) (x : α) : ((List.range n).map f).getD b x = f b := by
  simp [List.getD_eq_getElem?_getD, h]

open Classical in
theorem total_eq (v : Arr (Fin 3) ℝ) (L : List ℝ) (los : Fin 3) (ab ex : Bool) (em ek : List ℝ) (hm : em.Pairwise (· ≤ ·)) (b : ℕ)
    (hb : b + 1 < ek.length) (mus ks : List ℝ) (d : List (List (Option ℝ))) :
    total ⟨d, mus, ks, (List.range (em.length - 1)).map fun (mb : ℕ) =>
      (List.range (ek.length - 1)).map (muModes v.shape L los ab ex em ek mb)⟩ b = (somewhere v.shape L los ab ex em ek b).card := by
  unfold total
  rw [List.map_map, sum_range_list, Finset.card_eq_sum_ones, ← sum_selected v.shape L los ab ex em ek hm b fun _ => 1]
  refine Finset.sum_congr rfl fun mb _ => ?_
  simp only [Function.comp]
  rw [row_get _ _ (by omega), muModes, Finset.card_eq_sum_ones]

theorem zip_range {α β : Type} (n : ℕ) (f : ℕ → α) (g : ℕ → β) (h : α → β → ℝ) :
    List.zipWith h ((List.range n).map f) ((List.range n).map g) = (List.range n).map fun i => h (f i) (g i) := by
  rw [List.zipWith_map, List.zipWith_self]

open Classical in
theorem weighted_eq (v : Arr (Fin 3) ℝ) (L : List ℝ) (los : Fin 3) (ab ex : Bool) (em ek : List ℝ) (hm : em.Pairwise (· ≤ ·)) (b : ℕ)
    (hb : b + 1 < ek.length) (mus ks : List ℝ) :
    weighted ⟨(List.range (em.length - 1)).map fun (mb : ℕ) => (List.range (ek.length - 1)).map (muAverage v L los ab ex em ek mb), mus, ks,
      (List.range (em.length - 1)).map fun (mb : ℕ) => (List.range (ek.length - 1)).map (muModes v.shape L los ab ex em ek mb)⟩ b =
      ∑ i ∈ somewhere v.shape L los ab ex em ek b, if i = fun j => ((v.shape j / 2 : ℕ) : ℤ) then 0 else v.val i := by
  unfold weighted
  rw [zip_range, sum_range_list, ← sum_selected v.shape L los ab ex em ek hm b]
  refine Finset.sum_congr rfl fun mb _ => ?_
  rw [row_get _ _ (by omega), row_get _ _ (by omega)]
  unfold muAverage
  simp only []
  split
  · rename_i h
    rw [h]
    have h' : (box v.shape).filter (selected v.shape L los ab ex em ek mb b) = ∅ := Finset.card_eq_zero.1 h
    rw [h']
    simp
  · rename_i h
    rw [Option.getD_some, div_mul_cancel₀ _ (by exact_mod_cast h)]

theorem power1d_eq (LB : ℝ) (a : Arr (Fin 3) ℝ) (L ek : List ℝ) (hL : 3 ≤ L.length) (hk : ek.Pairwise (· ≤ ·)) (bi : Binning) (bp : ℝ) :
    power1d LB a (.list L) (.array ek) bi bp = .ok
      { data := (List.range (ek.length - 1)).map (average a.shape (kMag a.shape L) (powerNd L a).val ek)
        bins := centres ek
        modes := (List.range (ek.length - 1)).map (nModes a.shape (kMag a.shape L) ek) } := by
  unfold power1d
  simp only [getDims, radialAverage, getK, boxOf, if_pos hL, getKbins, if_pos hk]
  simp
  exact ⟨fun _ _ => rfl, fun _ _ => rfl⟩

/-! ## C262 -/

/-- **C262, partial**: the full property is `Agree` for every bin in `k`, with the bins in `mu` the function makes itself.  Proved, without exclusion of
modes and for edges in `mu` from at most the smallest cosine to above 1: in every bin in `k` from `0.001` on the numbers of modes and the values agree, if
it is not the last bin, or no mode has the wave number of its upper edge. -/
theorem C262_partial (LB : ℝ) (a : Arr (Fin 3) ℝ) (L ek em : List ℝ) (hL : 3 ≤ L.length) (hL0 : ∀ j : Fin 3, L.getD j 0 ≠ 0)
    (hk : ek.Pairwise (· ≤ ·)) (hl : 2 ≤ em.length) (hm : em.Pairwise (· ≤ ·)) (los : Fin 3) (ab : Bool)
    (h0 : edge em 0 ≤ if ab then 0 else -1) (h1 : 1 < edge em (em.length - 1)) (bi : Binning) (bp : ℝ) :
    ∃ p m, power1d LB a (.list L) (.array ek) bi bp = .ok p ∧
      powerMu LB a (los : ℕ) (.array em) (.array ek) (.list L) .none false ab = .ok m ∧
      ∀ b, b + 1 < ek.length → 1 / 1000 ≤ edge ek b →
        (b + 2 < ek.length ∨ ∀ i ∈ box a.shape, waveNumber a.shape L i ≠ edge ek (b + 1)) → Agree p m b := by
  classical
  have hp := power1d_eq LB a L ek hL hk bi bp
  refine ⟨_, _, hp, muBinning_eq (powerNd L a) L ek em hL los false ab .log, fun b hb hb0 hlast => ?_⟩
  have hS : (box a.shape).filter (fun i => inBin ek b (kMag a.shape L i)) = somewhere a.shape L los ab false em ek b := by
    unfold somewhere
    refine Finset.filter_congr fun i hi => ?_
    constructor
    · intro h
      have h2 : kMag a.shape L i < ek.getD (b + 1) 0 := by
        rcases h.2 with h2 | ⟨h2, h3⟩
        · exact h2
        · rcases hlast with h4 | h4
          · omega
          · exact absurd (((C50_wavenumber a.shape L (Or.inl rfl) i).1 (by decide)).symm.trans h3) (h4 i hi)
      have hge : 1 / 1000 ≤ kMag a.shape L i := hb0.trans h.1
      have hc := cosine_range a.shape L los ab i (by linarith)
      obtain ⟨mb, e1, e2, e3⟩ := (half_open hm hl _).1 ⟨h0.trans hc.1, lt_of_le_of_lt hc.2 h1⟩
      exact ⟨mb, e1, ⟨h.1, h2⟩, fun h => absurd h (by decide), _, muAt_eq _ _ _ _ _ hge, e2, e3⟩
    · rintro ⟨mb, -, ⟨e1, e2⟩, -⟩
      exact ⟨e1, Or.inl e2⟩
  have hsh : (powerNd L a).shape = a.shape := rfl
  have ht := total_eq (powerNd L a) L los ab false em ek hm b hb (centres em) (centres ek)
    ((List.range (em.length - 1)).map fun (mb : ℕ) => (List.range (ek.length - 1)).map (muAverage (powerNd L a) L los ab false em ek mb))
  have hw := weighted_eq (powerNd L a) L los ab false em ek hm b hb (centres em) (centres ek)
  have hb' : b < ek.length - 1 := by omega
  unfold Agree
  rw [ht, hw, hsh, ← hS]
  constructor
  · simp only [List.getElem?_map, List.getElem?_range hb', Option.map_some, nModes, hsh]
  · simp only [List.getElem?_map, List.getElem?_range hb', Option.map_some, average, nModes, hsh]
    congr 2
    congr 2
    refine Finset.sum_congr rfl fun i hi => ?_
    rw [if_neg]
    rintro rfl
    have hc := (Finset.mem_filter.mp hi).2.1
    have : kMag a.shape L (fun j => ((a.shape j / 2 : ℕ) : ℤ)) = 0 := by
      rw [kMag_three]
      have : ∑ j, kComp a.shape L j (fun j => ((a.shape j / 2 : ℕ) : ℤ)) ^ 2 = 0 :=
        Finset.sum_eq_zero fun j _ => by rw [(kComp_zero_iff a.shape L j (hL0 j) _).mpr rfl]; norm_num
      rw [this, Real.sqrt_zero]
    rw [this] at hc
    have : edge ek b ≤ 0 := hc
    linarith

/-- Four bins in `mu`, the last of which reaches above 1, and bins in `k` none of whose edges is the wave number of a mode of the unit box. -/
example : (∀ j : Fin 3, [(1 : ℝ), 1, 1].getD j 0 ≠ 0) ∧ [(6 : ℝ), 7, 10].Pairwise (· ≤ ·) ∧ [(0 : ℝ), 1 / 4, 1 / 2, 3 / 4, 11 / 10].Pairwise (· ≤ ·) ∧
    edge [(0 : ℝ), 1 / 4, 1 / 2, 3 / 4, 11 / 10] 0 ≤ (if true then 0 else -1) ∧ 1 < edge [(0 : ℝ), 1 / 4, 1 / 2, 3 / 4, 11 / 10] 4 ∧
    1 / 1000 ≤ edge [(6 : ℝ), 7, 10] 0 ∧ (![2, 2, 3] : Fin 3 → ℤ) ∈ box (![4, 4, 4] : Fin 3 → ℕ) ∧
    inBin [(6 : ℝ), 7, 10] 0 (kMag ![4, 4, 4] [1, 1, 1] ![2, 2, 3]) := by
  refine ⟨fun j => ?_, by norm_num, by norm_num, by norm_num [edge], by norm_num [edge], by norm_num [edge], ?_, ?_⟩
  · match j with
    | 0 => norm_num
    | 1 => norm_num
    | 2 => norm_num
  · rw [mem_box]
    intro j
    match j with
    | 0 => decide
    | 1 => decide
    | 2 => decide
  · have h := kMag_next 4 1 1
    norm_num at h
    rw [h, abs_of_pos Real.pi_pos]
    have h1 := Real.pi_gt_three
    have h2 := Real.pi_lt_d2
    exact ⟨by simp only [List.getD_cons_zero]; linarith, Or.inl (by simp only [List.getD_cons_zero, List.getD_cons_succ]; linarith)⟩

/-- **C262 is false**: with the bins in `mu` the function makes from a number, the modes along the line of sight are in the spherical average only. -/
theorem C262_false (LB : ℝ) (a : Arr (Fin 3) ℝ) (ha : a.shape = ![4, 4, 4]) (n : ℕ) (hn : 1 ≤ n) (bi : Binning) (bp : ℝ) :
    ∃ p m, power1d LB a (.list [1, 1, 1]) (.array [6, 7]) bi bp = .ok p ∧
      powerMu LB a ((2 : Fin 3) : ℕ) (.int n) (.array [6, 7]) (.list [1, 1, 1]) .none false true = .ok m ∧
      total m 0 < p.modes.getD 0 0 ∧ ¬ Agree p m 0 := by
  classical
  obtain ⟨shape, val⟩ := a
  obtain rfl : shape = ![4, 4, 4] := ha
  have hq : ∃ p, power1d LB ⟨![4, 4, 4], val⟩ (.list [1, 1, 1]) (.array [6, 7]) bi bp = .ok p ∧
      p.modes = [nModes ![4, 4, 4] (kMag ![4, 4, 4] [1, 1, 1]) [6, 7] 0] :=
    ⟨_, power1d_eq LB _ [1, 1, 1] [6, 7] (by simp) (by norm_num) bi bp, rfl⟩
  obtain ⟨p, hp1, hp2⟩ := hq
  have he : muEdges true (.int n) = .ok (linspace 0 1 n) := by simp [muEdges]
  have hm : powerMu LB ⟨![4, 4, 4], val⟩ ((2 : Fin 3) : ℕ) (.int n) (.array [6, 7]) (.list [1, 1, 1]) .none false true =
      powerMu LB ⟨![4, 4, 4], val⟩ ((2 : Fin 3) : ℕ) (.array (linspace 0 1 n)) (.array [6, 7]) (.list [1, 1, 1]) .none false true := by
    unfold powerMu muBinning
    simp only [he]
    rfl
  have hs := linspace_sorted (show (0 : ℝ) ≤ 1 by norm_num) n
  have ht := total_eq (powerNd [1, 1, 1] ⟨![4, 4, 4], val⟩) [1, 1, 1] 2 true false (linspace 0 1 n) [6, 7] hs 0 (by simp)
    (centres (linspace 0 1 n)) (centres [6, 7])
    ((List.range ((linspace 0 1 n).length - 1)).map fun (mb : ℕ) => (List.range ([(6 : ℝ), 7].length - 1)).map
      (muAverage (powerNd [1, 1, 1] ⟨![4, 4, 4], val⟩) [1, 1, 1] 2 true false (linspace 0 1 n) [6, 7] mb))
  have hk : kMag ![4, 4, 4] [1, 1, 1] ![2, 2, 3] = 2 * Real.pi := by
    have h := kMag_next 4 1 1
    norm_num at h
    rw [h, abs_of_pos Real.pi_pos]
  have hlt : (somewhere ![4, 4, 4] [1, 1, 1] 2 true false (linspace 0 1 n) [6, 7] 0).card <
      nModes ![4, 4, 4] (kMag ![4, 4, 4] [1, 1, 1]) [6, 7] 0 := by
    unfold nModes
    refine Finset.card_lt_card ?_
    rw [Finset.ssubset_iff_of_subset]
    · refine ⟨![2, 2, 3], Finset.mem_filter.2 ⟨?_, ?_⟩, fun h => ?_⟩
      · rw [mem_box]
        intro j
        match j with
        | 0 => decide
        | 1 => decide
        | 2 => decide
      · rw [hk]
        have h1 := Real.pi_gt_three
        have h2 := Real.pi_lt_d2
        exact ⟨by simp only [List.getD_cons_zero]; linarith, Or.inl (by simp only [List.getD_cons_zero, List.getD_cons_succ]; linarith)⟩
      · obtain ⟨mb, e1, e2⟩ := (Finset.mem_filter.1 h).2
        refine C94_false_los _ _ _ _ ?_ false n hn [6, 7] _ he mb 0 e1 e2
        rintro ⟨j, hj, hne⟩
        refine hne ((kComp_zero_iff _ _ j ?_ _).mpr ?_)
        · match j with
          | 0 => norm_num
          | 1 => norm_num
          | 2 => exact absurd rfl hj
        · match j with
          | 0 => decide
          | 1 => decide
          | 2 => exact absurd rfl hj
    · intro i hi
      obtain ⟨h1, mb, -, ⟨h2, h3⟩, -⟩ := Finset.mem_filter.1 hi
      exact Finset.mem_filter.2 ⟨h1, h2, Or.inl h3⟩
  refine ⟨p, _, hp1, hm.trans (muBinning_eq (powerNd [1, 1, 1] ⟨![4, 4, 4], val⟩) [1, 1, 1] [6, 7] (linspace 0 1 n) (by simp) 2 false true .log), ?_, ?_⟩
  · rw [ht, hp2]
    exact hlt
  · rintro ⟨h, -⟩
    rw [ht, hp2] at h
    exact absurd (Option.some.inj h) hlt.ne'

end Verif.MuMean
