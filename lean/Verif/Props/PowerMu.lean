import Verif.Props.PowerSpectrum
import Mathlib.Data.Fin.VecNotation
import Mathlib.Analysis.Real.Pi.Bounds
/-!
# Properties of the binning of power spectra in `k` and `mu` (C94)
-/

namespace Verif.PowerSpectrum
open Verif.Convolve

/-! ## Specification -/

/-- Cosine of the angle of the mode `i` to the line of sight, or its absolute value. -/
noncomputable def cosine (s : Fin 3 → ℕ) (L : List ℝ) (los : Fin 3) (absolute : Bool) (i : Fin 3 → ℤ) : ℝ :=
  if absolute then |kComp s L los i| / kMag s L i else kComp s L los i / kMag s L i

/-- The mode has a component across the line of sight. -/
def Across (s : Fin 3 → ℕ) (L : List ℝ) (los : Fin 3) (i : Fin 3 → ℤ) : Prop :=
  ∃ j, j ≠ los ∧ kComp s L j i ≠ 0

/-! ## Basics -/

theorem kMag_three (s : Fin 3 → ℕ) (L : List ℝ) (i : Fin 3 → ℤ) :
    kMag s L i = Real.sqrt (∑ j, kComp s L j i ^ 2) := by
  unfold kMag
  rw [if_neg (by decide)]

theorem kMag_nonneg (s : Fin 3 → ℕ) (L : List ℝ) (i : Fin 3 → ℤ) : 0 ≤ kMag s L i := by
  rw [kMag_three]
  exact Real.sqrt_nonneg _

theorem muAt_eq (s : Fin 3 → ℕ) (L : List ℝ) (los : Fin 3) (absolute : Bool) (i : Fin 3 → ℤ)
    (h : 1 / 1000 ≤ kMag s L i) : muAt s L los absolute i = some (cosine s L los absolute i) := by
  unfold muAt cosine
  rw [if_neg (not_lt.mpr h)]
  have h0 := kMag_nonneg s L i
  cases absolute with
  | true => simp [abs_div, abs_of_nonneg h0]
  | false => simp [abs_of_nonneg h0]

theorem muAt_none (s : Fin 3 → ℕ) (L : List ℝ) (los : Fin 3) (absolute : Bool) (i : Fin 3 → ℤ)
    (h : kMag s L i < 1 / 1000) : muAt s L los absolute i = none := by
  unfold muAt
  rw [if_pos h]

theorem kComp_zero_iff (s : Fin 3 → ℕ) (L : List ℝ) (j : Fin 3) (hL : L.getD j 0 ≠ 0) (i : Fin 3 → ℤ) :
    kComp s L j i = 0 ↔ i j = (s j / 2 : ℕ) := by
  unfold kComp
  rw [center_eq 3 (s j) (Or.inl rfl), div_eq_zero_iff, mul_eq_zero]
  have hp : (2 * Real.pi) ≠ 0 := by positivity
  constructor
  · rintro ((h | h) | h)
    · exact absurd h hp
    · generalize s j / 2 = c at *
      have : (i j : ℝ) = (c : ℝ) := by linarith
      exact_mod_cast this
    · exact absurd h hL
  · intro h
    left; right
    rw [h, Int.cast_natCast, sub_self]

/-- On even grids the index test finds the modes along the line of sight. -/
theorem nonzeroIdx_iff (s : Fin 3 → ℕ) (L : List ℝ) (los : Fin 3) (hL : ∀ j : Fin 3, L.getD j 0 ≠ 0)
    (heven : ∀ j, j ≠ los → s j % 2 = 0) (i : Fin 3 → ℤ) : nonzeroIdx s los i ↔ Across s L los i := by
  unfold nonzeroIdx Across
  have key : ∀ j, j ≠ los → ((i j : ℝ) = (s j : ℝ) / 2 ↔ kComp s L j i = 0) := by
    intro j hj
    rw [kComp_zero_iff s L j (hL j)]
    have : (s j : ℝ) = 2 * ((s j / 2 : ℕ) : ℝ) := by
      have := heven j hj
      exact_mod_cast (by omega : s j = 2 * (s j / 2))
    rw [this]
    clear this
    generalize s j / 2 = c
    constructor
    · intro h
      have : (i j : ℝ) = (c : ℝ) := by linarith
      exact_mod_cast this
    · intro h
      rw [h]
      rw [Int.cast_natCast]
      ring
  push Not
  constructor
  · rintro ⟨j, h1, h2⟩
    exact ⟨j, h1, fun h => h2 ((key j h1).mpr h)⟩
  · rintro ⟨j, h1, h2⟩
    exact ⟨j, h1, fun h => h2 ((key j h1).mp h)⟩

/-- Half-open bins. -/
theorem half_open {e : List ℝ} (he : e.Pairwise (· ≤ ·)) (hl : 2 ≤ e.length) (x : ℝ) :
    (edge e 0 ≤ x ∧ x < edge e (e.length - 1) →
      ∃ b, b + 1 < e.length ∧ edge e b ≤ x ∧ x < edge e (b + 1)) ∧
    (∀ b, b + 1 < e.length → edge e b ≤ x → x < edge e (b + 1) →
      (edge e 0 ≤ x ∧ x < edge e (e.length - 1)) ∧
      ∀ c, c + 1 < e.length → edge e c ≤ x → x < edge e (c + 1) → c = b) := by
  constructor
  · rintro ⟨h1, h2⟩
    obtain ⟨b, hb, h3⟩ := inBin_exists hl (show InRange e x from ⟨h1, h2.le⟩)
    refine ⟨b, hb, h3.1, ?_⟩
    rcases h3.2 with h | ⟨h, h'⟩
    · exact h
    · have : e.length - 1 = b + 1 := by omega
      rw [this] at h2
      exact h2
  · intro b hb h1 h2
    refine ⟨⟨(edge_mono he (Nat.zero_le b) (by omega)).trans h1,
      lt_of_lt_of_le h2 (edge_mono he (by omega) (by omega))⟩, fun c hc h3 h4 => ?_⟩
    exact inBin_unique he hc hb ⟨h3, Or.inl h4⟩ ⟨h1, Or.inl h2⟩

/-! ## C94 -/

/-- What the function does for valid arguments. -/
theorem muBinning_eq (a : Arr (Fin 3) ℝ) (L ek em : List ℝ) (hL : 3 ≤ L.length) (los : Fin 3)
    (exclude absolute : Bool) (binning : Binning) :
    muBinning a (los : ℕ) (.array em) (.array ek) (.list L) .none exclude binning absolute = .ok
      { data := (List.range (em.length - 1)).map fun (mb : ℕ) =>
          (List.range (ek.length - 1)).map (muAverage a L los absolute exclude em ek mb)
        mus := centres em
        ks := centres ek
        modes := (List.range (em.length - 1)).map fun (mb : ℕ) =>
          (List.range (ek.length - 1)).map (muModes a.shape L los absolute exclude em ek mb) } := by
  have h : 0 ≤ ((los : ℕ) : ℤ) ∧ ((los : ℕ) : ℤ) < 3 := ⟨by omega, by have := los.2; omega⟩
  unfold muBinning
  simp only [getK, boxOf, if_pos hL, getKbins, muEdges, dif_pos h]
  simp

/-- The modes that should be counted, as far as the proved part goes. -/
def Counted (s : Fin 3 → ℕ) (L : List ℝ) (los : Fin 3) (absolute exclude : Bool) (em ek : List ℝ)
    (i : Fin 3 → ℤ) : Prop :=
  1 / 1000 ≤ kMag s L i ∧ (edge ek 0 ≤ kMag s L i ∧ kMag s L i < edge ek (ek.length - 1)) ∧
  (edge em 0 ≤ cosine s L los absolute i ∧ cosine s L los absolute i < edge em (em.length - 1)) ∧
  (exclude = true → Across s L los i)

open Classical in
/-- The full statement of C94: every mode between the first and the last edges, in `k` and in `mu`,
is counted in exactly one bin around it, except those along the line of sight if these are
excluded; the values are the means over the modes of the bin.  Proved, for even grids: this holds
for the modes below the last edge, in `k` and in `mu`, with `k` of at least `0.001`. -/
theorem C94_partial (a : Arr (Fin 3) ℝ) (L ek em : List ℝ) (hL : 3 ≤ L.length)
    (hL0 : ∀ j : Fin 3, L.getD j 0 ≠ 0)
    (hk : 2 ≤ ek.length) (hks : ek.Pairwise (· ≤ ·)) (hm : 2 ≤ em.length) (hms : em.Pairwise (· ≤ ·))
    (los : Fin 3) (exclude absolute : Bool) (heven : exclude = true → ∀ j, j ≠ los → a.shape j % 2 = 0)
    (binning : Binning) :
    ∃ r, muBinning a (los : ℕ) (.array em) (.array ek) (.list L) .none exclude binning absolute = .ok r ∧
      ∃ f : (Fin 3 → ℤ) → ℕ × ℕ,
        (∀ i, Counted a.shape L los absolute exclude em ek i →
          (f i).1 + 1 < em.length ∧ (f i).2 + 1 < ek.length ∧
          edge em (f i).1 ≤ cosine a.shape L los absolute i ∧
          cosine a.shape L los absolute i < edge em ((f i).1 + 1) ∧
          edge ek (f i).2 ≤ kMag a.shape L i ∧ kMag a.shape L i < edge ek ((f i).2 + 1)) ∧
        ∀ mb kb, mb + 1 < em.length → kb + 1 < ek.length →
          let S := (box a.shape).filter fun i => Counted a.shape L los absolute exclude em ek i ∧ f i = (mb, kb)
          (∃ row, r.modes[mb]? = some row ∧ row[kb]? = some S.card) ∧
          (∃ row, r.data[mb]? = some row ∧
            row[kb]? = some (if S.card = 0 then none else some ((∑ i ∈ S, a.val i) / S.card))) ∧
          r.mus[mb]? = some ((edge em mb + edge em (mb + 1)) / 2) ∧
          r.ks[kb]? = some ((edge ek kb + edge ek (kb + 1)) / 2) := by
  have hex : ∀ i : Fin 3 → ℤ, ∃ p : ℕ × ℕ, Counted a.shape L los absolute exclude em ek i →
      p.1 + 1 < em.length ∧ p.2 + 1 < ek.length ∧
        edge em p.1 ≤ cosine a.shape L los absolute i ∧ cosine a.shape L los absolute i < edge em (p.1 + 1) ∧
        edge ek p.2 ≤ kMag a.shape L i ∧ kMag a.shape L i < edge ek (p.2 + 1) := by
    intro i
    by_cases h : Counted a.shape L los absolute exclude em ek i
    · obtain ⟨b, b1, b2, b3⟩ := (half_open hms hm _).1 h.2.2.1
      obtain ⟨c, c1, c2, c3⟩ := (half_open hks hk _).1 h.2.1
      exact ⟨(b, c), fun _ => ⟨b1, c1, b2, b3, c2, c3⟩⟩
    · exact ⟨(0, 0), fun h' => absurd h' h⟩
  choose f hf using hex
  refine ⟨_, muBinning_eq a L ek em hL los exclude absolute binning, f, hf, fun mb kb hmb hkb => ?_⟩
  have hx : ∀ i, (exclude = true → nonzeroIdx a.shape los i) ↔ (exclude = true → Across a.shape L los i) := by
    intro i
    constructor
    · intro h e
      exact (nonzeroIdx_iff a.shape L los hL0 (heven e) i).mp (h e)
    · intro h e
      exact (nonzeroIdx_iff a.shape L los hL0 (heven e) i).mpr (h e)
  have hS : (box a.shape).filter (selected a.shape L los absolute exclude em ek mb kb) =
      (box a.shape).filter fun i => Counted a.shape L los absolute exclude em ek i ∧ f i = (mb, kb) := by
    refine Finset.filter_congr fun i _ => ?_
    constructor
    · rintro ⟨⟨h1, h2⟩, h3, m, h4, h5, h6⟩
      have hge : 1 / 1000 ≤ kMag a.shape L i := by
        by_contra hn
        rw [muAt_none _ _ _ _ _ (not_le.mp hn)] at h4
        cases h4
      rw [muAt_eq _ _ _ _ _ hge] at h4
      obtain rfl := Option.some.inj h4
      obtain ⟨r1, u1⟩ := (half_open hks hk _).2 kb hkb h1 h2
      obtain ⟨r2, u2⟩ := (half_open hms hm _).2 mb hmb h5 h6
      have hc : Counted a.shape L los absolute exclude em ek i := ⟨hge, r1, r2, (hx i).mp h3⟩
      obtain ⟨g1, g2, g3, g4, g5, g6⟩ := hf i hc
      exact ⟨hc, Prod.ext (u2 _ g1 g3 g4) (u1 _ g2 g5 g6)⟩
    · rintro ⟨hc, he⟩
      obtain ⟨g1, g2, g3, g4, g5, g6⟩ := hf i hc
      rw [he] at g3 g4 g5 g6
      exact ⟨⟨g5, g6⟩, (hx i).mpr hc.2.2.2, _, muAt_eq _ _ _ _ _ hc.1, g3, g4⟩
  have hmb' : mb < em.length - 1 := by omega
  have hkb' : kb < ek.length - 1 := by omega
  refine ⟨⟨(List.range (ek.length - 1)).map (muModes a.shape L los absolute exclude em ek mb),
      by rw [List.getElem?_map, List.getElem?_range hmb']; rfl, ?_⟩,
    ⟨(List.range (ek.length - 1)).map (muAverage a L los absolute exclude em ek mb),
      by rw [List.getElem?_map, List.getElem?_range hmb']; rfl, ?_⟩, ?_, ?_⟩
  · simp only [List.getElem?_map, List.getElem?_range hkb', Option.map_some, muModes, hS]
  · simp only [List.getElem?_map, List.getElem?_range hkb', Option.map_some, muAverage, muModes, hS]
    congr 2
    congr 2
    refine Finset.sum_congr rfl fun i hi => ?_
    rw [if_neg]
    rintro rfl
    have hc := (Finset.mem_filter.mp hi).2.1.1
    rw [kMag_three] at hc
    have : ∑ j, kComp a.shape L j (fun j => ((a.shape j / 2 : ℕ) : ℤ)) ^ 2 = 0 :=
      Finset.sum_eq_zero fun j _ => by rw [(kComp_zero_iff a.shape L j (hL0 j) _).mpr rfl]; norm_num
    rw [this, Real.sqrt_zero] at hc
    norm_num at hc
  · simp only [centres, List.getElem?_map, List.getElem?_range hmb', Option.map_some, edge]
    congr 1
    ring
  · simp only [centres, List.getElem?_map, List.getElem?_range hkb', Option.map_some, edge]
    congr 1
    ring

/-- From numbers of bins: `n + 1` edges in `mu` at equal distances from zero, or from minus one, to
one, and `m + 1` edges in `k` as for the spherical average. -/
theorem C94_int (a : Arr (Fin 3) ℝ) (hs : ∀ j, 0 < a.shape j) (L : List ℝ) (hL : 3 ≤ L.length)
    (hpos : ∀ x ∈ L, 0 < x) (los : ℤ) (exclude absolute : Bool) (n m : ℕ) (hn : 1 ≤ n) (hm : 1 ≤ m)
    (i₀ : Fin 3 → ℤ) (h₀ : i₀ ∈ box a.shape) (hk : 0 < kMag a.shape L i₀) :
    ∃ em ek M, em.length = n + 1 ∧
      (∀ b, b ≤ n → edge em b = if absolute then (b : ℝ) / n else 2 * (b : ℝ) / n - 1) ∧
      ek.length = m + 1 ∧ edge ek 0 = fundamental L ∧ edge ek m = M ∧
      (∃ i ∈ box a.shape, kMag a.shape L i = M) ∧ (∀ i ∈ box a.shape, kMag a.shape L i ≤ M) ∧
      (∃ q, ∀ b, b < m → edge ek (b + 1) = q * edge ek b) ∧
      muBinning a los (.int n) (.int m) (.list L) .none exclude .log absolute =
        muBinning a los (.array em) (.array ek) (.list L) .none exclude .log absolute := by
  obtain ⟨M, h1, h2, h3⟩ := kMax_ok a.shape L hs
  have hM : 0 < M := lt_of_lt_of_le hk (h3 _ h₀)
  have hne : L ≠ [] := by
    rintro rfl
    simp at hL
  have hf := fundamental_pos hne hpos
  refine ⟨linspace (if absolute then 0 else -1) 1 n, logspace (fundamental L) M m, M, linspace_length _ _ _,
    fun b hb => ?_, logspace_length _ _ _, logspace_first _ hf _, logspace_last _ hM hm, h2, h3,
    ⟨(10 : ℝ) ^ ((Real.logb 10 M - Real.logb 10 (fundamental L)) / m), fun b hb => ?_⟩, ?_⟩
  · unfold edge
    rw [List.getD_eq_getElem?_getD, linspace_get _ _ _ _ (by omega)]
    simp only [Option.getD_some]
    cases absolute
    · simp only [Bool.false_eq_true, if_false]
      ring
    · simp only [if_true]
      ring
  · rw [logspace_edge _ _ _ _ (by omega), logspace_edge _ _ _ _ (by omega), ← Real.rpow_add (by norm_num)]
    congr 1
    unfold edge
    rw [List.getD_eq_getElem?_getD, List.getD_eq_getElem?_getD, linspace_get _ _ _ _ (by omega),
      linspace_get _ _ _ _ (by omega)]
    simp only [Option.getD_some]
    push_cast
    ring
  · have hg : getK 3 (.list L) = .ok L := by simp [getK, boxOf, hL]
    unfold muBinning
    simp only [hg, getKbins, h1, edges, muEdges]
    rfl

example : (∀ j : Fin 3, [100, 200, (50 : ℝ)].getD j 0 ≠ 0) ∧
    [(0 : ℝ), 1 / 2, 1].Pairwise (· ≤ ·) ∧ [(1 : ℝ) / 10, 1 / 5, 1].Pairwise (· ≤ ·) ∧
    ∀ j : Fin 3, (![4, 8, 6] : Fin 3 → ℕ) j % 2 = 0 := by
  refine ⟨fun j => ?_, by norm_num, by norm_num, by decide⟩
  match j with
  | 0 => norm_num
  | 1 => norm_num
  | 2 => norm_num

/-- A mode along the line of sight has cosine one. -/
theorem cosine_along (s : Fin 3 → ℕ) (L : List ℝ) (los : Fin 3) (i : Fin 3 → ℤ)
    (h : ¬ Across s L los i) (hk : 0 < kMag s L i) : cosine s L los true i = 1 := by
  have e : kMag s L i = |kComp s L los i| := by
    rw [kMag_three, ← Real.sqrt_sq_eq_abs]
    congr 1
    refine Finset.sum_eq_single los (fun j _ hj => ?_) (fun hn => absurd (Finset.mem_univ _) hn)
    have : kComp s L j i = 0 := by
      by_contra hne
      exact h ⟨j, hj, hne⟩
    rw [this]
    norm_num
  unfold cosine
  rw [if_pos rfl, ← e]
  exact div_self hk.ne'

/-- C94 fails for all modes along the line of sight: with the bins `mu_binning` makes itself they
are never counted, even if they are not to be excluded. -/
theorem C94_false_los (s : Fin 3 → ℕ) (L : List ℝ) (los : Fin 3) (i : Fin 3 → ℤ)
    (h : ¬ Across s L los i) (exclude : Bool) (n : ℕ) (hn : 1 ≤ n) (ek em : List ℝ)
    (hem : muEdges true (.int n) = .ok em) (mb kb : ℕ) (hmb : mb + 1 < em.length) :
    ¬ selected s L los true exclude em ek mb kb i := by
  rintro ⟨_, _, m, h4, h5, h6⟩
  have hge : 1 / 1000 ≤ kMag s L i := by
    by_contra hn
    rw [muAt_none _ _ _ _ _ (not_le.mp hn)] at h4
    cases h4
  rw [muAt_eq _ _ _ _ _ hge] at h4
  obtain rfl := Option.some.inj h4
  rw [cosine_along s L los i h (by linarith)] at h6
  have e : em = linspace 0 1 n := by
    simp only [muEdges, if_true] at hem
    exact (Except.ok.inj hem).symm
  subst e
  rw [linspace_length] at hmb
  have h7 := edge_mono (linspace_sorted (show (0 : ℝ) ≤ 1 by norm_num) n) (b := mb + 1) (c := n) (by omega)
    (by rw [linspace_length]; omega)
  rw [linspace_last _ _ hn] at h7
  exact absurd (lt_of_lt_of_le h6 h7) (lt_irrefl _)

/-- So that excluding them or not makes no difference there. -/
theorem C94_exclude (s : Fin 3 → ℕ) (L : List ℝ) (hL : ∀ j : Fin 3, L.getD j 0 ≠ 0) (los : Fin 3)
    (n : ℕ) (hn : 1 ≤ n) (ek em : List ℝ) (hem : muEdges true (.int n) = .ok em) (mb kb : ℕ)
    (hmb : mb + 1 < em.length) :
    muModes s L los true true em ek mb kb = muModes s L los true false em ek mb kb := by
  classical
  unfold muModes
  congr 1
  refine Finset.filter_congr fun i _ => ?_
  constructor
  · rintro ⟨h1, _, h3⟩
    exact ⟨h1, (fun h => absurd h (by decide)), h3⟩
  · intro h
    refine ⟨h.1, fun _ hz => ?_, h.2.2⟩
    refine C94_false_los s L los i ?_ false n hn ek em hem mb kb hmb h
    rintro ⟨j, hj, hne⟩
    refine hne ((kComp_zero_iff s L j (hL j) i).mpr ?_)
    have h1 := hz j hj
    have h2 : 2 * i j = s j := by
      have : (2 : ℝ) * i j = s j := by linarith
      exact_mod_cast this
    omega

/-- C94 fails for the modes on the last edge, e.g. those with the largest `k` if the edges are made
from a number. -/
theorem C94_false_last (s : Fin 3 → ℕ) (L : List ℝ) (los : Fin 3) (i : Fin 3 → ℤ) (ek em : List ℝ)
    (hks : ek.Pairwise (· ≤ ·)) (hi : kMag s L i = edge ek (ek.length - 1)) (exclude absolute : Bool)
    (mb kb : ℕ) (hkb : kb + 1 < ek.length) : ¬ selected s L los absolute exclude em ek mb kb i := by
  rintro ⟨⟨_, h2⟩, _⟩
  rw [hi] at h2
  exact absurd (lt_of_lt_of_le h2 (edge_mono hks (show kb + 1 ≤ ek.length - 1 by omega) (by omega))) (lt_irrefl _)

/-- C94 fails for large boxes: modes with `k` below `0.001` are never counted, whatever the
edges. -/
theorem C94_false_large (s : Fin 3 → ℕ) (L : List ℝ) (los : Fin 3) (i : Fin 3 → ℤ) (ek em : List ℝ)
    (hi : kMag s L i < 1 / 1000) (exclude absolute : Bool) (mb kb : ℕ) :
    ¬ selected s L los absolute exclude em ek mb kb i := by
  rintro ⟨_, _, m, h4, _⟩
  rw [muAt_none _ _ _ _ _ hi] at h4
  cases h4

/-- The mode next to the centre along an axis. -/
theorem kMag_next (n : ℕ) (l : ℝ) (m : ℤ) :
    kMag ![n, n, n] [l, l, l] ![(n / 2 : ℕ), (n / 2 : ℕ), (n / 2 : ℕ) + m] = |2 * Real.pi * m / l| := by
  have hc := center_eq 3 n (Or.inl rfl)
  rw [kMag_three, ← Real.sqrt_sq_eq_abs, Fin.sum_univ_three]
  congr 1
  simp only [kComp, Matrix.cons_val_zero, Matrix.cons_val_one, Matrix.cons_val, hc, Int.cast_natCast, Int.cast_add]
  simp

/-- A box of ten gigaparsecs has a mode of positive `k` below `0.001`. -/
example : 0 < kMag ![4, 4, 4] [10000, 10000, 10000] ![2, 2, 3] ∧
    kMag ![4, 4, 4] [10000, 10000, 10000] ![2, 2, 3] < 1 / 1000 := by
  have h := kMag_next 4 10000 1
  norm_num at h
  rw [h]
  have h1 := Real.pi_pos
  have h2 := Real.pi_lt_d2
  rw [abs_of_pos (by positivity)]
  constructor
  · positivity
  · linarith

/-- C94 fails on odd grids: with `exclude_zero_modes` a mode along the line of sight is counted (at
`mu = -1`, with signed cosines). -/
theorem C94_false_odd : ∃ (i : Fin 3 → ℤ), i ∈ box (![3, 3, 3] : Fin 3 → ℕ) ∧
    ¬ Across ![3, 3, 3] [1, 1, 1] 2 i ∧
    selected ![3, 3, 3] [1, 1, 1] 2 false true (linspace (-1) 1 2) [6, 7] 0 0 i := by
  have hk : kMag ![3, 3, 3] [1, 1, 1] ![1, 1, 0] = 2 * Real.pi := by
    have h := kMag_next 3 1 (-1)
    norm_num at h
    rw [h, abs_of_pos Real.pi_pos]
  have hz : kComp ![3, 3, 3] [1, 1, 1] 2 ![1, 1, 0] = -(2 * Real.pi) := by
    unfold kComp
    rw [center_eq 3 _ (Or.inl rfl)]
    simp [Matrix.cons_val]
  refine ⟨![1, 1, 0], ?_, ?_, ?_⟩
  · rw [mem_box]
    intro j
    match j with
    | 0 => decide
    | 1 => decide
    | 2 => decide
  · rintro ⟨j, hj, hne⟩
    refine hne ((kComp_zero_iff _ _ j ?_ _).mpr ?_)
    · match j with
      | 0 => norm_num
      | 1 => norm_num
      | 2 => exact absurd rfl hj
    · match j with
      | 0 => decide
      | 1 => decide
      | 2 => exact absurd rfl hj
  · have h1 := Real.pi_gt_three
    have h2 := Real.pi_lt_d2
    refine ⟨?_, fun _ h => ?_, -1, ?_, ?_, ?_⟩
    · rw [hk]
      simp only [List.getD_cons_zero, List.getD_cons_succ]
      constructor <;> linarith
    · have := h 0 (by decide)
      norm_num at this
    · unfold muAt
      rw [hk, if_neg (by linarith), hz]
      simp only [Bool.false_eq_true, if_false]
      rw [abs_of_pos (show 0 < 2 * Real.pi by positivity), neg_div, div_self (by positivity)]
    · have := linspace_first (-1) 1 2
      unfold edge at this
      rw [this]
    · rw [List.getD_eq_getElem?_getD, linspace_get (-1) 1 2 1 (by norm_num)]
      norm_num

/-- Contrary to the description ("any components of k equal to zero"), a mode with one vanishing
component across the line of sight is counted. -/
theorem C94_false_any : ∃ (i : Fin 3 → ℤ), i ∈ box (![4, 4, 4] : Fin 3 → ℕ) ∧
    kComp ![4, 4, 4] [1, 1, 1] 0 i = 0 ∧
    selected ![4, 4, 4] [1, 1, 1] 0 true true (linspace 0 1 2) [6, 7] 0 0 i := by
  have hk : kMag ![4, 4, 4] [1, 1, 1] ![2, 2, 3] = 2 * Real.pi := by
    have h := kMag_next 4 1 1
    norm_num at h
    rw [h, abs_of_pos Real.pi_pos]
  have hz : kComp ![4, 4, 4] [1, 1, 1] 0 ![2, 2, 3] = 0 := by
    unfold kComp
    rw [center_eq 3 _ (Or.inl rfl)]
    norm_num
  refine ⟨![2, 2, 3], ?_, hz, ?_⟩
  · rw [mem_box]
    intro j
    match j with
    | 0 => decide
    | 1 => decide
    | 2 => decide
  · have h1 := Real.pi_gt_three
    have h2 := Real.pi_lt_d2
    refine ⟨?_, fun _ h => ?_, 0, ?_, ?_, ?_⟩
    · rw [hk]
      simp only [List.getD_cons_zero, List.getD_cons_succ]
      constructor <;> linarith
    · have h3 := h 2 (by decide)
      rw [show (![2, 2, 3] : Fin 3 → ℤ) 2 = 3 from rfl, show (![4, 4, 4] : Fin 3 → ℕ) 2 = 4 from rfl] at h3
      norm_num at h3
    · unfold muAt
      rw [hk, if_neg (by linarith), hz]
      norm_num
    · have := linspace_first 0 1 2
      unfold edge at this
      rw [this]
    · rw [List.getD_eq_getElem?_getD, linspace_get 0 1 2 1 (by norm_num)]
      norm_num

/-- Weights cannot be used, neither an array nor a number; edges in `mu` cannot be a list; the line
of sight cannot be counted from the end. -/
theorem C94_raises (a : Arr (Fin 3) ℝ) (L ek : List ℝ) (hL : 3 ≤ L.length) (hk : 2 ≤ ek.length)
    (exclude absolute : Bool) (binning : Binning) (boxDims : Dims) (kbins : KBins) (mubins : MuBins)
    (los los' los₀ : ℤ) (hlos : 0 ≤ los ∧ los < 3) (hlos' : los' < 0) (n : ℕ) (hn : 1 ≤ n) (l : List ℝ) :
    muBinning a los₀ mubins kbins boxDims .array exclude binning absolute = .error .value ∧
    muBinning a los (.int n) (.array ek) (.list L) .number exclude binning absolute = .error .type ∧
    muBinning a los (.list l) (.array ek) (.list L) .none exclude binning absolute = .error .type ∧
    muBinning a los' mubins (.array ek) (.list L) .none exclude binning absolute = .error .exception := by
  have h' : ¬ (0 ≤ los' ∧ los' < 3) := by omega
  refine ⟨rfl, ?_, ?_, ?_⟩
  · unfold muBinning
    simp only [getK, boxOf, if_pos hL, getKbins, muEdges, dif_pos hlos, linspace_length]
    simp
    omega
  · unfold muBinning
    simp only [getK, boxOf, if_pos hL, getKbins, muEdges, dif_pos hlos]
    simp
  · unfold muBinning
    simp only [getK, boxOf, if_pos hL, dif_neg h']
    simp

end Verif.PowerSpectrum
