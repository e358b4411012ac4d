import Verif.Props.MuMean
import Mathlib.Data.List.Basic
/-!
# Two bins of a spectrum may be merged

C263: leaving out an inner edge of the bins in `k` merges the two bins beside it, and leaves the others as they are.
-/

namespace Verif.MergedBins

open Verif.Convolve Verif.PowerSpectrum Verif.CrossSpectrum Verif.MuMean

/-! ## Specification -/

/-- `x` times its number of modes, nothing if there are none. -/
noncomputable def amount (x : Option ℝ) (n : ℕ) : ℝ := x.getD 0 * n

/-- `d'` and `n'` are the values and numbers of modes `d` and `n` with the bins `j` and `j + 1` merged into one: the modes added up, the mean of the
values taken with the numbers of modes. -/
structure Merged (j : ℕ) (d d' : List (Option ℝ)) (n n' : List ℕ) : Prop where
  length : d'.length + 1 = d.length ∧ n'.length + 1 = n.length
  before : ∀ b < j, d'[b]? = d[b]? ∧ n'[b]? = n[b]?
  after : ∀ b > j, d'[b]? = d[b + 1]? ∧ n'[b]? = n[b + 1]?
  modes : n'.getD j 0 = n.getD j 0 + n.getD (j + 1) 0
  mean : d'.getD j none = if n'.getD j 0 = 0 then none
    else some ((amount (d.getD j none) (n.getD j 0) + amount (d.getD (j + 1) none) (n.getD (j + 1) 0)) / n'.getD j 0)

/-! ## Lemmas -/

theorem erased (e : List ℝ) (j b : ℕ) : (e.eraseIdx j).getD b 0 = if b < j then e.getD b 0 else e.getD (b + 1) 0 := by
  simp only [List.getD_eq_getElem?_getD, List.getElem?_eraseIdx]
  split <;> rfl

theorem erased_length {e : List ℝ} {j : ℕ} (h : j < e.length) : (e.eraseIdx j).length = e.length - 1 := List.length_eraseIdx_of_lt h

/-- A division of the cells by a predicate for every bin, before and after: the means are merged. -/
theorem merged_means {ι : Type} (B : Finset ι) (v : ι → ℝ) (N j : ℕ) (hj : j + 1 < N) (S S' : ℕ → Finset ι) (h1 : ∀ b < j, S' b = S b)
    (h2 : ∀ b, j < b → b + 1 < N → S' b = S (b + 1)) (h3 : ∀ f : ι → ℝ, ∑ i ∈ S' j, f i = ∑ i ∈ S j, f i + ∑ i ∈ S (j + 1), f i)
    (h4 : (S' j).card = (S j).card + (S (j + 1)).card) :
    Merged j ((List.range N).map fun b => if (S b).card = 0 then none else some ((∑ i ∈ S b, v i) / (S b).card))
      ((List.range (N - 1)).map fun b => if (S' b).card = 0 then none else some ((∑ i ∈ S' b, v i) / (S' b).card))
      ((List.range N).map fun b => (S b).card) ((List.range (N - 1)).map fun b => (S' b).card) := by
  have ha : ∀ T : Finset ι, amount (if T.card = 0 then none else some ((∑ i ∈ T, v i) / T.card)) T.card = ∑ i ∈ T, v i := by
    intro T
    unfold amount
    split
    · rename_i h
      rw [Finset.card_eq_zero.1 h]
      simp
    · rename_i h
      rw [Option.getD_some, div_mul_cancel₀ _ (by exact_mod_cast h)]
  refine ⟨by simp; omega, fun b hb => ?_, fun b hb => ?_, ?_, ?_⟩
  · simp only [List.getElem?_map, Option.map_some, List.getElem?_range (show b < N by omega), List.getElem?_range (show b < N - 1 by omega), h1 b hb]
    exact ⟨trivial, trivial⟩
  · by_cases hN : b + 1 < N
    · simp only [List.getElem?_map, Option.map_some, List.getElem?_range hN, List.getElem?_range (show b < N - 1 by omega), h2 b hb hN]
      exact ⟨trivial, trivial⟩
    · refine ⟨?_, ?_⟩ <;> rw [List.getElem?_eq_none (by simp; omega), List.getElem?_eq_none (by simp; omega)]
  · rw [row_get _ _ (by omega), row_get _ _ (by omega), row_get _ _ hj, h4]
  · rw [row_get _ _ (by omega), row_get _ _ (by omega), row_get _ _ (by omega), row_get _ _ hj, row_get _ _ (by omega), row_get _ _ hj, ha, ha, h3]

theorem inBin_before {e : List ℝ} {j b : ℕ} (hj : j + 2 < e.length) (hb : b < j) (x : ℝ) : inBin (e.eraseIdx (j + 1)) b x ↔ inBin e b x := by
  unfold inBin
  rw [erased, erased, erased_length (by omega), if_pos (by omega), if_pos (by omega)]
  refine and_congr_right fun _ => or_congr_right ?_
  constructor <;> (rintro ⟨h, -⟩; omega)

theorem inBin_after {e : List ℝ} {j b : ℕ} (hj : j + 2 < e.length) (hb : j < b) (x : ℝ) : inBin (e.eraseIdx (j + 1)) b x ↔ inBin e (b + 1) x := by
  unfold inBin
  rw [erased, erased, erased_length (by omega), if_neg (by omega), if_neg (by omega)]
  refine and_congr_right fun _ => or_congr_right (and_congr_left fun _ => ?_)
  omega

theorem inBin_merged {e : List ℝ} (he : e.Pairwise (· ≤ ·)) {j : ℕ} (hj : j + 2 < e.length) (x : ℝ) :
    inBin (e.eraseIdx (j + 1)) j x ↔ inBin e j x ∨ inBin e (j + 1) x := by
  have e1 : e.getD j 0 ≤ e.getD (j + 1) 0 := edge_mono he (by omega) (by omega)
  have e2 : e.getD (j + 1) 0 ≤ e.getD (j + 2) 0 := edge_mono he (by omega) (by omega)
  unfold inBin
  rw [erased, erased, erased_length (by omega), if_pos (by omega), if_neg (by omega)]
  constructor
  · rintro ⟨h1, h2⟩
    by_cases h : x < e.getD (j + 1) 0
    · exact .inl ⟨h1, .inl h⟩
    · exact .inr ⟨not_lt.1 h, h2.imp id fun h => ⟨by omega, h.2⟩⟩
  · rintro (⟨h1, h2 | h2⟩ | ⟨h1, h2⟩)
    · exact ⟨h1, .inl (lt_of_lt_of_le h2 e2)⟩
    · omega
    · exact ⟨e1.trans h1, h2.imp id fun h => ⟨by omega, h.2⟩⟩

/-! ## C263 -/

/-- **C263, the spherical spectrum.** -/
theorem C263_radial {d : ℕ} (hd : d = 1 ∨ d = 2 ∨ d = 3) (LB : ℝ) (a : Arr (Fin d) ℝ) (L e : List ℝ) (hL : d ≤ L.length) (he : e.Pairwise (· ≤ ·))
    (j : ℕ) (hj : j + 2 < e.length) (bi : Binning) (bp : ℝ) :
    ∃ p p', power1d LB a (.list L) (.array e) bi bp = .ok p ∧ power1d LB a (.list L) (.array (e.eraseIdx (j + 1))) bi bp = .ok p' ∧
      Merged j p.data p'.data p.modes p'.modes := by
  classical
  have key : ∀ e : List ℝ, e.Pairwise (· ≤ ·) → power1d LB a (.list L) (.array e) bi bp = .ok
      { data := (List.range (e.length - 1)).map (average a.shape (kMag a.shape L) (powerNd L a).val e)
        bins := centres e
        modes := (List.range (e.length - 1)).map (nModes a.shape (kMag a.shape L) e) } := by
    intro e he
    unfold power1d
    simp only [getDims, radialAverage, getK, if_pos hd, boxOf, if_pos hL, getKbins, if_pos he]
    rfl
  have he' : (e.eraseIdx (j + 1)).Pairwise (· ≤ ·) := he.sublist (List.eraseIdx_sublist _ _)
  refine ⟨_, _, key e he, key _ he', ?_⟩
  rw [erased_length (by omega)]
  refine merged_means (box a.shape) (powerNd L a).val (e.length - 1) j (by omega)
    (fun b => (box a.shape).filter fun i => inBin e b (kMag a.shape L i))
    (fun b => (box a.shape).filter fun i => inBin (e.eraseIdx (j + 1)) b (kMag a.shape L i)) (fun b hb => ?_) (fun b hb _ => ?_) ?_ ?_
  · exact Finset.filter_congr fun i _ => inBin_before hj hb _
  · exact Finset.filter_congr fun i _ => inBin_after hj hb _
  all_goals
    have hu : ((box a.shape).filter fun i => inBin (e.eraseIdx (j + 1)) j (kMag a.shape L i)) =
        ((box a.shape).filter fun i => inBin e j (kMag a.shape L i)) ∪ (box a.shape).filter fun i => inBin e (j + 1) (kMag a.shape L i) := by
      rw [← Finset.filter_or]
      exact Finset.filter_congr fun i _ => inBin_merged he hj _
    have hdis : Disjoint ((box a.shape).filter fun i => inBin e j (kMag a.shape L i)) ((box a.shape).filter fun i => inBin e (j + 1) (kMag a.shape L i)) := by
      rw [Finset.disjoint_left]
      intro i h1 h2
      have := inBin_unique he (by omega) (by omega) (Finset.mem_filter.1 h1).2 (Finset.mem_filter.1 h2).2
      omega
  · intro f
    rw [hu, Finset.sum_union hdis]
  · rw [hu, Finset.card_union_of_disjoint hdis]

/-- **C263, the spectrum in `k` and `mu`**: in every bin in `mu`. -/
theorem C263_mu (LB : ℝ) (a : Arr (Fin 3) ℝ) (L e em : List ℝ) (hL : 3 ≤ L.length) (he : e.Pairwise (· ≤ ·))
    (j : ℕ) (hj : j + 2 < e.length) (los : Fin 3) (exclude absolute : Bool) :
    ∃ m m', powerMu LB a (los : ℕ) (.array em) (.array e) (.list L) .none exclude absolute = .ok m ∧
      powerMu LB a (los : ℕ) (.array em) (.array (e.eraseIdx (j + 1))) (.list L) .none exclude absolute = .ok m' ∧
      m.data.length = em.length - 1 ∧ m'.data.length = em.length - 1 ∧ m'.mus = m.mus ∧
      ∀ mb, mb + 1 < em.length → Merged j (m.data.getD mb []) (m'.data.getD mb []) (m.modes.getD mb []) (m'.modes.getD mb []) := by
  classical
  refine ⟨_, _, muBinning_eq (powerNd L a) L e em hL los exclude absolute .log, muBinning_eq (powerNd L a) L _ em hL los exclude absolute .log,
    by simp, by simp, rfl, fun mb hmb => ?_⟩
  rw [row_get _ _ (by omega), row_get _ _ (by omega), row_get _ _ (by omega), row_get _ _ (by omega), erased_length (by omega)]
  have e1 : e.getD j 0 ≤ e.getD (j + 1) 0 := edge_mono he (by omega) (by omega)
  have e2 : e.getD (j + 1) 0 ≤ e.getD (j + 2) 0 := edge_mono he (by omega) (by omega)
  refine merged_means (box a.shape) (fun i => if i = fun j => ((a.shape j / 2 : ℕ) : ℤ) then 0 else (powerNd L a).val i) (e.length - 1) j (by omega)
    (fun b => (box a.shape).filter (selected a.shape L los absolute exclude em e mb b))
    (fun b => (box a.shape).filter (selected a.shape L los absolute exclude em (e.eraseIdx (j + 1)) mb b)) (fun b hb => ?_) (fun b hb _ => ?_) ?_ ?_
  · refine Finset.filter_congr fun i _ => ?_
    unfold selected
    rw [erased, erased, if_pos (by omega), if_pos (by omega)]
  · refine Finset.filter_congr fun i _ => ?_
    unfold selected
    rw [erased, erased, if_neg (by omega), if_neg (by omega)]
  all_goals
    have hu : ((box a.shape).filter (selected a.shape L los absolute exclude em (e.eraseIdx (j + 1)) mb j)) =
        ((box a.shape).filter (selected a.shape L los absolute exclude em e mb j)) ∪
          (box a.shape).filter (selected a.shape L los absolute exclude em e mb (j + 1)) := by
      rw [← Finset.filter_or]
      refine Finset.filter_congr fun i _ => ?_
      unfold selected
      rw [erased, erased, if_pos (by omega), if_neg (by omega)]
      constructor
      · rintro ⟨⟨h1, h2⟩, h3⟩
        by_cases h : kMag a.shape L i < e.getD (j + 1) 0
        · exact .inl ⟨⟨h1, h⟩, h3⟩
        · exact .inr ⟨⟨not_lt.1 h, h2⟩, h3⟩
      · rintro (⟨⟨h1, h2⟩, h3⟩ | ⟨⟨h1, h2⟩, h3⟩)
        · exact ⟨⟨h1, lt_of_lt_of_le h2 e2⟩, h3⟩
        · exact ⟨⟨e1.trans h1, h2⟩, h3⟩
    have hdis : Disjoint ((box a.shape).filter (selected a.shape L los absolute exclude em e mb j))
        ((box a.shape).filter (selected a.shape L los absolute exclude em e mb (j + 1))) := by
      rw [Finset.disjoint_left]
      intro i h1 h2
      have h3 := (Finset.mem_filter.1 h1).2.1.2
      have h4 := (Finset.mem_filter.1 h2).2.1.1
      exact absurd (lt_of_lt_of_le h3 h4) (lt_irrefl _)
  · intro f
    rw [hu, Finset.sum_union hdis]
  · rw [hu, Finset.card_union_of_disjoint hdis]

/-! ## Example -/

/-- Three bins, of which the first two are merged. -/
example : ([1, 2, 4, 8] : List ℝ).Pairwise (· ≤ ·) ∧ 0 + 2 < ([1, 2, 4, 8] : List ℝ).length ∧ ([1, 2, 4, 8] : List ℝ).eraseIdx (0 + 1) = [1, 4, 8] ∧
    3 ≤ ([100, 100, 50] : List ℝ).length := by
  refine ⟨by norm_num, by simp, rfl, by simp⟩

/-- Two modes of power 3 and one of power 6 merge to three of power 4. -/
example : Merged 0 [some 3, some 6, none] [some 4, none] [2, 1, 0] [3, 0] where
  length := ⟨rfl, rfl⟩
  before b h := by omega
  after b h := by
    match b with
    | 1 => exact ⟨rfl, rfl⟩
    | b + 2 => exact ⟨rfl, rfl⟩
  modes := rfl
  mean := by norm_num [amount]

end Verif.MergedBins
