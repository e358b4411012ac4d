import Verif.Model.PowerCylinder
import Verif.Props.PowerMu
/-!
# Properties of windows and of the cylindrical power spectrum (C96, C97)
-/

namespace Verif.PowerSpectrum
open Verif.Convolve

/-! ## C96 -/

/-- The full statement of C96: computing a power spectrum leaves the data as they are, so that
computing it again gives the same; a window can be chosen by name or given as an array.  Proved
without a window. -/
theorem C96_partial {d : ℕ} (harris tukey : ℕ → ℤ → ℝ) (isFloat : Bool) (LB : ℝ) (a : Arr (Fin d) ℝ)
    (boxDims : Dims) (kbins : KBins) (binning : Binning) (bp : ℝ) :
    (power1dWindow harris tukey isFloat LB a .none boxDims kbins binning bp).1 = a ∧
    ∀ r, power1d LB a boxDims kbins binning bp = .ok r →
      (power1dWindow harris tukey isFloat LB a .none boxDims kbins binning bp).2 = .ok r := by
  unfold power1dWindow applyWindow
  constructor
  · simp only
    cases power1d LB a boxDims kbins binning bp <;> rfl
  · intro r h
    simp only [h]

example : ∃ r, power1d 100 ⟨![4, 4, 4], fun _ => (1 : ℝ)⟩ .none (.array [1 / 10, 1]) .log 0 = .ok r := by
  obtain ⟨r, h, _⟩ := C50_partial (d := 3) (Or.inr (Or.inr rfl))
    (powerNd [100, 100, 100] ⟨![4, 4, 4], fun _ => (1 : ℝ)⟩) [100, 100, 100] [1 / 10, 1] (by norm_num)
    (by norm_num) (by norm_num) .log 0
  exact ⟨r, h⟩

/-- C96 fails with either named window: afterwards the caller's data are tapered, after a second
call twice. -/
theorem C96_false (harris tukey : ℕ → ℤ → ℝ) (LB : ℝ) (a : Arr (Fin 3) ℝ)
    (boxDims : Dims) (kbins : KBins) (binning : Binning) (bp : ℝ) (x : Fin 3 → ℤ) :
    let call := fun (w : Window) (a : Arr (Fin 3) ℝ) =>
      (power1dWindow harris tukey true LB a w boxDims kbins binning bp).1
    (call .blackmanharris a).val x = a.val x * harris (a.shape 2) (x 2) ∧
    (call .tukey a).val x = a.val x * tukey (a.shape 2) (x 2) ∧
    (call .tukey (call .tukey a)).val x = a.val x * tukey (a.shape 2) (x 2) ^ 2 := by
  have h : ∀ (w : Window) (t : ℕ → ℤ → ℝ) (a : Arr (Fin 3) ℝ),
      (w = .blackmanharris ∧ t = harris ∨ w = .tukey ∧ t = tukey) →
      (power1dWindow harris tukey true LB a w boxDims kbins binning bp).1 =
        ⟨a.shape, fun x => a.val x * t (a.shape 2) (x 2)⟩ := by
    rintro w t a (⟨rfl, rfl⟩ | ⟨rfl, rfl⟩) <;>
    · unfold power1dWindow applyWindow
      simp only [applyWindow.taper, lt_irrefl, dite_false, if_true]
      split <;> rfl
  simp only
  rw [h .blackmanharris harris a (by simp), h .tukey tukey a (by simp), h .tukey tukey _ (by simp)]
  refine ⟨rfl, rfl, ?_⟩
  simp only
  ring

/-- The result with a window is that of the tapered data. -/
theorem C96_window (harris tukey : ℕ → ℤ → ℝ) (LB : ℝ) (a : Arr (Fin 3) ℝ)
    (boxDims : Dims) (kbins : KBins) (binning : Binning) (bp : ℝ) (r : Radial) :
    ((power1dWindow harris tukey true LB a .blackmanharris boxDims kbins binning bp).2 = .ok r ↔
      power1d LB ⟨a.shape, fun x => a.val x * harris (a.shape 2) (x 2)⟩ boxDims kbins binning bp = .ok r) ∧
    ((power1dWindow harris tukey true LB a .tukey boxDims kbins binning bp).2 = .ok r ↔
      power1d LB ⟨a.shape, fun x => a.val x * tukey (a.shape 2) (x 2)⟩ boxDims kbins binning bp = .ok r) := by
  constructor <;>
  · unfold power1dWindow applyWindow
    simp only [applyWindow.taper, lt_irrefl, dite_false, if_true]
    split
    · rename_i h
      constructor
      · intro h'
        cases h'
        exact h
      · intro h'
        have := h.symm.trans h'
        cases this
        rfl
    · rename_i h
      constructor
      · intro h'
        cases h'
      · intro h'
        have := h.symm.trans h'
        cases this

/-- A taper that vanishes at the edge, like Tukey's, wipes out the first slice of the data. -/
example : ∃ (t : ℕ → ℤ → ℝ) (a : Arr (Fin 3) ℝ),
    (power1dWindow t t true 100 a .tukey .none (.int 1) .log 0).1.val ![1, 1, 0] = 0 ∧
    a.val ![1, 1, 0] = 5 := by
  refine ⟨fun _ z => if z = 0 then 0 else 1, ⟨![4, 4, 4], fun _ => 5⟩, ?_, rfl⟩
  rw [(C96_false _ _ 100 _ _ _ _ 0 ![1, 1, 0]).2.1]
  simp

/-- A window given as an array never works, nor does any window on integers or below three
dimensions. -/
theorem C96_raises {d : ℕ} (harris tukey : ℕ → ℤ → ℝ) (LB : ℝ) (a : Arr (Fin d) ℝ) (isFloat : Bool)
    (boxDims : Dims) (kbins : KBins) (binning : Binning) (bp : ℝ) (w : (Fin 3 → ℤ) → ℝ) :
    (power1dWindow harris tukey isFloat LB a (.array w) boxDims kbins binning bp).2 = .error .attribute ∧
    (d < 3 → (power1dWindow harris tukey isFloat LB a .tukey boxDims kbins binning bp).2 = .error .value) ∧
    (3 ≤ d → (power1dWindow harris tukey false LB a .tukey boxDims kbins binning bp).2 = .error .type) := by
  unfold power1dWindow applyWindow
  refine ⟨rfl, fun h => ?_, fun h => ?_⟩
  · simp only [applyWindow.taper, dif_pos h]
  · simp only [applyWindow.taper, dif_neg (not_lt.mpr h)]
    rfl

/-! ## C97 -/

/-- The component of the mode across the line of sight. -/
noncomputable def acrossMag (s : Fin 3 → ℕ) (L : List ℝ) (ax : Fin 3) (i : Fin 3 → ℤ) : ℝ :=
  Real.sqrt (kMag s L i ^ 2 - kComp s L ax i ^ 2)

/-- The value that is binned: itself, or its decimal logarithm. -/
noncomputable def onScale (binning : Binning) (x : ℝ) : ℝ := if binning = .log then Real.logb 10 x else x

/-- Back from the scale of the bins. -/
noncomputable def offScale (binning : Binning) (v : ℝ) : ℝ := if binning = .log then (10 : ℝ) ^ v else v

/-- `n` bins of the same width on that scale, from `lo` to `hi`: their edges. -/
noncomputable def gridEdge (binning : Binning) (lo hi : ℝ) (n b : ℕ) : ℝ :=
  onScale binning lo + b * ((onScale binning hi - onScale binning lo) / n)

/-- The values of `f` other than zero. -/
def values (s : Fin 3 → ℕ) (f : (Fin 3 → ℤ) → ℝ) : Set ℝ := {x | x ≠ 0 ∧ ∃ i ∈ box s, f i = x}

theorem kPerp_eq (s : Fin 3 → ℕ) (L : List ℝ) (ax : Fin 3) (i : Fin 3 → ℤ) :
    kPerp s L ax i = acrossMag s L ax i := by
  unfold kPerp acrossMag
  rw [kMag_three, Real.sq_sqrt (Finset.sum_nonneg fun j _ => sq_nonneg _),
    ← Finset.sum_erase_add _ _ (Finset.mem_univ ax)]
  congr 1
  ring

theorem inBin2_some {e : List ℝ} {b : ℕ} {v : ℝ} : inBin2 e b (some v) ↔ inBin e b v :=
  ⟨fun ⟨_, h, h'⟩ => by cases h; exact h', fun h => ⟨v, rfl, h⟩⟩

theorem not_inBin2_none {e : List ℝ} {b : ℕ} : ¬ inBin2 e b none := fun ⟨_, h, _⟩ => by cases h

/-- The value is between the first and the last edge. -/
def InRange2 (e : List ℝ) (x : Option ℝ) : Prop := ∃ v, x = some v ∧ InRange e v

open Classical in
/-- Counting from given edges. -/
theorem cylinder_total (a : Arr (Fin 3) ℝ) (L : List ℝ) (ax : Fin 3) (log : Bool) (e e' : List ℝ)
    (h1 : 2 ≤ e.length) (h2 : e.Pairwise (· < ·)) (h3 : 2 ≤ e'.length) (h4 : e'.Pairwise (· < ·)) :
    ∃ r, cylinder a L ax log e e' = .ok r ∧ (r.kper = middles log e ∧ r.kpar = middles log e') ∧
      ∃ f : (Fin 3 → ℤ) → ℕ × ℕ,
        let R := fun i => InRange2 e (coordinate log (kPerp a.shape L ax i)) ∧
          InRange2 e' (coordinate log (kPar a.shape L ax i))
        (∀ i, R i → (f i).1 + 1 < e.length ∧ (f i).2 + 1 < e'.length ∧
          (∃ v, coordinate log (kPerp a.shape L ax i) = some v ∧ edge e (f i).1 ≤ v ∧ v ≤ edge e ((f i).1 + 1)) ∧
          (∃ v, coordinate log (kPar a.shape L ax i) = some v ∧ edge e' (f i).2 ≤ v ∧ v ≤ edge e' ((f i).2 + 1))) ∧
        (∀ b b', b + 1 < e.length → b' + 1 < e'.length →
          let S := (box a.shape).filter fun i => R i ∧ f i = (b, b')
          (∃ row, r.modes[b]? = some row ∧ row[b']? = some S.card) ∧
          (∃ row, r.data[b]? = some row ∧
            row[b']? = some (if S.card = 0 then none else some ((∑ i ∈ S, a.val i) / S.card)))) ∧
        (r.modes.map List.sum).sum = ((box a.shape).filter R).card := by
  have le2 : e.Pairwise (· ≤ ·) := h2.imp le_of_lt
  have le4 : e'.Pairwise (· ≤ ·) := h4.imp le_of_lt
  unfold cylinder
  rw [if_pos ⟨h1, h2, h3, h4⟩]
  set R : (Fin 3 → ℤ) → Prop := fun i => InRange2 e (coordinate log (kPerp a.shape L ax i)) ∧
    InRange2 e' (coordinate log (kPar a.shape L ax i)) with hR
  have hex : ∀ i : Fin 3 → ℤ, ∃ p : ℕ × ℕ, R i → p.1 + 1 < e.length ∧ p.2 + 1 < e'.length ∧
      inBin2 e p.1 (coordinate log (kPerp a.shape L ax i)) ∧
      inBin2 e' p.2 (coordinate log (kPar a.shape L ax i)) := by
    intro i
    by_cases h : R i
    · obtain ⟨⟨v, hv, hv'⟩, ⟨w, hw, hw'⟩⟩ := h
      obtain ⟨b, b1, b2⟩ := inBin_exists h1 hv'
      obtain ⟨c, c1, c2⟩ := inBin_exists h3 hw'
      exact ⟨(b, c), fun _ => ⟨b1, c1, ⟨v, hv, b2⟩, ⟨w, hw, c2⟩⟩⟩
    · exact ⟨(0, 0), fun h' => absurd h' h⟩
  choose f hf using hex
  have hsel : ∀ b b', b + 1 < e.length → b' + 1 < e'.length →
      (box a.shape).filter (fun i => inBin2 e b (coordinate log (kPerp a.shape L ax i)) ∧
        inBin2 e' b' (coordinate log (kPar a.shape L ax i))) =
      (box a.shape).filter fun i => R i ∧ f i = (b, b') := by
    intro b b' hb hb'
    refine Finset.filter_congr fun i _ => ?_
    constructor
    · rintro ⟨⟨v, hv, k1⟩, ⟨w, hw, k2⟩⟩
      have hr : R i := ⟨⟨v, hv, (inBin_range le2 hb k1).1⟩, ⟨w, hw, (inBin_range le4 hb' k2).1⟩⟩
      obtain ⟨g1, g2, ⟨v', hv', g3⟩, ⟨w', hw', g4⟩⟩ := hf i hr
      obtain rfl : v = v' := Option.some.inj (hv.symm.trans hv')
      obtain rfl : w = w' := Option.some.inj (hw.symm.trans hw')
      exact ⟨hr, Prod.ext (inBin_unique le2 g1 hb g3 k1) (inBin_unique le4 g2 hb' g4 k2)⟩
    · rintro ⟨hr, he⟩
      obtain ⟨_, _, g3, g4⟩ := hf i hr
      rw [he] at g3 g4
      exact ⟨g3, g4⟩
  refine ⟨_, rfl, ⟨rfl, rfl⟩, f, fun i hi => ?_, fun b b' hb hb' => ?_, ?_⟩
  · obtain ⟨g1, g2, ⟨v, hv, g3⟩, ⟨w, hw, g4⟩⟩ := hf i hi
    exact ⟨g1, g2, ⟨v, hv, (inBin_range le2 g1 g3).2⟩, ⟨w, hw, (inBin_range le4 g2 g4).2⟩⟩
  · have k1 : b < e.length - 1 := by omega
    have k2 : b' < e'.length - 1 := by omega
    refine ⟨⟨(List.range (e'.length - 1)).map (cylModes a.shape L ax log e e' b),
        by rw [List.getElem?_map, List.getElem?_range k1]; rfl, ?_⟩,
      ⟨(List.range (e'.length - 1)).map (cylAverage a L ax log e e' b),
        by rw [List.getElem?_map, List.getElem?_range k1]; rfl, ?_⟩⟩
    · simp only [List.getElem?_map, List.getElem?_range k2, Option.map_some, cylModes, hsel b b' hb hb']
      rfl
    · simp only [List.getElem?_map, List.getElem?_range k2, Option.map_some, cylAverage, cylModes, hsel b b' hb hb']
      rfl
  · simp only [List.map_map]
    rw [← List.sum_toFinset _ List.nodup_range, List.toFinset_range]
    have hmaps : ∀ i ∈ (box a.shape).filter R,
        f i ∈ Finset.range (e.length - 1) ×ˢ Finset.range (e'.length - 1) := by
      intro i hi
      obtain ⟨g1, g2, _⟩ := hf i (Finset.mem_filter.mp hi).2
      rw [Finset.mem_product, Finset.mem_range, Finset.mem_range]
      omega
    rw [Finset.card_eq_sum_card_fiberwise hmaps, Finset.sum_product]
    refine Finset.sum_congr rfl fun b hb => ?_
    simp only [Function.comp_apply]
    rw [← List.sum_toFinset _ List.nodup_range, List.toFinset_range]
    refine Finset.sum_congr rfl fun b' hb' => ?_
    rw [Finset.mem_range] at hb hb'
    rw [Finset.filter_filter]
    unfold cylModes
    rw [hsel b b' (by omega) (by omega)]

theorem linspace_strict {a b : ℝ} (h : a < b) {n : ℕ} (hn : 1 ≤ n) : (linspace a b n).Pairwise (· < ·) := by
  unfold linspace
  rw [List.pairwise_map]
  refine List.pairwise_lt_range.imp fun {i j} hij => ?_
  have h1 : (i : ℝ) < j := by exact_mod_cast hij
  have h2 : 0 < (b - a) / n := div_pos (by linarith) (by exact_mod_cast hn)
  nlinarith

/-- The edges for a number of bins contain exactly the values other than zero. -/
theorem edges2_ok (s : Fin 3 → ℕ) (f : (Fin 3 → ℤ) → ℝ) (hf : ∀ i, 0 ≤ f i) (n : ℕ) (hn : 1 ≤ n)
    (binning : Binning) (hb : binning ≠ .other) (i₁ i₂ : Fin 3 → ℤ) (h₁ : i₁ ∈ box s) (h₂ : i₂ ∈ box s)
    (h0 : f i₁ ≠ 0) (h12 : f i₁ < f i₂) :
    ∃ e, edges2 s f n binning = .ok e ∧ e.length = n + 1 ∧ e.Pairwise (· < ·) ∧
      (∀ i ∈ box s, InRange2 e (coordinate (decide (binning = .log)) (f i)) ↔ f i ≠ 0) ∧
      ∃ lo hi, IsLeast (values s f) lo ∧ IsGreatest (values s f) hi ∧
        ∀ b, b ≤ n → edge e b = gridEdge binning lo hi n b := by
  classical
  obtain ⟨lo, hlo⟩ := Finset.min_of_mem (s := ((box s).filter fun i => f i ≠ 0).image f)
    (Finset.mem_image_of_mem f (Finset.mem_filter.mpr ⟨h₁, h0⟩))
  obtain ⟨hi, hhi⟩ := Finset.max_of_mem (Finset.mem_image_of_mem f h₂)
  obtain ⟨il, hil, el⟩ := Finset.mem_image.mp (Finset.mem_of_min hlo)
  have hlo0 : 0 < lo := by
    rw [← el]
    exact lt_of_le_of_ne (hf il) (Ne.symm (Finset.mem_filter.mp hil).2)
  have hmin : ∀ i ∈ box s, f i ≠ 0 → lo ≤ f i := fun i hi' hne =>
    Finset.min_le_of_eq (Finset.mem_image_of_mem f (Finset.mem_filter.mpr ⟨hi', hne⟩)) hlo
  have hmax : ∀ i ∈ box s, f i ≤ hi := fun i hi' =>
    Finset.le_max_of_eq (Finset.mem_image_of_mem f hi') hhi
  have hlt : lo < hi := lt_of_le_of_lt (hmin i₁ h₁ h0) (lt_of_lt_of_le h12 (hmax i₂ h₂))
  have hleast : IsLeast (values s f) lo :=
    ⟨⟨hlo0.ne', il, (Finset.mem_filter.mp hil).1, el⟩, fun x ⟨hx, i, hi', e⟩ => e ▸ hmin i hi' (e ▸ hx)⟩
  have hgreatest : IsGreatest (values s f) hi := by
    obtain ⟨ih, hih, eh⟩ := Finset.mem_image.mp (Finset.mem_of_max hhi)
    exact ⟨⟨by linarith, ih, hih, eh⟩, fun x ⟨hx, i, hi', e⟩ => e ▸ hmax i hi'⟩
  unfold edges2
  cases binning with
  | other => exact absurd rfl hb
  | linear =>
    simp only [hlo, hhi]
    refine ⟨_, rfl, ?_, ?_, fun i hi' => ?_, lo, hi, hleast, hgreatest, fun b hb' => ?_⟩
    · simp [linspace_length]
    · simpa using linspace_strict hlt hn
    · simp only [reduceCtorEq, if_false, decide_false, coordinate, InRange2, Bool.false_eq_true,
        Option.some.injEq, exists_eq_left', InRange, linspace_first, linspace_length, Nat.add_sub_cancel,
        linspace_last _ _ hn]
      constructor
      · intro h h'
        rw [h'] at h
        linarith [h.1]
      · intro h
        exact ⟨hmin i hi' h, hmax i hi'⟩
    · simp only [edge, List.getD_eq_getElem?_getD, gridEdge, onScale, reduceCtorEq, if_false]
      rw [linspace_get _ _ _ _ (by omega)]
      rfl
  | log =>
    simp only [hlo, hhi]
    have hlog := Real.logb_lt_logb (b := 10) (by norm_num) hlo0 hlt
    refine ⟨_, rfl, ?_, ?_, fun i hi' => ?_, lo, hi, hleast, hgreatest, fun b hb' => ?_⟩
    · simp [linspace_length]
    · simpa using linspace_strict hlog hn
    · by_cases hz : f i = 0
      · simp [coordinate, InRange2, hz]
      · have hpos : 0 < f i := lt_of_le_of_ne (hf i) (Ne.symm hz)
        simp only [if_true, decide_true, coordinate, if_neg hz, InRange2,
          Option.some.injEq, exists_eq_left', InRange, linspace_first, linspace_length, Nat.add_sub_cancel,
          linspace_last _ _ hn]
        refine ⟨fun _ => hz, fun _ => ⟨?_, ?_⟩⟩
        · exact Real.logb_le_logb_of_le (by norm_num) hlo0 (hmin i hi' hz)
        · exact Real.logb_le_logb_of_le (by norm_num) hpos (hmax i hi')
    · simp only [edge, List.getD_eq_getElem?_getD, gridEdge, onScale, if_true]
      rw [linspace_get _ _ _ _ (by omega)]
      rfl

theorem kPerp_nonneg (s : Fin 3 → ℕ) (L : List ℝ) (ax : Fin 3) (i : Fin 3 → ℤ) : 0 ≤ kPerp s L ax i :=
  Real.sqrt_nonneg _

theorem kPar_nonneg (s : Fin 3 → ℕ) (L : List ℝ) (ax : Fin 3) (i : Fin 3 → ℤ) : 0 ≤ kPar s L ax i :=
  abs_nonneg _

theorem power2d_tuple (LB : ℝ) (a : Arr (Fin 3) ℝ) (L : List ℝ) (hL : 3 ≤ L.length) (ax : Fin 3) (n m : ℕ)
    (binning : Binning) (e e' : List ℝ) (he : edges2 a.shape (kPerp a.shape L ax) n binning = .ok e)
    (he' : edges2 a.shape (kPar a.shape L ax) m binning = .ok e') :
    power2d LB a (.tuple n m) binning (.list L) (ax : ℕ) =
      cylinder (powerNd L a) L ax (decide (binning = .log)) e e' := by
  have h : 0 ≤ ((ax : ℕ) : ℤ) ∧ ((ax : ℕ) : ℤ) < 3 := ⟨by omega, by have := ax.2; omega⟩
  unfold power2d
  simp only [getDims, getK, boxOf, if_pos hL, dif_pos h]
  simp [he, he']

open Classical in
/-- The bins for numbers of bins, if the components take two values other than zero. -/
theorem cylinder_numbers (LB : ℝ) (a : Arr (Fin 3) ℝ) (L : List ℝ) (hL : 3 ≤ L.length) (ax : Fin 3) (n m : ℕ)
    (hn : 1 ≤ n) (hm : 1 ≤ m) (binning : Binning) (hb : binning ≠ .other)
    (i₁ i₂ i₃ i₄ : Fin 3 → ℤ) (h₁ : i₁ ∈ box a.shape) (h₂ : i₂ ∈ box a.shape) (h₃ : i₃ ∈ box a.shape)
    (h₄ : i₄ ∈ box a.shape)
    (hp : acrossMag a.shape L ax i₁ ≠ 0) (hp' : acrossMag a.shape L ax i₁ < acrossMag a.shape L ax i₂)
    (hz : kComp a.shape L ax i₃ ≠ 0) (hz' : |kComp a.shape L ax i₃| < |kComp a.shape L ax i₄|) :
    ∃ r lo hi lo' hi', power2d LB a (.tuple n m) binning (.list L) (ax : ℕ) = .ok r ∧
      (n = m → power2d LB a (.int n) binning (.list L) (ax : ℕ) = .ok r) ∧
      IsLeast (values a.shape (acrossMag a.shape L ax)) lo ∧ IsGreatest (values a.shape (acrossMag a.shape L ax)) hi ∧
      IsLeast (values a.shape fun i => |kComp a.shape L ax i|) lo' ∧
      IsGreatest (values a.shape fun i => |kComp a.shape L ax i|) hi' ∧
      (∀ b, b < n → r.kper[b]? =
        some (offScale binning ((gridEdge binning lo hi n b + gridEdge binning lo hi n (b + 1)) / 2))) ∧
      (∀ b, b < m → r.kpar[b]? =
        some (offScale binning ((gridEdge binning lo' hi' m b + gridEdge binning lo' hi' m (b + 1)) / 2))) ∧
      (r.modes.map List.sum).sum =
        ((box a.shape).filter fun i => acrossMag a.shape L ax i ≠ 0 ∧ kComp a.shape L ax i ≠ 0).card ∧
      ∃ f : (Fin 3 → ℤ) → ℕ × ℕ,
        (∀ i ∈ box a.shape, acrossMag a.shape L ax i ≠ 0 → kComp a.shape L ax i ≠ 0 →
          (f i).1 < n ∧ (f i).2 < m ∧
          gridEdge binning lo hi n (f i).1 ≤ onScale binning (acrossMag a.shape L ax i) ∧
          onScale binning (acrossMag a.shape L ax i) ≤ gridEdge binning lo hi n ((f i).1 + 1) ∧
          gridEdge binning lo' hi' m (f i).2 ≤ onScale binning |kComp a.shape L ax i| ∧
          onScale binning |kComp a.shape L ax i| ≤ gridEdge binning lo' hi' m ((f i).2 + 1)) ∧
        ∀ b b', b < n → b' < m →
          let S := (box a.shape).filter fun i => (acrossMag a.shape L ax i ≠ 0 ∧ kComp a.shape L ax i ≠ 0) ∧
            f i = (b, b')
          (∃ row, r.modes[b]? = some row ∧ row[b']? = some S.card) ∧
          (∃ row, r.data[b]? = some row ∧
            row[b']? = some (if S.card = 0 then none else some ((∑ i ∈ S, (powerNd L a).val i) / S.card))) := by
  have hacross : acrossMag a.shape L ax = kPerp a.shape L ax := funext fun i => (kPerp_eq _ _ _ i).symm
  rw [hacross] at hp hp' ⊢
  obtain ⟨e, e1, e2, e3, e4, lo, hi, e5, e6, e7⟩ := edges2_ok a.shape (kPerp a.shape L ax) (kPerp_nonneg _ _ _) n hn binning hb
    i₁ i₂ h₁ h₂ hp hp'
  obtain ⟨e', e1', e2', e3', e4', lo', hi', e5', e6', e7'⟩ := edges2_ok a.shape (kPar a.shape L ax) (kPar_nonneg _ _ _) m hm binning hb
    i₃ i₄ h₃ h₄ (by unfold kPar; simpa using hz) hz'
  obtain ⟨r, r1, ⟨rk, rk'⟩, f, r2, r3, r4⟩ := cylinder_total (powerNd L a) L ax (decide (binning = .log)) e e' (by omega) e3
    (by omega) e3'
  have hz0 : ∀ i, kPar a.shape L ax i ≠ 0 ↔ kComp a.shape L ax i ≠ 0 := fun i => by unfold kPar; simp
  have hR : ∀ i ∈ box a.shape, (InRange2 e (coordinate (decide (binning = .log)) (kPerp a.shape L ax i)) ∧
      InRange2 e' (coordinate (decide (binning = .log)) (kPar a.shape L ax i))) ↔
      (kPerp a.shape L ax i ≠ 0 ∧ kComp a.shape L ax i ≠ 0) := by
    intro i hi
    rw [e4 i hi, e4' i hi, hz0 i]
  have hshape : (powerNd L a).shape = a.shape := rfl
  simp only [hshape] at r2 r3 r4
  have hmid : ∀ (e : List ℝ) (n b : ℕ) (lo hi : ℝ), e.length = n + 1 →
      (∀ b, b ≤ n → edge e b = gridEdge binning lo hi n b) → b < n →
      (middles (decide (binning = .log)) e)[b]? =
        some (offScale binning ((gridEdge binning lo hi n b + gridEdge binning lo hi n (b + 1)) / 2)) := by
    intro e n b lo hi h1 h2 h3
    rw [← h2 b (by omega), ← h2 (b + 1) (by omega)]
    unfold middles offScale edge
    rw [List.getElem?_map, List.getElem?_range (by omega)]
    by_cases hl : binning = .log <;> simp [hl]
  have hcoord : ∀ x v, coordinate (decide (binning = .log)) x = some v → v = onScale binning x := by
    intro x v h
    unfold coordinate at h
    unfold onScale
    by_cases hl : binning = .log
    · rw [if_pos hl]
      by_cases hx : x = 0
      · simp [hl, hx] at h
      · simp only [hl, decide_true, if_true, if_neg hx, Option.some.injEq] at h
        exact h.symm
    · rw [if_neg hl]
      simp only [hl, decide_false, Bool.false_eq_true, if_false, Option.some.injEq] at h
      exact h.symm
  refine ⟨r, lo, hi, lo', hi', ?_, ?_, e5, e6, e5', e6', fun b hb => rk ▸ hmid e n b lo hi e2 e7 hb,
    fun b hb => rk' ▸ hmid e' m b lo' hi' e2' e7' hb, ?_, f, ?_, ?_⟩
  · rw [power2d_tuple LB a L hL ax n m binning e e' e1 e1', r1]
  · rintro rfl
    rw [← r1, ← power2d_tuple LB a L hL ax n n binning e e' e1 e1']
    rfl
  · rw [r4]
    congr 1
    exact Finset.filter_congr hR
  · intro i hi hp hz
    obtain ⟨g1, g2, ⟨v, v1, v2, v3⟩, ⟨w, w1, w2, w3⟩⟩ := r2 i ((hR i hi).mpr ⟨hp, hz⟩)
    rw [hcoord _ _ v1, e7 _ (by omega)] at v2
    rw [hcoord _ _ v1, e7 _ (by omega)] at v3
    rw [hcoord _ _ w1, e7' _ (by omega)] at w2
    rw [hcoord _ _ w1, e7' _ (by omega)] at w3
    exact ⟨by omega, by omega, v2, v3, w2, w3⟩
  · intro b b' hb hb'
    have := r3 b b' (by omega) (by omega)
    have hS : (box a.shape).filter (fun i => (InRange2 e (coordinate (decide (binning = .log)) (kPerp a.shape L ax i)) ∧
      InRange2 e' (coordinate (decide (binning = .log)) (kPar a.shape L ax i))) ∧ f i = (b, b')) =
      (box a.shape).filter fun i => (kPerp a.shape L ax i ≠ 0 ∧ kComp a.shape L ax i ≠ 0) ∧ f i = (b, b') :=
      Finset.filter_congr fun i hi => by rw [hR i hi]
    simp only [hS] at this
    exact this

/-- The mode `m` steps below zero along axis `j`. -/
def below (s : Fin 3 → ℕ) (j : Fin 3) (m : ℤ) (j' : Fin 3) : ℤ :=
  if j' = j then (s j' / 2 : ℕ) - m else (s j' / 2 : ℕ)

theorem below_mem (s : Fin 3 → ℕ) (hs : ∀ j, 0 < s j) (j : Fin 3) (m : ℤ) (h0 : 0 ≤ m) (hm : 2 * m ≤ s j) :
    below s j m ∈ box s := by
  rw [mem_box]
  intro j'
  have := hs j'
  unfold below
  by_cases h : j' = j
  · subst h
    rw [if_pos rfl]
    omega
  · rw [if_neg h]
    omega

theorem kComp_below (s : Fin 3 → ℕ) (L : List ℝ) (j : Fin 3) (m : ℤ) (j' : Fin 3) :
    kComp s L j' (below s j m) = if j' = j then -(2 * Real.pi * m / L.getD j 0) else 0 := by
  unfold kComp below
  rw [center_eq 3 (s j') (Or.inl rfl)]
  by_cases h : j' = j
  · subst h
    rw [if_pos rfl, if_pos rfl]
    generalize s j' / 2 = c
    push_cast
    ring
  · rw [if_neg h, if_neg h]
    generalize s j' / 2 = c
    push_cast
    ring

theorem acrossMag_below (s : Fin 3 → ℕ) (L : List ℝ) (ax j : Fin 3) (hj : j ≠ ax) (m : ℤ) :
    acrossMag s L ax (below s j m) = |2 * Real.pi * m / L.getD j 0| := by
  rw [← kPerp_eq]
  unfold kPerp
  rw [Finset.sum_eq_single j]
  · rw [kComp_below, if_pos rfl, Real.sqrt_sq_eq_abs, abs_neg]
  · intro b _ hb
    rw [kComp_below, if_neg hb]
    simp
  · intro h
    exact absurd (Finset.mem_erase.mpr ⟨hj, Finset.mem_univ j⟩) h

theorem step_lt (x : ℝ) (hx : x ≠ 0) :
    |2 * Real.pi * ((1 : ℤ) : ℝ) / x| ≠ 0 ∧ |2 * Real.pi * ((1 : ℤ) : ℝ) / x| < |2 * Real.pi * ((2 : ℤ) : ℝ) / x| := by
  have h : 0 < |x| := abs_pos.mpr hx
  have hp := Real.pi_pos
  push_cast
  simp only [abs_div, abs_mul, abs_of_pos hp, abs_two, abs_one]
  refine ⟨by positivity, ?_⟩
  rw [div_lt_div_iff_of_pos_right h]
  linarith

open Classical in
/-- The full statement of C97: for numbers of bins in either direction (one number, or two in a
list as documented) `power_spectrum_2d` counts every mode with components across and along the
line of sight exactly once, in the bin of its components, and averages over the modes of the bin.
Proved for one number and for two in a tuple, with at least four cells along the line of sight and
along one of the other axes: the bins have equal widths from the smallest to the largest component
other than zero, on a linear or logarithmic scale, their middles are returned, each such mode is assigned to one
bin around it, and counts and means are those of the assignment. -/
theorem C97_partial (LB : ℝ) (a : Arr (Fin 3) ℝ) (hs : ∀ j, 0 < a.shape j) (L : List ℝ) (hL : 3 ≤ L.length)
    (ax j : Fin 3) (hj : j ≠ ax) (h4 : 4 ≤ a.shape ax) (h4' : 4 ≤ a.shape j) (hx : L.getD ax 0 ≠ 0)
    (hx' : L.getD j 0 ≠ 0) (n m : ℕ) (hn : 1 ≤ n) (hm : 1 ≤ m) (binning : Binning) (hb : binning ≠ .other) :
    ∃ r lo hi lo' hi', power2d LB a (.tuple n m) binning (.list L) (ax : ℕ) = .ok r ∧
      (n = m → power2d LB a (.int n) binning (.list L) (ax : ℕ) = .ok r) ∧
      IsLeast (values a.shape (acrossMag a.shape L ax)) lo ∧ IsGreatest (values a.shape (acrossMag a.shape L ax)) hi ∧
      IsLeast (values a.shape fun i => |kComp a.shape L ax i|) lo' ∧
      IsGreatest (values a.shape fun i => |kComp a.shape L ax i|) hi' ∧
      (∀ b, b < n → r.kper[b]? =
        some (offScale binning ((gridEdge binning lo hi n b + gridEdge binning lo hi n (b + 1)) / 2))) ∧
      (∀ b, b < m → r.kpar[b]? =
        some (offScale binning ((gridEdge binning lo' hi' m b + gridEdge binning lo' hi' m (b + 1)) / 2))) ∧
      (r.modes.map List.sum).sum =
        ((box a.shape).filter fun i => acrossMag a.shape L ax i ≠ 0 ∧ kComp a.shape L ax i ≠ 0).card ∧
      ∃ f : (Fin 3 → ℤ) → ℕ × ℕ,
        (∀ i ∈ box a.shape, acrossMag a.shape L ax i ≠ 0 → kComp a.shape L ax i ≠ 0 →
          (f i).1 < n ∧ (f i).2 < m ∧
          gridEdge binning lo hi n (f i).1 ≤ onScale binning (acrossMag a.shape L ax i) ∧
          onScale binning (acrossMag a.shape L ax i) ≤ gridEdge binning lo hi n ((f i).1 + 1) ∧
          gridEdge binning lo' hi' m (f i).2 ≤ onScale binning |kComp a.shape L ax i| ∧
          onScale binning |kComp a.shape L ax i| ≤ gridEdge binning lo' hi' m ((f i).2 + 1)) ∧
        ∀ b b', b < n → b' < m →
          let S := (box a.shape).filter fun i => (acrossMag a.shape L ax i ≠ 0 ∧ kComp a.shape L ax i ≠ 0) ∧
            f i = (b, b')
          (∃ row, r.modes[b]? = some row ∧ row[b']? = some S.card) ∧
          (∃ row, r.data[b]? = some row ∧
            row[b']? = some (if S.card = 0 then none else some ((∑ i ∈ S, (powerNd L a).val i) / S.card))) := by
  refine cylinder_numbers LB a L hL ax n m hn hm binning hb (below a.shape j 1) (below a.shape j 2)
    (below a.shape ax 1) (below a.shape ax 2) (below_mem _ hs _ _ (by norm_num) (by omega))
    (below_mem _ hs _ _ (by norm_num) (by omega)) (below_mem _ hs _ _ (by norm_num) (by omega))
    (below_mem _ hs _ _ (by norm_num) (by omega)) ?_ ?_ ?_ ?_
  · rw [acrossMag_below _ _ _ _ hj]
    exact (step_lt _ hx').1
  · rw [acrossMag_below _ _ _ _ hj, acrossMag_below _ _ _ _ hj]
    exact (step_lt _ hx').2
  · rw [kComp_below, if_pos rfl]
    have := (step_lt _ hx).1
    rwa [neg_ne_zero, ← abs_ne_zero]
  · rw [kComp_below, if_pos rfl, kComp_below, if_pos rfl, abs_neg, abs_neg]
    exact (step_lt _ hx).2

example : ∃ r : Cylinder, power2d 100 ⟨![4, 5, 6], fun i => (i 0 : ℝ)⟩ (.int 3) .log (.list [1, 2, 1]) 2 = .ok r := by
  obtain ⟨r, _, _, _, _, _, h, _⟩ := C97_partial 100 ⟨![4, 5, 6], fun i => (i 0 : ℝ)⟩
    (fun j => match j with | 0 => by decide | 1 => by decide | 2 => by decide) [1, 2, 1] (by decide) 2 1
    (by decide) (by decide) (by decide) (by norm_num) (by norm_num) 3 3 (by norm_num) (by norm_num) .log (by simp)
  exact ⟨r, h rfl⟩

/-- The documented list of two numbers of bins always raises. -/
theorem C97_false (LB : ℝ) (a : Arr (Fin 3) ℝ) (L : List ℝ) (hL : 3 ≤ L.length) (n m : ℕ) (binning : Binning)
    (nu : ℤ) : ∃ err, power2d LB a (.listInts n m) binning (.list L) nu = .error err := by
  unfold power2d
  simp only [getDims, getK, boxOf, if_pos hL]
  by_cases h : 0 ≤ nu ∧ nu < 3
  · simp [h]
  · simp [h]

example : ∃ r, power2d 100 ⟨![4, 4, 4], fun _ => (1 : ℝ)⟩ (.listEdges [1 / 10, 1] [1 / 10, 1]) .log .none 2 = .ok r := by
  obtain ⟨r, h, _⟩ := cylinder_total (powerNd [100, 100, 100] ⟨![4, 4, 4], fun _ => (1 : ℝ)⟩) [100, 100, 100] 2
    false [1 / 10, 1] [1 / 10, 1] (by norm_num) (by norm_num) (by norm_num) (by norm_num)
  refine ⟨r, ?_⟩
  rw [← h]
  rfl

theorem linspace_same (a : ℝ) {n : ℕ} (hn : 1 ≤ n) : ¬ (linspace a a n).Pairwise (· < ·) := by
  intro h
  rw [List.pairwise_iff_getElem] at h
  have := h 0 1 (by rw [linspace_length]; omega) (by rw [linspace_length]; omega) (by omega)
  simp [linspace] at this

theorem edges2_same (s : Fin 3 → ℕ) (f : (Fin 3 → ℤ) → ℝ) (c : ℝ) (hc : 0 ≤ c)
    (hf : ∀ i ∈ box s, f i = 0 ∨ f i = c) (n : ℕ) (hn : 1 ≤ n) (binning : Binning) (e : List ℝ)
    (he : edges2 s f n binning = .ok e) : ¬ e.Pairwise (· < ·) := by
  classical
  unfold edges2 at he
  cases binning with
  | other => cases he
  | linear =>
    simp only at he
    split at he
    · rename_i lo hi hlo hhi
      have : lo = hi := by
        obtain ⟨il, hil, el⟩ := Finset.mem_image.mp (Finset.mem_of_min hlo)
        obtain ⟨ih, hih, eh⟩ := Finset.mem_image.mp (Finset.mem_of_max hhi)
        have h1 := Finset.mem_filter.mp hil
        have h2 := Finset.le_max_of_eq (Finset.mem_image_of_mem f h1.1) hhi
        have h3 := (hf il h1.1).resolve_left h1.2
        rcases hf ih hih with h4 | h4
        · linarith
        · linarith
      subst this
      simp only [reduceCtorEq, if_false, Except.ok.injEq] at he
      subst he
      exact linspace_same _ hn
    · cases he
  | log =>
    simp only at he
    split at he
    · rename_i lo hi hlo hhi
      have : lo = hi := by
        obtain ⟨il, hil, el⟩ := Finset.mem_image.mp (Finset.mem_of_min hlo)
        obtain ⟨ih, hih, eh⟩ := Finset.mem_image.mp (Finset.mem_of_max hhi)
        have h1 := Finset.mem_filter.mp hil
        have h2 := Finset.le_max_of_eq (Finset.mem_image_of_mem f h1.1) hhi
        have h3 := (hf il h1.1).resolve_left h1.2
        rcases hf ih hih with h4 | h4
        · linarith
        · linarith
      subst this
      simp only [if_true, Except.ok.injEq] at he
      subst he
      exact linspace_same _ hn
    · cases he

theorem kPar_small (s : Fin 3 → ℕ) (L : List ℝ) (ax : Fin 3) (hs : s ax < 4) (i : Fin 3 → ℤ) (hi : i ∈ box s) :
    kPar s L ax i = 0 ∨ kPar s L ax i = |2 * Real.pi / L.getD ax 0| := by
  have h := (mem_box s i).mp hi ax
  unfold kPar kComp center
  have key : (i ax : ℝ) - (if (3 : ℕ) = 3 then (if s ax % 2 = 0 then (s ax : ℝ) / 2 else ((s ax : ℝ) - 1) / 2)
      else ((s ax : ℝ) - 1) / 2) = 0 ∨ |(i ax : ℝ) - (if (3 : ℕ) = 3 then (if s ax % 2 = 0 then (s ax : ℝ) / 2
      else ((s ax : ℝ) - 1) / 2) else ((s ax : ℝ) - 1) / 2)| = 1 := by
    obtain ⟨h1, h2⟩ := h
    have h3 : s ax = 1 ∨ s ax = 2 ∨ s ax = 3 := by omega
    rcases h3 with h3 | h3 | h3 <;> rw [h3] at h2 ⊢
    · have : i ax = 0 := by omega
      rw [this]
      norm_num
    · have : i ax = 0 ∨ i ax = 1 := by omega
      rcases this with this | this <;> rw [this] <;> norm_num
    · have : i ax = 0 ∨ i ax = 1 ∨ i ax = 2 := by omega
      rcases this with this | this | this <;> rw [this] <;> norm_num
  rcases key with h0 | h1
  · left
    rw [h0]
    simp
  · right
    rw [abs_div, abs_div, abs_mul, h1, mul_one]

/-- `power_spectrum_2d` raises: with fewer than four cells along the line of sight, whatever the
numbers of bins, as the component along it has a single value other than zero; for an axis counted
from the end; for the documented `binning='mixed'` of the other functions. -/
theorem C97_raises (LB : ℝ) (a : Arr (Fin 3) ℝ) (L : List ℝ) (hL : 3 ≤ L.length) (n m : ℕ) (hm : 1 ≤ m)
    (binning : Binning) :
    (∀ ax : Fin 3, a.shape ax < 4 →
      ∃ err, power2d LB a (.tuple n m) binning (.list L) (ax : ℕ) = .error err) ∧
    (∀ (kbins : KBins2) (nu : ℤ), nu < 0 ∨ 3 ≤ nu → power2d LB a kbins binning (.list L) nu = .error .value) ∧
    (∀ ax : Fin 3, power2d LB a (.tuple n m) .other (.list L) (ax : ℕ) = .error .unbound) := by
  refine ⟨fun ax hs => ?_, fun kbins nu hnu => ?_, fun ax => ?_⟩
  · have hax : 0 ≤ ((ax : ℕ) : ℤ) ∧ ((ax : ℕ) : ℤ) < 3 := ⟨by omega, by have := ax.2; omega⟩
    cases he : edges2 a.shape (kPerp a.shape L ax) n binning with
    | error e1 =>
      refine ⟨e1, ?_⟩
      unfold power2d
      simp only [getDims, getK, boxOf, if_pos hL, dif_pos hax]
      simp [he]
    | ok e =>
      cases he' : edges2 a.shape (kPar a.shape L ax) m binning with
      | error e1 =>
        refine ⟨e1, ?_⟩
        unfold power2d
        simp only [getDims, getK, boxOf, if_pos hL, dif_pos hax]
        simp [he, he']
      | ok e' =>
        refine ⟨.value, ?_⟩
        rw [power2d_tuple LB a L hL ax n m binning e e' he he']
        unfold cylinder
        rw [if_neg]
        intro h
        exact edges2_same a.shape _ _ (abs_nonneg _) (kPar_small a.shape L ax hs) m hm binning e' he' h.2.2.2
  · have h : ¬ (0 ≤ nu ∧ nu < 3) := by omega
    unfold power2d
    simp only [getDims, getK, boxOf, if_pos hL, dif_neg h]
    simp
  · have hax : 0 ≤ ((ax : ℕ) : ℤ) ∧ ((ax : ℕ) : ℤ) < 3 := ⟨by omega, by have := ax.2; omega⟩
    unfold power2d
    simp only [getDims, getK, boxOf, if_pos hL, dif_pos hax]
    rfl

example : ∃ err, power2d 100 ⟨![8, 8, 3], fun i => (i 0 : ℝ)⟩ (.tuple 2 5) .log (.list [1, 1, 1]) 2 = .error err :=
  (C97_raises 100 ⟨![8, 8, 3], fun i => (i 0 : ℝ)⟩ [1, 1, 1] (by norm_num) 2 5 (by norm_num) .log).1 2
    (show (3 : ℕ) < 4 by norm_num)

end Verif.PowerSpectrum
