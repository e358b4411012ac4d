import Verif.Model.CrossSpectrum
import Verif.Props.PowerMu
import Mathlib.Data.List.GetD
import Mathlib.Algebra.BigOperators.Fin
import Mathlib.Tactic.FinCases
/-!
# C247: spectra carry the unit of length

A box given in another unit of length is the same box.  Wave numbers are inverse lengths and the power
of a field in `d` dimensions is a volume: in a unit `l` times smaller all numbers for lengths are `l`
times larger, those for wave numbers `l` times smaller and those for the power `l ^ d` times larger,
and the same modes are averaged.
-/

namespace Verif.LengthUnits
open Verif.Convolve Verif.PowerSpectrum Verif.CrossSpectrum

/-! ## Specification -/

/-- The box in a unit of length `l` times smaller; without an argument it is the global `LB`, which is
changed elsewhere. -/
def longer (l : ℝ) : Dims → Dims
  | .none => .none
  | .number x => .number (l * x)
  | .list L => .list (L.map (l * ·))
  | .array L => .array (L.map (l * ·))

/-- The bins in that unit; a number of bins stays as it is. -/
noncomputable def finer (l : ℝ) : KBins → KBins
  | .int n => .int n
  | .list e => .list (e.map (· / l))
  | .array e => .array (e.map (· / l))

/-- A box with positive sides, one for each of `d` axes. -/
def Sides (LB : ℝ) (d : ℕ) : Dims → Prop
  | .none => 0 < LB
  | .number x => 0 < x
  | .list L => L.length = d ∧ ∀ x ∈ L, 0 < x
  | .array L => L.length = d ∧ ∀ x ∈ L, 0 < x

/-- The two results are the same in the two units, `f` being the factor for the power: the same
error, or the same averages, wave numbers and numbers of modes. -/
def Same (l f : ℝ) : Except Err Radial → Except Err Radial → Prop
  | .ok r, .ok r' => r'.data = r.data.map (Option.map (f * ·)) ∧ r'.bins = r.bins.map (· / l) ∧
      r'.modes = r.modes
  | .error e, .error e' => e = e'
  | _, _ => False

/-- The same for bins in wave number and cosine. -/
def SameMu (l f : ℝ) : Except Err Anisotropic → Except Err Anisotropic → Prop
  | .ok r, .ok r' => r'.data = r.data.map (List.map (Option.map (f * ·))) ∧ r'.mus = r.mus ∧
      r'.ks = r.ks.map (· / l) ∧ r'.modes = r.modes
  | .error e, .error e' => e = e'
  | _, _ => False

/-- The sides are at most `2000 π` in both units. -/
def Small (l LB : ℝ) : Dims → Prop
  | .none => LB ≤ 2000 * Real.pi ∧ l * LB ≤ 2000 * Real.pi
  | .number x => x ≤ 2000 * Real.pi ∧ l * x ≤ 2000 * Real.pi
  | .list L => ∀ x ∈ L, x ≤ 2000 * Real.pi ∧ l * x ≤ 2000 * Real.pi
  | .array L => ∀ x ∈ L, x ≤ 2000 * Real.pi ∧ l * x ≤ 2000 * Real.pi

/-- An array with at least one cell, and two along some axis. -/
def Extended {d : ℕ} (s : Fin d → ℕ) : Prop := (∀ j, 1 ≤ s j) ∧ ∃ j, 2 ≤ s j

/-! ## Proofs -/

section
variable {l : ℝ}

theorem getD_div (e : List ℝ) (n : ℕ) : (e.map (· / l)).getD n 0 = e.getD n 0 / l := by
  have := List.getD_map (l := e) (d := (0 : ℝ)) (n := n) (f := (· / l))
  simpa using this

theorem getD_mul (e : List ℝ) (n : ℕ) : (e.map (l * ·)).getD n 0 = l * e.getD n 0 := by
  have := List.getD_map (l := e) (d := (0 : ℝ)) (n := n) (f := (l * ·))
  simpa using this

theorem kComp_longer {d : ℕ} (s : Fin d → ℕ) (L : List ℝ) (j : Fin d) (i : Fin d → ℤ) :
    kComp s (L.map (l * ·)) j i = kComp s L j i / l := by
  unfold kComp
  rw [getD_mul, mul_comm l, div_div]

theorem kMag_longer (hl : 0 < l) {d : ℕ} (s : Fin d → ℕ) (L : List ℝ) (i : Fin d → ℤ) :
    kMag s (L.map (l * ·)) i = kMag s L i / l := by
  unfold kMag
  simp only [kComp_longer, div_pow]
  split_ifs
  · rw [Finset.sum_div]
  · rw [← Finset.sum_div, Real.sqrt_div (Finset.sum_nonneg fun j _ => sq_nonneg _),
      Real.sqrt_sq hl.le]

theorem prod_longer (L : List ℝ) : (L.map (l * ·)).prod = l ^ L.length * L.prod := by
  induction L with
  | nil => simp
  | cons a L ih =>
    rw [List.map_cons, List.prod_cons, ih, List.prod_cons, List.length_cons]
    ring

theorem prod_pos' {L : List ℝ} (h : ∀ x ∈ L, 0 < x) : 0 < L.prod := by
  induction L with
  | nil => simp
  | cons a L ih =>
    rw [List.prod_cons]
    exact mul_pos (h a (by simp)) (ih fun x hx => h x (by simp [hx]))

theorem scale_longer (hl : 0 < l) {d : ℕ} (s : Fin d → ℕ) {L : List ℝ} (h : ∀ x ∈ L, 0 < x) :
    scale s (L.map (l * ·)) = l ^ L.length * scale s L := by
  unfold scale
  rw [prod_longer]
  have hp := (prod_pos' h).ne'
  have hq : l ^ L.length ≠ 0 := (pow_pos hl _).ne'
  by_cases hs : ∏ j, (s j : ℝ) = 0
  · simp [hs]
  · field_simp

theorem foldl_min (hl : 0 < l) (L : List ℝ) (a : ℝ) :
    List.foldl min (l * a) (L.map (l * ·)) = l * List.foldl min a L := by
  induction L generalizing a with
  | nil => rfl
  | cons b L ih =>
    rw [List.map_cons, List.foldl_cons, List.foldl_cons, ← mul_min_of_nonneg _ _ hl.le, ih]

theorem min_longer (hl : 0 < l) (L : List ℝ) :
    (L.map (l * ·)).min?.getD 0 = l * L.min?.getD 0 := by
  cases L with
  | nil => simp
  | cons a L =>
    rw [List.map_cons, List.min?_cons', List.min?_cons']
    exact foldl_min hl L a

theorem min_pos' {L : List ℝ} (h : ∀ x ∈ L, 0 < x) (h0 : L ≠ []) : 0 < L.min?.getD 0 := by
  cases L with
  | nil => exact absurd rfl h0
  | cons a L =>
    rw [List.min?_cons']
    have : ∀ (M : List ℝ) (b : ℝ), 0 < b → (∀ x ∈ M, 0 < x) → 0 < List.foldl min b M := by
      intro M
      induction M with
      | nil => intro b hb _; exact hb
      | cons c M ih =>
        intro b hb hM
        exact ih _ (lt_min hb (hM c (by simp))) fun x hx => hM x (by simp [hx])
    exact this L a (h a (by simp)) fun x hx => h x (by simp [hx])

theorem kMax_longer (hl : 0 < l) {d : ℕ} (s : Fin d → ℕ) (L : List ℝ) :
    (∃ m, kMax s L = .ok m ∧ kMax s (L.map (l * ·)) = .ok (m / l) ∧
      ∀ i ∈ box s, kMag s L i ≤ m) ∨
    (kMax s L = .error .value ∧ kMax s (L.map (l * ·)) = .error .value) := by
  rcases (box s).eq_empty_or_nonempty with h | h
  · right
    unfold kMax
    simp [h]
  · left
    obtain ⟨m, hm⟩ := Finset.max_of_nonempty (h.image (kMag s L))
    have hle : ∀ i ∈ box s, kMag s L i ≤ m := fun i hi =>
      Finset.le_max_of_eq (Finset.mem_image_of_mem _ hi) hm
    have hm' : ((box s).image (kMag s (L.map (l * ·)))).max = ((m / l : ℝ) : WithBot ℝ) := by
      apply le_antisymm
      · apply Finset.max_le
        intro a ha
        obtain ⟨i, hi, rfl⟩ := Finset.mem_image.mp ha
        rw [kMag_longer hl, WithBot.coe_le_coe]
        exact (div_le_div_iff_of_pos_right hl).mpr (hle i hi)
      · apply Finset.le_max
        obtain ⟨i, hi, e⟩ := Finset.mem_image.mp (Finset.mem_of_max hm)
        exact Finset.mem_image.mpr ⟨i, hi, by rw [kMag_longer hl, e]⟩
    refine ⟨m, ?_, ?_, hle⟩
    · unfold kMax
      rw [hm]
    · unfold kMax
      rw [hm']

theorem linspace_finer (a b : ℝ) (n : ℕ) :
    linspace (a / l) (b / l) n = (linspace a b n).map (· / l) := by
  unfold linspace
  rw [List.map_map]
  refine List.map_congr_left fun i _ => ?_
  simp only [Function.comp]
  ring

theorem logspace_finer (hl : 0 < l) {a b : ℝ} (ha : 0 < a) (hb : 0 < b) (n : ℕ) :
    logspace (a / l) (b / l) n = (logspace a b n).map (· / l) := by
  unfold logspace linspace
  rw [List.map_map, List.map_map, List.map_map]
  refine List.map_congr_left fun i _ => ?_
  simp only [Function.comp]
  rw [Real.logb_div ha.ne' hl.ne', Real.logb_div hb.ne' hl.ne']
  have e : Real.logb 10 a - Real.logb 10 l + (i : ℝ) *
      ((Real.logb 10 b - Real.logb 10 l - (Real.logb 10 a - Real.logb 10 l)) / n) =
      (Real.logb 10 a + (i : ℝ) * ((Real.logb 10 b - Real.logb 10 a) / n)) - Real.logb 10 l := by
    ring
  rw [e, Real.rpow_sub (by norm_num), Real.rpow_logb (by norm_num) (by norm_num) hl]

theorem edges_finer (hl : 0 < l) {a b : ℝ} (ha : 0 < a) (hb : 0 < b) (n : ℕ) (bi : Binning)
    (bp : ℝ) : edges (a / l) (b / l) n bi (bp / l) = (edges a b n bi bp).map (· / l) := by
  cases bi with
  | linear => exact linspace_finer a b n
  | log => exact logspace_finer hl ha hb n
  | other =>
    simp only [edges]
    rw [linspace_finer, logspace_finer hl ha hb, List.filter_map, List.filter_map,
      List.map_append]
    congr 2
    · refine List.filter_congr fun x _ => ?_
      simp only [Function.comp, div_lt_div_iff_of_pos_right hl]
    · refine List.filter_congr fun x _ => ?_
      simp only [Function.comp, div_lt_div_iff_of_pos_right hl]

theorem inBin_finer (hl : 0 < l) (e : List ℝ) (b : ℕ) (x : ℝ) :
    inBin (e.map (· / l)) b (x / l) ↔ inBin e b x := by
  unfold inBin
  simp only [getD_div, List.length_map, div_le_div_iff_of_pos_right hl,
    div_lt_div_iff_of_pos_right hl, div_left_inj' hl.ne']

theorem centres_finer (e : List ℝ) : centres (e.map (· / l)) = (centres e).map (· / l) := by
  unfold centres
  rw [List.map_map, List.length_map]
  refine List.map_congr_left fun i _ => ?_
  simp only [Function.comp, getD_div]
  ring

theorem center_pos (d : ℕ) {n : ℕ} (hn : 2 ≤ n) : 0 < center d n := by
  have h : (2 : ℝ) ≤ n := by exact_mod_cast hn
  unfold center
  split_ifs <;> linarith

theorem exists_mode {d : ℕ} {s : Fin d → ℕ} (hs : Extended s) {L : List ℝ} (hL : L.length = d)
    (hp : ∀ x ∈ L, 0 < x) : ∃ i ∈ box s, 0 < kMag s L i := by
  obtain ⟨hs1, j, hj⟩ := hs
  have hLj : 0 < L.getD j 0 := by
    rw [List.getD_eq_getElem _ _ (by rw [hL]; exact j.2)]
    exact hp _ (List.getElem_mem _)
  have hc := center_pos d hj
  by_cases hd : d = 1
  · subst hd
    refine ⟨fun q => (s q : ℤ) - 1, ?_, ?_⟩
    · rw [mem_box]
      intro q
      have := hs1 q
      omega
    · obtain rfl : j = 0 := Subsingleton.elim _ _
      unfold kMag
      rw [if_pos rfl, Fin.sum_univ_one]
      unfold kComp
      refine div_pos (mul_pos (by positivity) ?_) hLj
      have h : (2 : ℝ) ≤ s 0 := by exact_mod_cast hj
      unfold center
      rw [if_neg (by norm_num)]
      push_cast
      linarith
  · refine ⟨fun _ => 0, ?_, ?_⟩
    · rw [mem_box]
      intro q
      have := hs1 q
      omega
    · unfold kMag
      rw [if_neg hd]
      refine Real.sqrt_pos.mpr (Finset.sum_pos' (fun q _ => sq_nonneg _) ⟨j, Finset.mem_univ _, ?_⟩)
      have h0 : kComp s L j (fun _ => 0) ≠ 0 := by
        unfold kComp
        refine div_ne_zero (mul_ne_zero (by positivity) ?_) hLj.ne'
        push_cast
        linarith
      positivity

theorem getKbins_longer (hl : 0 < l) {d : ℕ} {s : Fin d → ℕ} (hs : Extended s) {L : List ℝ}
    (hL : L.length = d) (hp : ∀ x ∈ L, 0 < x) (kb : KBins) (bi : Binning) (bp : ℝ) :
    (∃ e, getKbins s L kb bi bp = .ok e ∧
      getKbins s (L.map (l * ·)) (finer l kb) bi (bp / l) = .ok (e.map (· / l))) ∨
    ∃ e, getKbins s L kb bi bp = .error e ∧
      getKbins s (L.map (l * ·)) (finer l kb) bi (bp / l) = .error e := by
  cases kb with
  | list e => exact .inr ⟨_, rfl, rfl⟩
  | array e => exact .inl ⟨_, rfl, rfl⟩
  | int n =>
    obtain ⟨hs1, j, hj⟩ := hs
    have hLn : L ≠ [] := by
      rintro rfl
      exact absurd j.2 (by simp only [List.length_nil] at hL; omega)
    rcases kMax_longer hl s L with ⟨m, h1, h2, h3⟩ | ⟨h1, h2⟩
    · left
      have hk : 0 < 2 * Real.pi / L.min?.getD 0 := div_pos (by positivity) (min_pos' hp hLn)
      have hm : 0 < m := by
        obtain ⟨i, hi, h⟩ := exists_mode ⟨hs1, j, hj⟩ hL hp
        exact h.trans_le (h3 i hi)
      refine ⟨edges (2 * Real.pi / L.min?.getD 0) m n bi bp, ?_, ?_⟩
      · unfold getKbins
        simp only [h1]
      · unfold getKbins finer
        simp only [h2, min_longer hl]
        rw [← edges_finer hl hk hm, mul_comm l, div_div]
    · right
      refine ⟨.value, ?_, ?_⟩
      · unfold getKbins
        simp only [h1]
      · unfold getKbins finer
        simp only [h2]

theorem inBin_longer (hl : 0 < l) {d : ℕ} (s : Fin d → ℕ) (L e : List ℝ) (b : ℕ) (i : Fin d → ℤ) :
    inBin (e.map (· / l)) b (kMag s (L.map (l * ·)) i) ↔ inBin e b (kMag s L i) := by
  rw [kMag_longer hl, inBin_finer hl]

theorem nModes_finer (hl : 0 < l) {d : ℕ} (s : Fin d → ℕ) (L e : List ℝ) (b : ℕ) :
    nModes s (kMag s (L.map (l * ·))) (e.map (· / l)) b = nModes s (kMag s L) e b := by
  unfold nModes
  classical
  rw [Finset.filter_congr fun i _ => inBin_longer hl s L e b i]

theorem average_finer (hl : 0 < l) {d : ℕ} (s : Fin d → ℕ) (L e : List ℝ) {v v' : (Fin d → ℤ) → ℝ}
    {f : ℝ} (hv : ∀ i, v' i = f * v i) (b : ℕ) :
    average s (kMag s (L.map (l * ·))) v' (e.map (· / l)) b =
      (average s (kMag s L) v e b).map (f * ·) := by
  unfold average
  classical
  rw [Finset.filter_congr fun i _ => inBin_longer hl s L e b i, nModes_finer hl]
  split_ifs
  · rfl
  · simp only [Option.map_some, hv]
    rw [← Finset.mul_sum, mul_div_assoc]

theorem pairwise_finer (hl : 0 < l) (e : List ℝ) :
    (e.map (· / l)).Pairwise (· ≤ ·) ↔ e.Pairwise (· ≤ ·) := by
  rw [List.pairwise_map]
  simp only [div_le_div_iff_of_pos_right hl]

theorem powerNd_longer (hl : 0 < l) {d : ℕ} (a : Arr (Fin d) ℝ) {L : List ℝ} (hL : L.length = d)
    (hp : ∀ x ∈ L, 0 < x) (i : Fin d → ℤ) :
    (powerNd (L.map (l * ·)) a).val i = l ^ d * (powerNd L a).val i := by
  simp only [powerNd]
  rw [scale_longer hl _ hp, hL]
  ring

theorem radial_list (hl : 0 < l) {d : ℕ} {p p' : Arr (Fin d) ℝ} (hs : p'.shape = p.shape)
    (f : ℝ) (hv : ∀ i, p'.val i = f * p.val i) (ha : Extended p.shape) {L : List ℝ}
    (hL : L.length = d) (hp : ∀ x ∈ L, 0 < x) (kb : KBins) (bi : Binning) (bp : ℝ) :
    Same l f (radialAverage p (.list L) kb bi bp)
      (radialAverage p' (.list (L.map (l * ·))) (finer l kb) bi (bp / l)) := by
  unfold radialAverage
  by_cases hd : d = 1 ∨ d = 2 ∨ d = 3
  · simp only [getK, if_pos hd, boxOf, List.length_map, hL, le_refl, if_true]
    rw [hs]
    rcases getKbins_longer hl ha hL hp kb bi bp with ⟨e, h1, h2⟩ | ⟨e, h1, h2⟩
    · simp only [h1, h2, pairwise_finer hl]
      split_ifs
      · simp only [Same, List.length_map, List.map_map, centres_finer, true_and]
        refine ⟨List.map_congr_left fun b _ => ?_, ?_⟩
        · exact average_finer hl _ L e hv b
        · exact List.map_congr_left fun b _ => nModes_finer hl _ L e b
      · rfl
    · simp only [h1, h2]
      rfl
  · simp only [getK, if_neg hd]
    rfl

theorem power_list (hl : 0 < l) {d : ℕ} {a : Arr (Fin d) ℝ} (ha : Extended a.shape) {L : List ℝ}
    (hL : L.length = d) (hp : ∀ x ∈ L, 0 < x) (kb : KBins) (bi : Binning) (bp : ℝ) :
    Same l (l ^ d) (radialAverage (powerNd L a) (.list L) kb bi bp)
      (radialAverage (powerNd (L.map (l * ·)) a) (.list (L.map (l * ·))) (finer l kb) bi (bp / l)) :=
  radial_list (p := powerNd L a) (p' := powerNd (L.map (l * ·)) a) hl rfl _ (powerNd_longer hl a hL hp)
    ha hL hp kb bi bp

theorem cross_list (hl : 0 < l) {d : ℕ} {a b : Arr (Fin d) ℝ} (ha : Extended a.shape) {L : List ℝ}
    (hL : L.length = d) (hp : ∀ x ∈ L, 0 < x) (kb : KBins) (bi : Binning) (bp : ℝ) :
    Same l (l ^ d)
      (match crossNd L a b with
        | .error e => .error e
        | .ok p => radialAverage p (.list L) kb bi bp)
      (match crossNd (L.map (l * ·)) a b with
        | .error e => .error e
        | .ok p => radialAverage p (.list (L.map (l * ·))) (finer l kb) bi (bp / l)) := by
  unfold crossNd
  by_cases h : a.shape = b.shape
  · simp only [if_pos h]
    apply radial_list hl _ _ _ _ hL hp
    · rfl
    · intro i
      simp only
      rw [scale_longer hl _ hp, hL]
      ring
    · exact ha
  · simp only [if_neg h]
    rfl

/-! ### Cosines -/

theorem center_int (n : ℕ) : ∃ c : ℤ, center 3 n = c := by
  rcases Nat.even_or_odd' n with ⟨m, rfl | rfl⟩
  · exact ⟨m, by simp [center]⟩
  · refine ⟨m, ?_⟩
    unfold center
    rw [if_pos rfl, if_neg (by omega)]
    push_cast
    ring

/-- In a box that is not too large every mode but that of the mean reaches the limit. -/
theorem gap (s : Fin 3 → ℕ) {L : List ℝ} (hL : L.length = 3)
    (hp : ∀ x ∈ L, 0 < x ∧ x ≤ 2000 * Real.pi) (i : Fin 3 → ℤ) :
    kMag s L i = 0 ∨ 1 / 1000 ≤ kMag s L i := by
  unfold kMag
  rw [if_neg (by norm_num)]
  by_cases h : ∀ j, kComp s L j i = 0
  · left
    simp [h]
  · right
    obtain ⟨j, hj⟩ := not_forall.mp h
    have h1 : |kComp s L j i| ≤ Real.sqrt (∑ j, kComp s L j i ^ 2) :=
      Real.abs_le_sqrt (Finset.single_le_sum (f := fun j => kComp s L j i ^ 2)
        (fun q _ => sq_nonneg _) (Finset.mem_univ j))
    refine le_trans ?_ h1
    have hx := hp (L.getD j 0) (by
      rw [List.getD_eq_getElem _ _ (by rw [hL]; exact j.2)]
      exact List.getElem_mem _)
    obtain ⟨c, hc⟩ := center_int (s j)
    unfold kComp at hj ⊢
    rw [hc, ← Int.cast_sub] at hj ⊢
    have hn : i j - c ≠ 0 := by
      intro q
      exact hj (by rw [q]; simp)
    have h2 : (1 : ℝ) ≤ |((i j - c : ℤ) : ℝ)| := by
      rw [← Int.cast_abs]
      exact_mod_cast Int.one_le_abs hn
    rw [abs_div, abs_mul, abs_of_pos hx.1, abs_of_pos (by positivity : (0 : ℝ) < 2 * Real.pi),
      le_div_iff₀ hx.1]
    nlinarith [Real.pi_pos]

theorem muAt_longer (hl : 0 < l) (s : Fin 3 → ℕ) (L : List ℝ) (los : Fin 3) (ab : Bool)
    (i : Fin 3 → ℤ) (h : kMag s L i = 0 ∨ 1 / 1000 ≤ kMag s L i)
    (h' : kMag s (L.map (l * ·)) i = 0 ∨ 1 / 1000 ≤ kMag s (L.map (l * ·)) i) :
    muAt s (L.map (l * ·)) los ab i = muAt s L los ab i := by
  have e := kMag_longer hl s L i
  rw [e] at h'
  unfold muAt
  rw [kComp_longer, e]
  have hiff : kMag s L i / l < 1 / 1000 ↔ kMag s L i < 1 / 1000 := by
    rcases h with h | h
    · simp [h]
    · rcases h' with h' | h'
      · rcases div_eq_zero_iff.mp h' with q | q
        · rw [q] at h
          norm_num at h
        · exact absurd q hl.ne'
      · exact ⟨fun q => absurd q (not_lt.mpr h'), fun q => absurd q (not_lt.mpr h)⟩
  simp only [hiff, abs_div, div_div_div_cancel_right₀ hl.ne', abs_of_pos hl]

theorem selected_longer (hl : 0 < l) (s : Fin 3 → ℕ) {L : List ℝ} (los : Fin 3) (ab ex : Bool)
    (em ek : List ℝ) (mb kb : ℕ) (hL : L.length = 3) (hp : ∀ x ∈ L, 0 < x ∧ x ≤ 2000 * Real.pi)
    (hp' : ∀ x ∈ L.map (l * ·), 0 < x ∧ x ≤ 2000 * Real.pi) (i : Fin 3 → ℤ) :
    selected s (L.map (l * ·)) los ab ex em (ek.map (· / l)) mb kb i ↔
      selected s L los ab ex em ek mb kb i := by
  unfold selected
  rw [muAt_longer hl s L los ab i (gap s hL hp i) (gap s (by simpa using hL) hp' i),
    kMag_longer hl, getD_div, getD_div, div_le_div_iff_of_pos_right hl,
    div_lt_div_iff_of_pos_right hl]

theorem mu_list (hl : 0 < l) {p p' : Arr (Fin 3) ℝ} (hs : p'.shape = p.shape)
    (f : ℝ) (hv : ∀ i, p'.val i = f * p.val i) (ha : Extended p.shape) {L : List ℝ}
    (hL : L.length = 3) (hp : ∀ x ∈ L, 0 < x ∧ x ≤ 2000 * Real.pi ∧ l * x ≤ 2000 * Real.pi)
    (los : ℤ) (mub : MuBins) (kb : KBins) (w : Weights) (ex ab : Bool) :
    SameMu l f (muBinning p los mub kb (.list L) w ex .log ab)
      (muBinning p' los mub (finer l kb) (.list (L.map (l * ·))) w ex .log ab) := by
  have hp1 : ∀ x ∈ L, 0 < x ∧ x ≤ 2000 * Real.pi := fun x hx => ⟨(hp x hx).1, (hp x hx).2.1⟩
  have hp2 : ∀ x ∈ L.map (l * ·), 0 < x ∧ x ≤ 2000 * Real.pi := by
    intro x hx
    obtain ⟨y, hy, rfl⟩ := List.mem_map.mp hx
    exact ⟨mul_pos hl (hp y hy).1, (hp y hy).2.2⟩
  have hbp : ∀ s : Fin 3 → ℕ, getKbins s (L.map (l * ·)) (finer l kb) .log (1 / 10 / l) =
      getKbins s (L.map (l * ·)) (finer l kb) .log (1 / 10) := by
    intro s
    cases kb <;> rfl
  unfold muBinning
  have hsel : ∀ (q : Fin 3) (em ek : List ℝ) (mb kb : ℕ),
      muModes p'.shape (L.map (l * ·)) q ab ex em (ek.map (· / l)) mb kb =
        muModes p.shape L q ab ex em ek mb kb ∧
      muAverage p' (L.map (l * ·)) q ab ex em (ek.map (· / l)) mb kb =
        (muAverage p L q ab ex em ek mb kb).map (f * ·) := by
    classical
    intro q em ek mb kb
    have h1 : muModes p'.shape (L.map (l * ·)) q ab ex em (ek.map (· / l)) mb kb =
        muModes p.shape L q ab ex em ek mb kb := by
      unfold muModes
      rw [hs, Finset.filter_congr fun i _ => selected_longer hl p.shape q ab ex em ek mb kb hL hp1 hp2 i]
    refine ⟨h1, ?_⟩
    unfold muAverage
    simp only
    rw [h1, hs, Finset.filter_congr fun i _ => selected_longer hl p.shape q ab ex em ek mb kb hL hp1 hp2 i]
    split_ifs
    · rfl
    · simp only [Option.map_some, hv]
      rw [← mul_div_assoc, Finset.mul_sum]
      congr 2
      refine Finset.sum_congr rfl fun i _ => ?_
      rw [mul_ite, mul_zero]
  have hL' : (L.map (l * ·)).length = 3 := by simpa using hL
  rcases w with _ | _ | _
  pick_goal 3
  · rfl
  all_goals
    simp only [getK, boxOf, hL, hL', le_refl, if_true, or_true]
    by_cases hlos : 0 ≤ los ∧ los < 3
    · simp only [dif_pos hlos, ← hbp]
      rcases getKbins_longer hl ha hL (fun x hx => (hp x hx).1) kb .log (1 / 10) with
        ⟨e, h1, h2⟩ | ⟨e, h1, h2⟩
      · rw [hs]
        simp only [h1, h2]
        cases muEdges ab mub with
        | error e => rfl
        | ok em =>
          simp only [List.length_map]
          split_ifs
          all_goals first
            | rfl
            | (simp only [SameMu, List.map_map, centres_finer, true_and]
               refine ⟨List.map_congr_left fun mb _ => ?_, List.map_congr_left fun mb _ => ?_⟩
               · simp only [Function.comp, List.map_map]
                 exact List.map_congr_left fun kb _ => (hsel _ em e mb kb).2
               · refine List.map_congr_left fun kb _ => ?_
                 rw [← hs]
                 exact (hsel _ em e mb kb).1.trans (by rw [hs]))
      · rw [hs]
        simp only [h1, h2]
        rfl
    · simp only [dif_neg hlos]
      rfl

end

/-- `power_spectrum_1d` follows the unit of length, in all forms of the arguments, with the
breakpoint of the mixed bins in the same unit. -/
theorem C247_partial {l : ℝ} (hl : 0 < l) (LB : ℝ) {d : ℕ} (a : Arr (Fin d) ℝ)
    (ha : Extended a.shape) (dims : Dims) (hd : Sides LB d dims) (kb : KBins) (bi : Binning)
    (bp : ℝ) :
    Same l (l ^ d) (power1d LB a dims kb bi bp)
      (power1d (l * LB) a (longer l dims) (finer l kb) bi (bp / l)) := by
  have hr : ∀ x : ℝ, List.replicate d (l * x) = (List.replicate d x).map (l * ·) := by
    intro x
    rw [List.map_replicate]
  cases dims with
  | none =>
    simp only [power1d, getDims, longer, hr]
    exact power_list hl ha (by simp) (fun x hx => by rw [List.eq_of_mem_replicate hx]; exact hd) kb bi bp
  | number x =>
    simp only [power1d, getDims, longer, hr]
    exact power_list hl ha (by simp) (fun x hx => by rw [List.eq_of_mem_replicate hx]; exact hd) kb bi bp
  | list L => exact power_list hl ha hd.1 hd.2 kb bi bp
  | array L =>
    simp only [power1d, getDims, longer, List.length_map]
    by_cases h : L.length = 1
    · simp only [if_pos h]
      exact power_list hl ha hd.1 hd.2 kb bi bp
    · simp only [if_neg h]
      rfl

/-- The cross spectrum as well; arrays of unequal shape fail in every unit. -/
theorem C247_cross {l : ℝ} (hl : 0 < l) (LB : ℝ) {d : ℕ} (a b : Arr (Fin d) ℝ)
    (ha : Extended a.shape) (dims : Dims) (hd : Sides LB d dims) (kb : KBins) (bi : Binning)
    (bp : ℝ) :
    Same l (l ^ d) (cross1d LB a b dims kb bi bp)
      (cross1d (l * LB) a b (longer l dims) (finer l kb) bi (bp / l)) := by
  have hr : ∀ x : ℝ, List.replicate d (l * x) = (List.replicate d x).map (l * ·) := by
    intro x
    rw [List.map_replicate]
  cases dims with
  | none =>
    simp only [cross1d, getDims, longer, hr]
    exact cross_list hl ha (by simp) (fun x hx => by rw [List.eq_of_mem_replicate hx]; exact hd) kb bi bp
  | number x =>
    simp only [cross1d, getDims, longer, hr]
    exact cross_list hl ha (by simp) (fun x hx => by rw [List.eq_of_mem_replicate hx]; exact hd) kb bi bp
  | list L => exact cross_list hl ha hd.1 hd.2 kb bi bp
  | array L =>
    simp only [cross1d, getDims, longer, List.length_map]
    by_cases h : L.length = 1
    · simp only [if_pos h]
      exact cross_list hl ha hd.1 hd.2 kb bi bp
    · simp only [if_neg h]
      rfl

/-- A cube of two cells along each axis. -/
example : Extended (d := 3) (fun _ => 2) ∧ Sides 100 3 (.list [100, 100, 100]) ∧
    Sides 100 2 .none :=
  ⟨⟨fun _ => by norm_num, 0, le_rfl⟩, ⟨rfl, by norm_num⟩, by norm_num [Sides]⟩

/-- `power_spectrum_mu` follows the unit of length while the sides of the box are at most `2000 π` in
both units. -/
theorem C247_mu_partial {l : ℝ} (hl : 0 < l) (LB : ℝ) (a : Arr (Fin 3) ℝ) (ha : Extended a.shape)
    (dims : Dims) (hd : Sides LB 3 dims) (hS : Small l LB dims) (los : ℤ) (mub : MuBins) (kb : KBins)
    (w : Weights) (ex ab : Bool) :
    SameMu l (l ^ 3) (powerMu LB a los mub kb dims w ex ab)
      (powerMu (l * LB) a los mub (finer l kb) (longer l dims) w ex ab) := by
  have hr : ∀ x : ℝ, List.replicate 3 (l * x) = (List.replicate 3 x).map (l * ·) := by
    intro x
    rw [List.map_replicate]
  have key : ∀ L : List ℝ, L.length = 3 →
      (∀ x ∈ L, 0 < x ∧ x ≤ 2000 * Real.pi ∧ l * x ≤ 2000 * Real.pi) →
      SameMu l (l ^ 3) (muBinning (powerNd L a) los mub kb (.list L) w ex .log ab)
        (muBinning (powerNd (L.map (l * ·)) a) los mub (finer l kb) (.list (L.map (l * ·))) w ex .log
          ab) := by
    intro L h1 h2
    exact mu_list (p := powerNd L a) (p' := powerNd (L.map (l * ·)) a) hl rfl _
      (powerNd_longer hl a h1 fun x hx => (h2 x hx).1) ha h1 h2 los mub kb w ex ab
  cases dims with
  | none =>
    simp only [powerMu, getDims, longer, hr]
    exact key _ (by simp) fun x hx => by rw [List.eq_of_mem_replicate hx]; exact ⟨hd, hS⟩
  | number x =>
    simp only [powerMu, getDims, longer, hr]
    exact key _ (by simp) fun x hx => by rw [List.eq_of_mem_replicate hx]; exact ⟨hd, hS⟩
  | list L => exact key L hd.1 fun x hx => ⟨hd.2 x hx, hS x hx⟩
  | array L =>
    have h : ¬ L.length = 1 := by rw [hd.1]; norm_num
    simp only [powerMu, getDims, longer, List.length_map, if_neg h]
    rfl

/-- A box of 100 Mpc, in Mpc and in Mpc/h. -/
example : Small (7 / 10) 1 (.list [100, 100, 100]) ∧ Sides 1 3 (.list [100, 100, 100]) := by
  refine ⟨fun x hx => ?_, rfl, by norm_num⟩
  obtain rfl : x = 100 := by simpa using hx
  constructor <;> nlinarith [Real.pi_gt_three]

theorem kComp_two (j : Fin 3) (i : Fin 3 → ℤ) :
    kComp (fun _ => 2) [1, 1, 1] j i = 2 * Real.pi * ((i j : ℝ) - 1) := by
  unfold kComp
  have h : ([1, 1, 1] : List ℝ).getD j 0 = 1 := by fin_cases j <;> rfl
  rw [h, div_one]
  norm_num [center]

theorem lost (ab ex : Bool) (los : Fin 3) (em ek : List ℝ) (mb kb : ℕ) :
    muModes (fun _ => 2) ([1, 1, 1].map ((10 : ℝ) ^ 5 * ·)) los ab ex em ek mb kb = 0 := by
  classical
  unfold muModes
  rw [Finset.card_eq_zero, Finset.filter_eq_empty_iff]
  rintro i hi ⟨_, _, m, hm, _⟩
  have hk : kMag (fun _ => 2) [1, 1, 1] i ≤ 16 := by
    unfold kMag
    rw [if_neg (by norm_num), Real.sqrt_le_left (by norm_num)]
    simp only [kComp_two, Fin.sum_univ_three]
    have hb : ∀ j, (2 * Real.pi * ((i j : ℝ) - 1)) ^ 2 ≤ 64 := by
      intro j
      have h1 := ((mem_box _ _).mp hi j).1
      have h2 := ((mem_box _ _).mp hi j).2
      have h3 : i j = 0 ∨ i j = 1 := by
        have : i j < 2 := h2
        omega
      have := Real.pi_pos
      have := Real.pi_lt_four
      rcases h3 with h3 | h3 <;> rw [h3] <;> push_cast <;> nlinarith
    have := hb 0
    have := hb 1
    have := hb 2
    linarith
  unfold muAt at hm
  rw [kMag_longer (by norm_num), if_pos (by rw [div_lt_iff₀ (by norm_num)]; linarith)] at hm
  exact absurd hm (by simp)

theorem kept : 0 < muModes (fun _ => 2) [1, 1, 1] 0 true true [0, 2] [0, 20] 0 0 := by
  classical
  unfold muModes
  rw [Finset.card_pos]
  refine ⟨![1, 0, 1], Finset.mem_filter.mpr ⟨(mem_box _ _).mpr fun j => ?_, ?_⟩⟩
  · fin_cases j <;> decide
  have hpi := Real.pi_gt_three
  have hpi4 := Real.pi_lt_four
  have hk : kMag (fun _ => 2) [1, 1, 1] ![1, 0, 1] = 2 * Real.pi := by
    unfold kMag
    rw [if_neg (by norm_num)]
    simp only [kComp_two, Fin.sum_univ_three]
    rw [Real.sqrt_eq_iff_mul_self_eq (by positivity) (by positivity)]
    simp
    ring
  unfold selected muAt nonzeroIdx
  rw [hk, kComp_two, if_neg (by linarith)]
  refine ⟨⟨?_, ?_⟩, fun _ h => ?_, _, rfl, ?_⟩
  · simp
    positivity
  · simp
    linarith
  · have := h 1 (by decide)
    norm_num at this
  · simp

/-- In general the spectrum in wave number and cosine depends on the unit: wave numbers below `0.001`
are left out, in whatever unit.  In the witness every mode of the box is lost. -/
theorem C247_false : ¬ ∀ (l : ℝ), 0 < l → ∀ (LB : ℝ) (a : Arr (Fin 3) ℝ), Extended a.shape →
    ∀ dims, Sides LB 3 dims → ∀ (los : ℤ) (mub : MuBins) (kb : KBins) (w : Weights) (ex ab : Bool),
    SameMu l (l ^ 3) (powerMu LB a los mub kb dims w ex ab)
      (powerMu (l * LB) a los mub (finer l kb) (longer l dims) w ex ab) := by
  intro h
  have hpi := Real.pi_pos
  have hpi4 := Real.pi_lt_four
  have h1 := h (10 ^ 5) (by norm_num) 1 ⟨fun _ => 2, fun _ => 0⟩ ⟨fun _ => by norm_num, 0, le_rfl⟩
    (.list [1, 1, 1]) ⟨rfl, by norm_num⟩ ((0 : Fin 3) : ℕ) (.array [0, 2]) (.array [0, 20]) .none
    true true
  simp only [powerMu, getDims, longer, finer] at h1
  rw [muBinning_eq _ _ _ _ (by simp), muBinning_eq _ _ _ _ (by simp)] at h1
  have h2 := h1.2.2.2
  simp only [List.length_cons, List.length_nil, List.range_succ, List.range_zero,
    List.map_nil, List.nil_append, List.map_cons, List.cons.injEq, and_true,
    Nat.add_one_sub_one, Nat.zero_add] at h2
  have h3 := lost true true 0 [0, 2] ([0, 20].map (· / (10 : ℝ) ^ 5)) 0 0
  have h4 := kept
  simp only [List.map_cons, List.map_nil] at h3
  change muModes (fun _ => 2) _ 0 true true [0, 2] _ 0 0 =
    muModes (fun _ => 2) [1, 1, 1] 0 true true [0, 2] [0, 20] 0 0 at h2
  rw [h3] at h2
  omega

end Verif.LengthUnits
