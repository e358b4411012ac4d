import Verif.Props.MirroredSpectra
/-!
# C257: a constant added to the data shows in the zero mode only
-/

namespace Verif.ConstantSpectra
open Verif.Convolve Verif.PowerSpectrum Verif.CrossSpectrum Complex

variable {d : ℕ}

/-! ## Specification -/

/-- `b` is the array `a` with `c` added to every cell. -/
def Raised (c : ℝ) (a b : Arr (Fin d) ℝ) : Prop := b.shape = a.shape ∧ ∀ x ∈ box a.shape, b.val x = a.val x + c

/-! ## Proofs -/

/-- The cell of the zero mode in the shifted spectrum. -/
def middle (s : Fin d → ℕ) : Fin d → ℤ := fun j => ((s j / 2 : ℕ) : ℤ)

theorem fftn_raised {c : ℝ} {a b : Arr (Fin d) ℝ} (h : Raised c a b) (hs : ∀ j, 0 < a.shape j) (k : Fin d → ℤ)
    (hk : ∃ j, ¬ (a.shape j : ℤ) ∣ k j) :
    fftn b.shape (fun x => (b.val x : ℂ)) k = fftn a.shape (fun x => (a.val x : ℂ)) k := by
  have e : fftn b.shape (fun x => (b.val x : ℂ)) k =
      fftn a.shape (fun x => (a.val x : ℂ)) k + (c : ℂ) * fftn a.shape (fun _ => (1 : ℂ)) k := by
    rw [h.1]
    unfold fftn
    rw [Finset.mul_sum, ← Finset.sum_add_distrib]
    refine Finset.sum_congr rfl fun x hx => ?_
    beta_reduce
    rw [h.2 x hx]
    push_cast
    ring
  have z : fftn a.shape (fun _ => (1 : ℂ)) k = 0 := by
    have hm := sum_modes a.shape hs (-k)
    rw [if_neg (by
      intro hc
      obtain ⟨j, hj⟩ := hk
      exact hj ((Int.dvd_neg).1 (hc j)))] at hm
    rw [← hm]
    unfold fftn
    refine Finset.sum_congr rfl fun x _ => ?_
    rw [one_mul, neg_mul, ← mul_neg, ← Finset.sum_neg_distrib]
    refine congrArg (fun t => exp (2 * Real.pi * I * t)) (Finset.sum_congr rfl fun j _ => ?_)
    simp only [Pi.neg_apply]
    push_cast
    ring
  rw [e, z, mul_zero, add_zero]

theorem power_raised {c : ℝ} {a b : Arr (Fin d) ℝ} (h : Raised c a b) (hs : ∀ j, 0 < a.shape j) (L : List ℝ) {i : Fin d → ℤ}
    (hi : i ∈ box a.shape) (hm : i ≠ middle a.shape) : (powerNd L b).val i = (powerNd L a).val i := by
  have hsb : ∀ j, 0 < b.shape j := fun j => by rw [h.1]; exact hs j
  obtain ⟨j, hj⟩ : ∃ j, i j ≠ middle a.shape j := by
    by_contra hc
    push Not at hc
    exact hm (funext hc)
  have hij := (mem_box _ _).1 hi j
  have hsj := hs j
  have key : fftn b.shape (fun x => (b.val x : ℂ)) (fun j => i j - ((a.shape j / 2 : ℕ) : ℤ)) =
      fftn a.shape (fun x => (a.val x : ℂ)) (fun j => i j - ((a.shape j / 2 : ℕ) : ℤ)) := by
    refine fftn_raised h hs _ ⟨j, ?_⟩
    rintro ⟨q, hq⟩
    unfold middle at hj
    have hb : |i j - ((a.shape j / 2 : ℕ) : ℤ)| < a.shape j := by
      rw [abs_lt]
      omega
    rw [hq, abs_mul, abs_of_nonneg (Int.natCast_nonneg _)] at hb
    have hq0 : |q| < 1 := by
      by_contra hc
      push Not at hc
      nlinarith
    rw [Int.abs_lt_one_iff.1 hq0, mul_zero] at hq
    omega
  simp only [powerNd, shift]
  rw [fftn_md _ hsb, fftn_md _ hs, h.1] at *
  rw [← h.1]
  simp only [h.1] at key ⊢
  rw [key]

theorem average_congr (s : Fin d → ℕ) (k v w : (Fin d → ℤ) → ℝ) (e : List ℝ) (b : ℕ)
    (h : ∀ i ∈ box s, inBin e b (k i) → v i = w i) : average s k v e b = average s k w e b := by
  classical
  unfold average
  rw [Finset.sum_congr rfl fun i hi => h i (Finset.mem_filter.1 hi).1 (Finset.mem_filter.1 hi).2]

/-- The origin of `_get_k` is the cell of the zero mode. -/
def Centred (s : Fin d → ℕ) : Prop := d = 3 ∨ ∀ j, s j % 2 = 1

theorem kComp_middle {s : Fin d → ℕ} (h : Centred s) (L : List ℝ) (j : Fin d) : kComp s L j (middle s) = 0 := by
  have hc : (middle s j : ℝ) = center d (s j) := by
    have hn : ((s j / 2 : ℕ) : ℝ) * 2 + ((s j % 2 : ℕ) : ℝ) = s j := by
      have := Nat.div_add_mod' (s j) 2
      exact_mod_cast this
    have hcast : (middle s j : ℝ) = ((s j / 2 : ℕ) : ℝ) := by
      unfold middle
      norm_cast
    rw [hcast]
    unfold center
    rcases Nat.mod_two_eq_zero_or_one (s j) with h0 | h0
    · rcases h with h | h
      · rw [if_pos h, if_pos h0]
        rw [h0] at hn
        generalize ((s j / 2 : ℕ) : ℝ) = q at *
        push_cast at hn
        linarith
      · rw [h j] at h0
        cases h0
    · have e : ((s j / 2 : ℕ) : ℝ) = ((s j : ℝ) - 1) / 2 := by
        rw [h0] at hn
        generalize ((s j / 2 : ℕ) : ℝ) = q at *
        push_cast at hn
        linarith
      rw [e, if_neg (by omega : ¬ s j % 2 = 0)]
      simp
  unfold kComp
  rw [hc]
  simp

theorem kMag_middle {s : Fin d → ℕ} (h : Centred s) (L : List ℝ) : kMag s L (middle s) = 0 := by
  unfold kMag
  simp [kComp_middle h]

theorem getD_pos {e : List ℝ} (h : ∀ x ∈ e, 0 < x) {b : ℕ} (hb : b < e.length) : 0 < e.getD b 0 := by
  rw [List.getD_eq_getElem _ _ hb]
  exact h _ (List.getElem_mem hb)

theorem linspace_pos {a b : ℝ} (ha : 0 < a) (hb : 0 < b) (n : ℕ) : ∀ x ∈ linspace a b n, 0 < x := by
  intro x hx
  obtain ⟨i, hi, rfl⟩ := List.mem_map.1 hx
  have hi' := List.mem_range.1 hi
  rcases Nat.eq_zero_or_pos n with rfl | hn
  · simpa using ha
  · have hn' : (0 : ℝ) < n := by exact_mod_cast hn
    have hin : (i : ℝ) ≤ n := by exact_mod_cast Nat.lt_succ_iff.1 hi'
    have e : a + (i : ℝ) * ((b - a) / n) = (a * (n - i) + b * i) / n := by
      field_simp
      ring
    rw [e]
    refine div_pos ?_ hn'
    rcases Nat.eq_zero_or_pos i with rfl | h0
    · simp
      positivity
    · have : (0 : ℝ) < i := by exact_mod_cast h0
      nlinarith [mul_pos hb this, mul_nonneg ha.le (sub_nonneg.2 hin)]

theorem edges_pos {a b : ℝ} (ha : 0 < a) (hb : 0 < b) (n : ℕ) (bi : Binning) (bp : ℝ) : ∀ x ∈ edges a b n bi bp, 0 < x := by
  have hl : ∀ x ∈ logspace a b n, 0 < x := by
    intro x hx
    obtain ⟨y, _, rfl⟩ := List.mem_map.1 hx
    positivity
  intro x hx
  cases bi with
  | linear => exact linspace_pos ha hb n x hx
  | log => exact hl x hx
  | other =>
    rcases List.mem_append.1 hx with h | h
    · exact linspace_pos ha hb n x (List.mem_filter.1 h).1
    · exact hl x (List.mem_filter.1 h).1

/-- Some wave number is positive. -/
theorem exists_wave {s : Fin d → ℕ} (hs : ∀ j, 0 < s j) (hc : Centred s) (hj : ∃ j, 2 ≤ s j) {L : List ℝ} (hL : ∀ x ∈ L, 0 < x)
    (hd : d ≤ L.length) : ∃ i ∈ box s, 0 < kMag s L i := by
  obtain ⟨j, hj⟩ := hj
  have hLj : 0 < L.getD j 0 := getD_pos hL (lt_of_lt_of_le j.2 hd)
  have hpi := Real.pi_pos
  by_cases h1 : d = 1
  · subst h1
    refine ⟨fun j => (s j : ℤ) - 1, (mem_box _ _).2 fun j => ?_, ?_⟩
    · have := hs j
      omega
    · have hj0 : j = 0 := Subsingleton.elim _ _
      subst hj0
      unfold kMag
      rw [if_pos rfl]
      simp only [Finset.univ_unique, Fin.default_eq_zero, Finset.sum_singleton]
      unfold kComp center
      rw [if_neg (by norm_num)]
      have : (2 : ℝ) ≤ s 0 := by exact_mod_cast hj
      push_cast
      refine div_pos (mul_pos (by positivity) (by linarith)) hLj
  · refine ⟨0, (mem_box _ _).2 fun j => ⟨le_refl _, Int.natCast_pos.2 (hs j)⟩, ?_⟩
    unfold kMag
    rw [if_neg h1]
    refine Real.sqrt_pos.2 (lt_of_lt_of_le ?_ (Finset.single_le_sum (fun j _ => sq_nonneg (kComp s L j 0)) (Finset.mem_univ j)))
    have hce : 0 < center d (s j) := by
      have : (2 : ℝ) ≤ s j := by exact_mod_cast hj
      unfold center
      split_ifs <;> linarith
    have : kComp s L j 0 ≠ 0 := by
      unfold kComp
      simp only [Pi.zero_apply, Int.cast_zero, zero_sub]
      exact div_ne_zero (mul_ne_zero (by positivity) (neg_ne_zero.2 hce.ne')) hLj.ne'
    positivity

theorem kMax_pos {s : Fin d → ℕ} {L : List ℝ} (h : ∃ i ∈ box s, 0 < kMag s L i) {m : ℝ} (hm : kMax s L = .ok m) : 0 < m := by
  obtain ⟨i, hi, hp⟩ := h
  unfold kMax at hm
  have hle := Finset.le_max (Finset.mem_image_of_mem (kMag s L) hi)
  cases hx : ((box s).image (kMag s L)).max with
  | bot => rw [hx] at hm; cases hm
  | coe x =>
    rw [hx] at hm hle
    simp only [Except.ok.injEq] at hm
    subst hm
    exact lt_of_lt_of_le hp (WithBot.coe_le_coe.1 hle)

theorem min_pos {L : List ℝ} (hL : ∀ x ∈ L, 0 < x) (h : L ≠ []) : 0 < L.min?.getD 0 := by
  cases hm : L.min? with
  | none => exact absurd (List.min?_eq_none_iff.1 hm) h
  | some x => exact hL x (List.min?_mem hm)

theorem radial_raised {c : ℝ} {a b : Arr (Fin d) ℝ} (h : Raised c a b) (hs : ∀ j, 0 < a.shape j) (hc : Centred a.shape) (L : List ℝ)
    (dims : Dims) (kb : KBins) (bi : Binning) (bp : ℝ)
    (hk : ∀ M e, getK d dims = .ok M → getKbins a.shape M kb bi bp = .ok e → ∀ x ∈ e, 0 < x) :
    radialAverage (powerNd L b) dims kb bi bp = radialAverage (powerNd L a) dims kb bi bp := by
  unfold radialAverage
  have hsh : (powerNd L b).shape = a.shape := h.1
  have hsh' : (powerNd L a).shape = a.shape := rfl
  rw [hsh, hsh']
  cases hM : getK d dims with
  | error e => rfl
  | ok M =>
    simp only []
    cases he : getKbins a.shape M kb bi bp with
    | error e => rfl
    | ok e =>
      simp only []
      have hpos := hk M e hM he
      have : (List.range (e.length - 1)).map (average a.shape (kMag a.shape M) (powerNd L b).val e) =
          (List.range (e.length - 1)).map (average a.shape (kMag a.shape M) (powerNd L a).val e) := by
        refine List.map_congr_left fun n hn => average_congr _ _ _ _ _ _ fun i hi hin => power_raised h hs L hi ?_
        rintro rfl
        have h1 := hin.1
        rw [kMag_middle hc] at h1
        have hlt := List.mem_range.1 hn
        have := getD_pos hpos (b := n) (by omega)
        linarith
      rw [this]

/-! ## Theorems -/

/-- C257 for `power_spectrum_1d` of cubes and of arrays with odd numbers of cells, in given bins of positive wave numbers. -/
theorem C257_partial (LB c : ℝ) (a b : Arr (Fin d) ℝ) (h : Raised c a b) (hs : ∀ j, 0 < a.shape j)
    (hc : d = 3 ∨ ∀ j, a.shape j % 2 = 1) (dims : Dims) (l : List ℝ) (hl : ∀ x ∈ l, 0 < x) (bi : Binning) (bp : ℝ) :
    power1d LB b dims (.array l) bi bp = power1d LB a dims (.array l) bi bp := by
  unfold power1d
  rcases getDims LB d dims with e | L
  · rfl
  · refine radial_raised h hs hc L _ _ bi bp fun M e _ he => ?_
    cases he
    exact hl

/-- C257 for `power_spectrum_1d` of cubes and of arrays with odd numbers of cells, in a number of bins, whichever binning is chosen. -/
theorem C257_number (LB c : ℝ) (a b : Arr (Fin d) ℝ) (h : Raised c a b) (hs : ∀ j, 0 < a.shape j)
    (hc : d = 3 ∨ ∀ j, a.shape j % 2 = 1) (hj : ∃ j, 2 ≤ a.shape j) (l : List ℝ) (hl : ∀ x ∈ l, 0 < x) (n : ℕ) (bi : Binning)
    (bp : ℝ) : power1d LB b (.list l) (.int n) bi bp = power1d LB a (.list l) (.int n) bi bp := by
  unfold power1d
  simp only [getDims]
  refine radial_raised h hs hc l _ _ bi bp fun M e hM he => ?_
  have hM' : M = l ∧ d ≤ l.length ∧ 0 < d := by
    unfold getK at hM
    split_ifs at hM with hd
    unfold boxOf at hM
    simp only [] at hM
    split_ifs at hM with hle
    cases hM
    exact ⟨rfl, hle, by omega⟩
  obtain ⟨rfl, hle, hd⟩ := hM'
  unfold getKbins at he
  simp only [] at he
  cases hm : kMax a.shape M with
  | error e => rw [hm] at he; cases he
  | ok m =>
    rw [hm] at he
    cases he
    have hpi := Real.pi_pos
    have hne : M ≠ [] := by
      rintro rfl
      simp at hle
      omega
    exact edges_pos (div_pos (by positivity) (min_pos hl hne)) (kMax_pos (exists_wave hs hc hj hl hle) hm) n bi bp

/-- A map of 3×5 cells raised by 7, a box of 10×20, and bins of positive wave numbers. -/
example : Raised 7 ⟨![3, 5], fun x => (x 0 : ℝ) + 10 * x 1⟩ ⟨![3, 5], fun x => (x 0 : ℝ) + 10 * x 1 + 7⟩ ∧
    (∀ j : Fin 2, ![3, 5] j % 2 = 1) ∧ (∃ j : Fin 2, 2 ≤ ![3, 5] j) ∧ (∀ x ∈ ([10, 20] : List ℝ), 0 < x) ∧
    ∀ x ∈ ([1 / 2, 1, 2] : List ℝ), 0 < x := by
  refine ⟨⟨rfl, fun x _ => rfl⟩, by decide, ⟨0, by decide⟩, ?_, ?_⟩ <;> simp

/-- C257 for `power_spectrum_mu`: the zero mode is taken out of all bins. -/
theorem C257_mu (LB c : ℝ) (a b : Arr (Fin 3) ℝ) (h : Raised c a b) (hs : ∀ j, 0 < a.shape j) (los : ℤ)
    (mub : MuBins) (kb : KBins) (dims : Dims) (w : Weights) (ex ab : Bool) :
    powerMu LB b los mub kb dims w ex ab = powerMu LB a los mub kb dims w ex ab := by
  classical
  unfold powerMu
  rcases getDims LB 3 dims with e | L
  · rfl
  · simp only []
    have hsh : (powerNd L b).shape = a.shape := h.1
    have hsh' : (powerNd L a).shape = a.shape := rfl
    have key : ∀ (M em ek : List ℝ) (l : Fin 3) (mb : ℕ),
        muAverage (powerNd L b) M l ab ex em ek mb = muAverage (powerNd L a) M l ab ex em ek mb := by
      intro M em ek l mb
      funext kb
      unfold muAverage
      simp only [hsh, hsh']
      congr 3
      refine Finset.sum_congr rfl fun i hi => ?_
      by_cases hm : i = fun j => ((a.shape j / 2 : ℕ) : ℤ)
      · rw [if_pos hm, if_pos hm]
      · rw [if_neg hm, if_neg hm, power_raised h hs L (Finset.mem_filter.1 hi).1 hm]
    unfold muBinning
    simp only [key, hsh, hsh']

theorem cylinder_raised {c : ℝ} {a b : Arr (Fin 3) ℝ} (h : Raised c a b) (hs : ∀ j, 0 < a.shape j) (L : List ℝ) (ax : Fin 3) (log : Bool)
    (e e' : List ℝ) (he : log = true ∨ (∀ x ∈ e, 0 < x) ∨ ∀ x ∈ e', 0 < x) :
    cylinder (powerNd L b) L ax log e e' = cylinder (powerNd L a) L ax log e e' := by
  classical
  have hsh : (powerNd L b).shape = a.shape := h.1
  have hsh' : (powerNd L a).shape = a.shape := rfl
  have hp : kPerp a.shape L ax (middle a.shape) = 0 := by
    unfold kPerp
    simp [kComp_middle (Or.inl rfl : Centred a.shape)]
  have hq : kPar a.shape L ax (middle a.shape) = 0 := by
    unfold kPar
    simp [kComp_middle (Or.inl rfl : Centred a.shape)]
  have key : (List.range (e.length - 1)).map (fun (n : ℕ) => (List.range (e'.length - 1)).map (cylAverage (powerNd L b) L ax log e e' n)) =
      (List.range (e.length - 1)).map (fun (n : ℕ) => (List.range (e'.length - 1)).map (cylAverage (powerNd L a) L ax log e e' n)) := by
    refine List.map_congr_left fun n hn => List.map_congr_left fun m hm => ?_
    unfold cylAverage
    rw [hsh, hsh']
    congr 3
    refine Finset.sum_congr rfl fun i hi => ?_
    obtain ⟨hi, h1, h2⟩ := Finset.mem_filter.1 hi
    refine power_raised h hs L hi ?_
    rintro rfl
    rw [hp] at h1
    rw [hq] at h2
    obtain ⟨v, hv, hv'⟩ := h1
    obtain ⟨w, hw, hw'⟩ := h2
    have hnl := List.mem_range.1 hn
    have hml := List.mem_range.1 hm
    cases log with
    | true => simp [coordinate] at hv
    | false =>
      simp only [coordinate, Bool.false_eq_true, if_false, Option.some.injEq] at hv hw
      subst hv hw
      rcases he with he | he | he
      · cases he
      · have := getD_pos he (b := n) (by omega)
        exact absurd hv'.1 (not_le.2 this)
      · have := getD_pos he (b := m) (by omega)
        exact absurd hw'.1 (not_le.2 this)
  unfold cylinder
  simp only [key, hsh, hsh']

theorem edges2_pos {s : Fin 3 → ℕ} {f : (Fin 3 → ℤ) → ℝ} (hf : ∀ i, 0 ≤ f i) {n : ℕ} {e : List ℝ}
    (h : edges2 s f n .linear = .ok e) : ∀ x ∈ e, 0 < x := by
  classical
  unfold edges2 at h
  simp only [] at h
  split at h
  · rename_i lo hi hlo hhi
    simp only [reduceCtorEq, if_false, Except.ok.injEq] at h
    subst h
    have hlo' := Finset.mem_of_min hlo
    obtain ⟨i, hi', rfl⟩ := Finset.mem_image.1 hlo'
    obtain ⟨hb, hne⟩ := Finset.mem_filter.1 hi'
    have hp : 0 < f i := lt_of_le_of_ne (hf i) (Ne.symm hne)
    have hle := Finset.le_max_of_eq (Finset.mem_image_of_mem f hb) hhi
    exact linspace_pos hp (lt_of_lt_of_le hp hle) n
  · cases h

/-- C257 for `power_spectrum_2d`: in numbers of bins of either kind, and in given bins which are positive in one direction. -/
theorem C257_cylinder (LB c : ℝ) (a b : Arr (Fin 3) ℝ) (h : Raised c a b) (hs : ∀ j, 0 < a.shape j) (nu : ℤ)
    (kb : KBins2) (hk : ∀ e e', kb = .listEdges e e' → (∀ x ∈ e, 0 < x) ∨ ∀ x ∈ e', 0 < x) (bi : Binning) (dims : Dims) :
    power2d LB b kb bi dims nu = power2d LB a kb bi dims nu := by
  classical
  unfold power2d
  rcases getDims LB 3 dims with e | L
  · rfl
  · simp only []
    rcases getK 3 (.list L) with e | M
    · rfl
    · simp only [h.1]
      by_cases hnu : 0 ≤ nu ∧ nu < 3
      · rw [dif_pos hnu, dif_pos hnu]
        generalize (⟨nu.toNat, by omega⟩ : Fin 3) = ax
        have key : ∀ n m,
            (match edges2 a.shape (kPerp a.shape M ax) n bi, edges2 a.shape (kPar a.shape M ax) m bi with
              | .ok e, .ok e' => cylinder (powerNd M b) M ax (decide (bi = Binning.log)) e e'
              | .error e, _ => .error e
              | _, .error e => .error e) =
            (match edges2 a.shape (kPerp a.shape M ax) n bi, edges2 a.shape (kPar a.shape M ax) m bi with
              | .ok e, .ok e' => cylinder (powerNd M a) M ax (decide (bi = Binning.log)) e e'
              | .error e, _ => .error e
              | _, .error e => .error e) := by
          intro n m
          cases h1 : edges2 a.shape (kPerp a.shape M ax) n bi with
          | error e => rfl
          | ok e =>
            cases h2 : edges2 a.shape (kPar a.shape M ax) m bi with
            | error e => rfl
            | ok e' =>
              refine cylinder_raised h hs M ax _ e e' ?_
              cases bi with
              | log => left; simp
              | other => simp [edges2] at h1
              | linear => exact Or.inr (Or.inl (edges2_pos (fun i => Real.sqrt_nonneg _) h1))
        cases kb with
        | int n => exact key n n
        | tuple n m => exact key n m
        | listInts n m => rfl
        | listEdges e e' => exact cylinder_raised h hs M ax _ e e' (Or.inr (hk e e' rfl))
      · rw [dif_neg hnu, dif_neg hnu]

/-- Bins across the line of sight that begin at zero, along with others along it that do not. -/
example : ∀ e e', KBins2.listEdges [0, 1, 2] [1 / 2, 1] = .listEdges e e' → (∀ x ∈ e, (0 : ℝ) < x) ∨ ∀ x ∈ e', (0 : ℝ) < x := by
  intro e e' h
  cases h
  right
  simp

/-! ### Maps with even numbers of cells -/

/-- C257 fails for maps with even numbers of cells: `_get_k` gives the zero mode a positive wave number. -/
theorem C257_false : ¬ ∀ (LB c : ℝ) (a b : Arr (Fin 2) ℝ), Raised c a b → (∀ j, 0 < a.shape j) → ∀ (dims : Dims) (l : List ℝ),
    (∀ x ∈ l, 0 < x) → ∀ (bi : Binning) (bp : ℝ), power1d LB b dims (.array l) bi bp = power1d LB a dims (.array l) bi bp := by
  classical
  intro H
  have hpi := Real.pi_pos
  let A : ℝ → Arr (Fin 2) ℝ := fun c => ⟨fun _ => 2, fun _ => c⟩
  have h := H 1 1 (A 0) (A 1) ⟨rfl, fun x _ => by simp [A]⟩ (fun j => by simp [A]) (.list [1, 1]) [Real.pi, 2 * Real.pi]
    (by intro x hx; simp at hx; rcases hx with rfl | rfl <;> positivity) .log 0
  have hpw : [Real.pi, 2 * Real.pi].Pairwise (· ≤ ·) := by
    simp only [List.pairwise_cons, List.mem_singleton, forall_eq, List.not_mem_nil, false_imp_iff, implies_true, List.Pairwise.nil, and_true]
    linarith
  have e : ∀ a : Arr (Fin 2) ℝ, power1d 1 a (.list [1, 1]) (.array [Real.pi, 2 * Real.pi]) .log 0 = .ok
      { data := (List.range 1).map (average a.shape (kMag a.shape [1, 1]) (powerNd [1, 1] a).val [Real.pi, 2 * Real.pi])
        bins := centres [Real.pi, 2 * Real.pi]
        modes := (List.range 1).map (nModes a.shape (kMag a.shape [1, 1]) [Real.pi, 2 * Real.pi]) } := by
    intro a
    unfold power1d radialAverage
    simp only [getDims, getK, boxOf, getKbins]
    rw [if_pos (by norm_num)]
    simp only [List.length_cons, List.length_nil, if_true, zero_add, Nat.reduceAdd, le_refl]
    rw [if_pos hpw]
    rfl
  rw [e, e] at h
  have h2 := congrArg (fun r : Except Err Radial => match r with | .ok r => r.data | .error _ => []) h
  simp only [List.range_one, List.map_cons, List.map_nil, List.cons.injEq, and_true] at h2
  have hk : ∀ c, ∀ i ∈ box (A c).shape, inBin [Real.pi, 2 * Real.pi] 0 (kMag (A c).shape [1, 1] i) := by
    intro c i hi
    have hb := (mem_box _ _).1 hi
    have hc : ∀ j, kComp (A c).shape [1, 1] j i ^ 2 = Real.pi ^ 2 := by
      intro j
      have hj : i j = 0 ∨ i j = 1 := by
        have h1 : 0 ≤ i j ∧ i j < 2 := hb j
        omega
      unfold kComp
      have hL : ([1, 1] : List ℝ).getD j 0 = 1 := by fin_cases j <;> rfl
      rw [hL, div_one]
      rcases hj with hj | hj <;> rw [hj] <;> norm_num [center, A] <;> ring
    have hm : kMag (A c).shape [1, 1] i = Real.pi * Real.sqrt 2 := by
      unfold kMag
      rw [if_neg (by norm_num)]
      simp only [hc, Fin.sum_univ_two]
      rw [← mul_two, Real.sqrt_mul (by positivity), Real.sqrt_sq hpi.le]
    rw [hm]
    have h1 : 1 ≤ Real.sqrt 2 := by rw [Real.one_le_sqrt]; norm_num
    have h3 : Real.sqrt 2 < 2 := by rw [Real.sqrt_lt' (by norm_num)]; norm_num
    refine ⟨?_, Or.inl ?_⟩
    · simp only [List.getD_cons_zero]
      nlinarith
    · simp only [List.getD_cons_succ, List.getD_cons_zero, zero_add]
      nlinarith
  have hcard : ∀ c, (box (A c).shape).card = 4 := fun c => by
    have : box (A c).shape = box (fun _ : Fin 2 => 2) := rfl
    rw [this]
    decide
  have havg : ∀ c v, average (A c).shape (kMag (A c).shape [1, 1]) v [Real.pi, 2 * Real.pi] 0 = some ((∑ i ∈ box (A c).shape, v i) / 4) := by
    intro c v
    unfold average nModes
    rw [Finset.filter_true_of_mem (hk c), hcard, if_neg (by norm_num)]
    norm_num
  rw [havg, havg, Option.some.injEq, div_left_inj' (by norm_num)] at h2
  have z : ∑ i ∈ box (A 0).shape, (powerNd [1, 1] (A 0)).val i = 0 := by
    refine Finset.sum_eq_zero fun i _ => ?_
    simp [powerNd, shift, fftn, A]
  rw [z] at h2
  have hn : ∀ i ∈ box (A 1).shape, 0 ≤ (powerNd [1, 1] (A 1)).val i := by
    intro i _
    simp only [powerNd]
    unfold scale
    simp only [List.prod_cons, List.prod_nil]
    positivity
  have h0 := (Finset.sum_eq_zero_iff_of_nonneg hn).1 h2 1 ((mem_box _ _).2 fun j => by simp [A])
  simp only [powerNd, shift] at h0
  rw [fftn_md _ (fun j => by simp [A])] at h0
  have hz : (fun j : Fin 2 => (1 : Fin 2 → ℤ) j - (((A 1).shape j / 2 : ℕ) : ℤ)) = 0 := by
    funext j
    simp [A]
  rw [hz] at h0
  have hf : fftn (A 1).shape (fun x => ((A 1).val x : ℂ)) 0 = 4 := by
    unfold fftn
    have : ∀ x ∈ box (A 1).shape, ((fun x => ((A 1).val x : ℂ)) x) * exp (-(2 * Real.pi * I) *
        ∑ j, (((0 : Fin 2 → ℤ) j : ℂ) * (x j : ℂ) / ((A 1).shape j : ℂ))) = 1 := by
      intro x _
      simp [A]
    rw [Finset.sum_congr rfl this, Finset.sum_const, hcard]
    norm_num
  rw [hf] at h0
  norm_num [scale, A] at h0

end Verif.ConstantSpectra
