import Verif.Lemmas.RandomField
import Verif.Props.PowerSpectrum
import Mathlib.Probability.Independence.Basic
import Mathlib.Probability.ProductMeasure
import Mathlib.Analysis.Real.Pi.Bounds
/-!
# Gaussian random fields

C104: the power spectrum of the fields that `make_gaussian_random_field` makes.
-/

namespace Verif.RandomField
open Verif.Convolve Verif.PowerSpectrum MeasureTheory ProbabilityTheory

variable {d : ℕ} {Ω : Type} [MeasurableSpace Ω]

/-- The two arrays hold independent standard normal numbers. -/
structure Normal (μ : Measure Ω) (s : Fin d → ℕ) (a b : Ω → (Fin d → ℤ) → ℝ) : Prop where
  indep : iIndepFun (fun (p : {x // x ∈ box s} × Bool) ω => if p.2 then a ω p.1 else b ω p.1) μ
  law : ∀ (p : {x // x ∈ box s} × Bool),
    HasLaw (fun ω => if p.2 then a ω p.1 else b ω p.1) (gaussianReal 0 1) μ

variable {μ : Measure Ω} [IsProbabilityMeasure μ]

theorem Normal.square {s : Fin d → ℕ} {a b : Ω → (Fin d → ℤ) → ℝ} (h : Normal μ s a b) {x : Fin d → ℤ}
    (hx : x ∈ box s) :
    (Integrable (fun ω => a ω x ^ 2) μ ∧ ∫ ω, a ω x ^ 2 ∂μ = 1) ∧
      Integrable (fun ω => b ω x ^ 2) μ ∧ ∫ ω, b ω x ^ 2 ∂μ = 1 := by
  have h1 := normal_moments (h.law (⟨x, hx⟩, true))
  have h2 := normal_moments (h.law (⟨x, hx⟩, false))
  exact ⟨⟨h1.2.1, h1.2.2.1⟩, h2.2.1, h2.2.2.1⟩

theorem Normal.cross {s : Fin d → ℕ} {a b : Ω → (Fin d → ℤ) → ℝ} (h : Normal μ s a b) {x y : Fin d → ℤ}
    (hx : x ∈ box s) (hy : y ∈ box s) (hxy : x ≠ y) :
    (Integrable (fun ω => a ω x * a ω y) μ ∧ ∫ ω, a ω x * a ω y ∂μ = 0) ∧
      Integrable (fun ω => b ω x * b ω y) μ ∧ ∫ ω, b ω x * b ω y ∂μ = 0 := by
  have h1 := indep_moments (h.law (⟨x, hx⟩, true)) (h.law (⟨y, hy⟩, true))
    (h.indep.indepFun (by intro e; exact hxy (congrArg (fun p => (p.1 : Fin d → ℤ)) e)))
  have h2 := indep_moments (h.law (⟨x, hx⟩, false)) (h.law (⟨y, hy⟩, false))
    (h.indep.indepFun (by intro e; exact hxy (congrArg (fun p => (p.1 : Fin d → ℤ)) e)))
  exact ⟨h1, h2⟩

/-- The expected power of a mode whose amplitude is made from those of two cells. -/
theorem expected_square {s : Fin d → ℕ} {a b : Ω → (Fin d → ℤ) → ℝ} (h : Normal μ s a b) {x y : Fin d → ℤ}
    (hx : x ∈ box s) (hy : y ∈ box s) (f : (Fin d → ℤ) → ℝ) :
    ∫ ω, ((a ω x * f x + a ω y * f y) ^ 2 + (b ω x * f x - b ω y * f y) ^ 2) / 4 ∂μ =
      (f x ^ 2 + f y ^ 2) / 2 := by
  by_cases hxy : x = y
  · subst hxy
    have hh := h.square hx
    rw [show (fun ω => ((a ω x * f x + a ω x * f x) ^ 2 + (b ω x * f x - b ω x * f x) ^ 2) / 4) =
      fun ω => a ω x ^ 2 * f x ^ 2 from by funext ω; ring, integral_mul_const, hh.1.2]
    ring
  · have hh := h.square hx
    have hk := h.square hy
    have hc := h.cross hx hy hxy
    have e : (fun ω => ((a ω x * f x + a ω y * f y) ^ 2 + (b ω x * f x - b ω y * f y) ^ 2) / 4) =
        fun ω => (a ω x ^ 2 * (f x ^ 2 / 4) + a ω y ^ 2 * (f y ^ 2 / 4) + a ω x * a ω y * (f x * f y / 2)) +
          (b ω x ^ 2 * (f x ^ 2 / 4) + b ω y ^ 2 * (f y ^ 2 / 4) + b ω x * b ω y * (-(f x * f y) / 2)) := by
      funext ω
      ring
    have ia := hh.1.1.mul_const (f x ^ 2 / 4)
    have ia' := hk.1.1.mul_const (f y ^ 2 / 4)
    have iaa := hc.1.1.mul_const (f x * f y / 2)
    have ib := hh.2.1.mul_const (f x ^ 2 / 4)
    have ib' := hk.2.1.mul_const (f y ^ 2 / 4)
    have ibb := hc.2.1.mul_const (-(f x * f y) / 2)
    rw [e]
    change ∫ ω, (((((fun ω => a ω x ^ 2 * (f x ^ 2 / 4)) + fun ω => a ω y ^ 2 * (f y ^ 2 / 4)) +
      fun ω => a ω x * a ω y * (f x * f y / 2)) + (((fun ω => b ω x ^ 2 * (f x ^ 2 / 4)) +
        fun ω => b ω y ^ 2 * (f y ^ 2 / 4)) + fun ω => b ω x * b ω y * (-(f x * f y) / 2))) : Ω → ℝ) ω ∂μ = _
    rw [integral_add' ((ia.add ia').add iaa) ((ib.add ib').add ibb), integral_add' (ia.add ia') iaa,
      integral_add' ia ia', integral_add' (ib.add ib') ibb, integral_add' ib ib']
    rw [integral_mul_const, integral_mul_const, integral_mul_const, integral_mul_const, integral_mul_const,
      integral_mul_const, hh.1.2, hk.1.2, hc.1.2, hh.2.2, hk.2.2, hc.2.2]
    ring

theorem md_twice (s : Fin d → ℕ) (i : Fin d → ℤ) :
    md s (fun j => md s (md s fun j => i j - (s j / 2 : ℕ)) j - (s j / 2 : ℕ)) =
      md s (fun j => i j - 2 * (s j / 2 : ℕ)) := by
  funext j
  simp only [md]
  generalize s j / 2 = c
  rw [Int.emod_emod, Int.sub_emod, Int.emod_emod, ← Int.sub_emod]
  congr 1
  ring

theorem md_back (s : Fin d → ℕ) (i : Fin d → ℤ) :
    md s (fun j => md s (-(md s fun j => i j - (s j / 2 : ℕ))) j - (s j / 2 : ℕ)) = md s (-i) := by
  funext j
  simp only [md, Pi.neg_apply]
  generalize s j / 2 = c
  rw [Int.sub_emod, Int.emod_emod, ← Int.sub_emod]
  rw [show -((i j - (c : ℤ)) % (s j : ℤ)) - c = -c - (i j - c) % (s j : ℤ) by ring, Int.sub_emod, Int.emod_emod,
    ← Int.sub_emod]
  congr 1
  ring

theorem scale_pos {s : Fin d → ℕ} (hs : ∀ j, 0 < s j) {L : List ℝ} (hL : ∀ x ∈ L, 0 < x) : 0 < scale s L := by
  have h1 : 0 < L.prod := List.prod_pos hL
  have h2 : (0 : ℝ) < ∏ j, (s j : ℝ) := Finset.prod_pos fun j _ => by exact_mod_cast hs j
  unfold scale
  positivity

/-- The power of the field at an index, by the random numbers. -/
theorem power_eq {s : Fin d → ℕ} (hs : ∀ j, 0 < s j) (L : List ℝ) (P : ℝ → ℝ) (kmin : ℝ)
    (a b : (Fin d → ℤ) → ℝ) (i : Fin d → ℤ) :
    let x := md s (fun j => i j - 2 * (s j / 2 : ℕ))
    let y := md s (-i)
    let f := fun k => Real.sqrt (P (kFixed s L kmin k) / scale s L)
    (powerNd L ⟨s, fun x => (ifftn s (shift s (amplitudes a b s L P kmin)) x).re⟩).val i =
      ((a x * f x + a y * f y) ^ 2 + (b x * f x - b y * f y) ^ 2) / 4 * scale s L := by
  intro x y f
  simp only [powerNd]
  congr 1
  simp only [shift]
  rw [fftn_re, fftn_ifftn s hs, fftn_ifftn s hs, ← Complex.normSq_eq_norm_sq]
  have e1 : md s (fun j => md s (md s fun j => i j - ((s j / 2 : ℕ) : ℤ)) j - ((s j / 2 : ℕ) : ℤ)) = x := md_twice s i
  have e2 : md s (fun j => md s (-(md s fun j => i j - ((s j / 2 : ℕ) : ℤ))) j - ((s j / 2 : ℕ) : ℤ)) = y := md_back s i
  simp only [shift]
  rw [e1, e2]
  have hz : ∀ k, amplitudes a b s L P kmin k = ⟨a k * f k, b k * f k⟩ := by
    intro k
    unfold amplitudes
    apply Complex.ext <;> simp [f]
  rw [hz, hz, Complex.normSq_apply]
  have r : ((⟨a x * f x, b x * f x⟩ + (starRingEnd ℂ) ⟨a y * f y, b y * f y⟩ : ℂ) / 2).re =
      (a x * f x + a y * f y) / 2 := by simp
  have m : ((⟨a x * f x, b x * f x⟩ + (starRingEnd ℂ) ⟨a y * f y, b y * f y⟩ : ℂ) / 2).im =
      (b x * f x - b y * f y) / 2 := by simp [sub_eq_add_neg]
  rw [r, m]
  ring

theorem made (LB : ℝ) (a b : (Fin d → ℤ) → ℝ) (s : Fin d → ℕ) (dims : Dims) (P : ℝ → ℝ) {L : List ℝ} {kmin : ℝ}
    (hd : d = 2 ∨ d = 3) (hL : getDims LB d dims = .ok L) (hlen : L.length = d) (hk : kMin s L = .ok kmin) :
    makeField LB a b s dims P =
      .ok ⟨s, fun x => (ifftn s (shift s (amplitudes a b s L P kmin)) x).re⟩ := by
  unfold makeField
  rw [if_pos hd, hL]
  simp only []
  rw [if_pos hlen, hk]

/-- The expected power at an index is the mean of the requested powers at two cells. -/
theorem expected_power {s : Fin d → ℕ} (hs : ∀ j, 0 < s j) {L : List ℝ} (hL : ∀ x ∈ L, 0 < x) (P : ℝ → ℝ)
    (hP : ∀ k, 0 ≤ P k) (kmin : ℝ) {a b : Ω → (Fin d → ℤ) → ℝ} (h : Normal μ s a b) (i : Fin d → ℤ) :
    ∫ ω, (powerNd L ⟨s, fun x => (ifftn s (shift s (amplitudes (a ω) (b ω) s L P kmin)) x).re⟩).val i ∂μ =
      (P (kFixed s L kmin (md s (fun j => i j - 2 * (s j / 2 : ℕ)))) + P (kFixed s L kmin (md s (-i)))) / 2 := by
  have hsc := scale_pos hs hL
  rw [show (fun ω => (powerNd L ⟨s, fun x => (ifftn s (shift s (amplitudes (a ω) (b ω) s L P kmin)) x).re⟩).val i) =
    fun ω => _ from funext fun ω => power_eq hs L P kmin (a ω) (b ω) i]
  rw [integral_mul_const, expected_square h (md_mem s hs _) (md_mem s hs _)
    (fun k => Real.sqrt (P (kFixed s L kmin k) / scale s L))]
  rw [Real.sq_sqrt (div_nonneg (hP _) hsc.le), Real.sq_sqrt (div_nonneg (hP _) hsc.le)]
  field_simp

/-! ## C104 -/

/-- The smallest wave number of a mode that is not zero. -/
def Least (s : Fin d → ℕ) (L : List ℝ) (k : ℝ) : Prop :=
  IsLeast {k | 0 < k ∧ ∃ i ∈ box s, k = waveNumber s L i} k

/-- The wave number for which the power of a mode is requested: its own, or for the mean of the field a tenth of the
smallest one. -/
noncomputable def requested (s : Fin d → ℕ) (L : List ℝ) (kmin : ℝ) (i : Fin d → ℤ) : ℝ :=
  open Classical in if waveNumber s L i = 0 then kmin / 10 else waveNumber s L i

theorem kMin_ok {s : Fin d → ℕ} {L : List ℝ} (hk : ∀ i, kMag s L i = waveNumber s L i) {i : Fin d → ℤ}
    (hi : i ∈ box s) (h : waveNumber s L i ≠ 0) : ∃ k, kMin s L = .ok k ∧ Least s L k := by
  classical
  have habs : ∀ i, |kMag s L i| = waveNumber s L i := by
    intro i
    rw [hk]
    exact abs_of_nonneg (Real.sqrt_nonneg _)
  have hmem : waveNumber s L i ∈ (((box s).image fun i => |kMag s L i|).filter fun x => x ≠ 0) := by
    rw [Finset.mem_filter, Finset.mem_image]
    exact ⟨⟨i, hi, habs i⟩, h⟩
  obtain ⟨k, hkm⟩ := Finset.min_of_mem hmem
  have hk2 := Finset.mem_of_min hkm
  refine ⟨k, ?_, ?_⟩
  · unfold kMin
    convert (rfl : (match (k : WithTop ℝ) with
      | some m => Except.ok m
      | none => .error .value : Except Err ℝ) = .ok k) using 2
    rw [← hkm]
    congr
  · rw [Finset.mem_filter, Finset.mem_image] at hk2
    obtain ⟨⟨j, hj, e⟩, hne⟩ := hk2
    rw [habs] at e
    refine ⟨⟨lt_of_le_of_ne ?_ hne.symm, j, hj, e.symm⟩, ?_⟩
    · rw [← e]
      exact Real.sqrt_nonneg _
    · rintro x ⟨hx, j', hj', rfl⟩
      refine Finset.min_le_of_eq ?_ hkm
      rw [Finset.mem_filter, Finset.mem_image]
      exact ⟨⟨j', hj', habs j'⟩, hx.ne'⟩

/-- The wave number of the mode opposite to that at `i`. -/
theorem wave_opposite {s : Fin d → ℕ} (hs : ∀ j, s j % 2 = 0) (L : List ℝ) {i : Fin d → ℤ} (hi : i ∈ box s) :
    waveNumber s L (md s (-i)) = waveNumber s L i := by
  unfold waveNumber
  congr 1
  refine Finset.sum_congr rfl fun j _ => ?_
  have h := (mem_box _ _).mp hi j
  have hj := hs j
  have : md s (-i) j = if i j = 0 then 0 else s j - i j := by
    simp only [md, Pi.neg_apply]
    split
    · next e => rw [e]; simp
    · next e =>
      rw [← Int.add_emod_right, Int.emod_eq_of_lt] <;> omega
  rw [this]
  obtain ⟨c, hc⟩ : ∃ c, s j = 2 * c := ⟨s j / 2, by omega⟩
  have hc2 : s j / 2 = c := by omega
  rw [hc2, hc]
  split
  · next e => rw [e]
  · push_cast
    ring

/-- **C104 (part).**  In three dimensions with even numbers of cells, each mode of the fields that
`make_gaussian_random_field` makes has on average the power requested for its wave number, with independent standard
normal random numbers.  For the mean of the field, that is the power at a tenth of the smallest wave number. -/
theorem C104_partial (LB : ℝ) (s : Fin 3 → ℕ) (hs : ∀ j, 0 < s j) (he : ∀ j, s j % 2 = 0) (dims : Dims) {L : List ℝ}
    (hL : getDims LB 3 dims = .ok L) (hlen : L.length = 3) (hpos : ∀ x ∈ L, 0 < x) (P : ℝ → ℝ) (hP : ∀ k, 0 ≤ P k)
    {a b : Ω → (Fin 3 → ℤ) → ℝ} (h : Normal μ s a b) :
    ∃ kmin, Least s L kmin ∧ ∃ field : Ω → Arr (Fin 3) ℝ,
      (∀ ω, makeField LB (a ω) (b ω) s dims P = .ok (field ω) ∧ (field ω).shape = s) ∧
      ∀ i ∈ box s, ∫ ω, (powerNd L (field ω)).val i ∂μ = P (requested s L kmin i) := by
  have hk : ∀ i, kMag s L i = waveNumber s L i := fun i => (C50_wavenumber s L (.inl rfl) i).1 (by norm_num)
  have h0 : (fun _ => (0 : ℤ)) ∈ box s := (mem_box _ _).mpr fun j => ⟨le_refl _, by exact_mod_cast hs j⟩
  have hL0 : ∀ j : Fin 3, 0 < L.getD j 0 := by
    intro j
    have hj : (j : ℕ) < L.length := by omega
    rw [List.getD_eq_getElem _ _ hj]
    exact hpos _ (List.getElem_mem hj)
  have hne : waveNumber s L (fun _ => (0 : ℤ)) ≠ 0 := by
    unfold waveNumber
    refine (Real.sqrt_pos.mpr ?_).ne'
    refine Finset.sum_pos (fun j _ => ?_) Finset.univ_nonempty
    have h1 : 0 < s j / 2 := by
      have := hs j
      have := he j
      omega
    have h1 : (0 : ℝ) < ((s j / 2 : ℕ) : ℝ) := by exact_mod_cast h1
    have h2 := hL0 j
    have : 2 * Real.pi * (((0 : ℤ) : ℝ) - ((s j / 2 : ℕ) : ℝ)) / L.getD j 0 ≠ 0 := by
      refine div_ne_zero (mul_ne_zero (by positivity) ?_) h2.ne'
      push_cast [Int.cast_zero]
      generalize hg : ((s j / 2 : ℕ) : ℝ) = g at *
      linarith [h1, hg]
    positivity
  obtain ⟨kmin, hk1, hk2⟩ := kMin_ok hk h0 hne
  refine ⟨kmin, hk2, fun ω => ⟨s, fun x => (ifftn s (shift s (amplitudes (a ω) (b ω) s L P kmin)) x).re⟩,
    fun ω => ⟨made LB (a ω) (b ω) s dims P (.inr rfl) hL hlen hk1, rfl⟩, fun i hi => ?_⟩
  rw [expected_power hs hpos P hP kmin h i]
  have e1 : md s (fun j => i j - 2 * (s j / 2 : ℕ)) = i := by
    conv_rhs => rw [← md_of_mem hi]
    funext j
    have : 2 * (s j / 2) = s j := by have := he j; omega
    have h2 : (2 : ℤ) * ((s j / 2 : ℕ) : ℤ) = s j := by exact_mod_cast this
    simp only [md]
    rw [h2, Int.sub_emod_right]
  rw [e1]
  have e2 : kFixed s L kmin i = requested s L kmin i := by
    unfold kFixed requested
    rw [hk]
  have e3 : kFixed s L kmin (md s (-i)) = requested s L kmin i := by
    unfold kFixed requested
    rw [hk, wave_opposite he L hi]
  rw [e2, e3]
  ring

/-- Normal numbers of this kind exist. -/
theorem normal_exists (s : Fin d → ℕ) :
    Normal (Measure.pi fun _ : {x // x ∈ box s} × Bool => gaussianReal 0 1) s
      (fun ω x => if h : x ∈ box s then ω (⟨x, h⟩, true) else 0)
      (fun ω x => if h : x ∈ box s then ω (⟨x, h⟩, false) else 0) := by
  have e : (fun (p : {x // x ∈ box s} × Bool) (ω : {x // x ∈ box s} × Bool → ℝ) =>
      if p.2 then (if h : (p.1 : Fin d → ℤ) ∈ box s then ω (⟨p.1, h⟩, true) else 0)
        else (if h : (p.1 : Fin d → ℤ) ∈ box s then ω (⟨p.1, h⟩, false) else 0)) =
      fun p ω => ω p := by
    funext p ω
    obtain ⟨⟨x, hx⟩, c⟩ := p
    cases c <;> simp [hx]
  refine ⟨?_, fun p => ?_⟩
  · rw [e]
    exact iIndepFun_pi (X := fun _ => id) fun _ => aemeasurable_id
  · rw [show (fun (ω : {x // x ∈ box s} × Bool → ℝ) =>
      if p.2 then (if h : (p.1 : Fin d → ℤ) ∈ box s then ω (⟨p.1, h⟩, true) else 0)
        else (if h : (p.1 : Fin d → ℤ) ∈ box s then ω (⟨p.1, h⟩, false) else 0)) = fun ω => ω p from congrFun e p]
    exact (measurePreserving_eval (fun _ : {x // x ∈ box s} × Bool => gaussianReal 0 1) p).hasLaw

example : (∀ j, 0 < (![4, 6, 2] : Fin 3 → ℕ) j) ∧ (∀ j, (![4, 6, 2] : Fin 3 → ℕ) j % 2 = 0) ∧
    getDims 244 3 (.list [100, 150, 50]) = .ok [100, 150, 50] ∧ (∀ x ∈ [(100 : ℝ), 150, 50], 0 < x) ∧
    (∀ k : ℝ, 0 ≤ k ^ 2) ∧
    Normal (Measure.pi fun _ : {x // x ∈ box (![4, 6, 2] : Fin 3 → ℕ)} × Bool => gaussianReal 0 1) ![4, 6, 2]
      (fun ω x => if h : x ∈ box ![4, 6, 2] then ω (⟨x, h⟩, true) else 0)
      (fun ω x => if h : x ∈ box ![4, 6, 2] then ω (⟨x, h⟩, false) else 0) :=
  ⟨by decide, by decide, rfl, by intro x hx; simp at hx; rcases hx with rfl | rfl | rfl <;> norm_num, fun k => by
    positivity, normal_exists _⟩

/-! ### Where it fails -/

/-- In a cube of size `l`, a wave number in units of `2π / l`. -/
theorem kMag_cube (hd : d ≠ 1) (s : Fin d → ℕ) {l : ℝ} (hl : 0 < l) (i : Fin d → ℤ) :
    kMag s (List.replicate d l) i = 2 * Real.pi / l * Real.sqrt (∑ j, ((i j : ℝ) - center d (s j)) ^ 2) := by
  unfold kMag
  rw [if_neg hd]
  have e : ∑ j, kComp s (List.replicate d l) j i ^ 2 =
      (2 * Real.pi / l) ^ 2 * ∑ j, ((i j : ℝ) - center d (s j)) ^ 2 := by
    rw [Finset.mul_sum]
    refine Finset.sum_congr rfl fun j _ => ?_
    unfold kComp
    rw [List.getD_eq_getElem _ _ (by simp)]
    simp only [List.getElem_replicate]
    ring
  rw [e, Real.sqrt_mul (by positivity), Real.sqrt_sq (by positivity)]

/-- The power `1` at the wave number `2π / l` and `0` elsewhere. -/
noncomputable def spike (l k : ℝ) : ℝ := open Classical in if k = 2 * Real.pi / l then 1 else 0

theorem spike_nonneg (l k : ℝ) : 0 ≤ spike l k := by
  unfold spike
  split <;> norm_num

theorem spike_zero (hd : d ≠ 1) (s : Fin d → ℕ) {l : ℝ} (hl : 0 < l) (kmin : ℝ) (i : Fin d → ℤ)
    (h0 : ∑ j, ((i j : ℝ) - center d (s j)) ^ 2 ≠ 0) (h1 : ∑ j, ((i j : ℝ) - center d (s j)) ^ 2 ≠ 1) :
    spike l (kFixed s (List.replicate d l) kmin i) = 0 := by
  have hp : 0 < 2 * Real.pi / l := by positivity
  have hs0 : 0 ≤ ∑ j, ((i j : ℝ) - center d (s j)) ^ 2 := Finset.sum_nonneg fun j _ => sq_nonneg _
  have hne : kMag s (List.replicate d l) i ≠ 0 := by
    rw [kMag_cube hd s hl]
    exact mul_ne_zero hp.ne' fun e => h0 ((Real.sqrt_eq_zero hs0).mp e)
  unfold spike kFixed
  rw [if_neg hne, kMag_cube hd s hl, if_neg]
  · intro e
    apply h1
    have : Real.sqrt (∑ j, ((i j : ℝ) - center d (s j)) ^ 2) = 1 := by
      have := mul_left_cancel₀ hp.ne' (e.trans (mul_one _).symm)
      exact this
    rw [← Real.sq_sqrt hs0, this]
    norm_num

theorem kMin_any {s : Fin d → ℕ} {L : List ℝ} {i : Fin d → ℤ} (hi : i ∈ box s) (h : kMag s L i ≠ 0) :
    ∃ k, kMin s L = .ok k := by
  classical
  have hmem : |kMag s L i| ∈ (((box s).image fun i => |kMag s L i|).filter fun x => x ≠ 0) := by
    rw [Finset.mem_filter, Finset.mem_image]
    exact ⟨⟨i, hi, rfl⟩, abs_ne_zero.mpr h⟩
  obtain ⟨k, hkm⟩ := Finset.min_of_mem hmem
  refine ⟨k, ?_⟩
  unfold kMin
  convert (rfl : (match (k : WithTop ℝ) with
    | some m => Except.ok m
    | none => .error .value : Except Err ℝ) = .ok k) using 2
  rw [← hkm]
  congr

theorem wave_unit {s : Fin d → ℕ} {l : ℝ} (hl : 0 < l) {i : Fin d → ℤ}
    (h : ∑ j, ((i j : ℝ) - (s j / 2 : ℕ)) ^ 2 = 1) : waveNumber s (List.replicate d l) i = 2 * Real.pi / l := by
  unfold waveNumber
  have e : ∑ j : Fin d, (2 * Real.pi * ((i j : ℝ) - (s j / 2 : ℕ)) / (List.replicate d l).getD j 0) ^ 2 =
      (2 * Real.pi / l) ^ 2 * ∑ j, ((i j : ℝ) - (s j / 2 : ℕ)) ^ 2 := by
    rw [Finset.mul_sum]
    refine Finset.sum_congr rfl fun j _ => ?_
    rw [List.getD_eq_getElem _ _ (by simp)]
    simp only [List.getElem_replicate]
    ring
  rw [e, h, mul_one, Real.sqrt_sq (by positivity)]

/-- **C104 is false** in three dimensions for odd numbers of cells: the modes are shifted in the wrong direction, so
that a mode of wave number `2π / l` gets none of the power requested there. -/
theorem C104_false (LB : ℝ) (m : ℕ) (hm : 0 < m) {l : ℝ} (hl : 0 < l)
    {a b : Ω → (Fin 3 → ℤ) → ℝ} (h : Normal μ (fun _ => 2 * m + 1) a b) :
    ∃ field : Ω → Arr (Fin 3) ℝ, ∃ i ∈ box (fun _ : Fin 3 => 2 * m + 1),
      (∀ ω, makeField LB (a ω) (b ω) (fun _ => 2 * m + 1) (.number l) (spike l) = .ok (field ω)) ∧
      waveNumber (fun _ => 2 * m + 1) [l, l, l] i = 2 * Real.pi / l ∧ spike l (2 * Real.pi / l) = 1 ∧
      ∫ ω, (powerNd [l, l, l] (field ω)).val i ∂μ = 0 := by
  set s : Fin 3 → ℕ := fun _ => 2 * m + 1 with hsd
  have hrep : [l, l, l] = List.replicate 3 l := rfl
  have hc : (2 * m + 1) / 2 = m := by omega
  have hcen : center 3 (2 * m + 1) = m := by
    unfold center
    rw [if_pos rfl, if_neg (by omega)]
    push_cast
    ring
  have hs : ∀ j, 0 < s j := fun j => by simp [hsd]
  let i : Fin 3 → ℤ := ![m + 1, m, m]
  have i0 : i 0 = m + 1 := rfl
  have i1 : i 1 = m := rfl
  have i2 : i 2 = m := rfl
  have hi : i ∈ box s := by
    rw [mem_box]
    intro j
    match j with
    | 0 => rw [i0]; simp only [hsd]; push_cast; omega
    | 1 => rw [i1]; simp only [hsd]; push_cast; omega
    | 2 => rw [i2]; simp only [hsd]; push_cast; omega
  have hk0 : kMag s (List.replicate 3 l) i ≠ 0 := by
    rw [kMag_cube (by norm_num) s hl]
    refine mul_ne_zero (by positivity) (Real.sqrt_pos.mpr ?_).ne'
    rw [Fin.sum_univ_three, i0, i1, i2]
    simp only [hsd, hcen]
    push_cast
    have : ((m : ℝ) + 1 - m) ^ 2 = 1 := by ring
    rw [this]
    positivity
  obtain ⟨kmin, hk⟩ := kMin_any hi hk0
  refine ⟨fun ω => ⟨s, fun x => (ifftn s (shift s (amplitudes (a ω) (b ω) s (List.replicate 3 l) (spike l) kmin)) x).re⟩,
    i, hi, fun ω => made LB (a ω) (b ω) s (.number l) (spike l) (.inr rfl) rfl rfl hk, ?_, ?_, ?_⟩
  · rw [hrep]
    apply wave_unit hl
    rw [Fin.sum_univ_three, i0, i1, i2]
    simp only [hsd, hc]
    push_cast
    ring
  · unfold spike
    rw [if_pos rfl]
  · rw [hrep, expected_power hs (by intro x hx; rw [List.eq_of_mem_replicate hx]; exact hl) (spike l) (spike_nonneg l) kmin h i]
    have hy1 : ∀ j, j ≠ 0 → i j = m := by
      intro j hj
      match j with
      | 0 => exact absurd rfl hj
      | 1 => rfl
      | 2 => rfl
    have hx : ∀ j, j ≠ 0 → md s (fun j => i j - 2 * (s j / 2 : ℕ)) j = m + 1 := by
      intro j hj
      simp only [md, hsd, hc, hy1 j hj]
      rw [← Int.add_emod_right, Int.emod_eq_of_lt] <;> push_cast <;> omega
    have hy : ∀ j, j ≠ 0 → md s (-i) j = m + 1 := by
      intro j hj
      simp only [md, hsd, Pi.neg_apply, hy1 j hj]
      rw [← Int.add_emod_right, Int.emod_eq_of_lt] <;> push_cast <;> omega
    have key : ∀ x : Fin 3 → ℤ, x 1 = m + 1 → x 2 = m + 1 →
        2 ≤ ∑ j, ((x j : ℝ) - center 3 (s j)) ^ 2 := by
      intro x h1 h2
      rw [Fin.sum_univ_three, h1, h2]
      simp only [hsd, hcen]
      push_cast
      have : ((m : ℝ) + 1 - m) ^ 2 = 1 := by ring
      rw [this]
      nlinarith [sq_nonneg ((x 0 : ℝ) - m)]
    have k1 := key _ (hx 1 (by decide)) (hx 2 (by decide))
    have k2 := key _ (hy 1 (by decide)) (hy 2 (by decide))
    rw [spike_zero (by norm_num) s hl kmin _ (by linarith) (by linarith),
      spike_zero (by norm_num) s hl kmin _ (by linarith) (by linarith)]
    norm_num

example : 0 < 1 ∧ (0 : ℝ) < 100 ∧ ∃ (Ω : Type) (_ : MeasurableSpace Ω) (μ : Measure Ω) (a b : Ω → (Fin 3 → ℤ) → ℝ),
    IsProbabilityMeasure μ ∧ Normal μ (fun _ => 2 * 1 + 1) a b :=
  ⟨by norm_num, by norm_num, _, _, _, _, _, inferInstance, normal_exists _⟩

/-- **C104 is false** in two dimensions with even numbers of cells from four on: `_get_k` puts the zero of the wave
numbers between two cells, so that a mode of wave number `2π / l` gets none of the power requested there. -/
theorem C104_false_plane (LB : ℝ) (m : ℕ) (hm : 1 < m) {l : ℝ} (hl : 0 < l)
    {a b : Ω → (Fin 2 → ℤ) → ℝ} (h : Normal μ (fun _ => 2 * m) a b) :
    ∃ field : Ω → Arr (Fin 2) ℝ, ∃ i ∈ box (fun _ : Fin 2 => 2 * m),
      (∀ ω, makeField LB (a ω) (b ω) (fun _ => 2 * m) (.number l) (spike l) = .ok (field ω)) ∧
      waveNumber (fun _ => 2 * m) [l, l] i = 2 * Real.pi / l ∧ spike l (2 * Real.pi / l) = 1 ∧
      ∫ ω, (powerNd [l, l] (field ω)).val i ∂μ = 0 := by
  set s : Fin 2 → ℕ := fun _ => 2 * m with hsd
  have hrep : [l, l] = List.replicate 2 l := rfl
  have hc : (2 * m) / 2 = m := by omega
  have hcen : center 2 (2 * m) = m - 1 / 2 := by
    unfold center
    rw [if_neg (by norm_num)]
    push_cast
    ring
  have hs : ∀ j, 0 < s j := fun j => by simp only [hsd]; omega
  let i : Fin 2 → ℤ := ![m + 1, m]
  have i0 : i 0 = m + 1 := rfl
  have i1 : i 1 = m := rfl
  have hi : i ∈ box s := by
    rw [mem_box]
    intro j
    match j with
    | 0 => rw [i0]; simp only [hsd]; push_cast; omega
    | 1 => rw [i1]; simp only [hsd]; push_cast; omega
  have hx : ∑ j, ((i j : ℝ) - center 2 (s j)) ^ 2 = 5 / 2 := by
    rw [Fin.sum_univ_two, i0, i1]
    simp only [hsd, hcen]
    push_cast
    ring
  have hk0 : kMag s (List.replicate 2 l) i ≠ 0 := by
    rw [kMag_cube (by norm_num) s hl, hx]
    exact mul_ne_zero (by positivity) (Real.sqrt_pos.mpr (by norm_num)).ne'
  obtain ⟨kmin, hk⟩ := kMin_any hi hk0
  refine ⟨fun ω => ⟨s, fun x => (ifftn s (shift s (amplitudes (a ω) (b ω) s (List.replicate 2 l) (spike l) kmin)) x).re⟩,
    i, hi, fun ω => made LB (a ω) (b ω) s (.number l) (spike l) (.inl rfl) rfl rfl hk, ?_, ?_, ?_⟩
  · rw [hrep]
    apply wave_unit hl
    rw [Fin.sum_univ_two, i0, i1]
    simp only [hsd, hc]
    push_cast
    ring
  · unfold spike
    rw [if_pos rfl]
  · rw [hrep, expected_power hs (by intro x hx; rw [List.eq_of_mem_replicate hx]; exact hl) (spike l) (spike_nonneg l) kmin h i]
    have e1 : md s (fun j => i j - 2 * (s j / 2 : ℕ)) = i := by
      conv_rhs => rw [← md_of_mem hi]
      funext j
      simp only [md, hsd, hc]
      push_cast
      rw [Int.sub_emod_right]
    have y0 : md s (-i) 0 = m - 1 := by
      simp only [md, hsd, Pi.neg_apply, i0]
      rw [← Int.add_emod_right, Int.emod_eq_of_lt] <;> push_cast <;> omega
    have y1 : md s (-i) 1 = m := by
      simp only [md, hsd, Pi.neg_apply, i1]
      rw [← Int.add_emod_right, Int.emod_eq_of_lt] <;> push_cast <;> omega
    have hy : ∑ j, ((md s (-i) j : ℝ) - center 2 (s j)) ^ 2 = 1 / 2 := by
      rw [Fin.sum_univ_two, y0, y1]
      simp only [hsd, hcen]
      push_cast
      ring
    rw [e1, spike_zero (by norm_num) s hl kmin i (by rw [hx]; norm_num) (by rw [hx]; norm_num),
      spike_zero (by norm_num) s hl kmin (md s (-i)) (by rw [hy]; norm_num) (by rw [hy]; norm_num)]
    norm_num

example : 1 < 2 ∧ (0 : ℝ) < 100 ∧ ∃ (Ω : Type) (_ : MeasurableSpace Ω) (μ : Measure Ω) (a b : Ω → (Fin 2 → ℤ) → ℝ),
    IsProbabilityMeasure μ ∧ Normal μ (fun _ => 2 * 2) a b :=
  ⟨by norm_num, by norm_num, _, _, _, _, _, inferInstance, normal_exists _⟩

/-- The inputs that `make_gaussian_random_field` refuses: fields that are neither planes nor boxes, sizes given as an
array with a number of elements other than one, sizes for another number of axes, and a single cell. -/
theorem C104_raises (LB : ℝ) (s : Fin d → ℕ) (P : ℝ → ℝ) (a b : (Fin d → ℤ) → ℝ) :
    (¬ (d = 2 ∨ d = 3) → ∀ dims, makeField LB a b s dims P = .error .assertion) ∧
    (d = 2 ∨ d = 3 → ∀ l : List ℝ, l.length ≠ 1 → makeField LB a b s (.array l) P = .error .value) ∧
    (∀ l : List ℝ, l.length ≠ d → makeField LB a b s (.list l) P = .error .assertion) ∧
    (d = 2 ∨ d = 3 → ∀ l : ℝ, makeField LB a b (fun _ => 1) (.number l) P = .error .value) := by
  classical
  refine ⟨fun h dims => ?_, fun h l hl => ?_, fun l hl => ?_, fun h l => ?_⟩
  · unfold makeField
    rw [if_neg h]
  · unfold makeField getDims
    rw [if_pos h]
    simp only []
    rw [if_neg hl]
  · unfold makeField getDims
    simp only []
    rw [if_neg hl, ite_self]
  · unfold makeField getDims
    rw [if_pos h]
    simp only []
    rw [if_pos (by simp)]
    have : kMin (fun _ : Fin d => 1) (List.replicate d l) = .error .value := by
      have he : ((((box fun _ : Fin d => 1).image fun i => |kMag (fun _ => 1) (List.replicate d l) i|).filter
          fun x => x ≠ 0)) = ∅ := by
        rw [Finset.filter_eq_empty_iff]
        intro x hx
        rw [Finset.mem_image] at hx
        obtain ⟨i, hi, rfl⟩ := hx
        have h0 : ∀ j, i j = 0 := fun j => by
          have := (mem_box _ _).mp hi j
          push_cast at this
          omega
        have hc : center d 1 = 0 := by
          unfold center
          split <;> norm_num
        rw [not_not, abs_eq_zero]
        unfold kMag kComp
        simp [h0, hc]
      unfold kMin
      convert (rfl : (match (⊤ : WithTop ℝ) with
        | some m => Except.ok m
        | none => .error .value : Except Err ℝ) = .error .value) using 2
      rw [← Finset.min_empty, ← he]
      congr
    rw [this]

example : ¬ (4 = 2 ∨ 4 = 3) ∧ ((2 : ℕ) = 2 ∨ 2 = 3) ∧ [(100 : ℝ), 100].length ≠ 1 ∧ [(100 : ℝ)].length ≠ 2 := by
  refine ⟨by decide, by decide, by simp, by simp⟩

end Verif.RandomField
