import Verif.Props.Noise
import Mathlib.MeasureTheory.Integral.Bochner.Basic
/-!
# Maps of thermal noise

C114: mean and covariance of the pixels of `noise_map`.
-/

namespace Verif.Noise
open Verif.Convolve Verif.PowerSpectrum Verif.Conversions Verif.Constants Verif.RandomField
open MeasureTheory ProbabilityTheory

variable {d : ℕ} {Ω : Type} [MeasurableSpace Ω] {μ : Measure Ω} [IsProbabilityMeasure μ]

/-- Moments of sums of independent standard normal numbers. -/
theorem linear_moments {J : Type} [Fintype J] [DecidableEq J] {Z : J → Ω → ℝ} (hi : iIndepFun Z μ)
    (hl : ∀ p, HasLaw (Z p) (gaussianReal 0 1) μ) (u v : J → ℝ) :
    (Integrable (fun ω => ∑ p, u p * Z p ω) μ ∧ ∫ ω, ∑ p, u p * Z p ω ∂μ = 0) ∧
    Integrable (fun ω => (∑ p, u p * Z p ω) * ∑ p, v p * Z p ω) μ ∧
    ∫ ω, (∑ p, u p * Z p ω) * ∑ p, v p * Z p ω ∂μ = ∑ p, u p * v p := by
  have hm := fun p => normal_moments (hl p)
  have hc : ∀ p q, Integrable (fun ω => Z p ω * Z q ω) μ ∧ ∫ ω, Z p ω * Z q ω ∂μ = if p = q then 1 else 0 := by
    intro p q
    by_cases h : p = q
    · subst h
      rw [if_pos rfl]
      have := hm p
      simp only [sq] at this
      exact ⟨this.2.1, this.2.2.1⟩
    · rw [if_neg h]
      exact indep_moments (hl p) (hl q) (hi.indepFun h)
  have e : (fun ω => (∑ p, u p * Z p ω) * ∑ p, v p * Z p ω) =
      fun ω => ∑ p, ∑ q, u p * v q * (Z p ω * Z q ω) := by
    funext ω
    rw [Finset.sum_mul_sum]
    refine Finset.sum_congr rfl fun p _ => Finset.sum_congr rfl fun q _ => ?_
    ring
  refine ⟨⟨integrable_finsetSum _ fun p _ => (hm p).2.2.2.const_mul _, ?_⟩, ?_, ?_⟩
  · rw [integral_finsetSum _ fun p _ => (hm p).2.2.2.const_mul _]
    refine Finset.sum_eq_zero fun p _ => ?_
    rw [integral_const_mul, (hm p).1, mul_zero]
  · rw [e]
    exact integrable_finsetSum _ fun p _ => integrable_finsetSum _ fun q _ => (hc p q).1.const_mul _
  · rw [e, integral_finsetSum _ fun p _ => integrable_finsetSum _ fun q _ => (hc p q).1.const_mul _]
    refine Finset.sum_congr rfl fun p _ => ?_
    rw [integral_finsetSum _ fun q _ => (hc p q).1.const_mul _]
    rw [Finset.sum_congr rfl fun q _ => by rw [integral_const_mul, (hc p q).2]]
    simp

/-! ## C114 -/

/-- Specification: the Blackman-Harris window of `n` samples. -/
noncomputable def harris (n : ℕ) (j : ℤ) : ℝ :=
  0.35875 - 0.48829 * Real.cos (2 * Real.pi * j / (n - 1)) + 0.14128 * Real.cos (4 * Real.pi * j / (n - 1)) -
    0.01168 * Real.cos (6 * Real.pi * j / (n - 1))

/-- Specification: the taper of the Fourier cell `i`; the cell zero is in the middle of the window. -/
noncomputable def taper (n : ℕ) (i : Fin 2 → ℤ) : ℝ :=
  harris n ((i 0 - n / 2) % n) * harris n ((i 1 - n / 2) % n)

open Classical in
/-- Specification: the noise variance of a cell in units of that of one visibility: natural weighting averages its
visibilities; cells with less than one visibility in a hundred samples do not count. -/
noncomputable def cellNoise (w : Weighting) (uv : ℝ) : ℝ :=
  if uv < 1 / 100 then 0
  else
    match w with
    | .natural => 1 / uv
    | _ => 1

/-- Specification: the covariance of the pixels `x` and `y`, by the variance `V` of a visibility. -/
noncomputable def covariance (n : ℕ) (V : ℝ) (w : Weighting) (uv : (Fin 2 → ℤ) → ℝ) (x y : Fin 2 → ℤ) : ℝ :=
  V / (n : ℝ) ^ 4 * ∑ i ∈ box (square n), cellNoise w (uv i) * taper n i ^ 2 *
    Real.cos (2 * Real.pi * ∑ j, (i j : ℝ) * (x j - y j) / n)

theorem blackmanHarris_eq {n : ℕ} (hn : 2 ≤ n) (j : ℤ) : blackmanHarris n j = harris n j := by
  have h1 : (n : ℝ) - 1 ≠ 0 := by
    have : (2 : ℝ) ≤ n := by exact_mod_cast hn
    linarith
  unfold blackmanHarris harris
  rw [if_neg (by omega)]
  simp only []
  set θ : ℝ := 2 * Real.pi * j / (n - 1) with hθ
  have e1 : -Real.pi + (j : ℝ) * (2 * Real.pi / (n - 1)) = θ - Real.pi := by rw [hθ]; ring
  have e2 : 4 * Real.pi * j / (n - 1) = 2 * θ := by rw [hθ]; ring
  have e3 : 6 * Real.pi * j / (n - 1) = 3 * θ := by rw [hθ]; ring
  rw [e1, e2, e3, Real.cos_sub_pi, show 2 * (θ - Real.pi) = 2 * θ - 2 * Real.pi by ring, Real.cos_sub_two_pi,
    show 3 * (θ - Real.pi) = 3 * θ - Real.pi - 2 * Real.pi by ring, Real.cos_sub_two_pi, Real.cos_sub_pi]
  ring

theorem window_eq {n : ℕ} (hn : 2 ≤ n) (i : Fin 2 → ℤ) : shift (square n) (window2 n) i = taper n i := by
  simp only [shift, window2, md, taper, square, blackmanHarris_eq hn]
  push_cast
  rfl

open Classical in
/-- What the response does to the noise of a cell. -/
theorem response_eq {w : Weighting} {sup : Suppress} {f : ℝ → ℂ → ℂ} (h : response w sup = .ok f) :
    ∃ g : ℝ → ℝ, (∀ uv z, f uv z = z * (g uv : ℂ)) ∧ ∀ uv, g uv ^ 2 = cellNoise w uv := by
  cases w with
  | natural =>
    cases sup with
    | off =>
      simp only [response, Except.ok.injEq] at h
      refine ⟨fun uv => if uv < 1 / 100 then 0 else 1 / Real.sqrt uv, fun uv z => ?_, fun uv => ?_⟩
      · rw [← h]
        by_cases hu : uv < 1 / 100
        · simp only [if_pos hu]; simp
        · simp only [if_neg hu]; push_cast; ring
      · unfold cellNoise
        by_cases hu : uv < 1 / 100
        · simp only [if_pos hu]; norm_num
        · simp only [if_neg hu]
          rw [div_pow, Real.sq_sqrt (by linarith)]
          norm_num
    | yes => simp [response] at h
    | unknown => simp [response] at h
  | uniform =>
    simp only [response, Except.ok.injEq] at h
    refine ⟨fun uv => if uv < 1 / 100 then 0 else 1, fun uv z => ?_, fun uv => ?_⟩
    · rw [← h]
      by_cases hu : uv < 1 / 100
      · simp only [if_pos hu]; simp
      · simp only [if_neg hu]; push_cast; ring
    · unfold cellNoise
      by_cases hu : uv < 1 / 100
      · simp only [if_pos hu]; norm_num
      · simp only [if_neg hu]; norm_num
  | unknown => simp [response] at h

/-- A pixel as a sum over the random numbers. -/
theorem pixel_eq (n : ℕ) (c rms : ℝ) (g : (Fin 2 → ℤ) → ℝ) (a b : (Fin 2 → ℤ) → ℝ) (x : Fin 2 → ℤ) :
    (ifftn (square n) (fun i => ((rms * a i : ℝ) + (rms * b i : ℝ) * Complex.I) * (g i : ℂ)) x * (c : ℂ)).re =
      ∑ p : {x // x ∈ box (square n)} × Bool,
        (c * rms / (n : ℝ) ^ 2 * g p.1 * (if p.2 then Real.cos (2 * Real.pi * ∑ j, (p.1.1 j : ℝ) * x j / n)
          else -Real.sin (2 * Real.pi * ∑ j, (p.1.1 j : ℝ) * x j / n))) * (if p.2 then a p.1 else b p.1) := by
  rw [Fintype.sum_prod_type]
  simp only [Fintype.sum_bool, Bool.false_eq_true, if_false, if_true]
  rw [Finset.sum_coe_sort (box (square n)) (fun i => (c * rms / (n : ℝ) ^ 2 * g i *
    Real.cos (2 * Real.pi * ∑ j, (i j : ℝ) * x j / n)) * a i + (c * rms / (n : ℝ) ^ 2 * g i *
    -Real.sin (2 * Real.pi * ∑ j, (i j : ℝ) * x j / n)) * b i)]
  have hp : (∏ i, (square n i : ℂ)) = (((n : ℝ) ^ 2 : ℝ) : ℂ) := by simp [square]
  unfold ifftn
  rw [hp, Complex.re_mul_ofReal, Complex.div_ofReal_re, Complex.re_sum, Finset.sum_div, Finset.sum_mul]
  refine Finset.sum_congr rfl fun i _ => ?_
  have he : (2 * (Real.pi : ℂ) * Complex.I) * ∑ j, (i j : ℂ) * x j / square n j =
      ((2 * Real.pi * ∑ j, (i j : ℝ) * x j / n : ℝ) : ℂ) * Complex.I := by
    simp only [square]
    push_cast
    ring
  rw [he]
  set θ : ℝ := 2 * Real.pi * ∑ j, (i j : ℝ) * x j / n
  have hz : ((((rms * a i : ℝ) : ℂ) + ((rms * b i : ℝ) : ℂ) * Complex.I) * (g i : ℂ) *
      Complex.exp ((θ : ℂ) * Complex.I)).re = rms * g i * (a i * Real.cos θ - b i * Real.sin θ) := by
    rw [Complex.mul_re, Complex.exp_ofReal_mul_I_re, Complex.exp_ofReal_mul_I_im]
    simp
    ring
  rw [hz]
  ring

/-- The pixels as sums over the random numbers, with coefficients whose products are the covariances. -/
theorem mapAt_eq (table : List ℝ × List ℝ) (p : Setup) (n : ℕ) (z depth : ℝ)
    (uv : (Fin 2 → ℤ) → ℝ) (s : ℝ)
    (hs : getSEFD table (.one (1420 / (1 + z))) p.tsys p.data p.nuData p.D p.ep = .ok (.one s)) (h0 : 0 ≤ s)
    (hd : 0 < depth) (ho : 0 < p.obs) (hi : 0 < p.int) (hw : p.w = .natural ∧ p.sup = .off ∨ p.w = .uniform)
    (hwrap : p.wrap = false) (hn : 2 ≤ n) :
    ∃ u : (Fin 2 → ℤ) → {x // x ∈ box (square n)} × Bool → ℝ,
      (∀ A B, mapAt table p n z depth A B uv = .ok ⟨square n, fun x => ∑ q, u x q * (if q.2 then A q.1 else B q.1)⟩) ∧
      ∀ x y, ∑ q, u x q * u y q =
        covariance n ((1e6 * s) ^ 2 / (2 * (depth * 1e6) * (3600 * p.obs))) p.w uv x y := by
  classical
  have p1 : 0 < 2 * depth * 10 ^ 6 * p.int := by positivity
  have q1 : 0 < Real.sqrt (2 * depth * 10 ^ 6 * p.int) := Real.sqrt_pos.mpr p1
  have hf : ∃ f, response p.w p.sup = .ok f := by
    rcases hw with ⟨h, h'⟩ | h
    · rw [h, h']; exact ⟨_, rfl⟩
    · rw [h]; exact ⟨_, rfl⟩
  obtain ⟨f, hf⟩ := hf
  obtain ⟨g, hg, hg2⟩ := response_eq hf
  set rms : ℝ := 10 ^ 6 * s / Real.sqrt (2 * depth * 10 ^ 6 * p.int) with hrms
  have hr : 0 ≤ rms := by positivity
  set c : ℝ := Real.sqrt (p.int / 3600 / p.obs) with hc
  have hq : 0 ≤ p.int / 3600 / p.obs := by positivity
  have hval : ∀ (A B : (Fin 2 → ℤ) → ℝ), mapAt table p n z depth A B uv = .ok ⟨square n, fun x =>
      (ifftn (square n) (fun i => ((rms * A i : ℝ) + (rms * B i : ℝ) * Complex.I) * ((g (uv i) * taper n i : ℝ) : ℂ)) x *
        (c : ℂ)).re⟩ := by
    intro A B
    simp only [mapAt, sigmaNoiseRadio, hs, sigmaNoise]
    rw [if_neg (not_le.mpr p1)]
    simp only [noiseMap, hf, hwrap]
    rw [if_neg (not_lt.mpr hr)]
    simp only [Bool.false_eq_true, if_false]
    rw [if_neg (by
      rintro (h | h)
      · exact ho.ne' h
      · linarith)]
    congr 2
    funext x
    congr 4
    funext i
    rw [hg, window_eq hn, hrms]
    push_cast
    ring
  refine ⟨fun x q => c * rms / (n : ℝ) ^ 2 * (g (uv q.1) * taper n q.1) *
    (if q.2 then Real.cos (2 * Real.pi * ∑ j, (q.1.1 j : ℝ) * x j / n)
      else -Real.sin (2 * Real.pi * ∑ j, (q.1.1 j : ℝ) * x j / n)), fun A B => ?_, fun x y => ?_⟩
  · rw [hval A B]
    congr 2
    funext x
    exact pixel_eq n c rms (fun i => g (uv i) * taper n i) A B x
  rw [Fintype.sum_prod_type]
  simp only [Fintype.sum_bool, Bool.false_eq_true, if_false, if_true]
  unfold covariance
  rw [Finset.mul_sum, ← Finset.sum_coe_sort (box (square n))]
  refine Finset.sum_congr rfl fun i _ => ?_
  have hsub : 2 * Real.pi * ∑ j, (i.1 j : ℝ) * ((x j : ℝ) - y j) / n =
      2 * Real.pi * ∑ j, (i.1 j : ℝ) * x j / n - 2 * Real.pi * ∑ j, (i.1 j : ℝ) * y j / n := by
    rw [← mul_sub, ← Finset.sum_sub_distrib]
    congr 1
    refine Finset.sum_congr rfl fun j _ => ?_
    ring
  rw [hsub, Real.cos_sub, ← hg2]
  have hV : c ^ 2 * rms ^ 2 = (1e6 * s) ^ 2 / (2 * (depth * 1e6) * (3600 * p.obs)) := by
    rw [hc, hrms, Real.sq_sqrt hq, div_pow, Real.sq_sqrt p1.le]
    field_simp
    ring
  rw [← hV]
  have hn0 : (n : ℝ) ≠ 0 := by
    have : 0 < n := by omega
    exact_mod_cast this.ne'
  field_simp


/-- The pixels of the map have mean zero and the covariance of the sampled visibilities, tapered with a
Blackman-Harris window in each direction: the same variance at every pixel, inversely proportional to bandwidth and
observing time and independent of the integration time. -/
theorem C114_partial (table : List ℝ × List ℝ) (p : Setup) (n : ℕ) (z depth : ℝ) (a b : Ω → (Fin 2 → ℤ) → ℝ)
    (uv : (Fin 2 → ℤ) → ℝ) (s : ℝ)
    (hs : getSEFD table (.one (1420 / (1 + z))) p.tsys p.data p.nuData p.D p.ep = .ok (.one s)) (h0 : 0 ≤ s)
    (hd : 0 < depth) (ho : 0 < p.obs) (hi : 0 < p.int) (hw : p.w = .natural ∧ p.sup = .off ∨ p.w = .uniform)
    (hwrap : p.wrap = false) (hn : 2 ≤ n) (hN : Normal μ (square n) a b) :
    ∃ M : Ω → Arr (Fin 2) ℝ, (∀ ω, mapAt table p n z depth (a ω) (b ω) uv = .ok (M ω)) ∧
      (∀ ω, (M ω).shape = square n) ∧
      ∀ x y, (Integrable (fun ω => (M ω).val x) μ ∧ ∫ ω, (M ω).val x ∂μ = 0) ∧
        Integrable (fun ω => (M ω).val x * (M ω).val y) μ ∧
        ∫ ω, (M ω).val x * (M ω).val y ∂μ =
          covariance n ((1e6 * s) ^ 2 / (2 * (depth * 1e6) * (3600 * p.obs))) p.w uv x y := by
  obtain ⟨u, hu, hc⟩ := mapAt_eq table p n z depth uv s hs h0 hd ho hi hw hwrap hn
  have L := fun u v => linear_moments (μ := μ) hN.indep hN.law u v
  refine ⟨_, fun ω => hu (a ω) (b ω), fun ω => rfl, fun x y => ⟨(L _ 0).1, (L _ _).2.1, ?_⟩⟩
  rw [← hc]
  exact (L _ _).2.2

/-- Random numbers of the kind the theorem asks for exist for maps of sixteen cells a side. -/
example : ∃ (Ω : Type) (_ : MeasurableSpace Ω) (μ : Measure Ω) (_ : IsProbabilityMeasure μ)
    (a b : Ω → (Fin 2 → ℤ) → ℝ), Normal μ (square 16) a b :=
  ⟨_, _, _, inferInstance, _, _, normal_exists (square 16)⟩

theorem harris_abs (n : ℕ) (j : ℤ) : |harris n j| ≤ 1 := by
  unfold harris
  have c1 := Real.cos_le_one (2 * Real.pi * j / (n - 1))
  have c2 := Real.cos_le_one (4 * Real.pi * j / (n - 1))
  have c3 := Real.cos_le_one (6 * Real.pi * j / (n - 1))
  have d1 := Real.neg_one_le_cos (2 * Real.pi * j / (n - 1))
  have d2 := Real.neg_one_le_cos (4 * Real.pi * j / (n - 1))
  have d3 := Real.neg_one_le_cos (6 * Real.pi * j / (n - 1))
  rw [abs_le]
  constructor <;> linarith

theorem taper_abs (n : ℕ) (i : Fin 2 → ℤ) : taper n i ^ 2 ≤ 1 := by
  unfold taper
  rw [sq_le_one_iff_abs_le_one, abs_mul]
  exact mul_le_one₀ (harris_abs _ _) (abs_nonneg _) (harris_abs _ _)

/-- Claims of C114: where the visibilities cover all cells evenly, the pixels have the rms `sigma` that
`sigma_noise_radio` returns for the image; and `fft_wrap` and `suppress_sharp_features_uv_map=True` can be used.  False:
the taper lowers the rms of the map below `sigma`, and both options raise. -/
theorem C114_false (table : List ℝ × List ℝ) (p : Setup) (n : ℕ) (z depth : ℝ) (a b : Ω → (Fin 2 → ℤ) → ℝ) (s : ℝ)
    (hs : getSEFD table (.one (1420 / (1 + z))) p.tsys p.data p.nuData p.D p.ep = .ok (.one s)) (h0 : 0 < s)
    (hd : 0 < depth) (ho : 0 < p.obs) (hi : 0 < p.int) (hw : p.w = .natural) (hn : 2 ≤ n)
    (hu : (1 : ℝ) / 100 ≤ (p.nAnt : ℝ) * (p.nAnt - 1) / 2 / (n : ℝ) ^ 2) (hA : 2 ≤ p.nAnt)
    (hN : Normal μ (square n) a b) :
    (∃ sigma rms, sigmaNoiseRadio table z depth p.obs p.int p.nAnt p.tsys p.data p.nuData p.D p.ep =
        .ok (some sigma, rms) ∧ 0 < sigma ∧
      (p.sup = .off → p.wrap = false → ∃ M : Ω → Arr (Fin 2) ℝ,
        (∀ ω, mapAt table p n z depth (a ω) (b ω) (fun _ => (p.nAnt : ℝ) * (p.nAnt - 1) / 2 / (n : ℝ) ^ 2) =
          .ok (M ω)) ∧ ∀ x, ∫ ω, (M ω).val x ^ 2 ∂μ < sigma ^ 2)) ∧
    (p.wrap = true ∨ p.sup = .yes → ∀ (A B uv : (Fin 2 → ℤ) → ℝ), ∃ e, mapAt table p n z depth A B uv = .error e) := by
  constructor
  · obtain ⟨sigma, rms, h1, h2, -, -, h3⟩ := C113_noise table z depth p.obs p.int p.nAnt p.tsys p.data p.nuData p.D p.ep s
      hs h0.le hd ho hi hA
    have hA' : (2 : ℝ) ≤ p.nAnt := by exact_mod_cast hA
    have hn' : (2 : ℝ) ≤ n := by exact_mod_cast hn
    have pp : 0 < (p.nAnt : ℝ) * (p.nAnt - 1) / 2 := by
      have : 0 < (p.nAnt : ℝ) - 1 := by linarith
      positivity
    have hpos : 0 < sigma := by
      rcases h2.lt_or_eq with h | h
      · exact h
      · rw [← h] at h3
        have : 0 < (1e6 * s) ^ 2 := by positivity
        norm_num at h3
        linarith
    refine ⟨sigma, rms, h1, hpos, fun hsup hwrap => ?_⟩
    obtain ⟨M, hM, -, hm⟩ := C114_partial table p n z depth a b (fun _ => (p.nAnt : ℝ) * (p.nAnt - 1) / 2 / (n : ℝ) ^ 2) s
      hs h0.le hd ho hi (.inl ⟨hw, hsup⟩) hwrap hn hN
    refine ⟨M, hM, fun x => ?_⟩
    have := (hm x x).2.2
    simp only [← sq] at this
    rw [this]
    set P : ℝ := (p.nAnt : ℝ) * (p.nAnt - 1) / 2 with hP
    unfold covariance
    have hcell : cellNoise p.w (P / (n : ℝ) ^ 2) = (n : ℝ) ^ 2 / P := by
      unfold cellNoise
      rw [if_neg (not_lt.mpr hu), hw]
      simp
    have hcos : ∀ i : Fin 2 → ℤ, Real.cos (2 * Real.pi * ∑ j, (i j : ℝ) * ((x j : ℝ) - x j) / n) = 1 := by
      intro i
      simp
    simp only [hcell, hcos, mul_one]
    have hV : (1e6 * s) ^ 2 / (2 * (depth * 1e6) * (3600 * p.obs)) = sigma ^ 2 * P := by
      rw [← h3]
      field_simp
    rw [hV]
    have hsum : ∑ i ∈ box (square n), taper n i ^ 2 < (n : ℝ) ^ 2 := by
      have hcard : ((box (square n)).card : ℝ) = (n : ℝ) ^ 2 := by
        simp [box, square, Fintype.card_piFinset]
      have h1 : ∑ _i ∈ box (square n), (1 : ℝ) = (n : ℝ) ^ 2 := by simp [hcard]
      rw [← h1]
      refine Finset.sum_lt_sum (fun i _ => taper_abs n i) ⟨fun _ => ((n / 2 : ℕ) : ℤ), ?_, ?_⟩
      · rw [mem_box]
        intro j
        simp only [square]
        omega
      · unfold taper harris
        simp
        norm_num
    rw [← Finset.mul_sum]
    have hPn : P ≠ 0 := pp.ne'
    have : sigma ^ 2 * P / (n : ℝ) ^ 4 * ((n : ℝ) ^ 2 / P * ∑ i ∈ box (square n), taper n i ^ 2) =
        sigma ^ 2 * ((∑ i ∈ box (square n), taper n i ^ 2) / (n : ℝ) ^ 2) := by
      field_simp
    rw [this]
    have hlt : (∑ i ∈ box (square n), taper n i ^ 2) / (n : ℝ) ^ 2 < 1 := by
      rw [div_lt_one (by positivity)]
      exact hsum
    have hs2 : 0 < sigma ^ 2 := by positivity
    nlinarith
  · intro h A B uv
    unfold mapAt
    cases hq : sigmaNoiseRadio table z depth p.obs p.int p.nAnt p.tsys p.data p.nuData p.D p.ep with
    | error e => exact ⟨e, rfl⟩
    | ok r =>
      simp only [noiseMap, hw]
      by_cases h1 : r.2 < 0
      · rw [if_pos h1]
        exact ⟨_, rfl⟩
      · rw [if_neg h1]
        cases hsup : p.sup with
        | off =>
          rcases h with h | h
          · simp only [response, h, if_true]
            exact ⟨_, rfl⟩
          · rw [hsup] at h; cases h
        | yes => exact ⟨_, rfl⟩
        | unknown => exact ⟨_, rfl⟩

/-- Coverage of 512 stations on a map of 256 cells a side. -/
example : (1 : ℝ) / 100 ≤ ((512 : ℕ) : ℝ) * ((512 : ℕ) - 1) / 2 / ((256 : ℕ) : ℝ) ^ 2 := by norm_num

/-- A weighting that is not known raises, whatever else is asked for. -/
theorem C114_raises (table : List ℝ × List ℝ) (p : Setup) (n : ℕ) (z depth : ℝ) (a b uv : (Fin 2 → ℤ) → ℝ) (name : String)
    (h : name ∉ ["nat", "natural", "natural_weighting", "uni", "uniform", "uniform_weighting"])
    (hw : p.w = weightingOf name) : ∃ e, mapAt table p n z depth a b uv = .error e := by
  simp only [List.mem_cons, List.not_mem_nil, or_false, not_or] at h
  have hu : weightingOf name = .unknown := by
    unfold weightingOf
    rw [if_neg (by simp [h]), if_neg (by simp [h])]
  rw [hu] at hw
  unfold mapAt
  split
  · exact ⟨_, rfl⟩
  · simp only [noiseMap, hw, response]
    split_ifs
    · exact ⟨_, rfl⟩
    · exact ⟨_, rfl⟩

/-- Briggs weighting is in the code but not among the names. -/
example : "briggs" ∉ ["nat", "natural", "natural_weighting", "uni", "uniform", "uniform_weighting"] := by decide

end Verif.Noise
