import Verif.Model.CrossSpectrum
import Verif.Props.PowerSpectrum
import Mathlib.Algebra.Order.BigOperators.Ring.Finset
/-!
# Properties of the binned cross spectra (C159, C160)
-/

namespace Verif.CrossSpectrum

open Verif.Convolve Verif.PowerSpectrum

/-! ## Specification -/

/-- `u*a + v*b` for arrays of the same shape. -/
noncomputable def combine {d : ℕ} (u v : ℝ) (a b : Arr (Fin d) ℝ) : Arr (Fin d) ℝ :=
  ⟨a.shape, fun x => u * a.val x + v * b.val x⟩

/-- The number in row `m` and column `i`; `none` is not a number. -/
def entry (l : List (List (Option ℝ))) (m i : ℕ) : Option (Option ℝ) := (l[m]?).bind fun r => r[i]?

/-! ## Lemmas -/

/-- The transform of an array. -/
noncomputable def mode {d : ℕ} (a : Arr (Fin d) ℝ) (i : Fin d → ℤ) : ℂ := shift a.shape (fftn a.shape fun x => (a.val x : ℂ)) i

theorem mode_combine {d : ℕ} (u v : ℝ) (a b : Arr (Fin d) ℝ) (h : a.shape = b.shape) (i : Fin d → ℤ) :
    mode (combine u v a b) i = u * mode a i + v * mode b i := by
  unfold mode combine shift fftn
  simp only [h]
  rw [Finset.mul_sum, Finset.mul_sum, ← Finset.sum_add_distrib]
  refine Finset.sum_congr rfl fun x _ => ?_
  push_cast
  ring

/-- The cross power of a mode. -/
noncomputable def prod {d : ℕ} (L : List ℝ) (a b : Arr (Fin d) ℝ) (i : Fin d → ℤ) : ℝ :=
  ((mode a i).re * (mode b i).re + (mode a i).im * (mode b i).im) * scale a.shape L

theorem cross_ok {d : ℕ} (L : List ℝ) (a b : Arr (Fin d) ℝ) (h : a.shape = b.shape) :
    crossNd L a b = .ok ⟨a.shape, prod L a b⟩ := by
  unfold crossNd
  rw [if_pos h]
  rfl

theorem cross_err {d : ℕ} (L : List ℝ) (a b : Arr (Fin d) ℝ) (h : a.shape ≠ b.shape) : crossNd L a b = .error .assertion := by
  unfold crossNd
  rw [if_neg h]

theorem power_eq {d : ℕ} (L : List ℝ) (a : Arr (Fin d) ℝ) : powerNd L a = ⟨a.shape, prod L a a⟩ := by
  have h := power_eq_cross L a
  rw [cross_ok L a a rfl] at h
  exact (Except.ok.inj h).symm

theorem prod_comm {d : ℕ} (L : List ℝ) (a b : Arr (Fin d) ℝ) (h : a.shape = b.shape) : prod L a b = prod L b a := by
  funext i
  unfold prod
  rw [h]
  ring

theorem prod_combine {d : ℕ} (L : List ℝ) (u v : ℝ) (a b c : Arr (Fin d) ℝ) (h : b.shape = c.shape) (i : Fin d → ℤ) :
    prod L a (combine u v b c) i = u * prod L a b i + v * prod L a c i := by
  unfold prod
  rw [mode_combine u v b c h]
  simp only [Complex.add_re, Complex.add_im, Complex.mul_re, Complex.mul_im, Complex.ofReal_re, Complex.ofReal_im]
  ring

theorem prod_sum {d : ℕ} (L : List ℝ) (a b : Arr (Fin d) ℝ) (h : a.shape = b.shape) (i : Fin d → ℤ) :
    prod L (combine 1 1 a b) (combine 1 1 a b) i = prod L a a i + prod L b b i + 2 * prod L a b i := by
  unfold prod
  rw [mode_combine 1 1 a b h, ← h]
  simp only [Complex.add_re, Complex.add_im, Complex.mul_re, Complex.mul_im, Complex.ofReal_re, Complex.ofReal_im, combine]
  ring

theorem prod_cauchy {d : ℕ} (L : List ℝ) (a b : Arr (Fin d) ℝ) (h : a.shape = b.shape) (S : Finset (Fin d → ℤ)) :
    (∑ i ∈ S, prod L a b i) ^ 2 ≤ (∑ i ∈ S, prod L a a i) * ∑ i ∈ S, prod L b b i := by
  unfold prod
  rw [← h]
  simp only [← Finset.sum_mul]
  set w := scale a.shape L
  have key : (∑ i ∈ S, ((mode a i).re * (mode b i).re + (mode a i).im * (mode b i).im)) ^ 2 ≤
      (∑ i ∈ S, ((mode a i).re * (mode a i).re + (mode a i).im * (mode a i).im)) *
        ∑ i ∈ S, ((mode b i).re * (mode b i).re + (mode b i).im * (mode b i).im) := by
    have := Finset.sum_mul_sq_le_sq_mul_sq (S ×ˢ (Finset.univ : Finset Bool))
      (fun p => if p.2 then (mode a p.1).re else (mode a p.1).im) (fun p => if p.2 then (mode b p.1).re else (mode b p.1).im)
    simpa [Finset.sum_product, pow_two] using this
  calc _ = (∑ i ∈ S, ((mode a i).re * (mode b i).re + (mode a i).im * (mode b i).im)) ^ 2 * w ^ 2 := by ring
    _ ≤ _ := mul_le_mul_of_nonneg_right key (sq_nonneg w)
    _ = _ := by ring

theorem prod_nonneg {d : ℕ} (L : List ℝ) (hL : 0 < L.prod) (a : Arr (Fin d) ℝ) (i : Fin d → ℤ) : 0 ≤ prod L a a i := by
  unfold prod
  refine mul_nonneg (add_nonneg (mul_self_nonneg _) (mul_self_nonneg _)) ?_
  exact div_nonneg (sq_nonneg _) hL.le

/-- The mean over a set of modes `S`, of which only those in `T` contribute. -/
noncomputable def mean {ι : Type} (S T : Finset ι) (v : ι → ℝ) : Option ℝ :=
  if S.card = 0 then none else some ((∑ i ∈ T, v i) / S.card)

theorem mean_none {ι : Type} (S T : Finset ι) (v w : ι → ℝ) : mean S T v = none ↔ mean S T w = none := by
  unfold mean
  split <;> simp

theorem mean_cauchy {d : ℕ} (L : List ℝ) (a b : Arr (Fin d) ℝ) (h : a.shape = b.shape) (S T : Finset (Fin d → ℤ)) {x : ℝ}
    (hx : mean S T (prod L a b) = some x) :
    ∃ y z, mean S T (prod L a a) = some y ∧ mean S T (prod L b b) = some z ∧ x ^ 2 ≤ y * z := by
  unfold mean at hx ⊢
  by_cases hc : S.card = 0
  · simp [hc] at hx
  · rw [if_neg hc] at hx
    refine ⟨_, _, if_neg hc, if_neg hc, ?_⟩
    rw [← Option.some.inj hx, div_pow, div_mul_div_comm, ← pow_two (S.card : ℝ)]
    exact div_le_div_of_nonneg_right (prod_cauchy L a b h T) (sq_nonneg _)

theorem mean_nonneg {d : ℕ} (L : List ℝ) (hL : 0 < L.prod) (a : Arr (Fin d) ℝ) (S T : Finset (Fin d → ℤ)) {x : ℝ}
    (hx : mean S T (prod L a a) = some x) : 0 ≤ x := by
  unfold mean at hx
  by_cases hc : S.card = 0
  · simp [hc] at hx
  · rw [if_neg hc] at hx
    rw [← Option.some.inj hx]
    exact div_nonneg (Finset.sum_nonneg fun i _ => prod_nonneg L hL a i) (Nat.cast_nonneg _)

theorem mean_combine {ι : Type} (S T : Finset ι) (u v : ℝ) (f g k : ι → ℝ) (h : ∀ i, k i = u * f i + v * g i) {x y : ℝ}
    (hx : mean S T f = some x) (hy : mean S T g = some y) : mean S T k = some (u * x + v * y) := by
  unfold mean at hx hy ⊢
  by_cases hc : S.card = 0
  · simp [hc] at hx
  · rw [if_neg hc] at hx hy ⊢
    rw [← Option.some.inj hx, ← Option.some.inj hy, Finset.sum_congr rfl fun i _ => h i, Finset.sum_add_distrib, ← Finset.mul_sum,
      ← Finset.mul_sum]
    congr 1
    ring

theorem mean_sum {d : ℕ} (L : List ℝ) (a b : Arr (Fin d) ℝ) (h : a.shape = b.shape) (S T : Finset (Fin d → ℤ)) {x y z : ℝ}
    (hx : mean S T (prod L a b) = some x) (hy : mean S T (prod L a a) = some y) (hz : mean S T (prod L b b) = some z) :
    mean S T (prod L (combine 1 1 a b) (combine 1 1 a b)) = some (y + z + 2 * x) := by
  have h1 := mean_combine S T 1 1 _ _ (fun j => prod L a a j + prod L b b j) (fun j => by ring) hy hz
  have h2 := mean_combine S T 1 2 _ _ (prod L (combine 1 1 a b) (combine 1 1 a b))
    (fun j => by rw [prod_sum L a b h]; ring) h1 hx
  rw [h2]
  congr 1
  ring

/-- Averaging treats arrays of the same shape alike: it fails with the same exception for all or has the same bins and averages
over the same modes. -/
theorem radial_cases {d : ℕ} (s : Fin d → ℕ) (B : Dims) (K : KBins) (bi : Binning) (bp : ℝ) :
    (∃ e, ∀ v, radialAverage ⟨s, v⟩ B K bi bp = .error e) ∨
    ∃ (n : ℕ) (S : ℕ → Finset (Fin d → ℤ)) (ks : List ℝ) (ms : List ℕ), ∀ v, radialAverage ⟨s, v⟩ B K bi bp =
      .ok ⟨(List.range n).map fun b => mean (S b) (S b) v, ks, ms⟩ := by
  unfold radialAverage
  cases hK : getK d B with
  | error e => exact .inl ⟨e, fun _ => rfl⟩
  | ok L =>
    simp only []
    cases hb : getKbins s L K bi bp with
    | error e => exact .inl ⟨e, fun _ => rfl⟩
    | ok e =>
      simp only []
      by_cases hp : e.Pairwise (· ≤ ·)
      · refine .inr ⟨e.length - 1, fun b => open Classical in (box s).filter fun i => inBin e b (kMag s L i), centres e,
          (List.range (e.length - 1)).map (nModes s (kMag s L) e), fun v => ?_⟩
        rw [if_pos hp]
        rfl
      · exact .inl ⟨_, fun v => by rw [if_neg hp]⟩

open Classical in
theorem muAverage_eq (s : Fin 3 → ℕ) (v : (Fin 3 → ℤ) → ℝ) (L : List ℝ) (l : Fin 3) (ab ex : Bool) (em ek : List ℝ) (m b : ℕ) :
    muAverage ⟨s, v⟩ L l ab ex em ek m b = mean ((box s).filter (selected s L l ab ex em ek m b))
      (((box s).filter (selected s L l ab ex em ek m b)).filter fun i => i ≠ fun j => ((s j / 2 : ℕ) : ℤ)) v := by
  unfold muAverage mean muModes
  simp only []
  rw [Finset.sum_filter _ (fun i => v i)]
  congr 3
  refine Finset.sum_congr rfl fun i _ => ?_
  by_cases h : i = fun j => ((s j / 2 : ℕ) : ℤ)
  · rw [if_pos h, if_neg (not_not.2 h)]
  · rw [if_neg h, if_pos h]

/-- The same for the bins in `k` and `mu`. -/
theorem mu_cases (s : Fin 3 → ℕ) (los : ℤ) (M : MuBins) (K : KBins) (B : Dims) (w : Weights) (ex : Bool) (bi : Binning) (ab : Bool) :
    (∃ e, ∀ v, muBinning ⟨s, v⟩ los M K B w ex bi ab = .error e) ∨
    ∃ (n k : ℕ) (S T : ℕ → ℕ → Finset (Fin 3 → ℤ)) (ms ks : List ℝ) (ns : List (List ℕ)), ∀ v, muBinning ⟨s, v⟩ los M K B w ex bi ab =
      .ok ⟨(List.range n).map fun m => (List.range k).map fun b =>
        mean (S m b) (T m b) v, ms, ks, ns⟩ := by
  cases w with
  | array => exact .inl ⟨.value, fun _ => rfl⟩
  | none | number =>
    cases hK : getK 3 B with
    | error e => exact .inl ⟨e, fun v => by simp only [muBinning, hK]⟩
    | ok L =>
      by_cases hl : 0 ≤ los ∧ los < 3
      · cases hb : getKbins s L K bi (1 / 10) with
        | error e => exact .inl ⟨e, fun v => by simp only [muBinning, hK, dif_pos hl, hb]⟩
        | ok ek =>
          cases hm : muEdges ab M with
          | error e => exact .inl ⟨e, fun v => by simp only [muBinning, hK, dif_pos hl, hb, hm]⟩
          | ok em =>
            by_cases hn : 0 < (ek.length - 1) * (em.length - 1)
            all_goals first
              | refine .inl ⟨.type, fun v => ?_⟩
                simp only [muBinning, hK, dif_pos hl, hb, hm]
                exact if_pos (And.intro trivial hn)
              | refine .inr ⟨em.length - 1, ek.length - 1, fun m b => open Classical in (box s).filter
                  (selected s L ⟨los.toNat, by omega⟩ ab ex em ek m b), fun m b => open Classical in ((box s).filter
                  (selected s L ⟨los.toNat, by omega⟩ ab ex em ek m b)).filter fun i => i ≠ fun j => ((s j / 2 : ℕ) : ℤ), centres em, centres ek,
                  (List.range (em.length - 1)).map fun m => (List.range (ek.length - 1)).map
                    (muModes s L ⟨los.toNat, by omega⟩ ab ex em ek m), fun v => ?_⟩
                simp only [muBinning, hK, dif_pos hl, hb, hm]
                rw [if_neg (by simp [hn])]
                congr 2
                refine List.map_congr_left fun m _ => List.map_congr_left fun b _ => ?_
                exact muAverage_eq s v L _ ab ex em ek m b
      · exact .inl ⟨.exception, fun v => by simp only [muBinning, hK, dif_neg hl]⟩

/-! ## C159: the spherically averaged cross spectrum -/

variable {d : ℕ} (LB : ℝ) (a b c : Arr (Fin d) ℝ) (B : Dims) (K : KBins) (bi : Binning) (bp : ℝ)

/-- **C159, with itself.** -/
theorem C159_self : cross1d LB a a B K bi bp = power1d LB a B K bi bp := by
  unfold cross1d power1d
  cases getDims LB d B with
  | error e => rfl
  | ok L => simp only [power_eq_cross]

/-- **C159, symmetry.** -/
theorem C159_symmetric : cross1d LB a b B K bi bp = cross1d LB b a B K bi bp := by
  unfold cross1d
  cases getDims LB d B with
  | error e => rfl
  | ok L =>
    by_cases h : a.shape = b.shape
    · simp only [cross_ok L a b h, cross_ok L b a h.symm, prod_comm L a b h, h]
    · simp only [cross_err L a b h, cross_err L b a (Ne.symm h)]

theorem c159_raises' (h : a.shape ≠ b.shape) : ∃ e, cross1d LB a b B K bi bp = .error e := by
  unfold cross1d
  cases getDims LB d B with
  | error e => exact ⟨e, rfl⟩
  | ok L => exact ⟨.assertion, by simp only [cross_err L a b h]⟩

/-- **C159, unequal shapes** fail the assertion (if the box is not already refused). -/
theorem C159_raises (h : a.shape ≠ b.shape) (hB : ∀ l, B = .array l → l.length = 1) :
    cross1d LB a b B K bi bp = .error .assertion := by
  unfold cross1d
  cases B with
  | array l => simp only [getDims, if_pos (hB l rfl), cross_err _ a b h]
  | _ => simp only [getDims, cross_err _ a b h]

/-- What the two spectra and the cross spectrum are made of. -/
theorem forms (h : a.shape = b.shape) {r : Radial} (hr : cross1d LB a b B K bi bp = .ok r) :
    ∃ (L : List ℝ) (n : ℕ) (S : ℕ → Finset (Fin d → ℤ)) (ks : List ℝ) (ms : List ℕ), getDims LB d B = .ok L ∧
      ∀ x y : Arr (Fin d) ℝ, x.shape = a.shape → y.shape = a.shape →
        cross1d LB x y B K bi bp = .ok ⟨(List.range n).map fun b => mean (S b) (S b) (prod L x y), ks, ms⟩ := by
  unfold cross1d at hr
  cases hB : getDims LB d B with
  | error e => rw [hB] at hr; simp at hr
  | ok L =>
    rw [hB] at hr
    simp only [cross_ok L a b h] at hr
    rcases radial_cases a.shape (.list L) K bi bp with ⟨e, he⟩ | ⟨n, S, ks, ms, hS⟩
    · rw [he] at hr
      simp at hr
    · refine ⟨L, n, S, ks, ms, rfl, fun x y hx hy => ?_⟩
      unfold cross1d
      rw [hB]
      simp only [cross_ok L x y (hx.trans hy.symm), hx]
      exact hS _

/-- **C159, the cross-correlation coefficient.** The cross spectrum has the bins and the numbers of modes of the two spectra, it is
not a number where they are not, and in every bin its square is at most their product. -/
theorem C159_coefficient {r : Radial} (hr : cross1d LB a b B K bi bp = .ok r) :
    ∃ p q, power1d LB a B K bi bp = .ok p ∧ power1d LB b B K bi bp = .ok q ∧ p.bins = r.bins ∧ q.bins = r.bins ∧
      p.modes = r.modes ∧ q.modes = r.modes ∧ p.data.length = r.data.length ∧ q.data.length = r.data.length ∧
      ∀ (i : ℕ), (r.data[i]? = some none ↔ p.data[i]? = some none) ∧ (r.data[i]? = some none ↔ q.data[i]? = some none) ∧
        ∀ x, r.data[i]? = some (some x) → ∃ y z, p.data[i]? = some (some y) ∧ q.data[i]? = some (some z) ∧ x ^ 2 ≤ y * z := by
  have h : a.shape = b.shape := by
    by_contra h
    obtain ⟨e, he⟩ := c159_raises' LB a b B K bi bp h
    rw [he] at hr
    cases hr
  obtain ⟨L, n, S, ks, ms, _, hf⟩ := forms LB a b B K bi bp h hr
  have hc := hf a b rfl h.symm
  rw [hr] at hc
  cases hc
  have ha := hf a a rfl rfl
  have hb := hf b b h.symm h.symm
  rw [C159_self] at ha hb
  refine ⟨_, _, ha, hb, rfl, rfl, rfl, rfl, by simp, by simp, fun i => ?_⟩
  by_cases hi : i < n
  · simp only [List.getElem?_map, List.getElem?_range hi, Option.map_some, Option.some.injEq]
    exact ⟨mean_none _ _ _ _, mean_none _ _ _ _, fun x hx => mean_cauchy L a b h (S i) (S i) hx⟩
  · have : (List.range n)[i]? = none := by simpa using hi
    simp [this]

/-- **C159, sign.** In a box of positive volume the power spectrum is not negative. -/
theorem C159_nonneg {r : Radial} (hr : power1d LB a B K bi bp = .ok r) (hB : ∀ L, getDims LB d B = .ok L → 0 < L.prod) {i : ℕ} {x : ℝ}
    (hx : r.data[i]? = some (some x)) : 0 ≤ x := by
  rw [← C159_self] at hr
  obtain ⟨L, n, S, ks, ms, hL, hf⟩ := forms LB a a B K bi bp rfl hr
  have hc := hf a a rfl rfl
  rw [hr] at hc
  cases hc
  by_cases hi : i < n
  · simp only [List.getElem?_map, List.getElem?_range hi, Option.map_some, Option.some.injEq] at hx
    exact mean_nonneg L (hB L hL) a _ _ hx
  · have : (List.range n)[i]? = none := by simpa using hi
    simp [this] at hx

/-- **C159, linearity** in the second array (and so by symmetry in the first). -/
theorem C159_linear (u v : ℝ) (hbc : b.shape = c.shape) {r s : Radial} (hr : cross1d LB a b B K bi bp = .ok r)
    (hs : cross1d LB a c B K bi bp = .ok s) :
    ∃ t, cross1d LB a (combine u v b c) B K bi bp = .ok t ∧ t.bins = r.bins ∧ t.modes = r.modes ∧ t.data.length = r.data.length ∧
      ∀ (i : ℕ) (x y : ℝ), r.data[i]? = some (some x) → s.data[i]? = some (some y) →
        t.data[i]? = some (some (u * x + v * y)) := by
  have h : a.shape = b.shape := by
    by_contra h
    obtain ⟨e, he⟩ := c159_raises' LB a b B K bi bp h
    rw [he] at hr
    cases hr
  obtain ⟨L, n, S, ks, ms, _, hf⟩ := forms LB a b B K bi bp h hr
  have hc := hf a b rfl h.symm
  rw [hr] at hc
  cases hc
  have hc := hf a c rfl (h.trans hbc).symm
  rw [hs] at hc
  cases hc
  refine ⟨_, hf a (combine u v b c) rfl h.symm, rfl, rfl, by simp, fun i x y hx hy => ?_⟩
  by_cases hi : i < n
  · simp only [List.getElem?_map, List.getElem?_range hi, Option.map_some, Option.some.injEq] at hx hy ⊢
    exact mean_combine (S i) (S i) u v _ _ _ (fun j => prod_combine L u v a b c hbc j) hx hy
  · have : (List.range n)[i]? = none := by simpa using hi
    simp [this] at hx

/-- **C159, the spectrum of a sum** of two arrays. -/
theorem C159_sum {r : Radial} (hr : cross1d LB a b B K bi bp = .ok r) :
    ∃ p q t, power1d LB a B K bi bp = .ok p ∧ power1d LB b B K bi bp = .ok q ∧ power1d LB (combine 1 1 a b) B K bi bp = .ok t ∧
      t.bins = r.bins ∧ t.modes = r.modes ∧ t.data.length = r.data.length ∧
      ∀ (i : ℕ) (x y z : ℝ), r.data[i]? = some (some x) → p.data[i]? = some (some y) → q.data[i]? = some (some z) →
        t.data[i]? = some (some (y + z + 2 * x)) := by
  have h : a.shape = b.shape := by
    by_contra h
    obtain ⟨e, he⟩ := c159_raises' LB a b B K bi bp h
    rw [he] at hr
    cases hr
  obtain ⟨L, n, S, ks, ms, _, hf⟩ := forms LB a b B K bi bp h hr
  have hc := hf a b rfl h.symm
  rw [hr] at hc
  cases hc
  have ha := hf a a rfl rfl
  have hb := hf b b h.symm h.symm
  have ht := hf (combine 1 1 a b) (combine 1 1 a b) rfl rfl
  rw [C159_self] at ha hb ht
  refine ⟨_, _, _, ha, hb, ht, rfl, rfl, by simp, fun i x y z hx hy hz => ?_⟩
  by_cases hi : i < n
  · simp only [List.getElem?_map, List.getElem?_range hi, Option.map_some, Option.some.injEq] at hx hy hz ⊢
    exact mean_sum L a b h _ _ hx hy hz
  · have : (List.range n)[i]? = none := by simpa using hi
    simp [this] at hx

/-- **C159, success**: the cross spectrum of arrays of the same shape exists whenever the spectrum of the first does. -/
theorem C159_ok (h : a.shape = b.shape) {p : Radial} (hp : power1d LB a B K bi bp = .ok p) :
    ∃ r, cross1d LB a b B K bi bp = .ok r := by
  rw [← C159_self] at hp
  obtain ⟨L, n, S, ks, ms, hL, hf⟩ := forms LB a a B K bi bp rfl hp
  exact ⟨_, hf a b rfl h.symm⟩

/-! ## C160: the cross spectrum in bins of `k` and `mu` -/

section mu
variable (a b c : Arr (Fin 3) ℝ) (los : ℤ) (M : MuBins) (w : Weights) (ex ab : Bool)

/-- **C160, with itself.** -/
theorem C160_self : crossMu LB a a los M K B w ex ab = powerMu LB a los M K B w ex ab := by
  unfold crossMu powerMu
  cases getDims LB 3 B with
  | error e => rfl
  | ok L => simp only [power_eq_cross]

/-- **C160, symmetry.** -/
theorem C160_symmetric : crossMu LB a b los M K B w ex ab = crossMu LB b a los M K B w ex ab := by
  unfold crossMu
  cases getDims LB 3 B with
  | error e => rfl
  | ok L =>
    by_cases h : a.shape = b.shape
    · simp only [cross_ok L a b h, cross_ok L b a h.symm, prod_comm L a b h, h]
    · simp only [cross_err L a b h, cross_err L b a (Ne.symm h)]

theorem c160_raises' (h : a.shape ≠ b.shape) : ∃ e, crossMu LB a b los M K B w ex ab = .error e := by
  unfold crossMu
  cases getDims LB 3 B with
  | error e => exact ⟨e, rfl⟩
  | ok L => exact ⟨.assertion, by simp only [cross_err L a b h]⟩

/-- **C160, unequal shapes** fail the assertion (if the box is not already refused). -/
theorem C160_raises (h : a.shape ≠ b.shape) (hB : ∀ l, B = .array l → l.length = 1) :
    crossMu LB a b los M K B w ex ab = .error .assertion := by
  unfold crossMu
  cases B with
  | array l => simp only [getDims, if_pos (hB l rfl), cross_err _ a b h]
  | _ => simp only [getDims, cross_err _ a b h]

theorem muForms (h : a.shape = b.shape) {r : Anisotropic} (hr : crossMu LB a b los M K B w ex ab = .ok r) :
    ∃ (L : List ℝ) (n k : ℕ) (S T : ℕ → ℕ → Finset (Fin 3 → ℤ)) (ms ks : List ℝ) (ns : List (List ℕ)), getDims LB 3 B = .ok L ∧
      ∀ x y : Arr (Fin 3) ℝ, x.shape = a.shape → y.shape = a.shape → crossMu LB x y los M K B w ex ab =
        .ok ⟨(List.range n).map fun m => (List.range k).map fun i => mean (S m i) (T m i) (prod L x y), ms, ks, ns⟩ := by
  unfold crossMu at hr
  cases hB : getDims LB 3 B with
  | error e => rw [hB] at hr; simp at hr
  | ok L =>
    rw [hB] at hr
    simp only [cross_ok L a b h] at hr
    rcases mu_cases a.shape los M K (.list L) w ex .log ab with ⟨e, he⟩ | ⟨n, k, S, T, ms, ks, ns, hS⟩
    · rw [he] at hr
      simp at hr
    · refine ⟨L, n, k, S, T, ms, ks, ns, rfl, fun x y hx hy => ?_⟩
      unfold crossMu
      rw [hB]
      simp only [cross_ok L x y (hx.trans hy.symm), hx]
      exact hS _

theorem entry_eq (n k m i : ℕ) (f : ℕ → ℕ → Option ℝ) : entry ((List.range n).map fun m => (List.range k).map fun i => f m i) m i =
    if m < n ∧ i < k then some (f m i) else none := by
  unfold entry
  by_cases hm : m < n
  · by_cases hi : i < k
    · simp [hm, hi]
    · simp [hm, hi]
  · simp [hm]

/-- **C160, the cross-correlation coefficient.** The cross spectrum has the bins and the numbers of modes of the two spectra, it is
not a number where they are not, and in every bin its square is at most their product. -/
theorem C160_coefficient {r : Anisotropic} (hr : crossMu LB a b los M K B w ex ab = .ok r) :
    ∃ p q, powerMu LB a los M K B w ex ab = .ok p ∧ powerMu LB b los M K B w ex ab = .ok q ∧ p.mus = r.mus ∧ q.mus = r.mus ∧
      p.ks = r.ks ∧ q.ks = r.ks ∧ p.modes = r.modes ∧ q.modes = r.modes ∧
      ∀ m i : ℕ, (entry r.data m i = none ↔ entry p.data m i = none) ∧ (entry r.data m i = none ↔ entry q.data m i = none) ∧
        (entry r.data m i = some none ↔ entry p.data m i = some none) ∧
        (entry r.data m i = some none ↔ entry q.data m i = some none) ∧
        ∀ x, entry r.data m i = some (some x) → ∃ y z, entry p.data m i = some (some y) ∧ entry q.data m i = some (some z) ∧
          x ^ 2 ≤ y * z := by
  have h : a.shape = b.shape := by
    by_contra h
    obtain ⟨e, he⟩ := c160_raises' LB B K a b los M w ex ab h
    rw [he] at hr
    cases hr
  obtain ⟨L, n, k, S, T, ms, ks, ns, _, hf⟩ := muForms LB B K a b los M w ex ab h hr
  have hc := hf a b rfl h.symm
  rw [hr] at hc
  cases hc
  have ha := hf a a rfl rfl
  have hb := hf b b h.symm h.symm
  rw [C160_self] at ha hb
  refine ⟨_, _, ha, hb, rfl, rfl, rfl, rfl, rfl, rfl, fun m i => ?_⟩
  simp only [entry_eq]
  by_cases hi : m < n ∧ i < k
  · simp only [if_pos hi, Option.some.injEq, reduceCtorEq, true_and]
    exact ⟨mean_none _ _ _ _, mean_none _ _ _ _, fun x hx => mean_cauchy L a b h _ _ hx⟩
  · simp [if_neg hi]

/-- **C160, sign.** In a box of positive volume the power spectrum is not negative. -/
theorem C160_nonneg {r : Anisotropic} (hr : powerMu LB a los M K B w ex ab = .ok r)
    (hB : ∀ L, getDims LB 3 B = .ok L → 0 < L.prod) {m i : ℕ} {x : ℝ} (hx : entry r.data m i = some (some x)) : 0 ≤ x := by
  rw [← C160_self] at hr
  obtain ⟨L, n, k, S, T, ms, ks, ns, hL, hf⟩ := muForms LB B K a a los M w ex ab rfl hr
  have hc := hf a a rfl rfl
  rw [hr] at hc
  cases hc
  rw [entry_eq] at hx
  by_cases hi : m < n ∧ i < k
  · rw [if_pos hi] at hx
    exact mean_nonneg L (hB L hL) a _ _ (Option.some.inj hx)
  · simp [if_neg hi] at hx

/-- **C160, linearity** in the second array (and so by symmetry in the first). -/
theorem C160_linear (u v : ℝ) (hbc : b.shape = c.shape) {r s : Anisotropic} (hr : crossMu LB a b los M K B w ex ab = .ok r)
    (hs : crossMu LB a c los M K B w ex ab = .ok s) :
    ∃ t, crossMu LB a (combine u v b c) los M K B w ex ab = .ok t ∧ t.mus = r.mus ∧ t.ks = r.ks ∧ t.modes = r.modes ∧
      ∀ (m i : ℕ) (x y : ℝ), entry r.data m i = some (some x) → entry s.data m i = some (some y) →
        entry t.data m i = some (some (u * x + v * y)) := by
  have h : a.shape = b.shape := by
    by_contra h
    obtain ⟨e, he⟩ := c160_raises' LB B K a b los M w ex ab h
    rw [he] at hr
    cases hr
  obtain ⟨L, n, k, S, T, ms, ks, ns, _, hf⟩ := muForms LB B K a b los M w ex ab h hr
  have hc := hf a b rfl h.symm
  rw [hr] at hc
  cases hc
  have hc := hf a c rfl (h.trans hbc).symm
  rw [hs] at hc
  cases hc
  refine ⟨_, hf a (combine u v b c) rfl h.symm, rfl, rfl, rfl, fun m i x y hx hy => ?_⟩
  simp only [entry_eq] at hx hy ⊢
  by_cases hi : m < n ∧ i < k
  · rw [if_pos hi] at hx hy ⊢
    rw [mean_combine (S m i) (T m i) u v _ _ _ (fun j => prod_combine L u v a b c hbc j) (Option.some.inj hx) (Option.some.inj hy)]
  · simp [if_neg hi] at hx

/-- **C160, the spectrum of a sum** of two arrays. -/
theorem C160_sum {r : Anisotropic} (hr : crossMu LB a b los M K B w ex ab = .ok r) :
    ∃ p q t, powerMu LB a los M K B w ex ab = .ok p ∧ powerMu LB b los M K B w ex ab = .ok q ∧
      powerMu LB (combine 1 1 a b) los M K B w ex ab = .ok t ∧ t.mus = r.mus ∧ t.ks = r.ks ∧ t.modes = r.modes ∧
      ∀ (m i : ℕ) (x y z : ℝ), entry r.data m i = some (some x) → entry p.data m i = some (some y) →
        entry q.data m i = some (some z) → entry t.data m i = some (some (y + z + 2 * x)) := by
  have h : a.shape = b.shape := by
    by_contra h
    obtain ⟨e, he⟩ := c160_raises' LB B K a b los M w ex ab h
    rw [he] at hr
    cases hr
  obtain ⟨L, n, k, S, T, ms, ks, ns, _, hf⟩ := muForms LB B K a b los M w ex ab h hr
  have hc := hf a b rfl h.symm
  rw [hr] at hc
  cases hc
  have ha := hf a a rfl rfl
  have hb := hf b b h.symm h.symm
  have ht := hf (combine 1 1 a b) (combine 1 1 a b) rfl rfl
  rw [C160_self] at ha hb ht
  refine ⟨_, _, _, ha, hb, ht, rfl, rfl, rfl, fun m i x y z hx hy hz => ?_⟩
  simp only [entry_eq] at hx hy hz ⊢
  by_cases hi : m < n ∧ i < k
  · rw [if_pos hi] at hx hy hz ⊢
    rw [mean_sum L a b h _ _ (Option.some.inj hx) (Option.some.inj hy) (Option.some.inj hz)]
  · simp [if_neg hi] at hx

/-- **C160, success**: the cross spectrum of arrays of the same shape exists whenever the spectrum of the first does. -/
theorem C160_ok (h : a.shape = b.shape) {p : Anisotropic} (hp : powerMu LB a los M K B w ex ab = .ok p) :
    ∃ r, crossMu LB a b los M K B w ex ab = .ok r := by
  rw [← C160_self] at hp
  obtain ⟨L, n, k, S, T, ms, ks, ns, hL, hf⟩ := muForms LB B K a a los M w ex ab rfl hp
  exact ⟨_, hf a b rfl h.symm⟩

end mu

/-! ## Examples -/

/-- A density and an ionised fraction that anticorrelate, in 3 × 4 × 5 cells. -/
noncomputable def density : Arr (Fin 3) ℝ := ⟨![3, 4, 5], fun x => x 0 + x 1 * x 2⟩
noncomputable def ionised : Arr (Fin 3) ℝ := ⟨![3, 4, 5], fun x => 1 / (1 + (density.val x) ^ 2)⟩

/-- In a box of 100 Mpc, with three given edges. -/
example : ∃ r, cross1d 100 density ionised .none (.array [0.1, 0.2, 0.4]) .log 0.1 = .ok r := by
  suffices h : ∃ p, power1d 100 density .none (.array [0.1, 0.2, 0.4]) .log 0.1 = .ok p by
    obtain ⟨p, hp⟩ := h
    exact C159_ok _ _ _ _ _ _ _ rfl hp
  unfold power1d radialAverage getDims getK boxOf getKbins
  simp only [List.length_replicate, le_refl, if_true, or_true]
  rw [if_pos (by norm_num)]
  exact ⟨_, rfl⟩

/-- The same with four bins in `mu`. -/
example : ∃ r, crossMu 100 density ionised 2 (.int 4) (.array [0.1, 0.2, 0.4]) .none .none true true = .ok r := by
  suffices h : ∃ p, powerMu 100 density 2 (.int 4) (.array [0.1, 0.2, 0.4]) .none .none true true = .ok p by
    obtain ⟨p, hp⟩ := h
    exact C160_ok _ _ _ _ _ _ _ _ _ _ rfl hp
  unfold powerMu muBinning getDims getK boxOf getKbins muEdges
  simp only [List.length_replicate, le_refl, if_true, or_true]
  rw [dif_pos (by decide)]
  rw [if_neg (by simp)]
  exact ⟨_, rfl⟩

example : (combine 1 (-1) density ionised).val ![1, 1, 1] = 2 - 1 / 5 := by
  simp [combine, density, ionised, Matrix.cons_val]
  norm_num

/-- Arrays of other shapes. -/
example : cross1d 100 density ⟨![3, 4, 6], fun _ => 1⟩ .none (.int 10) .log 0.1 = .error .assertion :=
  C159_raises _ _ _ _ _ _ _ (fun h => by have := congrFun h 2; simp [density] at this) (fun l h => by simp at h)

end Verif.CrossSpectrum
