import Verif.Props.UVSmooth
import Verif.Props.SmoothLine
/-!
# C157: cubes and lightcones at the resolution of a telescope
-/

namespace Verif.UVSmooth
open Verif.Convolve Verif.Smoothing

/-! ## The Gaussian -/

/-- Specification: a normalised Gaussian with the given full width at half maximum (in cells) on `size × size` cells. -/
structure IsGauss (g : Arr (Fin 2) ℝ) (size : ℕ) (fwhm : ℝ) : Prop where
  shape : g.shape = fun _ => size
  pos : ∀ x, 0 < g.val x
  sum : ∑ x ∈ Fintype.piFinset (fun _ : Fin 2 => Finset.Ico 0 (size : ℤ)), g.val x = 1
  profile : ∀ x, g.val x = g.val (fun _ => ((size / 2 : ℕ) : ℤ)) *
    Real.exp (-(4 * Real.log 2) * (((x 0 : ℝ) - (size / 2 : ℕ)) ^ 2 + ((x 1 : ℝ) - (size / 2 : ℕ)) ^ 2) / fwhm ^ 2)

theorem gauss_exists (size : ℕ) (hs : 0 < size) (fwhm : ℝ) (hf : fwhm ≠ 0) :
    ∃ g, gaussKernel size (sigmaOfFwhm fwhm) = .ok g ∧ IsGauss g size fwhm := by
  have hl : 0 < Real.log 2 := Real.log_pos (by norm_num)
  have h0 : sigmaOfFwhm fwhm ≠ 0 := div_ne_zero hf (by positivity)
  obtain ⟨g, hg, h1, h2, h3, h4⟩ := gauss_spec (ι := Fin 2) size hs _ h0
  refine ⟨g, hg, h1, h2, ?_, fun x => ?_⟩
  · unfold Normalised at h3
    rw [h1] at h3
    exact h3
  · rw [h4 x]
    congr 2
    have e : sigmaOfFwhm fwhm ^ 2 = fwhm ^ 2 / (8 * Real.log 2) := by
      unfold sigmaOfFwhm
      rw [div_pow, mul_pow, Real.sq_sqrt (by positivity)]
      ring
    rw [e, Fin.sum_univ_two]
    field_simp
    ring

/-- Specification: the image `a` of `n × n'` cells, convolved with `g`, the cells beyond the edges being those of the other side. -/
noncomputable def blurred (n n' : ℕ) (g : Arr (Fin 2) ℝ) (a : ℤ → ℤ → ℝ) (x y : ℤ) : ℝ :=
  ∑ j ∈ Fintype.piFinset (fun _ : Fin 2 => Finset.Ico 0 (n : ℤ)),
    g.val j * a ((x + ((n + 1) / 2 : ℕ) - j 0) % n) ((y + ((n + 1) / 2 : ℕ) - j 1) % n')

theorem gaussSlice_ok (a : Arr (Fin 3) ℝ) (w : ℝ) (nu : Fin 3) (i : ℕ) (h0 : 0 < nu.removeNth a.shape 0)
    (h1 : nu.removeNth a.shape 0 ≤ nu.removeNth a.shape 1) (hw : w ≠ 0) :
    ∃ o g, gaussSlice a w nu i = .ok ⟨nu.removeNth a.shape, o⟩ ∧ IsGauss g (nu.removeNth a.shape 0) w ∧ ∀ x y,
      o ![x, y] = blurred (nu.removeNth a.shape 0) (nu.removeNth a.shape 1) g (fun x y => a.val (nu.insertNth (i : ℤ) ![x, y])) x y := by
  obtain ⟨g, hg, hG⟩ := gauss_exists _ h0 w hw
  have hfits : Fits (plane a nu i) g := by
    constructor
    · intro j; rw [hG.shape]; exact h0
    · intro j
      rw [hG.shape]
      match j with
      | 0 => exact le_rfl
      | 1 => exact h1
  obtain ⟨o, ho, hval⟩ := circular_result (plane a nu i) g hfits .same (by simp) .numpy (by simp)
  refine ⟨o, g, ?_, hG, fun x y => ?_⟩
  · unfold gaussSlice
    have : smoothGauss (plane a nu i) w = .ok ⟨nu.removeNth a.shape, o⟩ := by
      unfold smoothGauss
      rw [show (plane a nu i).shape 0 = nu.removeNth a.shape 0 from rfl, hg]
      exact ho
    rw [this]
    simp
  · rw [hval]
    unfold Periodic blurred
    rw [hG.shape]
    refine Finset.sum_congr rfl fun j _ => ?_
    refine congrArg (fun v => g.val j * a.val (nu.insertNth (α := fun _ => ℤ) (i : ℤ) v)) (funext fun q => ?_)
    match q with
    | 0 => rfl
    | 1 => rfl

theorem gaussSlices_ok (a : Arr (Fin 3) ℝ) (fwhm : List ℝ) (nu : Fin 3) (hl : fwhm.length = a.shape nu)
    (h0 : 0 < nu.removeNth a.shape 0) (h1 : nu.removeNth a.shape 0 ≤ nu.removeNth a.shape 1)
    (hw : ∀ w ∈ fwhm, w ≠ 0) :
    ∃ o, gaussSlices a fwhm nu = .ok ⟨a.shape, o⟩ ∧ ∀ k < a.shape nu, ∃ g, IsGauss g (nu.removeNth a.shape 0) (fwhm.getD k 0) ∧
      ∀ x y, o (nu.insertNth (k : ℤ) ![x, y]) = blurred (nu.removeNth a.shape 0) (nu.removeNth a.shape 1) g
        (fun x y => a.val (nu.insertNth (k : ℤ) ![x, y])) x y := by
  have hex : ∀ k, ∃ o, k < a.shape nu → ∃ g, gaussSlice a (fwhm.getD k 0) nu k = .ok ⟨nu.removeNth a.shape, o⟩ ∧
      IsGauss g (nu.removeNth a.shape 0) (fwhm.getD k 0) ∧ ∀ x y, o ![x, y] =
        blurred (nu.removeNth a.shape 0) (nu.removeNth a.shape 1) g (fun x y => a.val (nu.insertNth (k : ℤ) ![x, y])) x y := by
    intro k
    by_cases hk : k < a.shape nu
    · obtain ⟨o, h⟩ := gaussSlice_ok a (fwhm.getD k 0) nu k h0 h1 (by
        rw [List.getD_eq_getElem _ _ (by omega)]
        exact hw _ (List.getElem_mem _))
      exact ⟨o, fun _ => h⟩
    · exact ⟨fun _ => 0, fun h => absurd h hk⟩
  choose f hf using hex
  refine ⟨fun x => ((((List.range (a.shape nu)).map fun k => (⟨nu.removeNth a.shape, f k⟩ : Arr (Fin 2) ℝ))[(x nu).toNat]?).map
    fun d => d.val (nu.removeNth x)).getD 0, ?_, fun k hk => ?_⟩
  · unfold gaussSlices
    rw [if_neg (not_not.2 hl.symm), Verif.UVResponse.mapM_ok' _ (fun k => (⟨nu.removeNth a.shape, f k⟩ : Arr (Fin 2) ℝ)) _
      fun k hk => by
        obtain ⟨g, hg, -⟩ := hf k (List.mem_range.1 hk)
        exact hg]
  · obtain ⟨g, -, hG, hv⟩ := hf k hk
    refine ⟨g, hG, fun x y => ?_⟩
    rw [← hv x y]
    simp [hk]

theorem blurred_bounds {n n' : ℕ} (hn : 0 < n) (hn' : 0 < n') {g : Arr (Fin 2) ℝ} {w : ℝ} (hg : IsGauss g n w) (a : ℤ → ℤ → ℝ)
    (lo hi : ℝ) (ha : ∀ x y : ℤ, 0 ≤ x → x < n → 0 ≤ y → y < n' → lo ≤ a x y ∧ a x y ≤ hi) (x y : ℤ) :
    lo ≤ blurred n n' g a x y ∧ blurred n n' g a x y ≤ hi := by
  have h : ∀ p q : ℤ, lo ≤ a (p % n) (q % n') ∧ a (p % n) (q % n') ≤ hi := fun p q =>
    ha _ _ (Int.emod_nonneg _ (by omega)) (Int.emod_lt_of_pos _ (by omega)) (Int.emod_nonneg _ (by omega))
      (Int.emod_lt_of_pos _ (by omega))
  have hs := hg.sum
  unfold blurred
  constructor
  · calc lo = ∑ j ∈ Fintype.piFinset (fun _ : Fin 2 => Finset.Ico 0 (n : ℤ)), g.val j * lo := by
          rw [← Finset.sum_mul, hs, one_mul]
      _ ≤ _ := Finset.sum_le_sum fun j _ => mul_le_mul_of_nonneg_left (h _ _).1 (hg.pos j).le
  · calc _ ≤ ∑ j ∈ Fintype.piFinset (fun _ : Fin 2 => Finset.Ico 0 (n : ℤ)), g.val j * hi :=
          Finset.sum_le_sum fun j _ => mul_le_mul_of_nonneg_left (h _ _).2 (hg.pos j).le
      _ = hi := by rw [← Finset.sum_mul, hs, one_mul]

/-! ## The average along the line of sight -/

theorem first_unique {zs : List ℝ} {v : ℝ} {i j : ℕ} (hi : First zs v i) (hj : First zs v j) : i = j := by
  obtain ⟨a1, a2, a3⟩ := hi
  obtain ⟨b1, b2, b3⟩ := hj
  rcases lt_trichotomy i j with h | h | h
  · have := b2 i h
    rcases a3 with a3 | a3
    · linarith
    · omega
  · exact h
  · have := a2 j h
    rcases b3 with b3 | b3
    · linarith
    · omega

/-- Specification: the slices `lo` to `hi` are those within `d / 2` of slice `k` in redshift, and perhaps one more at the end. -/
structure Window (zs : List ℝ) (d : ℝ) (k lo hi : ℕ) : Prop where
  low : lo ≤ k
  high : k ≤ hi
  last : hi < zs.length
  all : ∀ j < zs.length, |zs.getD j 0 - zs.getD k 0| ≤ d / 2 → lo ≤ j ∧ j ≤ hi
  only : ∀ j, lo ≤ j → j < hi → |zs.getD j 0 - zs.getD k 0| ≤ d / 2

/-- Specification: the mean of the slices `lo` to `hi` in the pixel `(x, y)`. -/
noncomputable def meanSlices (lc : Arr (Fin 3) ℝ) (lo hi : ℕ) (x y : ℤ) : ℝ :=
  (∑ t ∈ Finset.Icc lo hi, lc.val ![x, y, (t : ℤ)]) / ((hi : ℝ) - lo + 1)

theorem window_of {zs : List ℝ} (hz : zs.Pairwise (· < ·)) {d : ℝ} {k lo hi : ℕ} (hk : k < zs.length)
    (h1 : lo ≤ k) (h2 : k ≤ hi) (hlo : First zs (zs.getD k 0 - d / 2) lo) (hhi : First zs (zs.getD k 0 + d / 2) hi) :
    Window zs d k lo hi := by
  obtain ⟨hlo1, hlo2, hlo3⟩ := hlo
  obtain ⟨hhi1, hhi2, hhi3⟩ := hhi
  refine ⟨h1, h2, hhi1, fun j hj hd => ?_, fun j hj1 hj2 => ?_⟩
  · have hd := abs_le.1 hd
    constructor
    · by_contra hc
      have := hlo2 j (by omega)
      linarith
    · by_contra hc
      rcases hhi3 with hhi3 | hhi3
      · have := getD_lt zs hz hi j (by omega) (by omega)
        linarith
      · omega
  · have hb := hhi2 j hj2
    rcases hlo3 with hlo3 | hlo3
    · have : zs.getD lo 0 ≤ zs.getD j 0 := by
        rcases hj1.eq_or_lt with rfl | h
        · exact le_rfl
        · exact (getD_lt zs hz lo j h (by omega)).le
      exact abs_le.2 ⟨by linarith, by linarith⟩
    · omega

theorem tophatCone_ok (lc : Arr (Fin 3) ℝ) (zs dz : List ℝ) (hz : zs.Pairwise (· < ·)) (hlen : 2 ≤ zs.length)
    (hn : zs.length = lc.shape 2) (hd : dz.length = zs.length) (hpos : ∀ d ∈ dz, 0 ≤ d) :
    ∃ o, tophatCone lc zs dz = .ok ⟨lc.shape, o⟩ ∧ ∀ k < lc.shape 2, ∃ lo hi, Window zs (dz.getD k 0) k lo hi ∧
      ∀ x y, o ![x, y, (k : ℤ)] = meanSlices lc lo hi x y := by
  let line (x : Fin 3 → ℤ) : List ℝ := (List.range (lc.shape 2)).map fun (k : ℕ) => lc.val ![x 0, x 1, k]
  have hline : ∀ x, (line x).length = zs.length := fun x => by simp [line, hn]
  choose out hout hlen' hval using fun x => tophat_lightcone zs dz (line x) hz hlen hd (hline x) hpos
  refine ⟨fun x => match lightconeTophat zs dz (line x) with
    | .ok l => l.getD (x 2).toNat 0
    | .error _ => 0, ?_, fun k hk => ?_⟩
  · unfold tophatCone
    simp only []
    rw [show lightconeTophat zs dz ((List.range (lc.shape 2)).map fun (k : ℕ) => lc.val ![(0 : Fin 3 → ℤ) 0,
      (0 : Fin 3 → ℤ) 1, k]) = .ok (out 0) from hout 0]
    rfl
  · obtain ⟨lo, hi, h1, h2, h3, h4, -⟩ := hval 0 k (by rw [hline]; omega)
    refine ⟨lo, hi, window_of hz (by omega) h1 h2 h3 h4, fun x y => ?_⟩
    obtain ⟨lo', hi', -, -, h3', h4', he⟩ := hval ![x, y, k] k (by rw [hline]; omega)
    obtain rfl := first_unique h3 h3'
    obtain rfl := first_unique h4 h4'
    simp only [hout]
    show (out ![x, y, (k : ℤ)]).getD ((k : ℤ)).toNat 0 = _
    rw [Int.toNat_natCast, he]
    unfold rangeMean meanSlices
    congr 1
    refine Finset.sum_congr rfl fun t ht => ?_
    have ht' : t < lc.shape 2 := by
      have := Finset.mem_Icc.1 ht
      have := h4.1
      omega
    simp [line, ht']

/-! ## C157 -/

/-- Specification: the full width (in Mpc) of the beam of the baseline `B` (in km) at redshift `z`: the wavelength over the baseline
times the distance. -/
noncomputable def beam (c : Cosmo) (B z : ℝ) : ℝ := (21 / 100000 * (1 + z)) / B * c.dist z

/-- Specification: `o` is the lightcone at the resolution of the baseline `B`: every slice is the mean of the slices within the
redshift interval as long as `ratio` beams, convolved with a Gaussian as wide as the beam. -/
def AtResolution (c : Cosmo) (lc : Arr (Fin 3) ℝ) (zs : List ℝ) (L B ratio : ℝ) (o : (Fin 3 → ℤ) → ℝ) : Prop :=
  ∀ k < lc.shape 2, ∃ lo hi g, Window zs (ratio * beam c B (zs.getD k 0) * c.hubble (zs.getD k 0) / c.c) k lo hi ∧
    IsGauss g (lc.shape 0) (beam c B (zs.getD k 0) / (L / lc.shape 0)) ∧
    ∀ x y, o ![x, y, (k : ℤ)] = blurred (lc.shape 0) (lc.shape 1) g (meanSlices lc lo hi) x y

theorem insert2 (k x y : ℤ) : (2 : Fin 3).insertNth (α := fun _ => ℤ) k ![x, y] = ![x, y, k] := by
  funext j
  match j with
  | 0 | 1 | 2 => rfl

theorem filters_ok (c : Cosmo) (lc : Arr (Fin 3) ℝ) (zs : List ℝ) (L B ratio : ℝ) (hz : zs.Pairwise (· < ·))
    (hlen : 2 ≤ zs.length) (hn : zs.length = lc.shape 2) (h0 : 0 < lc.shape 0) (h1 : lc.shape 0 ≤ lc.shape 1)
    (hL : 0 < L) (hB : 0 < B) (hr : 0 ≤ ratio) (hc : 0 < c.c) (hzs : ∀ z ∈ zs, -1 < z ∧ 0 < c.dist z ∧ 0 ≤ c.hubble z) :
    ∃ a o, tophatCone lc zs (zs.map fun z => ratio * ((1 + z) * (21 / 100000) / B * c.dist z) / c.c * c.hubble z) = .ok a ∧
      gaussSlices a ((zs.map fun z => (1 + z) * (21 / 100000) / B * c.dist z).map fun w => w * lc.shape 0 / L) 2 =
        .ok ⟨lc.shape, o⟩ ∧ AtResolution c lc zs L B ratio o := by
  have hw : ∀ z ∈ zs, 0 < (1 + z) * (21 / 100000) / B * c.dist z := fun z hz' => by
    obtain ⟨p1, p2, -⟩ := hzs z hz'
    have : 0 < 1 + z := by linarith
    positivity
  obtain ⟨f, hf, hfv⟩ := tophatCone_ok lc zs (zs.map fun z => ratio * ((1 + z) * (21 / 100000) / B * c.dist z) / c.c * c.hubble z)
    hz hlen hn (by simp) (by
      intro d hd
      obtain ⟨z, hz', rfl⟩ := List.mem_map.1 hd
      have := hw z hz'
      have := (hzs z hz').2.2
      positivity)
  have hn0 : (0 : ℝ) < lc.shape 0 := by exact_mod_cast h0
  obtain ⟨o, ho, hov⟩ := gaussSlices_ok ⟨lc.shape, f⟩
    ((zs.map fun z => (1 + z) * (21 / 100000) / B * c.dist z).map fun w => w * lc.shape 0 / L) 2 (by simpa using hn) h0 h1 (by
      intro w hw'
      simp only [List.map_map, List.mem_map, Function.comp] at hw'
      obtain ⟨z, hz', rfl⟩ := hw'
      have := hw z hz'
      positivity)
  refine ⟨_, o, hf, ho, fun k hk => ?_⟩
  obtain ⟨lo, hi, hwin, hmean⟩ := hfv k hk
  obtain ⟨g, hg, hb⟩ := hov k hk
  have hk' : k < zs.length := by omega
  refine ⟨lo, hi, g, ?_, ?_, fun x y => ?_⟩
  · convert hwin using 1
    rw [List.getD_eq_getElem _ _ hk', List.getD_eq_getElem _ _ (by simpa using hk'), List.getElem_map]
    unfold beam
    ring
  · refine (?_ : IsGauss g (lc.shape 0) _)
    convert (show IsGauss g (lc.shape 0) _ from hg) using 1
    rw [List.getD_eq_getElem _ _ hk', List.getD_eq_getElem _ _ (by simpa using hk'), List.getElem_map, List.getElem_map]
    unfold beam
    field_simp
  · have := hb x y
    rw [insert2] at this
    rw [this]
    simp only [insert2, hmean]
    rfl

/-- **C157, lightcones with increasing redshifts.** -/
theorem C157_partial (c : Cosmo) (lc : Arr (Fin 3) ℝ) (zs : List ℝ) (L B ratio : ℝ) (hz : zs.Pairwise (· < ·))
    (hlen : 2 ≤ zs.length) (hn : zs.length = lc.shape 2) (h0 : 0 < lc.shape 0) (h1 : lc.shape 0 ≤ lc.shape 1)
    (hL : 0 < L) (hB : 0 < B) (hr : 0 ≤ ratio) (hc : 0 < c.c) (hzs : ∀ z ∈ zs, -1 < z ∧ 0 < c.dist z ∧ 0 ≤ c.hubble z) :
    ∃ o, smoothLightcone c lc (.array zs) L B ratio = .ok (⟨lc.shape, o⟩, zs) ∧ AtResolution c lc zs L B ratio o := by
  classical
  obtain ⟨a, o, ha, ho, hres⟩ := filters_ok c lc zs L B ratio hz hlen hn h0 h1 hL hB hr hc hzs
  refine ⟨o, ?_, hres⟩
  have hs : sliceRedshifts c lc (.array zs) L = .ok zs := by
    unfold sliceRedshifts
    simp only []
    rw [if_pos hn]
  match zs, hlen, hz with
  | z0 :: z1 :: l, _, hz =>
    have hlt : ¬ z1 - z0 < 0 := by
      have := (List.pairwise_cons.1 hz).1 z1 (by simp)
      linarith
    unfold smoothLightcone
    rw [hs]
    simp only [if_neg hlt, ha, ho]

/-- **C157, decreasing redshifts.** The result for a lightcone with its slices in the opposite order is that of the lightcone
with increasing redshifts, its slices again in the opposite order, and the redshifts are returned as they were given. -/
theorem C157_reverse (c : Cosmo) (lc : Arr (Fin 3) ℝ) (zs : List ℝ) (L B ratio : ℝ) (hz : zs.Pairwise (· < ·))
    (hlen : 2 ≤ zs.length) (hn : zs.length = lc.shape 2) (h0 : 0 < lc.shape 0) (h1 : lc.shape 0 ≤ lc.shape 1)
    (hL : 0 < L) (hB : 0 < B) (hr : 0 ≤ ratio) (hc : 0 < c.c) (hzs : ∀ z ∈ zs, -1 < z ∧ 0 < c.dist z ∧ 0 ≤ c.hubble z)
    (rv : Arr (Fin 3) ℝ) (hrs : rv.shape = lc.shape)
    (hrv : ∀ x y k : ℤ, rv.val ![x, y, k] = lc.val ![x, y, lc.shape 2 - 1 - k]) :
    ∃ o o', smoothLightcone c lc (.array zs) L B ratio = .ok (⟨lc.shape, o⟩, zs) ∧
      smoothLightcone c rv (.array zs.reverse) L B ratio = .ok (⟨lc.shape, o'⟩, zs.reverse) ∧
      ∀ x y k : ℤ, o' ![x, y, k] = o ![x, y, lc.shape 2 - 1 - k] := by
  classical
  obtain ⟨a, o, ha, ho, -⟩ := filters_ok c lc zs L B ratio hz hlen hn h0 h1 hL hB hr hc hzs
  obtain ⟨o₁, ho₁, -⟩ := C157_partial c lc zs L B ratio hz hlen hn h0 h1 hL hB hr hc hzs
  have hflip : flip rv = lc := by
    obtain ⟨s, v⟩ := lc
    obtain ⟨s', v'⟩ := rv
    obtain rfl : s' = s := hrs
    unfold flip
    congr 1
    funext x
    show v' ![x 0, x 1, s' 2 - 1 - x 2] = v x
    rw [show v' ![x 0, x 1, (s' 2 : ℤ) - 1 - x 2] = _ from hrv _ _ _]
    refine congrArg v (funext fun j => ?_)
    match j with
    | 0 | 1 => rfl
    | 2 =>
      show (s' 2 : ℤ) - 1 - (s' 2 - 1 - x 2) = x 2
      ring
  have hval : ∀ {u : Arr (Fin 3) ℝ}, u = lc → gaussSlices a
      ((zs.map fun z => (1 + z) * (21 / 100000) / B * c.dist z).map fun w => w * u.shape 0 / L) 2 = .ok ⟨lc.shape, o⟩ := by
    rintro u rfl
    exact ho
  refine ⟨o, fun x => o ![x 0, x 1, lc.shape 2 - 1 - x 2], ?_, ?_, fun x y k => rfl⟩
  · rw [ho₁]
    have : gaussSlices a ((zs.map fun z => (1 + z) * (21 / 100000) / B * c.dist z).map fun w => w * lc.shape 0 / L) 2 =
      .ok ⟨lc.shape, o⟩ := ho
    match zs, hlen, hz with
    | z0 :: z1 :: l, _, hz =>
      have hlt : ¬ z1 - z0 < 0 := by
        have := (List.pairwise_cons.1 hz).1 z1 (by simp)
        linarith
      have hs : sliceRedshifts c lc (.array (z0 :: z1 :: l)) L = .ok (z0 :: z1 :: l) := by
        unfold sliceRedshifts
        simp only []
        rw [if_pos hn]
      unfold smoothLightcone at ho₁
      rw [hs] at ho₁
      simp only [if_neg hlt, ha, ho] at ho₁
      exact ho₁.symm
  · have hs : sliceRedshifts c rv (.array zs.reverse) L = .ok zs.reverse := by
      unfold sliceRedshifts
      simp only []
      rw [if_pos (by rw [List.length_reverse, hrs, hn])]
    have hrl : 2 ≤ zs.reverse.length := by rw [List.length_reverse]; exact hlen
    have hrr := List.reverse_reverse zs
    have hdec : zs.reverse.Pairwise (· > ·) := List.pairwise_reverse.2 hz
    generalize zs.reverse = ys at *
    match ys, hrl, hdec with
    | z0 :: z1 :: l, _, hdec =>
      have hlt : z1 - z0 < 0 := by
        have := (List.pairwise_cons.1 hdec).1 z1 (by simp)
        linarith
      unfold smoothLightcone
      rw [hs]
      simp only [if_pos hlt, hrr, hflip, ha, ho]
      rw [← hrr, List.reverse_reverse]
      rfl

/-- **C157, bounds.** No value of the smoothed lightcone lies outside the values of the lightcone; a uniform lightcone stays as
it is. -/
theorem C157_bounds (c : Cosmo) (lc : Arr (Fin 3) ℝ) (zs : List ℝ) (L B ratio : ℝ) (o : (Fin 3 → ℤ) → ℝ)
    (h : AtResolution c lc zs L B ratio o) (hn : zs.length = lc.shape 2) (h0 : 0 < lc.shape 0) (h1 : 0 < lc.shape 1)
    (m M : ℝ) (hm : ∀ x y k : ℤ, 0 ≤ x → x < lc.shape 0 → 0 ≤ y → y < lc.shape 1 → 0 ≤ k → k < lc.shape 2 →
      m ≤ lc.val ![x, y, k] ∧ lc.val ![x, y, k] ≤ M) (x y : ℤ) (k : ℕ) (hk : k < lc.shape 2) :
    m ≤ o ![x, y, k] ∧ o ![x, y, k] ≤ M := by
  obtain ⟨lo, hi, g, hw, hg, hv⟩ := h k hk
  rw [hv]
  refine blurred_bounds h0 h1 hg _ m M (fun p q hp hp' hq hq' => ?_) x y
  have hlh : lo ≤ hi := hw.low.trans hw.high
  have hpos : (0 : ℝ) < (hi : ℝ) - lo + 1 := by
    have : (lo : ℝ) ≤ hi := by exact_mod_cast hlh
    linarith
  have hcard : ((Finset.Icc lo hi).card : ℝ) = (hi : ℝ) - lo + 1 := by
    rw [Nat.card_Icc, Nat.cast_sub (by omega)]
    push_cast
    ring
  have hb : ∀ t ∈ Finset.Icc lo hi, m ≤ lc.val ![p, q, (t : ℤ)] ∧ lc.val ![p, q, (t : ℤ)] ≤ M := fun t ht => by
    have h1 := Finset.mem_Icc.1 ht
    have h2 := hw.last
    exact hm p q t hp hp' hq hq' (Int.natCast_nonneg _) (by exact_mod_cast (by omega : t < lc.shape 2))
  unfold meanSlices
  rw [le_div_iff₀ hpos, div_le_iff₀ hpos, ← hcard]
  constructor
  · have := Finset.card_nsmul_le_sum _ _ m fun t ht => (hb t ht).1
    rw [nsmul_eq_mul] at this
    linarith
  · have := Finset.sum_le_card_nsmul _ _ M fun t ht => (hb t ht).2
    rw [nsmul_eq_mul] at this
    linarith

/-- **C157, the lowest redshift.** An array with the lowest redshift only stands for slices a cell apart. -/
theorem C157_lowest (c : Cosmo) (lc : Arr (Fin 3) ℝ) (z L B ratio : ℝ) (hn : lc.shape 2 ≠ 1) :
    smoothLightcone c lc (.array [z]) L B ratio = smoothLightcone c lc
      (.array ((List.range (lc.shape 2)).map fun (k : ℕ) => c.redshift (c.dist z + k * (L / lc.shape 0)))) L B ratio := by
  have h1 : sliceRedshifts c lc (.array [z]) L =
      .ok ((List.range (lc.shape 2)).map fun (k : ℕ) => c.redshift (c.dist z + k * (L / lc.shape 0))) := by
    unfold sliceRedshifts
    simp only [one_mul]
    rw [if_neg (by simpa using hn.symm)]
  have h2 : sliceRedshifts c lc (.array ((List.range (lc.shape 2)).map fun (k : ℕ) =>
      c.redshift (c.dist z + k * (L / lc.shape 0)))) L =
      .ok ((List.range (lc.shape 2)).map fun (k : ℕ) => c.redshift (c.dist z + k * (L / lc.shape 0))) := by
    unfold sliceRedshifts
    simp only []
    rw [if_pos (by simp)]
  unfold smoothLightcone
  rw [h1, h2]

example (c : Cosmo) := C157_lowest c ⟨![4, 4, 8], fun x => x 2⟩ 7 100 2 1 (by simp)

/-- **C157 is false for a number**: the documented "lowest value of the redshift" raises. -/
theorem C157_false (c : Cosmo) (lc : Arr (Fin 3) ℝ) (z L B ratio : ℝ) :
    smoothLightcone c lc (.number z) L B ratio = .error .attribute := rfl

/-- **C157, errors.** A single slice, or redshifts that are neither one nor as many as the slices. -/
theorem C157_raises (c : Cosmo) (lc : Arr (Fin 3) ℝ) (l : List ℝ) (L B ratio : ℝ) :
    (lc.shape 2 = 1 → l.length = 1 → smoothLightcone c lc (.array l) L B ratio = .error .index) ∧
      (l.length ≠ 1 → l.length ≠ lc.shape 2 → smoothLightcone c lc (.array l) L B ratio = .error .value) := by
  constructor
  · intro h1 h2
    match l, h2 with
    | [z], _ =>
      unfold smoothLightcone sliceRedshifts
      simp only []
      rw [if_pos (by simp [h1])]
  · intro h1 h2
    unfold smoothLightcone sliceRedshifts
    simp only []
    rw [if_neg h2]
    match l, h1 with
    | [], _ => rfl
    | _ :: _ :: _, _ => rfl

theorem gaussSlices_err (a : Arr (Fin 3) ℝ) (fwhm : List ℝ) (hl : fwhm.length = a.shape 2) (h2 : 0 < a.shape 2)
    (hw : ∀ w ∈ fwhm, w ≠ 0) (h : a.shape 1 < a.shape 0) : gaussSlices a fwhm 2 = .error .value := by
  unfold gaussSlices
  rw [if_neg (not_not.2 hl.symm), Verif.UVResponse.mapM_err _ Err.value _ (by simp [h2.ne']) fun k hk => ?_]
  have hk' := List.mem_range.1 hk
  obtain ⟨out, ho, h3, h4⟩ := C59_false (plane a 2 k) h (fwhm.getD k 0) (by
    rw [List.getD_eq_getElem _ _ (by omega)]
    exact hw _ (List.getElem_mem _))
  unfold gaussSlice
  rw [ho]
  simp only []
  rw [if_pos (show out.shape ≠ Fin.removeNth 2 a.shape from fun he => h4 (congrFun he 1))]

/-- **C157 is false for slices with more rows than columns**: such a lightcone cannot be smoothed. -/
theorem C157_shape_false (c : Cosmo) (lc : Arr (Fin 3) ℝ) (zs : List ℝ) (L B ratio : ℝ) (hz : zs.Pairwise (· < ·))
    (hlen : 2 ≤ zs.length) (hn : zs.length = lc.shape 2) (h1 : lc.shape 1 < lc.shape 0)
    (hL : 0 < L) (hB : 0 < B) (hr : 0 ≤ ratio) (hc : 0 < c.c) (hzs : ∀ z ∈ zs, -1 < z ∧ 0 < c.dist z ∧ 0 ≤ c.hubble z) :
    smoothLightcone c lc (.array zs) L B ratio = .error .value := by
  classical
  have hw : ∀ z ∈ zs, 0 < (1 + z) * (21 / 100000) / B * c.dist z := fun z hz' => by
    obtain ⟨p1, p2, -⟩ := hzs z hz'
    have : 0 < 1 + z := by linarith
    positivity
  obtain ⟨f, hf, -⟩ := tophatCone_ok lc zs (zs.map fun z => ratio * ((1 + z) * (21 / 100000) / B * c.dist z) / c.c * c.hubble z)
    hz hlen hn (by simp) (by
      intro d hd
      obtain ⟨z, hz', rfl⟩ := List.mem_map.1 hd
      have := hw z hz'
      have := (hzs z hz').2.2
      positivity)
  have hn0 : (0 : ℝ) < lc.shape 0 := by exact_mod_cast (by omega : 0 < lc.shape 0)
  have hg := gaussSlices_err ⟨lc.shape, f⟩
    ((zs.map fun z => (1 + z) * (21 / 100000) / B * c.dist z).map fun w => w * lc.shape 0 / L) (by simpa using hn)
    (show 0 < lc.shape 2 by omega) (by
      intro w hw'
      simp only [List.map_map, List.mem_map, Function.comp] at hw'
      obtain ⟨z, hz', rfl⟩ := hw'
      have := hw z hz'
      positivity) h1
  have hs : sliceRedshifts c lc (.array zs) L = .ok zs := by
    unfold sliceRedshifts
    simp only []
    rw [if_pos hn]
  match zs, hlen, hz with
  | z0 :: z1 :: l, _, hz =>
    have hlt : ¬ z1 - z0 < 0 := by
      have := (List.pairwise_cons.1 hz).1 z1 (by simp)
      linarith
    unfold smoothLightcone
    rw [hs]
    simp only [if_neg hlt, hf, hg]

/-- A lightcone of 2 × 2 pixels and three slices. -/
example : ∃ o, smoothLightcone ⟨id, id, fun _ => 1, 1⟩ ⟨![2, 2, 3], fun x => x 0 + x 2⟩ (.array [6, 7, 8]) 100 2 1 =
    .ok (⟨![2, 2, 3], o⟩, [6, 7, 8]) ∧ AtResolution ⟨id, id, fun _ => 1, 1⟩ ⟨![2, 2, 3], fun x => x 0 + x 2⟩ [6, 7, 8] 100 2 1 o :=
  C157_partial ⟨id, id, fun _ => 1, 1⟩ ⟨![2, 2, 3], fun x => x 0 + x 2⟩ [6, 7, 8] 100 2 1 (by norm_num) (by decide) rfl
    (by decide) (by decide) (by norm_num) (by norm_num) (by norm_num) (by norm_num) (by simp; norm_num)

/-- Four rows and two columns. -/
example : smoothLightcone ⟨id, id, fun _ => 1, 1⟩ ⟨![4, 2, 3], fun x => x 0 + x 2⟩ (.array [6, 7, 8]) 100 2 1 = .error .value :=
  C157_shape_false ⟨id, id, fun _ => 1, 1⟩ ⟨![4, 2, 3], fun x => x 0 + x 2⟩ [6, 7, 8] 100 2 1 (by norm_num) (by decide) rfl
    (by decide) (by norm_num) (by norm_num) (by norm_num) (by norm_num) (by simp; norm_num)

/-! ## Cubes -/

theorem tophatKernel_spec {n : ℕ} {w : ℚ} {k : Arr (Fin 2) ℝ} (h : tophatKernel n w = .ok k) :
    k.shape = (fun _ => n) ∧ (∀ x, 0 ≤ k.val x) ∧ ∑ x ∈ box (fun _ : Fin 2 => n), k.val x = 1 := by
  have hne : (cubeCells n w : Finset (Fin 2 → ℤ)).Nonempty := by
    rw [Finset.nonempty_iff_ne_empty]
    intro he
    unfold tophatKernel normalised at h
    rw [if_pos (by rw [he]; rfl)] at h
    cases h
  obtain ⟨k', hk, h1, h2, h3⟩ := normalised_spec (K := ℝ) n (cubeCells n w) (cubeCells_subset n w) hne
  have : k' = k := by
    have h' : Except.ok k' = Except.ok k := hk.symm.trans h
    injection h'
  subst this
  refine ⟨h1, fun x => ?_, ?_⟩
  · rw [h2]
    split_ifs
    · positivity
    · exact le_rfl
  · unfold Normalised at h3
    rw [h1] at h3
    exact h3

theorem cubeCells_nonempty {ι : Type} [Fintype ι] [DecidableEq ι] (n : ℕ) (hn : 0 < n) (w : ℚ) (hw : 0 < w) : (cubeCells n w : Finset (ι → ℤ)).Nonempty := by
  have h1 : 0 ≤ ⌊w / 2⌋ := Int.floor_nonneg.2 (by positivity)
  have h2 : 0 < ⌈w / 2⌉ := Int.ceil_pos.2 (by positivity)
  have h3 : ⌊w / 2⌋ ≤ ⌈w / 2⌉ := Int.floor_le_ceil _
  have hb : 0 ≤ bound n (idxLow n w) ∧ bound n (idxLow n w) < bound n (idxHigh n w) ∧ bound n (idxHigh n w) ≤ n := by
    unfold bound idxLow idxHigh
    rw [Int.tdiv_eq_ediv_of_nonneg (show (0 : ℤ) ≤ n + 2 * ⌈w / 2⌉ by omega)]
    generalize ⌊w / 2⌋ = f at *
    generalize ⌈w / 2⌉ = c at *
    rcases le_or_gt (2 * f) n with h | h
    · rw [Int.tdiv_eq_ediv_of_nonneg (by omega)]
      split_ifs <;> omega
    · have e : ((n : ℤ) - 2 * f).tdiv 2 = -((2 * f - n) / 2) := by
        rw [show (n : ℤ) - 2 * f = -(2 * f - n) by ring, Int.neg_tdiv, Int.tdiv_eq_ediv_of_nonneg (by omega)]
      rw [e]
      split_ifs <;> omega
  refine ⟨fun _ => bound n (idxLow n w), ?_⟩
  exact Finset.mem_filter.2 ⟨(mem_box _ _).2 fun _ => ⟨hb.1, hb.2.1.trans_le hb.2.2⟩, fun _ => ⟨le_rfl, hb.2.1⟩⟩

theorem sum_planes {R : Type} [AddCommMonoid R] (s : Fin 3 → ℕ) (ax : Fin 3) (f : (Fin 3 → ℤ) → R) :
    ∑ x ∈ box s, f x = ∑ i ∈ Finset.Ico 0 (s ax : ℤ), ∑ y ∈ box (ax.removeNth s), f (ax.insertNth i y) := by
  rw [← Finset.sum_product']
  refine Finset.sum_nbij' (fun x => (x ax, ax.removeNth x)) (fun q => ax.insertNth (α := fun _ => ℤ) q.1 q.2) ?_ ?_ ?_ ?_ ?_
  · intro x hx
    have := (mem_box _ _).1 hx
    exact Finset.mem_product.2 ⟨Finset.mem_Ico.2 (this ax), (mem_box _ _).2 fun j => this _⟩
  · intro q hq
    obtain ⟨h1, h2⟩ := Finset.mem_product.1 hq
    refine (mem_box _ _).2 fun j => ?_
    rcases Fin.eq_self_or_eq_succAbove ax j with rfl | ⟨k, rfl⟩
    · rw [Fin.insertNth_apply_same]
      exact Finset.mem_Ico.1 h1
    · rw [Fin.insertNth_apply_succAbove]
      exact (mem_box _ _).1 h2 k
  · intro x _
    simp
  · intro q _
    simp
  · intro x _
    simp

/-- The frequency average of a cube with equal sides keeps the bounds and the total of the planes. -/
theorem coevalTophat_spec (cube : Arr (Fin 3) ℝ) (n : ℕ) (hn : 0 < n) (hs : ∀ i, cube.shape i = n) (w : ℚ) (hw : 0 < w)
    (nu : Fin 3) : ∃ f, smoothCoevalTophat cube w nu = .ok ⟨cube.shape, f⟩ ∧
      (∀ m M : ℝ, (∀ x ∈ box cube.shape, m ≤ cube.val x ∧ cube.val x ≤ M) → ∀ x ∈ box cube.shape, m ≤ f x ∧ f x ≤ M) ∧
      ∑ x ∈ box cube.shape, f x = ∑ x ∈ box cube.shape, cube.val x := by
  obtain ⟨k, hk, hk2, -, -⟩ := normalised_spec (ι := Fin 2) (K := ℝ) n (cubeCells n w) (cubeCells_subset n w) (cubeCells_nonempty n hn w hw)
  have hk1 : tophatKernel n w = .ok k := hk
  obtain ⟨-, hk3, hk4⟩ := tophatKernel_spec hk1
  generalize hax : (if nu = 0 then 1 else 0 : Fin 3) = ax
  have hp : ∀ (i : ℤ) (j : Fin 2), (plane cube ax i).shape j = n := fun i j => hs _
  have hfits : ∀ i, Fits (plane cube ax i) k := fun i =>
    ⟨fun j => by rw [hk2]; exact hn, fun j => by rw [hk2, hp]⟩
  have hk4' : ∑ x ∈ box k.shape, k.val x = 1 := by rw [hk2]; exact hk4
  have hres := fun i => circular_result (plane cube ax i) k (hfits i) .same (by simp) .numpy (by simp)
  choose f hf1 hf2 using hres
  have hinj : ∀ i o, fftconvolve (plane cube ax i) k .same .circular .numpy = .ok ⟨(plane cube ax i).shape, o⟩ → o = f i := by
    intro i o ho
    have h : Except.ok (⟨(plane cube ax i).shape, o⟩ : Arr (Fin 2) ℝ) = Except.ok ⟨(plane cube ax i).shape, f i⟩ :=
      ho.symm.trans (hf1 i)
    injection h with h
    injection h
  refine ⟨fun x => f (x ax) (ax.removeNth x), ?_, ?_, ?_⟩
  · unfold smoothCoevalTophat
    rw [hs, hk1]
    have e : ∀ i, smoothWithKernel (plane cube ax i) k = .ok ⟨(plane cube ax i).shape, f i⟩ := hf1
    simp only [hax, e, bind, Except.bind]
    rw [if_neg (by simp [plane])]
  · intro m M hmM x hx
    obtain ⟨o, ho, hb⟩ := circular_bounds (plane cube ax (x ax)) k (hfits _) m M (by
      intro y hy
      refine hmM _ ((mem_box _ _).2 fun j => ?_)
      rcases Fin.eq_self_or_eq_succAbove ax j with rfl | ⟨k, rfl⟩
      · rw [Fin.insertNth_apply_same]
        exact (mem_box _ _).1 hx _
      · rw [Fin.insertNth_apply_succAbove]
        exact (mem_box _ _).1 hy k) (fun j _ => hk3 j) hk4' .numpy (by simp)
    beta_reduce
    rw [← hinj _ o ho]
    exact hb _
  · rw [sum_planes cube.shape ax, sum_planes cube.shape ax]
    refine Finset.sum_congr rfl fun i _ => ?_
    obtain ⟨o, ho, hsum⟩ := circular_sum (plane cube ax i) k (hfits i) .numpy (by simp)
    rw [hinj i o ho, hk4', mul_one] at hsum
    simpa [plane] using hsum

theorem blurred_sum {n n' : ℕ} {g : Arr (Fin 2) ℝ} {w : ℝ} (hg : IsGauss g n w) (a : ℤ → ℤ → ℝ) :
    ∑ y ∈ box ![n, n'], blurred n n' g a (y 0) (y 1) = ∑ y ∈ box ![n, n'], a (y 0) (y 1) := by
  unfold blurred
  rw [Finset.sum_comm]
  have h : ∀ j : Fin 2 → ℤ, ∑ y ∈ box ![n, n'], g.val j * a ((y 0 + ((n + 1) / 2 : ℕ) - j 0) % n) ((y 1 + ((n + 1) / 2 : ℕ) - j 1) % n') =
      g.val j * ∑ y ∈ box ![n, n'], a (y 0) (y 1) := by
    intro j
    rw [← Finset.mul_sum, ← sum_shift ![n, n'] ((fun _ => (((n + 1) / 2 : ℕ) : ℤ)) - j) (fun y => a (y 0) (y 1))]
    congr 1
    refine Finset.sum_congr rfl fun y _ => ?_
    unfold md
    simp only [Pi.add_apply, Pi.sub_apply, add_sub_assoc, Matrix.cons_val_zero, Matrix.cons_val_one]
  rw [Finset.sum_congr rfl fun j _ => h j, ← Finset.sum_mul, hg.sum, one_mul]

/-- **C157 for cubes**: a cube with equal sides is smoothed without an error; the result has its shape, stays between the smallest
and the largest value of the cube and has the same total. -/
theorem C157_coeval (dist : ℚ → ℚ) (cube : Arr (Fin 3) ℝ) (n : ℕ) (hn : 0 < n) (hs : ∀ i, cube.shape i = n) (z L B ratio : ℚ)
    (nu : Fin 3) (hz : -1 < z) (hd : 0 < dist z) (hL : 0 < L) (hB : 0 < B) (hr : 0 < ratio) :
    ∃ o, smoothCoeval dist cube z L B ratio nu = .ok ⟨cube.shape, o⟩ ∧
      (∀ m M : ℝ, (∀ x : Fin 3 → ℤ, (∀ i, 0 ≤ x i ∧ x i < n) → m ≤ cube.val x ∧ cube.val x ≤ M) →
        ∀ x : Fin 3 → ℤ, (∀ i, 0 ≤ x i ∧ x i < n) → m ≤ o x ∧ o x ≤ M) ∧
      ∑ x ∈ Fintype.piFinset (fun _ : Fin 3 => Finset.Ico 0 (n : ℤ)), o x =
        ∑ x ∈ Fintype.piFinset (fun _ : Fin 3 => Finset.Ico 0 (n : ℤ)), cube.val x := by
  have hz' : 0 < 1 + z := by linarith
  have hn' : (0 : ℚ) < n := by exact_mod_cast hn
  have hwidth : 0 < resolution z (dist z) B * cube.shape 0 / L := by
    unfold resolution
    rw [hs]
    positivity
  obtain ⟨f, hf, hb, hsum⟩ := coevalTophat_spec cube n hn hs _ (mul_pos hwidth hr) nu
  obtain ⟨o, ho, hv⟩ := gaussSlices_ok ⟨cube.shape, f⟩ (List.replicate (cube.shape nu) ((resolution z (dist z) B * cube.shape 0 / L : ℚ) : ℝ))
    nu (by simp) (by show 0 < cube.shape _; rw [hs]; exact hn) (by show cube.shape _ ≤ cube.shape _; rw [hs, hs]) (by
      intro w hw
      rw [(List.mem_replicate.1 hw).2]
      exact_mod_cast hwidth.ne')
  have hbox : box cube.shape = Fintype.piFinset (fun _ : Fin 3 => Finset.Ico 0 (n : ℤ)) := by
    unfold box
    simp only [hs]
  have hmem : ∀ x : Fin 3 → ℤ, x ∈ box cube.shape ↔ ∀ i, 0 ≤ x i ∧ x i < n := fun x => by
    rw [mem_box]
    simp only [hs]
  have hrem : ∀ j, nu.removeNth cube.shape j = n := fun j => hs _
  have hsplit : ∀ x : Fin 3 → ℤ, x ∈ box cube.shape → ∃ k < n, x = nu.insertNth (α := fun _ => ℤ) (k : ℤ) ![x (nu.succAbove 0), x (nu.succAbove 1)] := by
    intro x hx
    have := (hmem x).1 hx nu
    refine ⟨(x nu).toNat, by omega, ?_⟩
    rw [Int.toNat_of_nonneg this.1]
    have e : (![x (nu.succAbove 0), x (nu.succAbove 1)] : Fin 2 → ℤ) = nu.removeNth x := by
      funext j
      match j with
      | 0 | 1 => rfl
    rw [e]
    simp
  refine ⟨o, ?_, ?_, ?_⟩
  · unfold smoothCoeval
    rw [if_neg hB.ne']
    simp only [hf]
    exact ho
  · intro m M h x hx
    obtain ⟨k, hk, e⟩ := hsplit x ((hmem x).2 hx)
    obtain ⟨g, hG, hgv⟩ := hv k (by show k < cube.shape nu; rw [hs]; exact hk)
    rw [e, hgv]
    refine blurred_bounds (by show 0 < nu.removeNth cube.shape 0; rw [hrem]; exact hn)
      (by show 0 < nu.removeNth cube.shape 1; rw [hrem]; exact hn) hG _ m M ?_ _ _
    intro p q hp1 hp2 hq1 hq2
    refine hb m M (fun x hx => h x ((hmem x).1 hx)) _ ((hmem _).2 fun j => ?_)
    rw [show (nu.removeNth (Arr.shape ⟨cube.shape, f⟩) 0) = n from hrem 0] at hp2
    rw [show (nu.removeNth (Arr.shape ⟨cube.shape, f⟩) 1) = n from hrem 1] at hq2
    rcases Fin.eq_self_or_eq_succAbove nu j with rfl | ⟨i, rfl⟩
    · rw [Fin.insertNth_apply_same]
      omega
    · rw [Fin.insertNth_apply_succAbove]
      match i with
      | 0 => exact ⟨hp1, hp2⟩
      | 1 => exact ⟨hq1, hq2⟩
  · rw [← hbox, ← hsum, sum_planes cube.shape nu, sum_planes cube.shape nu]
    refine Finset.sum_congr rfl fun i hi => ?_
    have hi' := Finset.mem_Ico.1 hi
    obtain ⟨k, rfl⟩ := Int.eq_ofNat_of_zero_le hi'.1
    obtain ⟨g, hG, hgv⟩ := hv k (by show k < cube.shape nu; omega)
    have e : nu.removeNth cube.shape = ![nu.removeNth cube.shape 0, nu.removeNth cube.shape 1] := by
      funext j
      match j with
      | 0 | 1 => rfl
    have e2 : ∀ y : Fin 2 → ℤ, ![y 0, y 1] = y := fun y => by
      funext j
      match j with
      | 0 | 1 => rfl
    have := blurred_sum (n' := nu.removeNth cube.shape 1) hG fun x y => f (nu.insertNth (k : ℤ) ![x, y])
    rw [e]
    simp only [← hgv, e2] at this
    exact this

/-- A cube of 4 × 4 × 4 cells. -/
example : ∃ o, smoothCoeval (fun _ => 9000) ⟨fun _ => 4, fun x => ((x 0 * x 1 + x 2 : ℤ) : ℝ)⟩ 7 100 2 1 0 = .ok ⟨fun _ => 4, o⟩ ∧
    ∀ x : Fin 3 → ℤ, (∀ i, 0 ≤ x i ∧ x i < 4) → 0 ≤ o x ∧ o x ≤ 12 := by
  obtain ⟨o, h1, h2, -⟩ := C157_coeval (fun _ => 9000) ⟨fun _ => 4, fun x => ((x 0 * x 1 + x 2 : ℤ) : ℝ)⟩ 4 (by norm_num) (fun _ => rfl) 7 100 2 1 0
    (by norm_num) (by norm_num) (by norm_num) (by norm_num) (by norm_num)
  refine ⟨o, h1, h2 0 12 fun x hx => ?_⟩
  have a := hx 0
  have b := hx 1
  have c := hx 2
  have : 0 ≤ x 0 * x 1 := mul_nonneg a.1 b.1
  have : x 0 * x 1 ≤ 3 * 3 := mul_le_mul (by omega) (by omega) b.1 (by norm_num)
  constructor
  · have : (0 : ℤ) ≤ x 0 * x 1 + x 2 := by omega
    show (0 : ℝ) ≤ ((x 0 * x 1 + x 2 : ℤ) : ℝ)
    exact_mod_cast this
  · have : x 0 * x 1 + x 2 ≤ (12 : ℤ) := by omega
    show ((x 0 * x 1 + x 2 : ℤ) : ℝ) ≤ 12
    exact_mod_cast this

end Verif.UVSmooth
