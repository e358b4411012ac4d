import Verif.Props.NoiseMap
import Verif.Props.Distances
import Verif.Props.SmoothLine
/-!
# Cubes and power spectra of thermal noise

C115: `noise_cube_coeval`, `noise_lightcone` and `noise_cube_lightcone`.
C116: `noise_coeval_power_spectrum_1d`.
-/

namespace Verif.Noise
open Verif.Convolve Verif.PowerSpectrum Verif.Conversions Verif.Constants Verif.RandomField
open MeasureTheory ProbabilityTheory

variable {Ω : Type} [MeasurableSpace Ω] {μ : Measure Ω} [IsProbabilityMeasure μ]

/-! ## C115 -/

/-- The arrays of the `m` slices hold independent standard normal numbers. -/
structure NormalCube (μ : Measure Ω) (m : ℕ) (s : Fin 2 → ℕ) (a b : Ω → ℕ → (Fin 2 → ℤ) → ℝ) : Prop where
  indep : iIndepFun (fun (p : Fin m × {x // x ∈ box s} × Bool) ω => if p.2.2 then a ω p.1 p.2.1 else b ω p.1 p.2.1) μ
  law : ∀ (p : Fin m × {x // x ∈ box s} × Bool),
    HasLaw (fun ω => if p.2.2 then a ω p.1 p.2.1 else b ω p.1 p.2.1) (gaussianReal 0 1) μ

theorem normalCube_exists (m : ℕ) (s : Fin 2 → ℕ) :
    NormalCube (Measure.pi fun _ : Fin m × {x // x ∈ box s} × Bool => gaussianReal 0 1) m s
      (fun ω t x => if h : t < m ∧ x ∈ box s then ω (⟨t, h.1⟩, ⟨x, h.2⟩, true) else 0)
      (fun ω t x => if h : t < m ∧ x ∈ box s then ω (⟨t, h.1⟩, ⟨x, h.2⟩, false) else 0) := by
  have e : ∀ (p : Fin m × {x // x ∈ box s} × Bool) (ω : Fin m × {x // x ∈ box s} × Bool → ℝ),
      (if p.2.2 then (if h : p.1.1 < m ∧ p.2.1.1 ∈ box s then ω (⟨p.1.1, h.1⟩, ⟨p.2.1.1, h.2⟩, true) else 0)
        else (if h : p.1.1 < m ∧ p.2.1.1 ∈ box s then ω (⟨p.1.1, h.1⟩, ⟨p.2.1.1, h.2⟩, false) else 0)) = ω p := by
    rintro ⟨t, x, c⟩ ω
    have h : t.1 < m ∧ x.1 ∈ box s := ⟨t.2, x.2⟩
    cases c
    · simp only [Bool.false_eq_true, if_false, dif_pos h]
    · simp only [if_true, dif_pos h]
  constructor
  · simp only [e]
    exact iIndepFun_pi (μ := fun _ : Fin m × {x // x ∈ box s} × Bool => gaussianReal 0 1)
      (X := fun _ x => x) (fun _ => aemeasurable_id)
  · intro p
    simp only [e]
    exact (measurePreserving_eval (fun _ : Fin m × {x // x ∈ box s} × Bool => gaussianReal 0 1) p).hasLaw

/-- Specification: the flux in micro-jansky of one mK in a pixel. -/
noncomputable def fluxOfOne (k : Const) (n : ℕ) (L z : ℝ) : ℝ :=
  10 ^ 6 * fluxJy 1 (pixel L (cdist k z) n) (1420 / (1 + z))

/-- Specification: noise of bandwidth `depth` MHz during `obs` hours for the SEFD `s`. -/
noncomputable def visibilityNoise (s depth obs : ℝ) : ℝ := (1e6 * s) ^ 2 / (2 * (depth * 1e6) * (3600 * obs))

/-- Specification: the slices `M t` of a cube have mean zero, the covariance `cov t` and are uncorrelated. -/
def SliceNoise (μ : Measure Ω) (n m : ℕ) (M : Ω → List (Arr (Fin 2) ℝ))
    (cov : ℕ → (Fin 2 → ℤ) → (Fin 2 → ℤ) → ℝ) : Prop :=
  (∀ ω, (M ω).length = m ∧ ∀ c ∈ M ω, c.shape = square n) ∧
  ∀ t < m, ∀ t' < m, ∀ x y,
    (Integrable (fun ω => ((M ω).getD t ⟨square n, 0⟩).val x) μ ∧ ∫ ω, ((M ω).getD t ⟨square n, 0⟩).val x ∂μ = 0) ∧
    Integrable (fun ω => ((M ω).getD t ⟨square n, 0⟩).val x * ((M ω).getD t' ⟨square n, 0⟩).val y) μ ∧
    ∫ ω, ((M ω).getD t ⟨square n, 0⟩).val x * ((M ω).getD t' ⟨square n, 0⟩).val y ∂μ = if t = t' then cov t x y else 0

/-- Slices that are sums over the random numbers of their own slice. -/
theorem slices (n m : ℕ) (a b : Ω → ℕ → (Fin 2 → ℤ) → ℝ) (h : NormalCube μ m (square n) a b)
    (u : ℕ → (Fin 2 → ℤ) → {x // x ∈ box (square n)} × Bool → ℝ) :
    SliceNoise μ n m (fun ω => (List.range m).map fun t =>
      ⟨square n, fun x => ∑ q, u t x q * (if q.2 then a ω t q.1 else b ω t q.1)⟩)
      fun t x y => ∑ q, u t x q * u t y q := by
  classical
  refine ⟨fun ω => ⟨by simp, fun c hc => ?_⟩, fun t ht t' ht' x y => ?_⟩
  · rw [List.mem_map] at hc
    obtain ⟨t, -, rfl⟩ := hc
    rfl
  have L := fun u v => linear_moments (μ := μ) h.indep h.law u v
  have hx : ∀ t (ht : t < m) x ω, (((List.range m).map fun t =>
      (⟨square n, fun x => ∑ q, u t x q * (if q.2 then a ω t q.1 else b ω t q.1)⟩ : Arr (Fin 2) ℝ)).getD t
        ⟨square n, 0⟩).val x =
      ∑ p : Fin m × {x // x ∈ box (square n)} × Bool, (if p.1 = ⟨t, ht⟩ then u t x p.2 else 0) *
        (if p.2.2 then a ω p.1 p.2.1 else b ω p.1 p.2.1) := by
    intro t ht x ω
    rw [List.getD_eq_getElem _ _ (by simpa using ht), List.getElem_map, List.getElem_range, Fintype.sum_prod_type]
    simp only [ite_mul, zero_mul]
    rw [Finset.sum_eq_single (⟨t, ht⟩ : Fin m)]
    · simp only [if_true]
    · intro t'' _ hne
      refine Finset.sum_eq_zero fun q _ => if_neg hne
    · intro hne
      exact absurd (Finset.mem_univ _) hne
  simp only [hx t ht, hx t' ht']
  refine ⟨(L _ 0).1, (L _ _).2.1, ?_⟩
  rw [(L _ _).2.2, Fintype.sum_prod_type]
  by_cases htt : t = t'
  · subst htt
    rw [if_pos rfl, Finset.sum_eq_single (⟨t, ht⟩ : Fin m)]
    · simp only [if_true]
    · intro t'' _ hne
      refine Finset.sum_eq_zero fun q _ => ?_
      rw [if_neg hne, zero_mul]
    · intro hne
      exact absurd (Finset.mem_univ _) hne
  · rw [if_neg htt]
    refine Finset.sum_eq_zero fun r _ => Finset.sum_eq_zero fun q _ => ?_
    by_cases hr : r = ⟨t, ht⟩
    · rw [if_neg (show r ≠ ⟨t', ht'⟩ by
        rw [hr]
        intro h
        exact htt (congrArg Fin.val h)), mul_zero]
    · rw [if_neg hr, zero_mul]

theorem conversion_eq (k : Const) (v : Conv) (n : ℕ) (z : ℝ) (box : Option ℝ) (hL : box.getD v.LB ≠ 0) :
    kelvin_jansky_conversion k v n z box = fluxOfOne k n (box.getD v.LB) z := by
  have e : boxsizeOr v.LB box = box.getD v.LB := by
    cases box with
    | none => rfl
    | some b =>
      simp only [Option.getD_some] at hL
      simp [boxsizeOr, hL]
  simp only [kelvin_jansky_conversion, e, fluxOfOne, fluxJy, pixel, kbSI, cLightSI, janskyToWatt, z_to_nu, nu0]
  generalize cdist k z = d
  ring

/-- The lightcone of `noise_lightcone` in mK: independent slices, each with the noise of `noise_map` for its redshift, its
UV map and the bandwidth to the next slice (for the last to the one before). -/
theorem C115_partial (k : Const) (v : Conv) (table : List ℝ × List ℝ) (p : Setup) (n : ℕ) (zs : List ℝ)
    (box : Option ℝ) (hL : box.getD v.LB ≠ 0) (a b : Ω → ℕ → (Fin 2 → ℤ) → ℝ) (uv : ℕ → (Fin 2 → ℤ) → ℝ)
    (s depth : ℕ → ℝ)
    (hs : ∀ t < zs.length,
      getSEFD table (.one (1420 / (1 + zs.getD t 0))) p.tsys p.data p.nuData p.D p.ep = .ok (.one (s t)))
    (h0 : ∀ t < zs.length, 0 ≤ s t) (hl : 2 ≤ zs.length)
    (hd : ∀ t, t + 1 < zs.length → depth t = |1420 / (1 + zs.getD t 0) - 1420 / (1 + zs.getD (t + 1) 0)|)
    (hlast : depth (zs.length - 1) = depth (zs.length - 2)) (hpos : ∀ t < zs.length, 0 < depth t)
    (ho : 0 < p.obs) (hi : 0 < p.int) (hw : p.w = .natural ∧ p.sup = .off ∨ p.w = .uniform)
    (hwrap : p.wrap = false) (hn : 2 ≤ n) (hN : NormalCube μ zs.length (square n) a b) :
    ∃ M : Ω → List (Arr (Fin 2) ℝ), (∀ ω, noiseLightcone k v table p n zs box (a ω) (b ω) uv = .ok (M ω)) ∧
      SliceNoise μ n zs.length M fun t x y =>
        covariance n (visibilityNoise (s t) (depth t) p.obs) p.w (uv t) x y /
          fluxOfOne k n (box.getD v.LB) (zs.getD t 0) ^ 2 := by
  have hda : ∀ t < zs.length, depthAt zs t = depth t := by
    intro t ht
    unfold depthAt
    by_cases h : t + 1 < zs.length
    · rw [if_pos h, hd t h, abs_sub_comm]
      rfl
    · have e : t = zs.length - 1 := by omega
      rw [if_neg h, if_neg (by omega), e, hlast, hd (zs.length - 2) (by omega), abs_sub_comm]
      rw [show zs.length - 2 + 1 = zs.length - 1 by omega, show zs.length - 1 - 1 = zs.length - 2 by omega]
      rfl
  have hu := fun t (ht : t < zs.length) => mapAt_eq table p n (zs.getD t 0) (depth t) (uv t) (s t) (hs t ht) (h0 t ht)
    (hpos t ht) ho hi hw hwrap hn
  choose! u hu hc using hu
  set K := fun t => fluxOfOne k n (box.getD v.LB) (zs.getD t 0) with hK
  have hval : ∀ ω, noiseLightcone k v table p n zs box (a ω) (b ω) uv = .ok ((List.range zs.length).map fun t =>
      ⟨square n, fun x => ∑ q, u t x q / K t * (if q.2 then a ω t q.1 else b ω t q.1)⟩) := by
    intro ω
    unfold noiseLightcone
    refine Smoothing.mapM_ok _ _ _ fun t ht => ?_
    have ht := List.mem_range.mp ht
    rw [hda t ht, hu t ht]
    simp only []
    congr 2
    funext x
    simp only [jansky_2_kelvin, ncellsOr, conversion_eq k v n _ box hL]
    rw [Finset.sum_div]
    refine Finset.sum_congr rfl fun q _ => ?_
    rw [hK]
    ring
  refine ⟨_, hval, ?_⟩
  · have h1 := slices n zs.length a b hN fun t x q => u t x q / K t
    refine ⟨h1.1, fun t ht t' ht' x y => ?_⟩
    have h2 := h1.2 t ht t' ht' x y
    refine ⟨h2.1, h2.2.1, h2.2.2.trans ?_⟩
    congr 1
    simp only []
    rw [visibilityNoise, ← hc t ht, Finset.sum_div]
    refine Finset.sum_congr rfl fun q _ => ?_
    rw [hK]
    ring

/-- Redshifts of increasing distance. -/
example : ∃ depth : ℕ → ℝ, (∀ t, t + 1 < [7, 8, (9 : ℝ)].length →
      depth t = |1420 / (1 + [7, 8, (9 : ℝ)].getD t 0) - 1420 / (1 + [7, 8, (9 : ℝ)].getD (t + 1) 0)|) ∧
    depth ([7, 8, (9 : ℝ)].length - 1) = depth ([7, 8, (9 : ℝ)].length - 2) ∧
    ∀ t < [7, 8, (9 : ℝ)].length, 0 < depth t := by
  refine ⟨fun t => if t = 0 then 1420 / 8 - 1420 / 9 else 1420 / 9 - 1420 / 10, ?_, ?_, ?_⟩
  · intro t ht
    simp only [List.length_cons, List.length_nil] at ht
    rcases (show t = 0 ∨ t = 1 by omega) with rfl | rfl <;> norm_num [abs_of_pos]
  · norm_num
  · intro t _
    simp only []
    split_ifs <;> norm_num

/-- The cube of `noise_cube_coeval` in mK: independent slices, all with the noise of `noise_map` for the redshift and
the bandwidth. -/
theorem C115_coeval (k : Const) (v : Conv) (toZ : ℝ → ℝ) (table : List ℝ × List ℝ) (p : Setup) (n : ℕ) (z depth : ℝ)
    (box : Option ℝ) (hL : box.getD v.LB ≠ 0) (a b : Ω → ℕ → (Fin 2 → ℤ) → ℝ) (uv : (Fin 2 → ℤ) → ℝ) (s : ℝ)
    (hs : getSEFD table (.one (1420 / (1 + z))) p.tsys p.data p.nuData p.D p.ep = .ok (.one s)) (h0 : 0 ≤ s)
    (hd : 0 < depth) (ho : 0 < p.obs) (hi : 0 < p.int) (hw : p.w = .natural ∧ p.sup = .off ∨ p.w = .uniform)
    (hwrap : p.wrap = false) (hn : 2 ≤ n) (hN : NormalCube μ n (square n) a b) :
    ∃ M : Ω → List (Arr (Fin 2) ℝ),
      (∀ ω, noiseCube k v toZ table p n z (some depth) box (a ω) (b ω) uv = .ok (M ω)) ∧
      SliceNoise μ n n M fun _ x y =>
        covariance n (visibilityNoise s depth p.obs) p.w uv x y / fluxOfOne k n (box.getD v.LB) z ^ 2 := by
  obtain ⟨u, hu, hc⟩ := mapAt_eq table p n z depth uv s hs h0 hd ho hi hw hwrap hn
  set K := fluxOfOne k n (box.getD v.LB) z with hK
  have hval : ∀ ω, noiseCube k v toZ table p n z (some depth) box (a ω) (b ω) uv = .ok ((List.range n).map fun t =>
      ⟨square n, fun x => ∑ q, u x q / K * (if q.2 then a ω t q.1 else b ω t q.1)⟩) := by
    intro ω
    unfold noiseCube
    simp only [Option.getD_some]
    rw [Smoothing.mapM_ok _ (fun t => (⟨square n, fun x => ∑ q, u x q * (if q.2 then a ω t q.1 else b ω t q.1)⟩ :
      Arr (Fin 2) ℝ)) _ fun t _ => hu (a ω t) (b ω t)]
    simp only [List.map_map]
    congr 1
    refine List.map_congr_left fun t _ => ?_
    simp only [Function.comp]
    congr 1
    funext x
    simp only [jansky_2_kelvin, ncellsOr]
    rw [conversion_eq k v n z (some (box.getD v.LB)) (by simpa using hL)]
    rw [Finset.sum_div]
    refine Finset.sum_congr rfl fun q _ => ?_
    rw [hK]
    simp only [Option.getD_some]
    ring
  refine ⟨_, hval, ?_⟩
  have h1 := slices n n a b hN fun t x q => u x q / K
  refine ⟨h1.1, fun t ht t' ht' x y => ?_⟩
  have h2 := h1.2 t ht t' ht' x y
  refine ⟨h2.1, h2.2.1, h2.2.2.trans ?_⟩
  congr 1
  simp only []
  rw [visibilityNoise, ← hc, Finset.sum_div]
  refine Finset.sum_congr rfl fun q _ => ?_
  ring

/-- Without `depth_mhz` the bandwidth is the frequency range of the box over the number of cells. -/
theorem C115_depth (k : Const) (v : Conv) (toZ : ℝ → ℝ) (table : List ℝ × List ℝ) (p : Setup) (n : ℕ) (z : ℝ)
    (box : Option ℝ) (a b : ℕ → (Fin 2 → ℤ) → ℝ) (uv : (Fin 2 → ℤ) → ℝ) (near far : ℝ)
    (hnear : toZ (cdist k z - box.getD v.LB / 2) = near) (hfar : toZ (cdist k z + box.getD v.LB / 2) = far) :
    noiseCube k v toZ table p n z none box a b uv =
      noiseCube k v toZ table p n z (some ((1420 / (1 + near) - 1420 / (1 + far)) / n)) box a b uv := by
  unfold noiseCube
  simp only [Option.getD_none, Option.getD_some, hnear, hfar]
  rfl

/-- A numerical inverse of the distance at the near side. -/
example : ∃ toZ : ℝ → ℝ, ∀ x, toZ x = 7 + x := ⟨_, fun _ => rfl⟩

/-- Claims of C115: `noise_cube_lightcone` gives a cube, and `noise_lightcone` works for any redshifts.  False: the first
always raises; the second gives nothing finite for a single redshift or if two neighbours are equal. -/
theorem C115_false (k : Const) (v : Conv) (table : List ℝ × List ℝ) (p : Setup) (n : ℕ) (zs : List ℝ)
    (box : Option ℝ) (a b uv : ℕ → (Fin 2 → ℤ) → ℝ) :
    (∃ e, noiseCubeLightcone k v table p n zs box a b uv = .error e) ∧
    (zs.length = 1 ∨ (∃ t, t + 1 < zs.length ∧ zs.getD t 0 = zs.getD (t + 1) 0) →
      ∃ e, noiseLightcone k v table p n zs box a b uv = .error e) := by
  constructor
  · exact ⟨_, rfl⟩
  · intro h
    obtain ⟨t, ht, h0⟩ : ∃ t < zs.length, depthAt zs t = 0 := by
      rcases h with h | ⟨t, ht, e⟩
      · refine ⟨0, by omega, ?_⟩
        unfold depthAt
        rw [if_neg (by omega), if_pos rfl, h]
        simp
      · refine ⟨t, by omega, ?_⟩
        unfold depthAt
        rw [if_pos ht, e, sub_self, abs_zero]
    have hm : ∃ e, mapAt table p n (zs.getD t 0) (depthAt zs t) (a t) (b t) (uv t) = .error e := by
      rw [h0]
      unfold mapAt sigmaNoiseRadio
      split
      · exact ⟨_, rfl⟩
      · rename_i q _ _ hq
        exfalso
        revert hq
        split
        · simp
        · simp
        · unfold sigmaNoise
          rw [if_pos (by norm_num)]
          simp
    obtain ⟨e, he⟩ := hm
    unfold noiseLightcone
    have key : ∀ (l : List ℕ), t ∈ l → ∃ e, l.mapM (fun t =>
        (match mapAt table p n (zs.getD t 0) (depthAt zs t) (a t) (b t) (uv t) with
        | .error e => .error e
        | .ok m => .ok ⟨m.shape, jansky_2_kelvin k v n m.val (zs.getD t 0) box none⟩ :
          Except String (Arr (Fin 2) ℝ))) = .error e := by
      intro l
      induction l with
      | nil => simp
      | cons c l ih =>
        intro hc
        rw [List.mapM_cons]
        rcases List.mem_cons.mp hc with rfl | hc
        · rw [he]
          exact ⟨e, rfl⟩
        · obtain ⟨e', he'⟩ := ih hc
          rw [he']
          split
          · exact ⟨_, rfl⟩
          · exact ⟨_, rfl⟩
    exact key _ (List.mem_range.mpr ht)

/-- Equal neighbours. -/
example : ∃ t, t + 1 < [7, 8, (8 : ℝ)].length ∧ [7, 8, (8 : ℝ)].getD t 0 = [7, 8, (8 : ℝ)].getD (t + 1) 0 :=
  ⟨1, by simp, rfl⟩

/-! ## C116 -/

/-- For natural weighting and a UV map that samples every cell, the spectrum is the radial average of the noise power of
the cells: that of one visibility over their number, times the area of the box over the fourth power of the number of
cells. -/
theorem C116_partial (LB : ℝ) (table : List ℝ × List ℝ) (p : Setup) (n : ℕ) (z depth : ℝ) (boxsize : Option ℝ)
    (kbins : KBins) (binning : Binning) (uv : (Fin 2 → ℤ) → ℝ) (s : ℝ)
    (hs : getSEFD table (.one (1420 / (1 + z))) p.tsys p.data p.nuData p.D p.ep = .ok (.one s))
    (hd : 0 < depth) (hi : 0 < p.int) (hw : p.w = .natural) (huv : ∀ i ∈ box (square n), 0 < uv i)
    (hl : boxsize.getD LB ≠ 0) (hn : 0 < n) (P : Arr (Fin 2) ℝ) (hP : P.shape = square n)
    (hval : ∀ i ∈ box (square n), P.val i = (1e6 * s) ^ 2 / (2 * (depth * 1e6) * p.int) /
      uv (fun j => (i j - (n / 2 : ℕ)) % n) * (boxsize.getD LB ^ 2 / (n : ℝ) ^ 4)) (r : Radial)
    (hr : radialAverage P (.list [boxsize.getD LB, boxsize.getD LB]) kbins binning (1 / 10) = .ok r) :
    noisePower LB table p n z depth boxsize kbins binning uv = .ok r := by
  have p1 : 0 < 2 * depth * 10 ^ 6 * p.int := by positivity
  obtain ⟨ps, pv⟩ := P
  simp only at hP hval
  subst hP
  unfold radialAverage at hr
  simp only [getK, boxOf, List.length_cons, List.length_nil, Nat.reduceAdd, le_refl, if_true] at hr
  rw [if_pos (by simp)] at hr
  simp only [noisePower, sigmaNoiseRadio, hs, sigmaNoise, if_neg (not_le.mpr p1), hw]
  simp only [] at hr
  revert hr
  split
  · intro h
    cases h
  · rename_i e he
    simp only [he]
    split_ifs with hsort
    · intro h
      simp only [Except.ok.injEq] at h
      rw [← h]
      congr 2
      refine List.map_congr_left fun b _ => ?_
      have hmd : ∀ i ∈ box (square n), 0 < uv (md (square n) fun j => i j - ((square n j / 2 : ℕ) : ℤ)) := fun i _ =>
        huv _ (md_mem _ (fun _ => hn) _)
      have hv : ∀ i ∈ box (square n), shift (square n) (fun i => if uv i ≤ 0 then none else
          some ((10 ^ 6 * s / Real.sqrt (2 * depth * 10 ^ 6 * p.int) / Real.sqrt (uv i)) ^ 2 *
            scale (square n) [boxsize.getD LB, boxsize.getD LB])) i = some (pv i) := by
        intro i hi
        have h1 := hmd i hi
        unfold shift
        simp only []
        rw [if_neg (not_le.mpr h1), hval i hi]
        congr 1
        have e1 : (md (square n) fun j => i j - ((square n j / 2 : ℕ) : ℤ)) = fun j => (i j - (n / 2 : ℕ)) % n := rfl
        rw [e1] at h1 ⊢
        rw [div_pow, div_pow, Real.sq_sqrt p1.le, Real.sq_sqrt h1.le]
        have hn' : (n : ℝ) ≠ 0 := by exact_mod_cast hn.ne'
        simp only [scale, square, List.prod_cons, List.prod_nil, Fin.prod_univ_two]
        field_simp
        ring
      unfold averageInf
      rw [if_neg (by
        rintro ⟨i, hi, h2, -⟩
        rw [hv i hi] at h2
        cases h2)]
      unfold PowerSpectrum.average
      congr 2
      congr 1
      refine Finset.sum_congr rfl fun i hi => ?_
      simp only []
      rw [hv i (by classical exact (Finset.mem_filter.mp hi).1)]
      rfl
    · intro h
      cases h

/-- Full coverage, edges in 1/Mpc. -/
example : ∃ r, radialAverage ⟨square 4, fun _ : Fin 2 → ℤ => 3⟩ (.list [100, 100]) (.array [1 / 10, 2 / 10]) .log (1 / 10) =
    .ok r := by
  simp only [radialAverage, getK, boxOf, getKbins, List.length_cons, List.length_nil, Nat.reduceAdd, le_refl, if_true]
  rw [if_pos (by simp)]
  simp only []
  rw [if_pos (by norm_num)]
  exact ⟨_, rfl⟩

/-- Claims of C116: the noise power falls with the observing time, and can be had for the UV map of a telescope and with
uniform weighting.  False: the observing time does not enter; a cell without visibilities leaves nothing finite in the
bins above it; uniform weighting always raises. -/
theorem C116_false (LB : ℝ) (table : List ℝ × List ℝ) (p : Setup) (n : ℕ) (z depth : ℝ) (boxsize : Option ℝ)
    (kbins : KBins) (binning : Binning) (uv : (Fin 2 → ℤ) → ℝ) :
    (∀ obs', noisePower LB table { p with obs := obs' } n z depth boxsize kbins binning uv =
      noisePower LB table p n z depth boxsize kbins binning uv) ∧
    (∀ i ∈ box (square n), uv (md (square n) fun j => i j - (n / 2 : ℕ)) ≤ 0 → ∀ r e,
      noisePower LB table p n z depth boxsize kbins binning uv = .ok r →
      getKbins (square n) [boxsize.getD LB, boxsize.getD LB] kbins binning (1 / 10) = .ok e →
      ∀ b, b + 1 < e.length → kMag (square n) [boxsize.getD LB, boxsize.getD LB] i < edge e (b + 1) →
        r.data.getD b (some 0) = none) ∧
    (p.w = .uniform → ∃ e, noisePower LB table p n z depth boxsize kbins binning uv = .error e) := by
  refine ⟨fun obs' => ?_, fun i hi h0 r e hr he b hb hk => ?_, fun hw => ?_⟩
  · simp only [noisePower, sigmaNoiseRadio]
    cases getSEFD table (.one (1420 / (1 + z))) p.tsys p.data p.nuData p.D p.ep with
    | error e => rfl
    | ok q =>
      cases q with
      | many l => rfl
      | one s =>
        simp only [sigmaNoise]
        split_ifs <;> rfl
  · unfold noisePower at hr
    revert hr
    split
    · intro h; cases h
    · split
      · intro h; cases h
      · intro h; cases h
      · simp only [he]
        split_ifs with hs
        · intro h
          simp only [Except.ok.injEq] at h
          rw [← h]
          simp only
          rw [List.getD_eq_getElem _ _ (by simp; omega), List.getElem_map, List.getElem_range]
          unfold averageInf
          exact if_pos ⟨i, hi, if_pos h0, .inl hk⟩
        · intro h; cases h
  · unfold noisePower
    split
    · exact ⟨_, rfl⟩
    · rw [hw]
      exact ⟨_, rfl⟩

theorem centre_small (n : ℕ) {l : ℝ} (hl : 0 < l) :
    kMag (square n) [l, l] (fun _ => ((n / 2 : ℕ) : ℤ)) < 2 * Real.pi / l := by
  have hc : ∀ j : Fin 2, kComp (square n) [l, l] j (fun _ => ((n / 2 : ℕ) : ℤ)) ^ 2 ≤ (Real.pi / l) ^ 2 := by
    intro j
    have e : [l, l].getD j 0 = l := by
      match j with
      | 0 | 1 => rfl
    have h2 : |(((n / 2 : ℕ) : ℤ) : ℝ) - ((n : ℝ) - 1) / 2| ≤ 1 / 2 := by
      rcases Nat.even_or_odd' n with ⟨m, rfl | rfl⟩
      · rw [show 2 * m / 2 = m by omega]
        push_cast
        rw [abs_le]
        constructor <;> linarith
      · rw [show (2 * m + 1) / 2 = m by omega]
        push_cast
        rw [abs_le]
        constructor <;> linarith
    unfold kComp
    rw [e, show center 2 (square n j) = ((n : ℝ) - 1) / 2 from if_neg (by norm_num)]
    rw [sq_le_sq, abs_div, abs_div, abs_mul, abs_mul, abs_of_pos hl, abs_of_pos Real.pi_pos, abs_two]
    have := Real.pi_pos
    gcongr
    nlinarith
  have hp := Real.pi_pos
  unfold kMag
  rw [if_neg (by norm_num), Real.sqrt_lt' (by positivity)]
  rw [Fin.sum_univ_two]
  have h1 := hc 0
  have h2 := hc 1
  have h3 : (2 * Real.pi / l) ^ 2 = 4 * (Real.pi / l) ^ 2 := by ring
  have h4 : 0 < (Real.pi / l) ^ 2 := by positivity
  rw [h3]
  linarith

/-- With automatic bins nothing is finite if there is no visibility in the cell of the zero baseline. -/
theorem C116_empty (LB : ℝ) (table : List ℝ × List ℝ) (p : Setup) (n : ℕ) (z depth : ℝ) (boxsize : Option ℝ)
    (m : ℕ) (binning : Binning) (uv : (Fin 2 → ℤ) → ℝ) (hn : 0 < n) (hl : 0 < boxsize.getD LB)
    (hb : binning = .linear ∨ binning = .log) (h0 : uv 0 ≤ 0) (r : Radial)
    (hr : noisePower LB table p n z depth boxsize (.int m) binning uv = .ok r) : ∀ v ∈ r.data, v = none := by
  set l := boxsize.getD LB with hldef
  have hs : ∀ j, 0 < square n j := fun _ => hn
  obtain ⟨K, hK, -, -⟩ := kMax_ok (square n) [l, l] hs
  have he : getKbins (square n) [l, l] (.int m) binning (1 / 10) = .ok (edges (2 * Real.pi / l) K m binning (1 / 10)) := by
    simp only [getKbins, hK]
    simp [List.min?]
  have hmid : (fun _ => ((n / 2 : ℕ) : ℤ)) ∈ box (square n) := by
    rw [mem_box]
    intro j
    simp only [square]
    omega
  have hz : uv (md (square n) fun j => ((n / 2 : ℕ) : ℤ) - (n / 2 : ℕ)) ≤ 0 := by
    rw [show (md (square n) fun j => ((n / 2 : ℕ) : ℤ) - (n / 2 : ℕ)) = 0 from by
      funext j
      simp [md]]
    exact h0
  have hsorted : (edges (2 * Real.pi / l) K m binning (1 / 10)).Pairwise (· ≤ ·) ∧
      r.data.length = (edges (2 * Real.pi / l) K m binning (1 / 10)).length - 1 := by
    unfold noisePower at hr
    revert hr
    split
    · intro h; cases h
    · split
      · intro h; cases h
      · intro h; cases h
      · simp only [← hldef, he]
        split_ifs with hs
        · intro h
          simp only [Except.ok.injEq] at h
          rw [← h]
          exact ⟨hs, by simp⟩
        · intro h; cases h
  have hfirst : edge (edges (2 * Real.pi / l) K m binning (1 / 10)) 0 = 2 * Real.pi / l := by
    have : 0 < 2 * Real.pi / l := by
      have := Real.pi_pos
      positivity
    rcases hb with rfl | rfl
    · exact linspace_first _ _ _
    · exact logspace_first _ this _
  intro v hv
  obtain ⟨b, hb', rfl⟩ := List.getElem_of_mem hv
  have := (C116_false LB table p n z depth boxsize (.int m) binning uv).2.1 _ hmid hz r _ hr he b (by omega)
    (lt_of_lt_of_le (centre_small n hl) (hfirst.symm.le.trans (edge_mono hsorted.1 (by omega) (by omega))))
  rwa [List.getD_eq_getElem _ _ hb'] at this

/-- The box of 200 Mpc and a map without the zero baseline. -/
example : (0 : ℝ) < (some 200).getD 244 ∧ (fun i : Fin 2 → ℤ => if i = 0 then (0 : ℝ) else 5) 0 ≤ 0 := by
  norm_num

/-- A weighting that is not known raises. -/
theorem C116_raises (LB : ℝ) (table : List ℝ × List ℝ) (p : Setup) (n : ℕ) (z depth : ℝ) (boxsize : Option ℝ)
    (kbins : KBins) (binning : Binning) (uv : (Fin 2 → ℤ) → ℝ) (name : String)
    (h : name ∉ ["nat", "natural", "natural_weighting"])
    (hw : p.w = weightingOf name) : ∃ e, noisePower LB table p n z depth boxsize kbins binning uv = .error e := by
  unfold noisePower
  split
  · exact ⟨_, rfl⟩
  · rw [hw]
    unfold weightingOf
    rw [if_neg h]
    split_ifs
    · exact ⟨_, rfl⟩
    · exact ⟨_, rfl⟩

example : "briggs" ∉ ["nat", "natural", "natural_weighting"] := by decide

end Verif.Noise
