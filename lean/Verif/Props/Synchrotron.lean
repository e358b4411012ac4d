import Verif.Model.Foreground
import Verif.Lemmas.UVResponse
import Verif.Props.NoiseCubes
/-!
# C122: Galactic synchrotron emission
-/

namespace Verif.Foreground
open Verif.Convolve Verif.Conversions Verif.Constants Verif.RandomField Verif.UVResponse Verif.Noise
open MeasureTheory ProbabilityTheory Complex

/-- Specification: the multipole of the Fourier mode `q` of a square of size `L` at the distance `d`, half a cell off. -/
noncomputable def multipole (d L : ℝ) (q : Fin 2 → ℤ) : ℝ :=
  2 * Real.pi * (d / L) * Real.sqrt ((q 0 + 1 / 2) ^ 2 + (q 1 + 1 / 2) ^ 2)

/-- Specification: the angular power spectrum of the synchrotron emission at the multipole `l` and `nu` MHz. -/
noncomputable def spectrum (l nu : ℝ) : ℝ :=
  513 * (1000 / l) ^ (2.34 : ℝ) * (nu / 150) ^ (-5.6 - 0.2 * Real.log (nu / 150))

/-- Specification: the expected square of the mode `q`, the solid angle times the angular power. -/
noncomputable def modePower (d L nu : ℝ) (q : Fin 2 → ℤ) : ℝ := (L / d) ^ 2 * spectrum (multipole d L q) nu

theorem half_sq (t : ℤ) : 0 < ((t : ℝ) + 1 / 2) ^ 2 := by
  apply pow_pos_of_ne_zero
  intro h
  have : ((2 * t + 1 : ℤ) : ℝ) = 0 := by push_cast; linarith
  have : 2 * t + 1 = 0 := by exact_mod_cast this
  omega
where
  pow_pos_of_ne_zero {a : ℝ} (h : a ≠ 0) : 0 < a ^ 2 := by positivity

theorem multipole_pos {d L : ℝ} (hd : 0 < d) (hL : 0 < L) (q : Fin 2 → ℤ) : 0 < multipole d L q := by
  unfold multipole
  have h0 := half_sq (q 0)
  have h1 := half_sq (q 1)
  have : 0 < Real.sqrt (((q 0 : ℝ) + 1 / 2) ^ 2 + ((q 1 : ℝ) + 1 / 2) ^ 2) := Real.sqrt_pos.2 (by linarith)
  have := Real.pi_pos
  positivity

theorem modePower_pos {d L nu : ℝ} (hd : 0 < d) (hL : 0 < L) (hnu : 0 < nu) (q : Fin 2 → ℤ) :
    0 < modePower d L nu q := by
  unfold modePower spectrum
  have h1 := Real.rpow_pos_of_pos (div_pos (by norm_num : (0 : ℝ) < 1000) (multipole_pos hd hL q)) 2.34
  have h2 := Real.rpow_pos_of_pos (div_pos hnu (by norm_num : (0 : ℝ) < 150)) (-5.6 - 0.2 * Real.log (nu / 150))
  positivity

theorem ell_eq (k : Const) (h : ℕ) {L z : ℝ} (hL : 0 < L) (hd : 0 < cdist k z) (i : Fin 2 → ℤ) :
    ell k (2 * h) L z i = multipole (cdist k z) L fun j => i j - h := by
  unfold ell multipole
  rw [mul_assoc (2 * Real.pi)]
  congr 1
  have h0 : 0 ≤ cdist k z / L := by positivity
  conv_rhs => rw [← Real.sqrt_sq h0, ← Real.sqrt_mul (by positivity)]
  congr 1
  push_cast
  ring

theorem amplitude_eq (k : Const) (h : ℕ) {L z : ℝ} (hL : 0 < L) (hd : 0 < cdist k z) (i : Fin 2 → ℤ) :
    amplitude k (2 * h) L z i = Real.sqrt (modePower (cdist k z) L (1420 / (1 + z)) (fun j => i j - h) / 2) := by
  unfold amplitude modePower cSyn spectrum
  rw [ell_eq k h hL hd, show z_to_nu z = 1420 / (1 + z) by norm_num [z_to_nu, nu0]]
  rw [show (234 / 100 : ℝ) = 2.34 by norm_num, show (-2 * (28 / 10) : ℝ) = -5.6 by norm_num,
    show (2 * (1 / 10) : ℝ) = 0.2 by norm_num, div_pow]

theorem synch_ok (k : Const) (v : Conv) (X Y : (Fin 2 → ℤ) → ℝ) (h : ℕ) (hh : 1 ≤ h) {L : ℝ} (hL : 0 < L) (z : ℝ) :
    synchMap k v X Y (2 * h) L z = .ok ⟨fun _ => 2 * h, fun x =>
      10 ^ 6 / fluxOfOne k (2 * h) L z * ‖ifftn (fun _ : Fin 2 => 2 * h) (fun i => (amplitude k (2 * h) L z i : ℂ) *
        (X i + Y i * I)) x‖⟩ := by
  unfold synchMap
  rw [if_neg (by omega), if_neg (by omega)]
  congr 2
  funext x
  simp only [jansky_2_kelvin]
  have : ncellsOr (2 * h) (some (2 * h)) = 2 * h := by
    simp [ncellsOr]
  rw [this, conversion_eq k v (2 * h) z (some L) (by simpa using hL.ne')]
  simp only [Option.getD_some]
  ring

theorem galactic_float (k : Const) (v : Conv) (X Y : (Fin 2 → ℤ) → ℝ) (h : ℕ) (hh : 1 ≤ h) {L : ℝ} (hL : 0 < L) (z : ℝ) :
    galacticSynch k v X Y (.float z) (2 * h) L = .ok [⟨fun _ => 2 * h, fun x =>
      10 ^ 6 / fluxOfOne k (2 * h) L z * ‖ifftn (fun _ : Fin 2 => 2 * h) (fun i => (amplitude k (2 * h) L z i : ℂ) *
        (X i + Y i * I)) x‖⟩] := by
  unfold galacticSynch ZArg.values
  simp only [List.mapM_cons, synch_ok k v X Y h hh hL]
  rfl

theorem flux_pos {k : Const} (p : Physical k) {n : ℕ} (hn : 0 < n) {L z : ℝ} (hL : 0 < L) (hz : 0 < z) :
    0 < fluxOfOne k n L z := by
  have hd := cdist_pos p hz
  have hn' : (0 : ℝ) < n := by exact_mod_cast hn
  unfold fluxOfOne fluxJy pixel
  positivity

/-- Moving the modes of an array by half of the cells multiplies it by a phase. -/
theorem norm_shifted {h : ℕ} (hh : 1 ≤ h) (W B : (Fin 2 → ℤ) → ℂ)
    (hW : ∀ i ∈ box (fun _ : Fin 2 => 2 * h), B i = fftn (fun _ : Fin 2 => 2 * h) W fun j => i j - h)
    {x : Fin 2 → ℤ} (hx : x ∈ box fun _ : Fin 2 => 2 * h) : ‖ifftn (fun _ : Fin 2 => 2 * h) B x‖ = ‖W x‖ := by
  have hs : ∀ j : Fin 2, 0 < (fun _ : Fin 2 => 2 * h) j := fun _ => by simp only []; omega
  set s : Fin 2 → ℕ := fun _ => 2 * h with hsd
  -- the translated phase
  have hinv : ifftn s (fftn s W) x = W x := by
    have h1 := ifft_fft_mul s hs W (fun y => if y = 0 then 1 else 0) x
    have h2 : ∀ q, fftn s (fun y => if y = 0 then (1 : ℂ) else 0) q = 1 := by
      intro q
      unfold fftn
      rw [Finset.sum_eq_single 0]
      · simp
      · intro y _ hy
        simp [hy]
      · intro hy
        exact absurd ((mem_box _ _).2 fun j => ⟨le_rfl, by simpa using hs j⟩) hy
    simp only [h2, mul_one] at h1
    rw [show fftn s W = fun q => fftn s W q from rfl, h1]
    unfold circ
    rw [Finset.sum_eq_single x]
    · have : md s (0 : Fin 2 → ℤ) = 0 := by
        funext j
        simp [md]
      simp [this]
    · intro y hy hxy
      have : md s (x - y) ≠ 0 := by
        intro h0
        apply hxy
        funext j
        have h3 := congrFun h0 j
        simp only [md, Pi.sub_apply, Pi.zero_apply] at h3
        have h4 := (mem_box _ _).1 hx j
        have h5 := (mem_box _ _).1 hy j
        obtain ⟨c, hc⟩ := Int.dvd_of_emod_eq_zero h3
        have : c = 0 := by
          by_contra hne
          rcases lt_or_gt_of_ne hne with h6 | h6
          · nlinarith [h4.1, h4.2, h5.1, h5.2]
          · nlinarith [h4.1, h4.2, h5.1, h5.2]
        rw [this, mul_zero] at hc
        omega
      simp [this]
    · intro h
      exact absurd hx h
  have key : ifftn s B x = exp ((2 * Real.pi * I) * ∑ j, ((h : ℤ) : ℂ) * x j / s j) * ifftn s (fftn s W) x := by
    unfold ifftn
    rw [← mul_div_assoc, Finset.mul_sum]
    congr 1
    have h1 := sum_shift s (fun _ => (h : ℤ)) fun i => B i * exp ((2 * Real.pi * I) * ∑ j, (i j : ℂ) * x j / s j)
    rw [← h1]
    refine Finset.sum_congr rfl fun y _ => ?_
    rw [hW _ (md_mem s hs _)]
    have h2 : fftn s W (fun j => md s (y + fun _ => (h : ℤ)) j - h) = fftn s W y := by
      refine fftn_congr s hs W _ _ fun j => ?_
      have : (s j : ℤ) ∣ md s (y + fun _ => (h : ℤ)) j - (y j + h) := by
        simp only [md, Pi.add_apply]
        exact (dvd_sub_comm).1 Int.dvd_self_sub_emod
      convert this using 1
      ring
    have h3 : exp ((2 * Real.pi * I) * ∑ j, (md s (y + fun _ => (h : ℤ)) j : ℂ) * x j / s j) =
        exp ((2 * Real.pi * I) * ∑ j, ((h : ℤ) : ℂ) * x j / s j) * exp ((2 * Real.pi * I) * ∑ j, (y j : ℂ) * x j / s j) := by
      have h4 := exp_congr s hs (md s (y + fun _ => (h : ℤ))) (y + fun _ => (h : ℤ)) (-x) fun j => by
        simp only [md]
        exact (dvd_sub_comm).1 Int.dvd_self_sub_emod
      rw [← Complex.exp_add, ← mul_add, ← Finset.sum_add_distrib]
      have e1 : ∀ w : Fin 2 → ℤ, (2 * Real.pi * I) * ∑ j, (w j : ℂ) * x j / s j =
          -(2 * Real.pi * I) * ∑ j, (w j : ℂ) * ((-x) j : ℤ) / s j := by
        intro w
        rw [Finset.mul_sum, Finset.mul_sum]
        refine Finset.sum_congr rfl fun j _ => ?_
        simp only [Pi.neg_apply]
        push_cast
        ring
      rw [e1, h4, ← e1]
      congr 2
      refine Finset.sum_congr rfl fun j _ => ?_
      simp only [Pi.add_apply]
      push_cast
      ring
    rw [h2, h3]
    ring
  rw [key, hinv, norm_mul]
  have : ‖exp ((2 * Real.pi * I) * ∑ j, ((h : ℤ) : ℂ) * x j / s j)‖ = 1 := by
    rw [show (2 * Real.pi * I) * ∑ j, ((h : ℤ) : ℂ) * x j / s j =
      ((2 * Real.pi * ∑ j, ((h : ℤ) : ℝ) * x j / s j : ℝ) : ℂ) * I by push_cast; ring, norm_exp_ofReal_mul_I]
  rw [this, one_mul]

/-- **C122, even numbers of cells.** The map of each redshift is the modulus of the complex field whose modes are the
complex random numbers times the root of half of the requested power, half a cell off.  (The code leaves the spectrum
centred before the inverse transform; the modulus does not see it.) -/
theorem C122_partial (k : Const) (p : Physical k) (v : Conv) (X Y : (Fin 2 → ℤ) → ℝ) (h : ℕ) (hh : 1 ≤ h) {L : ℝ}
    (hL : 0 < L) (zs : List ℝ) (hz : ∀ z ∈ zs, 0 < z) (W : ℝ → (Fin 2 → ℤ) → ℂ)
    (hW : ∀ z ∈ zs, ∀ q : Fin 2 → ℤ, (∀ j, -h ≤ q j ∧ q j < h) → fftn (fun _ : Fin 2 => 2 * h) (W z) q =
      (Real.sqrt (modePower (cdist k z) L (1420 / (1 + z)) q / 2) : ℝ) *
        ((X fun j => q j + h : ℝ) + (Y fun j => q j + h : ℝ) * I)) :
    ∃ M : ℝ → Arr (Fin 2) ℝ, galacticSynch k v X Y (.array zs) (2 * h) L = .ok (zs.map M) ∧
      (∀ z, zs = [z] → galacticSynch k v X Y (.float z) (2 * h) L = .ok [M z]) ∧
      ∀ z ∈ zs, (M z).shape = (fun _ => 2 * h) ∧ ∀ x : Fin 2 → ℤ, (∀ j, 0 ≤ x j ∧ x j < (2 * h : ℕ)) →
        (M z).val x = 10 ^ 6 * ‖W z x‖ / fluxOfOne k (2 * h) L z := by
  have hok : galacticSynch k v X Y (.array zs) (2 * h) L = .ok (zs.map fun z => ⟨fun _ => 2 * h, fun x =>
      10 ^ 6 / fluxOfOne k (2 * h) L z * ‖ifftn (fun _ : Fin 2 => 2 * h) (fun i => (amplitude k (2 * h) L z i : ℂ) *
        (X i + Y i * I)) x‖⟩) := by
    unfold galacticSynch ZArg.values
    simp only []
    exact mapM_ok' _ _ _ fun z _ => synch_ok k v X Y h hh hL z
  refine ⟨_, hok, fun z he => ?_, fun z hm => ⟨rfl, fun x hx => ?_⟩⟩
  · subst he
    exact hok
  · have hd := cdist_pos p (hz z hm)
    simp only []
    rw [norm_shifted hh (W z) _ (fun i hi => ?_) ((mem_box _ _).2 hx)]
    · ring
    · rw [hW z hm _ fun j => ?_, amplitude_eq k h hL hd]
      · simp
      · have := (mem_box _ _).1 hi j
        push_cast at this
        omega

/-- **C122, redshifts.** The maps of two redshifts are multiples of each other, whatever the random numbers: the same
pattern at all frequencies. -/
theorem C122_frequency (k : Const) (p : Physical k) (v : Conv) (h : ℕ) (hh : 1 ≤ h) {L : ℝ} (hL : 0 < L) {z z' : ℝ}
    (hz : 0 < z) (hz' : 0 < z') :
    ∃ c > 0, ∀ X Y : (Fin 2 → ℤ) → ℝ, ∃ m m' : Arr (Fin 2) ℝ,
      galacticSynch k v X Y (.array [z, z']) (2 * h) L = .ok [m, m'] ∧ ∀ x, m'.val x = c * m.val x := by
  have hd := cdist_pos p hz
  have hd' := cdist_pos p hz'
  have hn : (0 : ℝ) < 1420 / (1 + z) := by positivity
  have hn' : (0 : ℝ) < 1420 / (1 + z') := by positivity
  -- the ratio of the powers does not depend on the mode
  obtain ⟨r, hr, hp⟩ : ∃ r > 0, ∀ q, modePower (cdist k z') L (1420 / (1 + z')) q =
      r * modePower (cdist k z) L (1420 / (1 + z)) q := by
    set F := fun nu : ℝ => (nu / 150) ^ (-5.6 - 0.2 * Real.log (nu / 150)) with hF
    have hF0 : ∀ nu, 0 < nu → 0 < F nu := fun nu h => Real.rpow_pos_of_pos (div_pos h (by norm_num)) _
    have f1 := hF0 _ hn
    have f2 := hF0 _ hn'
    have g := Real.rpow_pos_of_pos (div_pos hd hd') (2.34 : ℝ)
    refine ⟨(cdist k z / cdist k z') ^ 2 * (cdist k z / cdist k z') ^ (2.34 : ℝ) *
      (F (1420 / (1 + z')) / F (1420 / (1 + z))), by positivity, fun q => ?_⟩
    have hm : (1000 / multipole (cdist k z') L q) = (1000 / multipole (cdist k z) L q) * (cdist k z / cdist k z') := by
      have e : multipole (cdist k z') L q = multipole (cdist k z) L q * (cdist k z' / cdist k z) := by
        unfold multipole
        field_simp
      rw [e]
      have := (multipole_pos hd hL q).ne'
      field_simp
    unfold modePower spectrum
    rw [hm, Real.mul_rpow (div_pos (by norm_num) (multipole_pos hd hL q)).le (div_pos hd hd').le]
    change _ * (_ * F _) = _ * (_ * (_ * F _))
    field_simp
  have ha : ∀ i, amplitude k (2 * h) L z' i = Real.sqrt r * amplitude k (2 * h) L z i := by
    intro i
    rw [amplitude_eq k h hL hd', amplitude_eq k h hL hd, hp, mul_div_assoc, Real.sqrt_mul hr.le]
  have hf := flux_pos p (n := 2 * h) (by omega) hL hz
  have hf' := flux_pos p (n := 2 * h) (by omega) hL hz'
  have hsr := Real.sqrt_pos.2 hr
  refine ⟨fluxOfOne k (2 * h) L z / fluxOfOne k (2 * h) L z' * Real.sqrt r, by positivity, fun X Y => ?_⟩
  refine ⟨_, _, mapM_ok' _ (fun z => ⟨fun _ => 2 * h, fun x =>
      10 ^ 6 / fluxOfOne k (2 * h) L z * ‖ifftn (fun _ : Fin 2 => 2 * h) (fun i => (amplitude k (2 * h) L z i : ℂ) *
        (X i + Y i * I)) x‖⟩) [z, z'] fun z _ => synch_ok k v X Y h hh hL z, fun x => ?_⟩
  simp only []
  have e : ifftn (fun _ : Fin 2 => 2 * h) (fun i => (amplitude k (2 * h) L z' i : ℂ) * (X i + Y i * I)) x =
      (Real.sqrt r : ℂ) * ifftn (fun _ : Fin 2 => 2 * h) (fun i => (amplitude k (2 * h) L z i : ℂ) * (X i + Y i * I)) x := by
    unfold ifftn
    rw [← mul_div_assoc, Finset.mul_sum]
    congr 1
    refine Finset.sum_congr rfl fun i _ => ?_
    simp only []
    rw [ha i]
    push_cast
    ring
  rw [e, norm_mul, Complex.norm_real, Real.norm_of_nonneg hsr.le]
  generalize ‖ifftn _ _ x‖ = w
  field_simp

example (v : Conv) := C122_frequency (Const.init 3) physical_init v 4 (by norm_num) (L := 100) (by norm_num) (z := 7) (z' := 8) (by norm_num) (by norm_num)

/-- **C122 is false for odd numbers of cells**, where the map is not-a-number, and for integers `z`, which raise. -/
theorem C122_raises (k : Const) (v : Conv) (X Y : (Fin 2 → ℤ) → ℝ) (L z : ℝ) :
    (∀ h, galacticSynch k v X Y (.float z) (2 * h + 1) L = .error .nan) ∧
    ∀ (a : ℤ) n, galacticSynch k v X Y (.int a) n L = .error .index := by
  refine ⟨fun h => ?_, fun a n => rfl⟩
  have : synchMap k v X Y (2 * h + 1) L z = .error .nan := by
    unfold synchMap
    rw [if_neg (by omega), if_pos (by omega)]
  unfold galacticSynch ZArg.values
  simp only [List.mapM_cons, this]
  rfl

variable {Ω : Type} [MeasurableSpace Ω] {μ : Measure Ω} [IsProbabilityMeasure μ]

/-- The expected square of the modulus of an inverse transform. -/
theorem expected_modulus {s : Fin 2 → ℕ} {X Y : Ω → (Fin 2 → ℤ) → ℝ} (hN : Normal μ s X Y) (A : (Fin 2 → ℤ) → ℝ)
    (x : Fin 2 → ℤ) :
    Integrable (fun ω => ‖ifftn s (fun i => (A i : ℂ) * (X ω i + Y ω i * I)) x‖ ^ 2) μ ∧
    ∫ ω, ‖ifftn s (fun i => (A i : ℂ) * (X ω i + Y ω i * I)) x‖ ^ 2 ∂μ =
      (∑ i ∈ box s, 2 * A i ^ 2) / (∏ j, (s j : ℝ)) ^ 2 := by
  set N : ℝ := ∏ j, (s j : ℝ) with hNdef
  set θ : (Fin 2 → ℤ) → ℝ := fun i => 2 * Real.pi * ∑ j, (i j : ℝ) * x j / s j with hθ
  -- the real and the imaginary part as sums over all random numbers
  set u : {x // x ∈ box s} × Bool → ℝ := fun q =>
    if q.2 then A q.1 * Real.cos (θ q.1) / N else -(A q.1 * Real.sin (θ q.1)) / N with hu
  set w : {x // x ∈ box s} × Bool → ℝ := fun q =>
    if q.2 then A q.1 * Real.sin (θ q.1) / N else A q.1 * Real.cos (θ q.1) / N with hw
  have hexp : ∀ i : Fin 2 → ℤ, exp ((2 * Real.pi * I) * ∑ j, (i j : ℂ) * x j / s j) =
      (Real.cos (θ i) : ℂ) + (Real.sin (θ i) : ℂ) * I := by
    intro i
    rw [ofReal_cos, ofReal_sin, ← exp_mul_I]
    congr 1
    rw [hθ]
    push_cast
    ring
  have hform : ∀ ω, ifftn s (fun i => (A i : ℂ) * (X ω i + Y ω i * I)) x =
      ((∑ q, u q * (if q.2 then X ω q.1 else Y ω q.1) : ℝ) : ℂ) +
        ((∑ q, w q * (if q.2 then X ω q.1 else Y ω q.1) : ℝ) : ℂ) * I := by
    intro ω
    unfold ifftn
    rw [Fintype.sum_prod_type, Fintype.sum_prod_type, ← Finset.sum_attach]
    push_cast
    rw [Finset.sum_mul, ← Finset.sum_add_distrib, Finset.sum_div, Finset.univ_eq_attach]
    refine Finset.sum_congr rfl fun i _ => ?_
    rw [hexp, Fintype.sum_bool, Fintype.sum_bool]
    simp only [hu, hw, if_true, Bool.false_eq_true, if_false]
    have hp : (∏ j, (s j : ℂ)) = (N : ℂ) := by rw [hNdef]; push_cast; rfl
    rw [hp]
    push_cast
    linear_combination ((A i : ℂ) * Y ω i * Complex.sin (θ i) / N) * I_sq
  have m1 := linear_moments (Z := fun (p : {x // x ∈ box s} × Bool) ω => if p.2 then X ω p.1 else Y ω p.1)
    hN.indep hN.law u u
  have m2 := linear_moments (Z := fun (p : {x // x ∈ box s} × Bool) ω => if p.2 then X ω p.1 else Y ω p.1)
    hN.indep hN.law w w
  have hsq : (fun ω => ‖ifftn s (fun i => (A i : ℂ) * (X ω i + Y ω i * I)) x‖ ^ 2) = fun ω =>
      (∑ q, u q * (if q.2 then X ω q.1 else Y ω q.1)) * (∑ q, u q * (if q.2 then X ω q.1 else Y ω q.1)) +
      (∑ q, w q * (if q.2 then X ω q.1 else Y ω q.1)) * (∑ q, w q * (if q.2 then X ω q.1 else Y ω q.1)) := by
    funext ω
    rw [hform, Complex.sq_norm, Complex.normSq_add_mul_I]
    ring
  rw [hsq]
  refine ⟨m1.2.1.add m2.2.1, ?_⟩
  rw [integral_add m1.2.1 m2.2.1, m1.2.2, m2.2.2, ← Finset.sum_add_distrib, Fintype.sum_prod_type, Finset.sum_div,
    ← Finset.sum_attach (box s), Finset.univ_eq_attach]
  refine Finset.sum_congr rfl fun i _ => ?_
  rw [Fintype.sum_bool]
  simp only [hu, hw, if_true, Bool.false_eq_true, if_false]
  have := Real.sin_sq_add_cos_sq (θ i)
  have e : A i * Real.cos (θ i) / N * (A i * Real.cos (θ i) / N) + A i * Real.sin (θ i) / N * (A i * Real.sin (θ i) / N) +
      (-(A i * Real.sin (θ i)) / N * (-(A i * Real.sin (θ i)) / N) + A i * Real.cos (θ i) / N * (A i * Real.cos (θ i) / N)) =
      2 * A i ^ 2 * (Real.sin (θ i) ^ 2 + Real.cos (θ i) ^ 2) / N ^ 2 := by ring
  rw [e, this, mul_one]

/-- **C122, power.** The expected square is the same in all pixels: the sum of the powers of the modes. -/
theorem C122_power (k : Const) (p : Physical k) (v : Conv) (h : ℕ) (hh : 1 ≤ h) {L z : ℝ} (hL : 0 < L) (hz : 0 < z)
    (X Y : Ω → (Fin 2 → ℤ) → ℝ) (hN : Normal μ (fun _ : Fin 2 => 2 * h) X Y) (x : Fin 2 → ℤ) :
    ∃ m : Ω → Arr (Fin 2) ℝ, (∀ ω, galacticSynch k v (X ω) (Y ω) (.float z) (2 * h) L = .ok [m ω]) ∧
      Integrable (fun ω => (m ω).val x ^ 2) μ ∧
      ∫ ω, (m ω).val x ^ 2 ∂μ = (10 ^ 6 / fluxOfOne k (2 * h) L z) ^ 2 *
        ((∑ i ∈ box (fun _ : Fin 2 => 2 * h), modePower (cdist k z) L (1420 / (1 + z)) fun j => i j - h) /
          (2 * h) ^ 4) := by
  have hd := cdist_pos p hz
  refine ⟨_, fun ω => galactic_float k v (X ω) (Y ω) h hh hL z, ?_⟩
  have he := expected_modulus hN (amplitude k (2 * h) L z) x
  simp only [mul_pow]
  refine ⟨he.1.const_mul _, ?_⟩
  rw [integral_const_mul, he.2]
  congr 1
  congr 1
  · refine Finset.sum_congr rfl fun i _ => ?_
    rw [amplitude_eq k h hL hd, Real.sq_sqrt (by
      have := modePower_pos hd hL (show (0 : ℝ) < 1420 / (1 + z) by positivity) fun j => i j - h
      positivity)]
    ring
  · rw [Fin.prod_univ_two]
    push_cast
    ring

/-- **C122 is false**: the map does not fluctuate about zero; no pixel is negative and all have a positive mean. -/
theorem C122_false (k : Const) (p : Physical k) (v : Conv) (h : ℕ) (hh : 1 ≤ h) {L z : ℝ} (hL : 0 < L) (hz : 0 < z)
    (X Y : Ω → (Fin 2 → ℤ) → ℝ) (hN : Normal μ (fun _ : Fin 2 => 2 * h) X Y) (x : Fin 2 → ℤ) :
    ∃ m : Ω → Arr (Fin 2) ℝ, (∀ ω, galacticSynch k v (X ω) (Y ω) (.float z) (2 * h) L = .ok [m ω]) ∧
      (∀ ω, 0 ≤ (m ω).val x) ∧ Integrable (fun ω => (m ω).val x) μ ∧ 0 < ∫ ω, (m ω).val x ∂μ := by
  have hd := cdist_pos p hz
  have hf := flux_pos p (n := 2 * h) (by omega) hL hz
  obtain ⟨m, hm, hi, he⟩ := C122_power k p v h hh hL hz X Y hN x
  have hval : ∀ ω, (m ω).val x = 10 ^ 6 / fluxOfOne k (2 * h) L z * ‖ifftn (fun _ : Fin 2 => 2 * h)
      (fun i => (amplitude k (2 * h) L z i : ℂ) * (X ω i + Y ω i * I)) x‖ := by
    intro ω
    have h1 := galactic_float k v (X ω) (Y ω) h hh hL z
    rw [hm] at h1
    have h2 := List.head_eq_of_cons_eq (Except.ok.inj h1)
    rw [h2]
  have h0 : ∀ ω, 0 ≤ (m ω).val x := fun ω => by rw [hval]; positivity
  have hmeas : AEStronglyMeasurable (fun ω => (m ω).val x) μ := by
    have : (fun ω => (m ω).val x) = fun ω => Real.sqrt ((m ω).val x ^ 2) := by
      funext ω
      rw [Real.sqrt_sq (h0 ω)]
    rw [this]
    exact Real.continuous_sqrt.comp_aestronglyMeasurable hi.aestronglyMeasurable
  have hint : Integrable (fun ω => (m ω).val x) μ := by
    have h2 : MemLp (fun ω => (m ω).val x) 2 μ := (memLp_two_iff_integrable_sq hmeas).2 hi
    exact h2.integrable (by norm_num)
  refine ⟨m, hm, h0, hint, ?_⟩
  refine lt_of_le_of_ne (integral_nonneg h0) fun heq => ?_
  have hz0 := (integral_eq_zero_iff_of_nonneg h0 hint).1 heq.symm
  have : ∫ ω, (m ω).val x ^ 2 ∂μ = 0 := by
    refine integral_eq_zero_of_ae ?_
    filter_upwards [hz0] with ω hω
    have : (m ω).val x = 0 := hω
    simp [this]
  rw [he] at this
  have hpos : 0 < ∑ i ∈ box (fun _ : Fin 2 => 2 * h), modePower (cdist k z) L (1420 / (1 + z)) fun j => i j - h :=
    Finset.sum_pos (fun i _ => modePower_pos hd hL (by positivity) _)
      ⟨0, (mem_box _ _).2 fun _ => ⟨le_rfl, by simp; omega⟩⟩
  have hh' : (0 : ℝ) < h := by exact_mod_cast hh
  have : 0 < (10 ^ 6 / fluxOfOne k (2 * h) L z) ^ 2 *
        ((∑ i ∈ box (fun _ : Fin 2 => 2 * h), modePower (cdist k z) L (1420 / (1 + z)) fun j => i j - h) /
          (2 * h) ^ 4) := by positivity
  linarith

/-- A field with given modes: 4 × 4 cells at redshift 9. -/
example : ∃ W : (Fin 2 → ℤ) → ℂ, ∀ q : Fin 2 → ℤ, (∀ j, -(2 : ℕ) ≤ q j ∧ q j < (2 : ℕ)) →
    fftn (fun _ : Fin 2 => 2 * 2) W q = (Real.sqrt (modePower (cdist (Const.init 3) 9) 200 (1420 / (1 + 9)) q / 2) : ℝ) *
      (((1 : ℝ) : ℂ) + ((2 : ℝ) : ℂ) * I) := by
  refine ⟨ifftn (fun _ : Fin 2 => 2 * 2) fun i => (Real.sqrt (modePower (cdist (Const.init 3) 9) 200 (1420 / (1 + 9))
    (fun j => (i j + 2) % 4 - 2) / 2) : ℝ) * (((1 : ℝ) : ℂ) + ((2 : ℝ) : ℂ) * I), fun q hq => ?_⟩
  rw [fftn_ifftn _ (fun _ => by norm_num)]
  have : (fun j => (md (fun _ : Fin 2 => 2 * 2) q j + 2) % 4 - 2) = q := by
    funext j
    have := hq j
    simp only [md]
    push_cast at *
    omega
  rw [this]

/-- Normal numbers for maps of 4 × 4 cells. -/
example : ∃ (Ω : Type) (_ : MeasurableSpace Ω) (μ : Measure Ω) (X Y : Ω → (Fin 2 → ℤ) → ℝ),
    IsProbabilityMeasure μ ∧ Normal μ (fun _ => 2 * 2) X Y := ⟨_, _, _, _, _, inferInstance, normal_exists _⟩

end Verif.Foreground
