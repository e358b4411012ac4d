import Verif.Model.Beams
import Verif.Props.NoiseMap
/-!
# Specification and theorems for C198, C199 and C200: windows of UV maps, beams and the line of the wedge
-/

namespace Verif.Beams

open Verif.Noise
open Verif.PowerSpectrum (shift)

/-! ## C198 -/

/-- Specification: an array of values that is the same read backwards. -/
def Palindrome (n : ℕ) (w : ℕ → ℝ) : Prop := ∀ j < n, w (n - 1 - j) = w j

/-- The documented names of windows. -/
def known : List String :=
  ["blackmanharris", "blackman-harris", "blackman", "barthann", "bartlett", "gaussian", "hamming", "hann", "kaiser"]

/-- The function of scipy of a documented name: that of the same name. -/
def functionOf (m : String) : String := if m = "blackman-harris" then "blackmanharris" else m

/-- A window of one dimension is that of scipy of the same name.  A window of one, two or three dimensions is the product of the window along the axes: it does not change if axes are
exchanged, nor, as the windows of scipy read the same backwards, if an axis is reversed; it lies between 0 and 1 if they do. -/
theorem C198_partial (scipy : String → ℕ → ℝ → ℕ → ℝ) (n : ℕ) (extra : ℝ) (m : String) (hm : m ∈ known)
    (hsym : ∀ f e, Palindrome n (scipy f n e)) (h01 : ∀ f e j, 0 ≤ scipy f n e j ∧ scipy f n e j ≤ 1) :
    ∃ w1 w2 w3, signalWindow scipy n m 1 extra = some w1 ∧ signalWindow scipy n m 2 extra = some w2 ∧
      signalWindow scipy n m 3 extra = some w3 ∧
      (∀ i, w1 [i] = scipy (functionOf m) n extra i) ∧
      (∀ i j, w2 [i, j] = w1 [i] * w1 [j]) ∧ (∀ i j k, w3 [i, j, k] = w2 [i, j] * w1 [k]) ∧
      (∀ i < n, w1 [n - 1 - i] = w1 [i]) ∧ (∀ i < n, ∀ j, w2 [n - 1 - i, j] = w2 [i, j]) ∧ (∀ i j, w2 [i, j] = w2 [j, i]) ∧
      ∀ i j k, 0 ≤ w3 [i, j, k] ∧ w3 [i, j, k] ≤ 1 := by
  obtain ⟨f, hf, hfm⟩ : ∃ f, windowName m = some f ∧ functionOf m = f := by
    simp only [known, List.mem_cons, List.not_mem_nil, or_false] at hm
    rcases hm with rfl | rfl | rfl | rfl | rfl | rfl | rfl | rfl | rfl <;> exact ⟨_, rfl, rfl⟩
  refine ⟨fun i => scipy f n extra (i.getD 0 0), fun i => scipy f n extra (i.getD 0 0) * scipy f n extra (i.getD 1 0),
    fun i => scipy f n extra (i.getD 0 0) * scipy f n extra (i.getD 1 0) * scipy f n extra (i.getD 2 0),
    by simp [signalWindow, hf], by simp [signalWindow, hf], by simp [signalWindow, hf], fun i => by rw [hfm]; rfl, fun i j => rfl, fun i j k => rfl,
    fun i hi => ?_, fun i hi j => ?_, fun i j => ?_, fun i j k => ?_⟩
  · exact hsym f extra i hi
  · show scipy f n extra (n - 1 - i) * scipy f n extra j = _
    rw [hsym f extra i hi]; rfl
  · exact mul_comm _ _
  · show 0 ≤ scipy f n extra i * scipy f n extra j * scipy f n extra k ∧ _ ≤ 1
    have h1 := h01 f extra i
    have h2 := h01 f extra j
    have h3 := h01 f extra k
    refine ⟨mul_nonneg (mul_nonneg h1.1 h2.1) h3.1, ?_⟩
    exact mul_le_one₀ (mul_le_one₀ h1.2 h2.1 h2.2) h3.1 h3.2

/-- A name or a number of dimensions that is not known gives `None`. -/
theorem C198_none (scipy : String → ℕ → ℝ → ℕ → ℝ) (n : ℕ) (extra : ℝ) (m : String) (d : ℕ)
    (h : m ∉ known ∨ (d ≠ 1 ∧ d ≠ 2 ∧ d ≠ 3)) : signalWindow scipy n m d extra = none := by
  unfold signalWindow
  cases hw : windowName m with
  | none => rfl
  | some f =>
    rcases h with h | ⟨h1, h2, h3⟩
    · exfalso
      simp only [known, List.mem_cons, List.not_mem_nil, or_false, not_or] at h
      obtain ⟨a1, a2, a3, a4, a5, a6, a7, a8, a9⟩ := h
      simp [windowName, *] at hw
    · simp only [if_neg h1, if_neg h2, if_neg h3]

example (scipy : String → ℕ → ℝ → ℕ → ℝ) : signalWindow scipy 8 "tukey" 2 0 = none ∧ signalWindow scipy 8 "hann" 4 0 = none :=
  ⟨C198_none scipy 8 0 "tukey" 2 (.inl (by decide)), C198_none scipy 8 0 "hann" 4 (.inr (by decide))⟩

/-- The taper that `noise_map` gives to the Fourier mode `k` of the map: a negative mode is counted from the end. -/
noncomputable def modeTaper (n : ℕ) (k : Fin 2 → ℤ) : ℝ := shift (square n) (window2 n) fun j => k j % n

theorem harris_reverse (n : ℕ) (hn : 2 ≤ n) (j : ℤ) : harris n (n - 1 - j) = harris n j := by
  have h1 : (n : ℝ) - 1 ≠ 0 := by
    have : (2 : ℝ) ≤ n := by exact_mod_cast hn
    linarith
  unfold harris
  have e : ∀ m : ℕ, Real.cos (2 * m * Real.pi * ((n - 1 - j : ℤ) : ℝ) / (n - 1)) = Real.cos (2 * m * Real.pi * j / (n - 1)) := by
    intro m
    have : 2 * m * Real.pi * ((n - 1 - j : ℤ) : ℝ) / (n - 1) = m * (2 * Real.pi) - 2 * m * Real.pi * j / (n - 1) := by
      push_cast
      field_simp
    rw [this, Real.cos_nat_mul_two_pi_sub]
  have e1 := e 1
  have e2 := e 2
  have e3 := e 3
  norm_num at e1 e2 e3
  push_cast
  rw [e1, e2, e3]

/-- The taper of `noise_map` is symmetric about the frequency -1/2 for an even number of cells, about -1 for an odd one: the mode
`k` gets the same as `-1-k`, or `-2-k`. -/
theorem C198_centre (n : ℕ) (hn : 2 ≤ n) (k : Fin 2 → ℤ) :
    modeTaper n k = modeTaper n fun j => (if n % 2 = 0 then -1 else -2) - k j := by
  unfold modeTaper
  rw [window_eq hn, window_eq hn]
  unfold taper
  have hn0 : (0 : ℤ) < n := by omega
  have key : ∀ t : ℤ, harris n ((t % n - n / 2) % n) =
      harris n ((((if n % 2 = 0 then -1 else -2) - t) % n - n / 2) % n) := by
    intro t
    rw [← harris_reverse n hn]
    congr 1
    have h0 := Int.emod_nonneg (t % n - n / 2) hn0.ne'
    have h1 := Int.emod_lt_of_pos (t % n - n / 2) hn0
    have hr : ((n : ℤ) - 1 - (t % n - n / 2) % n) % n = (n : ℤ) - 1 - (t % n - n / 2) % n :=
      Int.emod_eq_of_lt (by omega) (by omega)
    rw [← hr]
    have A : (t % n - n / 2) % n ≡ t - n / 2 [ZMOD n] :=
      (Int.mod_modEq _ _).trans ((Int.mod_modEq t n).sub_right _)
    have B := A.sub_left ((n : ℤ) - 1)
    have C : ((if n % 2 = 0 then -1 else -2) - t) % n - (n : ℤ) / 2 ≡ ((if n % 2 = 0 then -1 else -2) - t) - n / 2 [ZMOD n] :=
      (Int.mod_modEq _ _).sub_right _
    have D : (n : ℤ) - 1 - (t - n / 2) ≡ ((if n % 2 = 0 then -1 else -2) - t) - n / 2 [ZMOD n] := by
      rw [Int.modEq_iff_dvd]
      refine ⟨-2, ?_⟩
      split_ifs with h <;> omega
    exact (B.trans D).trans C.symm
  exact congrArg₂ _ (key (k 0)) (key (k 1))

example : modeTaper 4 ![0, 1] = modeTaper 4 fun j => (if 4 % 2 = 0 then -1 else -2) - (![0, 1] : Fin 2 → ℤ) j :=
  C198_centre 4 (by norm_num) _

/-- The taper of opposite modes is not the same: of four cells, the mode 1 is damped to less than a thousandth of what the mode
-1 keeps.  The mode 0 is not the one that is damped least either. -/
theorem C198_false : 1000 * modeTaper 4 ![1, 0] < modeTaper 4 ![-1, 0] ∧ modeTaper 4 ![0, 0] = modeTaper 4 ![-1, 0] := by
  have h0 : harris 4 0 = 6 / 100000 := by norm_num [harris]
  have h2 : harris 4 2 = harris 4 1 := by
    have := harris_reverse 4 (by norm_num) 1
    norm_num at this
    exact this
  have h3 : harris 4 3 = 6 / 100000 := by
    have := harris_reverse 4 (by norm_num) 0
    norm_num at this
    rw [this, h0]
  have h1 : harris 4 1 = 52058 / 100000 - 5 / 1000000 := by
    have c1 : Real.cos (2 * Real.pi * ((1 : ℤ) : ℝ) / (((4 : ℕ) : ℝ) - 1)) = -(1 / 2) := by
      have : 2 * Real.pi * ((1 : ℤ) : ℝ) / (((4 : ℕ) : ℝ) - 1) = Real.pi - Real.pi / 3 := by push_cast; ring
      rw [this, Real.cos_pi_sub, Real.cos_pi_div_three]
    have c2 : Real.cos (4 * Real.pi * ((1 : ℤ) : ℝ) / (((4 : ℕ) : ℝ) - 1)) = -(1 / 2) := by
      have : 4 * Real.pi * ((1 : ℤ) : ℝ) / (((4 : ℕ) : ℝ) - 1) = Real.pi / 3 + Real.pi := by push_cast; ring
      rw [this, Real.cos_add_pi, Real.cos_pi_div_three]
    have c3 : Real.cos (6 * Real.pi * ((1 : ℤ) : ℝ) / (((4 : ℕ) : ℝ) - 1)) = 1 := by
      have : 6 * Real.pi * ((1 : ℤ) : ℝ) / (((4 : ℕ) : ℝ) - 1) = 2 * Real.pi := by push_cast; ring
      rw [this, Real.cos_two_pi]
    unfold harris
    rw [c1, c2, c3]
    norm_num
  have hm : ∀ k : Fin 2 → ℤ, modeTaper 4 k = harris 4 ((k 0 % 4 - 2) % 4) * harris 4 ((k 1 % 4 - 2) % 4) := by
    intro k
    unfold modeTaper
    rw [window_eq (by norm_num)]
    rfl
  rw [hm, hm, hm]
  norm_num [h0, h1, h2, h3]

/-! ## C199 -/

/-- The width of the beam is the angle, in arc minutes, of one wavelength seen from the distance of the baseline; the wavelength,
in metres, is that of the redshifted line of `nu0` MHz. -/
theorem C199_partial (c nu0 baseline z : ℝ) (hc : 0 < c) (hn : 0 < nu0) (hb : 0 < baseline) (hz : 0 < 1 + z) :
    ∃ w, beamW c nu0 baseline z = .ok w ∧
      (let wavelength := (1000 * c) / (1000000 * nu0) * (1 + z)
       w * (Real.pi / (180 * 60)) * baseline = wavelength) := by
  unfold beamW
  rw [if_neg (by rintro (h | h) <;> linarith)]
  refine ⟨_, rfl, ?_⟩
  have := Real.pi_pos
  field_simp

/-- `beam_convolve` never returns an array: it asks for the width or the baseline if both are missing, and raises in any other
case as well. -/
theorem C199_false (c nu0 : ℝ) (ndim : ℕ) (z : ℝ) (beam base : Option ℝ) (shape : String) :
    (∃ e, beamConvolve c nu0 ndim z beam base shape = .error e) ∧
      (beam = none → base = none → beamConvolve c nu0 ndim z beam base shape = .error .exception) ∧
      ∀ w, beam = some w → w ≠ 0 → shape = "gaussian" → ndim = 2 →
        beamConvolve c nu0 ndim z beam base shape = .error .type := by
  classical
  refine ⟨?_, ?_, ?_⟩
  · unfold beamConvolve
    simp only
    generalize (if falsy beam ∧ falsy base then (Except.error Err.exception : Except Err ℝ)
      else if falsy beam then beamW c nu0 (base.getD 0) z else .ok (beam.getD 0)) = w
    cases w with
    | error e => exact ⟨e, rfl⟩
    | ok w =>
      simp only
      split_ifs
      · exact ⟨_, rfl⟩
      · exact ⟨_, rfl⟩
      · exact ⟨_, rfl⟩
  · rintro rfl rfl
    unfold beamConvolve
    simp [falsy]
  · rintro w rfl hw rfl rfl
    unfold beamConvolve
    simp [falsy, hw]

/-! ## C200 -/

/-- The slope of the wedge of a field of view: the cosmological distance over that of the Hubble flow. -/
noncomputable def slope (hubble dist : ℝ → ℝ) (c z fovDeg : ℝ) : ℝ :=
  Real.sin (fovDeg * (Real.pi / 180)) * (dist z * hubble z) / (c * (1 + z))

/-- If the module `smoothing` had a function `hubble_parameter`, the equation would be the line through the origin with the slope
of the wedge. -/
theorem C200_partial (names : List String) (h : "hubble_parameter" ∈ names) (hubble dist : ℝ → ℝ) (c z fov : ℝ) (k : ℝ) :
    horizonWedge names hubble dist c z fov k = .ok (k * slope hubble dist c z fov) := by
  unfold horizonWedge slope
  rw [if_pos h]
  congr 1
  rw [show fov * Real.pi / 180 = fov * (Real.pi / 180) by ring]
  generalize Real.sin (fov * (Real.pi / 180)) = s
  field_simp

/-- It has none: the function that `horizon_wedge_equation` returns raises for all values, and so does the plot of a spectrum
with the wedge, which is the default. -/
theorem C200_false (hubble dist : ℝ → ℝ) (c z fov k : ℝ) :
    horizonWedge smoothingNames hubble dist c z fov k = .error .attribute := by
  unfold horizonWedge
  rw [if_neg (by decide)]

/-! ## Examples -/

example : ∃ scipy : String → ℕ → ℝ → ℕ → ℝ, (∀ f e, Palindrome 3 (scipy f 3 e)) ∧
    (∀ f e j, 0 ≤ scipy f 3 e j ∧ scipy f 3 e j ≤ 1) ∧ scipy "hann" 3 0 0 ≠ scipy "hann" 3 0 1 := by
  refine ⟨fun _ _ _ j => if j = 1 then 1 else 0, fun f e j hj => ?_, fun f e j => ?_, by norm_num⟩
  · have : j = 0 ∨ j = 1 ∨ j = 2 := by omega
    rcases this with rfl | rfl | rfl <;> norm_num
  · by_cases h : j = 1 <;> simp [h]

example : "hann" ∈ known ∧ "tukey" ∉ known := by decide

example : ∃ w, beamW 300000 1420 2000 8 = .ok w ∧
    (let wavelength := (1000 * 300000) / (1000000 * 1420) * (1 + 8)
     w * (Real.pi / (180 * 60)) * 2000 = wavelength) :=
  C199_partial _ _ _ _ (by norm_num) (by norm_num) (by norm_num) (by norm_num)

example : horizonWedge ["hubble_parameter"] (fun _ => 70) (fun _ => 100) 300000 1 90 2 =
    .ok (2 * slope (fun _ => 70) (fun _ => 100) 300000 1 90) :=
  C200_partial _ (by decide) _ _ _ _ _ _

end Verif.Beams
