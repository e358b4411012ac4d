import Verif.Lemmas.Bispectrum
import Verif.Props.PowerSpectrum
import Mathlib.Geometry.Euclidean.Triangle
/-!
# C125: the bispectrum

`Bispectrum(a, box_dims).bispectrum_fast(ft, k1, k2, k3, dk1, dk2, dk3, box_dims=box_dims, k_mag=k)`, where
`ft, _, k = fft_nd(a, box_dims)`, shall be the mean of the product of three waves over the closed triangles whose sides lie
in the three shells, divided by the volume.
-/

namespace Verif.Bispectrum
open Complex Verif.Convolve Verif.PowerSpectrum

/-! ## Specification -/

/-- The wave number of the wave with `m j` periods along the axis `j` of length `L j`. -/
noncomputable def waveNumber (L : Fin 3 → ℝ) (m : Fin 3 → ℤ) : ℝ := 2 * Real.pi * Real.sqrt (∑ j, (m j / L j) ^ 2)

/-- The amplitude of the wave `m` of the field: the integral of `a e^{-ikx}` over the box, as a sum over the cells. -/
noncomputable def delta (L : Fin 3 → ℝ) (a : Arr (Fin 3) ℝ) (m : Fin 3 → ℤ) : ℂ :=
  ((∏ j, L j) / ∏ j, (a.shape j : ℝ) : ℝ) *
    ∑ x ∈ box a.shape, (a.val x : ℂ) * exp (-(2 * Real.pi * I) * ∑ j, (m j : ℂ) * x j / a.shape j)

/-- Three waves. -/
abbrev Triple := (Fin 3 → ℤ) × (Fin 3 → ℤ) × (Fin 3 → ℤ)

open Classical in
/-- The triples of waves the grid resolves with the wave numbers within half a width of `k 0`, `k 1` and `k 2`, and whose
sum `Close` accepts. -/
noncomputable def triples (s : Fin 3 → ℕ) (L k dk : Fin 3 → ℝ) (Close : (Fin 3 → ℤ) → Prop) : Finset Triple :=
  (waves s ×ˢ waves s ×ˢ waves s).filter fun t =>
    (|waveNumber L t.1 - k 0| < dk 0 / 2 ∧ |waveNumber L t.2.1 - k 1| < dk 1 / 2 ∧
      |waveNumber L t.2.2 - k 2| < dk 2 / 2) ∧ Close (t.1 + t.2.1 + t.2.2)

/-- The mean of the products of the amplitudes, divided by the volume. -/
noncomputable def estimate (L : Fin 3 → ℝ) (a : Arr (Fin 3) ℝ) (T : Finset Triple) : ℂ :=
  (∑ t ∈ T, delta L a t.1 * delta L a t.2.1 * delta L a t.2.2) / (T.card * ∏ j, (L j : ℂ))

/-- The call. -/
noncomputable def call (L k dk : Fin 3 → ℝ) (a : Arr (Fin 3) ℝ) : Except Err (Option ℝ) :=
  fast a.shape (fftNd a) (k 0) (k 1) (k 2) (dk 0) (dk 1) (dk 2) (.list (List.ofFn L))
    (some (kMag a.shape (List.ofFn L)))

/-! ## Theorems -/

open Classical in
theorem mem_triples (s : Fin 3 → ℕ) (L k dk : Fin 3 → ℝ) (Close : (Fin 3 → ℤ) → Prop) (t : Triple) :
    t ∈ triples s L k dk Close ↔ (t.1 ∈ waves s ∧ t.2.1 ∈ waves s ∧ t.2.2 ∈ waves s) ∧
      (|waveNumber L t.1 - k 0| < dk 0 / 2 ∧ |waveNumber L t.2.1 - k 1| < dk 1 / 2 ∧
        |waveNumber L t.2.2 - k 2| < dk 2 / 2) ∧ Close (t.1 + t.2.1 + t.2.2) := by
  unfold triples
  rw [Finset.mem_filter, Finset.mem_product, Finset.mem_product]

theorem kMag_waves (s : Fin 3 → ℕ) (L : Fin 3 → ℝ) (m : Fin 3 → ℤ) :
    kMag s (List.ofFn L) (m + half s) = waveNumber L m := by
  unfold kMag waveNumber
  rw [if_neg (by norm_num)]
  have h : ∀ j, kComp s (List.ofFn L) j (m + half s) = 2 * Real.pi * (m j / L j) := by
    intro j
    unfold kComp
    rw [center_eq 3 _ (Or.inl rfl)]
    have : (List.ofFn L).getD j 0 = L j := by
      match j with
      | 0 | 1 | 2 => rfl
    rw [this]
    simp only [Pi.add_apply, half]
    generalize s j / 2 = w
    push_cast
    ring
  simp only [h, mul_pow]
  rw [← Finset.mul_sum, Real.sqrt_mul (by positivity), Real.sqrt_mul (by positivity), Real.sqrt_sq (by norm_num),
    Real.sqrt_sq Real.pi_pos.le]

theorem fftNd_waves (a : Arr (Fin 3) ℝ) (hs : ∀ j, 0 < a.shape j) (m : Fin 3 → ℤ) :
    fftNd a (m + half a.shape) = fftn a.shape (fun x => (a.val x : ℂ)) m := by
  show fftn a.shape _ (md a.shape fun j => (m + half a.shape) j - (a.shape j / 2 : ℕ)) = _
  rw [fftn_md _ hs]
  congr 1
  funext j
  simp [half]

theorem shells_eq (km : (Fin 3 → ℤ) → ℝ) (k dk : Fin 3 → ℝ) (hk : ∀ i j, k i = k j → dk i = dk j) :
    shells km (k 0) (k 1) (k 2) (dk 0) (dk 1) (dk 2) =
      (shell km (k 0) (dk 0), shell km (k 1) (dk 1), shell km (k 2) (dk 2)) := by
  have h1 : (if k 1 = k 0 then shell km (k 0) (dk 0) else shell km (k 1) (dk 1)) = shell km (k 1) (dk 1) := by
    split_ifs with h
    · rw [h, hk 1 0 h]
    · rfl
  have h2 : (if k 2 = k 0 then shell km (k 0) (dk 0) else if k 2 = k 1 then shell km (k 1) (dk 1) else
      shell km (k 2) (dk 2)) = shell km (k 2) (dk 2) := by
    split_ifs with h h'
    · rw [h, hk 2 0 h]
    · rw [h', hk 2 1 h']
    · rfl
  unfold shells
  simp only [h1, h2]

/-- **C125, any numbers of cells.** What the function computes: the mean over the triples of waves whose sum is, up to
multiples of the numbers of cells, zero along axes with an even number of cells and three along the others. -/
theorem C125_any (L k dk : Fin 3 → ℝ) (a : Arr (Fin 3) ℝ) (hs : ∀ j, 0 < a.shape j)
    (hk : ∀ i j, k i = k j → dk i = dk j) :
    ∃ T, T = triples a.shape L k dk (fun m => ∀ j, (a.shape j : ℤ) ∣ m j - if a.shape j % 2 = 0 then 0 else 3) ∧
      (T = ∅ → call L k dk a = .ok none) ∧ (T ≠ ∅ → call L k dk a = .ok (some (estimate L a T).re)) := by
  classical
  refine ⟨_, rfl, ?_⟩
  set T := triples a.shape L k dk (fun m => ∀ j, (a.shape j : ℤ) ∣ m j - if a.shape j % 2 = 0 then 0 else 3) with hT
  have hmem : ∀ p q r : Fin 3 → ℤ, (∀ j, (a.shape j : ℤ) ∣ (p + q + r + 6 * half a.shape) j) ↔
      ∀ j, (a.shape j : ℤ) ∣ (p + q + r) j - if a.shape j % 2 = 0 then 0 else 3 := by
    intro p q r
    refine forall_congr' fun j => ?_
    have h6 : (a.shape j : ℤ) ∣ (p + q + r + 6 * half a.shape) j -
        ((p + q + r) j - if a.shape j % 2 = 0 then 0 else 3) := by
      refine ⟨3, ?_⟩
      show (p + q + r) j + 6 * ((a.shape j / 2 : ℕ) : ℤ) - _ = _
      split_ifs <;> omega
    exact Int.dvd_iff_dvd_of_dvd_sub h6
  set N : ℂ := ∏ j, (a.shape j : ℂ) with hN
  have hNr : N = ((∏ j, (a.shape j : ℝ) : ℝ) : ℂ) := by rw [hN]; push_cast; rfl
  have hN0 : (∏ j, (a.shape j : ℝ)) ≠ 0 := by
    rw [Finset.prod_ne_zero_iff]
    intro j _
    exact_mod_cast (hs j).ne'
  set km := kMag a.shape (List.ofFn L) with hkm
  -- the sum over the shells
  have hsum : ∀ A : (Fin 3 → ℤ) → ℂ, ∑ x ∈ box a.shape, back a.shape (fun i => A i * shell km (k 0) (dk 0) i) x *
      back a.shape (fun i => A i * shell km (k 1) (dk 1) i) x * back a.shape (fun i => A i * shell km (k 2) (dk 2) i) x =
      (∑ t ∈ T, A (t.1 + half a.shape) * A (t.2.1 + half a.shape) * A (t.2.2 + half a.shape)) / N ^ 2 := by
    intro A
    rw [sum_three _ hs]
    congr 1
    rw [hT]
    unfold triples
    rw [Finset.sum_filter, Finset.sum_filter]
    refine Finset.sum_congr rfl fun t _ => ?_
    simp only [hmem, shell, hkm, kMag_waves]
    by_cases hc : ∀ j, (a.shape j : ℤ) ∣ (t.1 + t.2.1 + t.2.2) j - if a.shape j % 2 = 0 then 0 else 3
    · rw [if_pos hc]
      by_cases h0 : |waveNumber L t.1 - k 0| < dk 0 / 2
      · by_cases h1 : |waveNumber L t.2.1 - k 1| < dk 1 / 2
        · by_cases h2 : |waveNumber L t.2.2 - k 2| < dk 2 / 2
          · rw [if_pos h0, if_pos h1, if_pos h2, if_pos ⟨⟨h0, h1, h2⟩, hc⟩]; ring
          · rw [if_neg h2, if_neg (fun h => h2 h.1.2.2 : ¬ (_ ∧ _))]; ring
        · rw [if_neg h1, if_neg (fun h => h1 h.1.2.1 : ¬ (_ ∧ _))]; ring
      · rw [if_neg h0, if_neg (fun h => h0 h.1.1 : ¬ (_ ∧ _))]; ring
    · rw [if_neg hc, if_neg (fun h => hc h.2 : ¬ (_ ∧ _))]
  have hs1 : ∑ x ∈ box a.shape, (back a.shape (shell km (k 0) (dk 0)) x * back a.shape (shell km (k 1) (dk 1)) x *
      back a.shape (shell km (k 2) (dk 2)) x).re = T.card / (∏ j, (a.shape j : ℝ)) ^ 2 := by
    have := hsum fun _ => 1
    simp only [one_mul, mul_one, Finset.sum_const, nsmul_eq_mul] at this
    rw [← Complex.re_sum, this, hNr, ← ofReal_pow, ← ofReal_natCast, ← ofReal_div, ofReal_re]
  have hd1 : ∑ x ∈ box a.shape, (back a.shape (fun i => fftNd a i * shell km (k 0) (dk 0) i) x *
      back a.shape (fun i => fftNd a i * shell km (k 1) (dk 1) i) x *
      back a.shape (fun i => fftNd a i * shell km (k 2) (dk 2) i) x).re =
      (∑ t ∈ T, fftn a.shape (fun x => (a.val x : ℂ)) t.1 * fftn a.shape (fun x => (a.val x : ℂ)) t.2.1 *
        fftn a.shape (fun x => (a.val x : ℂ)) t.2.2).re / (∏ j, (a.shape j : ℝ)) ^ 2 := by
    rw [← Complex.re_sum, hsum (fftNd a)]
    simp only [fftNd_waves a hs]
    rw [hNr, ← ofReal_pow, div_ofReal_re]
  have hcall : call L k dk a = .ok (if (T.card : ℝ) / (∏ j, (a.shape j : ℝ)) ^ 2 = 0 then none else
      some ((∑ t ∈ T, fftn a.shape (fun x => (a.val x : ℂ)) t.1 * fftn a.shape (fun x => (a.val x : ℂ)) t.2.1 *
        fftn a.shape (fun x => (a.val x : ℂ)) t.2.2).re / (∏ j, (a.shape j : ℝ)) ^ 2 /
        (T.card / (∏ j, (a.shape j : ℝ)) ^ 2) * (∏ j, L j) ^ 2 / (∏ j, (a.shape j : ℝ)) ^ 3)) := by
    unfold call fast
    simp only [volume, shells_eq _ _ _ hk, ← hkm, hs1, hd1, List.prod_ofFn]
  rw [hcall]
  constructor
  · intro h
    rw [if_pos (by rw [h]; simp)]
  · intro h
    have hc : (T.card : ℝ) ≠ 0 := by
      have := Finset.card_pos.2 (Finset.nonempty_iff_ne_empty.2 h)
      exact_mod_cast this.ne'
    rw [if_neg (div_ne_zero hc (pow_ne_zero _ hN0))]
    congr 2
    have e : ∀ t : Triple, delta L a t.1 * delta L a t.2.1 * delta L a t.2.2 =
        ((((∏ j, L j) / ∏ j, (a.shape j : ℝ)) ^ 3 : ℝ) : ℂ) * (fftn a.shape (fun x => (a.val x : ℂ)) t.1 *
          fftn a.shape (fun x => (a.val x : ℂ)) t.2.1 * fftn a.shape (fun x => (a.val x : ℂ)) t.2.2) := by
      intro t
      unfold delta fftn
      push_cast
      ring
    unfold estimate
    simp only [e]
    rw [← Finset.mul_sum]
    generalize (∑ t ∈ T, fftn a.shape (fun x => (a.val x : ℂ)) t.1 * fftn a.shape (fun x => (a.val x : ℂ)) t.2.1 *
      fftn a.shape (fun x => (a.val x : ℂ)) t.2.2) = S
    rw [← ofReal_prod, ← ofReal_natCast, ← ofReal_mul, div_ofReal_re, re_ofReal_mul]
    generalize (∏ j, L j) = V
    generalize (∏ j, (a.shape j : ℝ)) = M at hN0 ⊢
    by_cases hV : V = 0
    · subst hV; simp
    · field_simp

example := C125_any (fun _ => 1) (fun _ => 10) (fun _ => 2) ⟨fun _ => 3, fun x => x 0⟩ (fun _ => by norm_num) (fun _ _ _ => rfl)

/-- The wave which runs the other way, as the grid resolves it. -/
def opposite (s : Fin 3 → ℕ) (m : Fin 3 → ℤ) : Fin 3 → ℤ := fun j => if 2 * m j = -(s j : ℤ) then m j else -m j

theorem opposite_dvd (s : Fin 3 → ℕ) (m : Fin 3 → ℤ) (j : Fin 3) : (s j : ℤ) ∣ opposite s m j - (-m) j := by
  simp only [opposite, Pi.neg_apply]
  split_ifs with h
  · exact ⟨-1, by omega⟩
  · exact ⟨0, by ring⟩

theorem opposite_mem {s : Fin 3 → ℕ} (he : ∀ j, s j % 2 = 0) {m : Fin 3 → ℤ} (h : m ∈ waves s) :
    opposite s m ∈ waves s := by
  rw [mem_waves] at h ⊢
  intro j
  have h1 := h j
  have h2 := he j
  simp only [opposite]
  split_ifs <;> omega

theorem opposite_opposite (s : Fin 3 → ℕ) {m : Fin 3 → ℤ} (h : m ∈ waves s) : opposite s (opposite s m) = m := by
  rw [mem_waves] at h
  funext j
  have h1 := h j
  simp only [opposite]
  split_ifs <;> omega

theorem waveNumber_opposite (s : Fin 3 → ℕ) (L : Fin 3 → ℝ) (m : Fin 3 → ℤ) :
    waveNumber L (opposite s m) = waveNumber L m := by
  unfold waveNumber
  congr 2
  refine Finset.sum_congr rfl fun j _ => ?_
  simp only [opposite]
  split_ifs
  · rfl
  · push_cast; ring

theorem delta_eq (L : Fin 3 → ℝ) (a : Arr (Fin 3) ℝ) (m : Fin 3 → ℤ) :
    delta L a m = (((∏ j, L j) / ∏ j, (a.shape j : ℝ) : ℝ) : ℂ) * fftn a.shape (fun x => (a.val x : ℂ)) m := rfl

theorem delta_opposite (L : Fin 3 → ℝ) (a : Arr (Fin 3) ℝ) (hs : ∀ j, 0 < a.shape j) (m : Fin 3 → ℤ) :
    delta L a (opposite a.shape m) = (starRingEnd ℂ) (delta L a m) := by
  rw [delta_eq, delta_eq, fftn_congr _ hs _ _ _ (opposite_dvd a.shape m), fftn_neg, map_mul, conj_ofReal]

/-- The mean over all triples which close up to multiples of the numbers of cells is a real number. -/
theorem estimate_real (L k dk : Fin 3 → ℝ) (a : Arr (Fin 3) ℝ) (hs : ∀ j, 0 < a.shape j)
    (he : ∀ j, a.shape j % 2 = 0) :
    (estimate L a (triples a.shape L k dk fun m => ∀ j, (a.shape j : ℤ) ∣ m j)).im = 0 := by
  classical
  rw [← conj_eq_iff_im]
  unfold estimate
  rw [map_div₀, map_mul, map_natCast, ← ofReal_prod, conj_ofReal]
  congr 1
  rw [map_sum]
  have hmem : ∀ t ∈ triples a.shape L k dk fun m => ∀ j, (a.shape j : ℤ) ∣ m j,
      (opposite a.shape t.1, opposite a.shape t.2.1, opposite a.shape t.2.2) ∈
        triples a.shape L k dk fun m => ∀ j, (a.shape j : ℤ) ∣ m j := by
    intro t ht
    unfold triples at ht ⊢
    simp only [Finset.mem_filter, Finset.mem_product, waveNumber_opposite] at ht ⊢
    obtain ⟨⟨h1, h2, h3⟩, h4, h5⟩ := ht
    refine ⟨⟨opposite_mem he h1, opposite_mem he h2, opposite_mem he h3⟩, h4, fun j => ?_⟩
    have e := dvd_sub (dvd_add (dvd_add (opposite_dvd a.shape t.1 j) (opposite_dvd a.shape t.2.1 j))
      (opposite_dvd a.shape t.2.2 j)) (h5 j)
    simp only [Pi.add_apply, Pi.neg_apply] at e ⊢
    obtain ⟨c, hc⟩ := e
    exact ⟨c, by linear_combination hc⟩
  have hw : ∀ t ∈ triples a.shape L k dk fun m => ∀ j, (a.shape j : ℤ) ∣ m j,
      t.1 ∈ waves a.shape ∧ t.2.1 ∈ waves a.shape ∧ t.2.2 ∈ waves a.shape := by
    intro t ht
    unfold triples at ht
    simp only [Finset.mem_filter, Finset.mem_product] at ht
    exact ht.1
  refine Finset.sum_nbij' (fun t => (opposite a.shape t.1, opposite a.shape t.2.1, opposite a.shape t.2.2))
    (fun t => (opposite a.shape t.1, opposite a.shape t.2.1, opposite a.shape t.2.2)) hmem hmem ?_ ?_ ?_
  · intro t ht
    obtain ⟨h1, h2, h3⟩ := hw t ht
    simp only [opposite_opposite _ h1, opposite_opposite _ h2, opposite_opposite _ h3]
  · intro t ht
    obtain ⟨h1, h2, h3⟩ := hw t ht
    simp only [opposite_opposite _ h1, opposite_opposite _ h2, opposite_opposite _ h3]
  · intro t _
    simp only [delta_opposite _ _ hs, map_mul]

/-- **C125, even numbers of cells.** The mean runs over the triples of waves whose sum is zero up to multiples of the
numbers of cells.  Taking the real part of the products loses nothing. -/
theorem C125_even (L k dk : Fin 3 → ℝ) (a : Arr (Fin 3) ℝ) (hs : ∀ j, 0 < a.shape j) (he : ∀ j, a.shape j % 2 = 0)
    (hk : ∀ i j, k i = k j → dk i = dk j) :
    ∃ T, T = triples a.shape L k dk (fun m => ∀ j, (a.shape j : ℤ) ∣ m j) ∧
      (T = ∅ → call L k dk a = .ok none) ∧ (T ≠ ∅ → ∃ b, call L k dk a = .ok (some b) ∧ (b : ℂ) = estimate L a T) := by
  obtain ⟨T, hT, h0, h1⟩ := C125_any L k dk a hs hk
  have : T = triples a.shape L k dk (fun m => ∀ j, (a.shape j : ℤ) ∣ m j) := by
    rw [hT]
    congr 1
    funext m
    refine propext (forall_congr' fun j => ?_)
    rw [if_pos (he j), sub_zero]
  refine ⟨T, this, h0, fun h => ⟨_, h1 h, ?_⟩⟩
  rw [this]
  exact Complex.ext (by simp) (by simp [estimate_real L k dk a hs he])

example := C125_even (fun _ => 1) (fun _ => 10) (fun _ => 2) ⟨fun _ => 4, fun x => x 0⟩ (fun _ => by norm_num) (fun _ => by norm_num) (fun _ _ _ => rfl)

theorem comp_le {L : Fin 3 → ℝ} (hL : ∀ j, 0 < L j) (m : Fin 3 → ℤ) (j : Fin 3) :
    |(m j : ℝ)| ≤ L j / (2 * Real.pi) * waveNumber L m := by
  unfold waveNumber
  have h1 : |(m j : ℝ) / L j| ≤ Real.sqrt (∑ j, (m j / L j) ^ 2) := by
    rw [← Real.sqrt_sq_eq_abs]
    exact Real.sqrt_le_sqrt (Finset.single_le_sum (f := fun j => ((m j : ℝ) / L j) ^ 2) (fun i _ => sq_nonneg _)
      (Finset.mem_univ j))
  rw [abs_div, abs_of_pos (hL j), div_le_iff₀ (hL j)] at h1
  calc _ ≤ _ := h1
    _ = _ := by have := Real.pi_pos; field_simp

/-- **C125 (partial).** With even numbers of cells, and wave numbers small enough that no sum of three waves of the shells
reaches the number of cells, the value is the mean of the product of the amplitudes over the closed triangles with sides
in the three shells, divided by the volume; without such triangles there is no number. Missing: odd numbers of cells
(`C125_false`), large wave numbers (`C125_alias_false`), and the two methods users call, which raise (`C125_raises`). -/
theorem C125_partial (L k dk : Fin 3 → ℝ) (a : Arr (Fin 3) ℝ) (hs : ∀ j, 0 < a.shape j) (he : ∀ j, a.shape j % 2 = 0)
    (hk : ∀ i j, k i = k j → dk i = dk j) (hL : ∀ j, 0 < L j)
    (hb : ∀ j, ∑ i, (k i + dk i / 2) ≤ 2 * Real.pi * a.shape j / L j) :
    ∃ T, T = triples a.shape L k dk (fun m => m = 0) ∧
      (T = ∅ → call L k dk a = .ok none) ∧ (T ≠ ∅ → ∃ b, call L k dk a = .ok (some b) ∧ (b : ℂ) = estimate L a T) := by
  classical
  obtain ⟨T, hT, h⟩ := C125_even L k dk a hs he hk
  refine ⟨T, ?_, h⟩
  rw [hT]
  ext t
  rw [mem_triples, mem_triples]
  refine and_congr_right fun _ => and_congr_right fun ⟨h0, h1, h2⟩ => ⟨fun hd => ?_, fun hd j => ?_⟩
  · funext j
    refine Int.eq_zero_of_abs_lt_dvd (hd j) ?_
    have c0 := comp_le hL t.1 j
    have c1 := comp_le hL t.2.1 j
    have c2 := comp_le hL t.2.2 j
    rw [abs_lt] at h0 h1 h2
    have hbj := hb j
    rw [Fin.sum_univ_three, le_div_iff₀ (hL j)] at hbj
    have hpos : 0 < L j / (2 * Real.pi) := div_pos (hL j) (by positivity)
    have : |((t.1 j : ℝ) + t.2.1 j + t.2.2 j)| < a.shape j := by
      calc _ ≤ |(t.1 j : ℝ)| + |(t.2.1 j : ℝ)| + |(t.2.2 j : ℝ)| := abs_add_three _ _ _
        _ ≤ L j / (2 * Real.pi) * (waveNumber L t.1 + waveNumber L t.2.1 + waveNumber L t.2.2) := by linarith
        _ < L j / (2 * Real.pi) * (k 0 + dk 0 / 2 + (k 1 + dk 1 / 2) + (k 2 + dk 2 / 2)) :=
            mul_lt_mul_of_pos_left (by linarith) hpos
        _ ≤ a.shape j := by
            rw [div_mul_eq_mul_div, div_le_iff₀ (by positivity)]
            linarith
    have h3 : ((|(t.1 + t.2.1 + t.2.2) j| : ℤ) : ℝ) < ((a.shape j : ℤ) : ℝ) := by
      simp only [Pi.add_apply]
      push_cast
      exact this
    exact_mod_cast h3
  · rw [hd]
    exact dvd_zero _

/-- The outcome depends on the shape and the mean only. -/
theorem call_congr (L k dk : Fin 3 → ℝ) (a b : Arr (Fin 3) ℝ) (hab : b.shape = a.shape) (hs : ∀ j, 0 < a.shape j)
    (hk : ∀ i j, k i = k j → dk i = dk j)
    (h : estimate L b (triples a.shape L k dk fun m => ∀ j, (a.shape j : ℤ) ∣ m j - if a.shape j % 2 = 0 then 0 else 3) =
      estimate L a (triples a.shape L k dk fun m => ∀ j, (a.shape j : ℤ) ∣ m j - if a.shape j % 2 = 0 then 0 else 3)) :
    call L k dk b = call L k dk a := by
  obtain ⟨T, hT, h0, h1⟩ := C125_any L k dk a hs hk
  obtain ⟨T', hT', h0', h1'⟩ := C125_any L k dk b (by rw [hab]; exact hs) hk
  rw [hab, ← hT] at hT'
  rw [← hT] at h
  subst hT'
  by_cases he : T' = ∅
  · rw [h0 he, h0' he]
  · rw [h1 he, h1' he, h]

/-- **C125, shifts.** Moving the field around the periodic box changes nothing. -/
theorem C125_translate (L k dk : Fin 3 → ℝ) (a : Arr (Fin 3) ℝ) (hs : ∀ j, 0 < a.shape j)
    (he : ∀ j, a.shape j % 2 = 0) (hk : ∀ i j, k i = k j → dk i = dk j) (v : Fin 3 → ℤ) :
    call L k dk ⟨a.shape, fun x => a.val fun j => (x j + v j) % (a.shape j : ℤ)⟩ = call L k dk a := by
  refine call_congr L k dk a _ rfl hs hk ?_
  unfold estimate
  congr 1
  refine Finset.sum_congr rfl fun t ht => ?_
  rw [mem_triples] at ht
  have hd : ∀ m, delta L ⟨a.shape, fun x => a.val fun j => (x j + v j) % (a.shape j : ℤ)⟩ m =
      phase a.shape m v * delta L a m := by
    intro m
    rw [delta_eq, delta_eq]
    have := fftn_translate a.shape hs (fun x => (a.val x : ℂ)) v m
    have e : (fun x => ((a.val (md a.shape (x + v)) : ℝ) : ℂ)) =
      fun x : Fin 3 → ℤ => ((a.val (fun j => (x j + v j) % (a.shape j : ℤ)) : ℝ) : ℂ) := rfl
    rw [e] at this
    simp only []
    rw [this]
    have e2 : exp (-(2 * Real.pi * I) * ∑ i, (m i : ℂ) * ((-v) i : ℤ) / a.shape i) = phase a.shape m v := by
      unfold phase
      rw [neg_mul, ← mul_neg, ← Finset.sum_neg_distrib]
      congr 2
      refine Finset.sum_congr rfl fun j _ => ?_
      simp only [Pi.neg_apply]
      push_cast
      ring
    rw [e2]
    ring
  rw [hd, hd, hd, show ∀ x y z x' y' z' : ℂ, x * x' * (y * y') * (z * z') = x * y * z * (x' * y' * z') by intros; ring,
    phase_add, phase_add, phase_congr _ hs _ 0 v fun j => ?_]
  · have : phase a.shape 0 v = 1 := by simp [phase]
    rw [this, one_mul]
  · have := ht.2.2 j
    rw [if_pos (he j)] at this
    simpa using this

/-- **C125, scaling.** Multiplying the field by a number multiplies the bispectrum by its cube. -/
theorem C125_cubic (L k dk : Fin 3 → ℝ) (a : Arr (Fin 3) ℝ) (hs : ∀ j, 0 < a.shape j)
    (hk : ∀ i j, k i = k j → dk i = dk j) (c : ℝ) :
    ∃ r, call L k dk a = .ok r ∧ call L k dk ⟨a.shape, fun x => c * a.val x⟩ = .ok (r.map fun b => c ^ 3 * b) := by
  obtain ⟨T, hT, h0, h1⟩ := C125_any L k dk a hs hk
  obtain ⟨T', hT', h0', h1'⟩ := C125_any L k dk ⟨a.shape, fun x => c * a.val x⟩ hs hk
  have hTT : T' = T := by rw [hT', hT]
  subst hTT
  by_cases he : T' = ∅
  · exact ⟨_, h0 he, h0' he⟩
  · refine ⟨_, h1 he, ?_⟩
    rw [h1' he]
    have hd : ∀ m, delta L ⟨a.shape, fun x => c * a.val x⟩ m = (c : ℂ) * delta L a m := by
      intro m
      unfold delta
      rw [mul_left_comm, Finset.mul_sum (box a.shape) _ (c : ℂ)]
      congr 1
      refine Finset.sum_congr rfl fun x _ => ?_
      push_cast
      ring
    have : estimate L ⟨a.shape, fun x => c * a.val x⟩ T' = ((c ^ 3 : ℝ) : ℂ) * estimate L a T' := by
      unfold estimate
      rw [← mul_div_assoc, Finset.mul_sum]
      congr 1
      refine Finset.sum_congr rfl fun t _ => ?_
      rw [hd, hd, hd]
      push_cast
      ring
    rw [this, re_ofReal_mul]
    rfl

example : ∃ r, call (fun _ => 1) (fun _ => 10) (fun _ => 2) ⟨fun _ => 3, fun x => x 0⟩ = .ok r ∧
    call (fun _ => 1) (fun _ => 10) (fun _ => 2) ⟨fun _ => 3, fun x => 2 * x 0⟩ = .ok (r.map fun b => 2 ^ 3 * b) :=
  C125_cubic (fun _ => 1) (fun _ => 10) (fun _ => 2) ⟨fun _ => 3, fun x => x 0⟩ (fun _ => by norm_num) (fun _ _ _ => rfl) 2

/-- **C125, mean.** Adding a constant to the field changes nothing, unless a shell contains the wave number zero. -/
theorem C125_constant (L k dk : Fin 3 → ℝ) (a : Arr (Fin 3) ℝ) (hs : ∀ j, 0 < a.shape j)
    (hk : ∀ i j, k i = k j → dk i = dk j) (h0 : ∀ i, dk i / 2 ≤ k i) (c : ℝ) :
    call L k dk ⟨a.shape, fun x => a.val x + c⟩ = call L k dk a := by
  refine call_congr L k dk a _ rfl hs hk ?_
  have hd : ∀ m ∈ waves a.shape, m ≠ 0 → delta L ⟨a.shape, fun x => a.val x + c⟩ m = delta L a m := by
    intro m hm hm0
    unfold delta
    simp only []
    congr 1
    have h1 : ∀ x : Fin 3 → ℤ, ((a.val x + c : ℝ) : ℂ) * exp (-(2 * Real.pi * I) * ∑ j, (m j : ℂ) * x j / a.shape j) =
        (a.val x : ℂ) * exp (-(2 * Real.pi * I) * ∑ j, (m j : ℂ) * x j / a.shape j) +
          (c : ℂ) * exp ((2 * Real.pi * I) * ∑ j, (x j : ℂ) * ((-m) j : ℤ) / a.shape j) := by
      intro x
      have : (2 * Real.pi * I) * ∑ j, (x j : ℂ) * ((-m) j : ℤ) / a.shape j =
          -(2 * Real.pi * I) * ∑ j, (m j : ℂ) * x j / a.shape j := by
        rw [neg_mul, ← mul_neg, ← Finset.sum_neg_distrib]
        congr 1
        refine Finset.sum_congr rfl fun j _ => ?_
        simp only [Pi.neg_apply]
        push_cast
        ring
      rw [this]
      push_cast
      ring
    simp only [h1]
    rw [Finset.sum_add_distrib, ← Finset.mul_sum, sum_modes _ hs, if_neg, mul_zero, add_zero]
    intro h
    apply hm0
    funext j
    refine Int.eq_zero_of_abs_lt_dvd ((dvd_neg).1 (h j)) ?_
    have := (mem_waves a.shape m).1 hm j
    have := hs j
    rw [abs_lt]
    omega
  have hz : ∀ i, ¬ |waveNumber L 0 - k i| < dk i / 2 := by
    intro i h
    have : waveNumber L 0 = 0 := by simp [waveNumber]
    rw [this, zero_sub, abs_neg] at h
    have := le_abs_self (k i)
    linarith [h0 i]
  unfold estimate
  congr 1
  refine Finset.sum_congr rfl fun t ht => ?_
  rw [mem_triples] at ht
  obtain ⟨⟨h1, h2, h3⟩, ⟨s1, s2, s3⟩, -⟩ := ht
  rw [hd _ h1 (fun h => hz 0 (h ▸ s1)), hd _ h2 (fun h => hz 1 (h ▸ s2)), hd _ h3 (fun h => hz 2 (h ▸ s3))]

/-! ### Where it is false -/

/-- In a box of side `2π` the wave number is the length of the vector of periods. -/
theorem waveNumber_unit (m : Fin 3 → ℤ) :
    waveNumber (fun _ => 2 * Real.pi) m = Real.sqrt ((m 0 ^ 2 + m 1 ^ 2 + m 2 ^ 2 : ℤ) : ℝ) := by
  unfold waveNumber
  have h := Real.pi_pos
  have e : ∑ j, ((m j : ℝ) / (2 * Real.pi)) ^ 2 = ((m 0 ^ 2 + m 1 ^ 2 + m 2 ^ 2 : ℤ) : ℝ) / (2 * Real.pi) ^ 2 := by
    rw [Fin.sum_univ_three]
    push_cast
    ring
  rw [e, Real.sqrt_div' _ (by positivity), Real.sqrt_sq (by positivity)]
  field_simp

/-- A thin shell around the root of one, two or four takes the vectors of that length. -/
theorem near_iff (n N : ℤ) (h : N = 1 ∨ N = 2 ∨ N = 4) (hn : 0 ≤ n) :
    |Real.sqrt (n : ℝ) - Real.sqrt (N : ℝ)| < 1 / 5 / 2 ↔ n = N := by
  constructor
  · intro hlt
    have hn' : (0 : ℝ) ≤ n := by exact_mod_cast hn
    have hN0 : (0 : ℝ) ≤ N := by rcases h with h | h | h <;> rw [h] <;> norm_num
    have hN4 : (N : ℝ) ≤ 4 := by rcases h with h | h | h <;> rw [h] <;> norm_num
    have hsN : Real.sqrt (N : ℝ) ≤ 2 := by
      rw [Real.sqrt_le_left (by norm_num)]
      linarith
    have q1 := Real.sq_sqrt hn'
    have q2 := Real.sq_sqrt hN0
    have p1 := Real.sqrt_nonneg (n : ℝ)
    have p2 := Real.sqrt_nonneg (N : ℝ)
    rw [abs_lt] at hlt
    have h1 : ((n - N : ℤ) : ℝ) < 1 := by push_cast; nlinarith
    have h2 : (-1 : ℝ) < ((n - N : ℤ) : ℝ) := by push_cast; nlinarith
    have h3 : n - N < 1 := by exact_mod_cast h1
    have h4 : -1 < n - N := by exact_mod_cast h2
    omega
  · rintro rfl
    norm_num

/-- The box of side `2π`. -/
noncomputable def unitBox : Fin 3 → ℝ := fun _ => 2 * Real.pi

/-- Two sides of length one and one of length `√2`. -/
noncomputable def rightAngled : Fin 3 → ℝ := ![1, 1, Real.sqrt 2]

theorem mem_rightAngled (s : Fin 3 → ℕ) (C : (Fin 3 → ℤ) → Prop) (t : Triple) :
    t ∈ triples s unitBox rightAngled (fun _ => 1 / 5) C ↔ (t.1 ∈ waves s ∧ t.2.1 ∈ waves s ∧ t.2.2 ∈ waves s) ∧
      (t.1 0 ^ 2 + t.1 1 ^ 2 + t.1 2 ^ 2 = 1 ∧ t.2.1 0 ^ 2 + t.2.1 1 ^ 2 + t.2.1 2 ^ 2 = 1 ∧
        t.2.2 0 ^ 2 + t.2.2 1 ^ 2 + t.2.2 2 ^ 2 = 2) ∧ C (t.1 + t.2.1 + t.2.2) := by
  rw [mem_triples]
  have e0 : rightAngled 0 = Real.sqrt ((1 : ℤ) : ℝ) := by simp [rightAngled]
  have e1 : rightAngled 1 = Real.sqrt ((1 : ℤ) : ℝ) := by simp [rightAngled]
  have e2 : rightAngled 2 = Real.sqrt ((2 : ℤ) : ℝ) := by simp [rightAngled]
  have key : ∀ (m : Fin 3 → ℤ) (N : ℤ), (N = 1 ∨ N = 2 ∨ N = 4) →
      (|waveNumber unitBox m - Real.sqrt (N : ℝ)| < 1 / 5 / 2 ↔ m 0 ^ 2 + m 1 ^ 2 + m 2 ^ 2 = N) := by
    intro m N hN
    unfold unitBox
    rw [waveNumber_unit, near_iff _ N hN (by positivity)]
  rw [e0, e1, e2, key _ 1 (by norm_num), key _ 1 (by norm_num), key _ 2 (by norm_num)]

/-- **C125 is false for odd numbers of cells**: on a grid of `5³` cells no number is returned for right-angled triangles
with two sides of one period each, whatever the field, although there are such triangles. -/
theorem C125_false (a : Arr (Fin 3) ℝ) (h : a.shape = fun _ => 5) :
    call unitBox rightAngled (fun _ => 1 / 5) a = .ok none ∧
      triples a.shape unitBox rightAngled (fun _ => 1 / 5) (fun m => m = 0) ≠ ∅ := by
  constructor
  · obtain ⟨T, hT, h0, -⟩ := C125_any unitBox rightAngled (fun _ => 1 / 5) a (by rw [h]; norm_num) (fun _ _ _ => rfl)
    refine h0 ?_
    rw [hT, Finset.eq_empty_iff_forall_notMem]
    intro t ht
    rw [mem_rightAngled] at ht
    obtain ⟨-, ⟨h1, h2, h3⟩, hc⟩ := ht
    have le : ∀ n : ℤ, |n| ≤ n ^ 2 := by
      intro n
      rw [← sq_abs]
      have := abs_nonneg n
      by_cases h : |n| = 0
      · rw [h]; norm_num
      · nlinarith [show 1 ≤ |n| by omega]
    have hj : ∀ j, 2 ≤ t.1 j ^ 2 + t.2.1 j ^ 2 + t.2.2 j ^ 2 := by
      intro j
      have := hc j
      rw [h] at this
      simp only [Pi.add_apply] at this
      norm_num at this
      have hb : 2 ≤ |t.1 j + t.2.1 j + t.2.2 j| := by
        rw [le_abs]
        omega
      have := abs_add_three (t.1 j) (t.2.1 j) (t.2.2 j)
      linarith [le (t.1 j), le (t.2.1 j), le (t.2.2 j)]
    linarith [hj 0, hj 1, hj 2]
  · rw [← Finset.nonempty_iff_ne_empty]
    refine ⟨(![1, 0, 0], ![0, 1, 0], ![-1, -1, 0]), (mem_rightAngled _ _ _).2 ⟨?_, ?_, ?_⟩⟩
    · rw [h]
      simp only [mem_waves]
      decide
    · decide
    · simp only []
      decide

/-- **C125 is false for large wave numbers**: on a grid of `6³` cells there is no closed triangle with three sides of two
periods in thin shells, but the waves `2`, `2`, `2` along an axis add up to six, which the grid takes for zero: a number is
returned. -/
theorem C125_alias_false (a : Arr (Fin 3) ℝ) (h : a.shape = fun _ => 6) :
    triples a.shape unitBox (fun _ => 2) (fun _ => 1 / 5) (fun m => m = 0) = ∅ ∧
      ∃ b, call unitBox (fun _ => 2) (fun _ => 1 / 5) a = .ok (some b) := by
  have key : ∀ (m : Fin 3 → ℤ),
      (|waveNumber unitBox m - 2| < 1 / 5 / 2 ↔ m 0 ^ 2 + m 1 ^ 2 + m 2 ^ 2 = 4) := by
    intro m
    unfold unitBox
    have e : Real.sqrt ((4 : ℤ) : ℝ) = 2 := by
      rw [show (((4 : ℤ) : ℝ)) = 2 ^ 2 by norm_num, Real.sqrt_sq (by norm_num)]
    have := near_iff (m 0 ^ 2 + m 1 ^ 2 + m 2 ^ 2) 4 (by norm_num) (by positivity)
    rw [waveNumber_unit, ← this, e]
  constructor
  · rw [Finset.eq_empty_iff_forall_notMem]
    intro t ht
    rw [mem_triples, key, key, key] at ht
    obtain ⟨-, ⟨h1, h2, h3⟩, hc⟩ := ht
    have c := fun j => congrFun hc j
    simp only [Pi.add_apply, Pi.zero_apply] at c
    have par : ∀ x y z : ℤ, x ^ 2 + y ^ 2 + z ^ 2 = 4 → x % 2 = 0 ∧ y % 2 = 0 ∧ z % 2 = 0 := by
      intro x y z hxyz
      have m4 : ∀ n : ℤ, (n % 2 = 0 ∧ n ^ 2 % 4 = 0) ∨ (n % 2 = 1 ∧ n ^ 2 % 4 = 1) := by
        intro n
        rcases Int.even_or_odd' n with ⟨w, rfl | rfl⟩
        · left; ring_nf; omega
        · right; ring_nf; omega
      rcases m4 x with hx | hx <;> rcases m4 y with hy | hy <;> rcases m4 z with hz | hz <;> omega
    obtain ⟨a1, a2, a3⟩ := par _ _ _ h1
    obtain ⟨b1, b2, b3⟩ := par _ _ _ h2
    obtain ⟨c1, c2, c3⟩ := par _ _ _ h3
    obtain ⟨x1, e1⟩ := Int.dvd_of_emod_eq_zero a1
    obtain ⟨x2, e2⟩ := Int.dvd_of_emod_eq_zero a2
    obtain ⟨x3, e3⟩ := Int.dvd_of_emod_eq_zero a3
    obtain ⟨y1, f1⟩ := Int.dvd_of_emod_eq_zero b1
    obtain ⟨y2, f2⟩ := Int.dvd_of_emod_eq_zero b2
    obtain ⟨y3, f3⟩ := Int.dvd_of_emod_eq_zero b3
    have g1 : t.2.2 0 = -(2 * x1 + 2 * y1) := by linarith [c 0]
    have g2 : t.2.2 1 = -(2 * x2 + 2 * y2) := by linarith [c 1]
    have g3 : t.2.2 2 = -(2 * x3 + 2 * y3) := by linarith [c 2]
    rw [e1, e2, e3] at h1
    rw [f1, f2, f3] at h2
    rw [g1, g2, g3] at h3
    have e : 8 * (x1 * y1 + x2 * y2 + x3 * y3) = -4 := by nlinarith
    omega
  · obtain ⟨T, hT, -, h1⟩ := C125_any unitBox (fun _ => 2) (fun _ => 1 / 5) a (by rw [h]; norm_num) (fun _ _ _ => rfl)
    refine ⟨_, h1 ?_⟩
    rw [hT, ← Finset.nonempty_iff_ne_empty]
    refine ⟨(![2, 0, 0], ![2, 0, 0], ![2, 0, 0]), (mem_triples _ _ _ _ _ _).2 ⟨?_, ?_, ?_⟩⟩
    · rw [h]
      simp only [mem_waves]
      decide
    · rw [key]
      decide
    · rw [h]
      simp only []
      decide

/-- **C125 is false for sides of the same length and different widths**: the width of the second shell is ignored, and even
a shell which contains nothing gives a number. -/
theorem C125_width_false (a : Arr (Fin 3) ℝ) (h : a.shape = fun _ => 4) :
    triples a.shape unitBox rightAngled ![1 / 5, 0, 1 / 5] (fun m => m = 0) = ∅ ∧
      ∃ b, call unitBox rightAngled ![1 / 5, 0, 1 / 5] a = .ok (some b) := by
  constructor
  · rw [Finset.eq_empty_iff_forall_notMem]
    intro t ht
    rw [mem_triples] at ht
    have h1 := ht.2.1.2.1
    have h2 := abs_nonneg (waveNumber unitBox t.2.1 - rightAngled 1)
    have : (![1 / 5, 0, 1 / 5] : Fin 3 → ℝ) 1 = 0 := rfl
    rw [this] at h1
    linarith
  · have e : call unitBox rightAngled ![1 / 5, 0, 1 / 5] a = call unitBox rightAngled (fun _ => 1 / 5) a := by
      have h0 : rightAngled 1 = rightAngled 0 := rfl
      unfold call fast shells
      simp only [h0]
      rfl
    obtain ⟨T, hT, -, h1⟩ := C125_any unitBox rightAngled (fun _ => 1 / 5) a (by rw [h]; norm_num) (fun _ _ _ => rfl)
    refine ⟨_, e.trans (h1 ?_)⟩
    rw [hT, ← Finset.nonempty_iff_ne_empty]
    refine ⟨(![1, 0, 0], ![0, 1, 0], ![-1, -1, 0]), (mem_rightAngled _ _ _).2 ⟨?_, ?_, ?_⟩⟩
    · rw [h]
      simp only [mem_waves]
      decide
    · decide
    · rw [h]
      simp only []
      decide

/-- **C125, a number as box length**: it is taken for the volume; the value is too small by the fourth power of the
length. -/
theorem C125_number_false (x : ℝ) (hx : 0 < x) (k dk : Fin 3 → ℝ) (a : Arr (Fin 3) ℝ) (r : Option ℝ)
    (hr : call (fun _ => x) k dk a = .ok r) :
    fast a.shape (fftNd a) (k 0) (k 1) (k 2) (dk 0) (dk 1) (dk 2) (.number x)
      (some (kMag a.shape (List.ofFn fun _ : Fin 3 => x))) = .ok (r.map fun b => b / x ^ 4) := by
  unfold call fast at hr
  unfold fast
  simp only [volume, List.prod_ofFn, Finset.prod_const, Finset.card_univ, Fintype.card_fin] at hr ⊢
  injection hr with hr
  rw [← hr]
  clear hr
  congr 1
  split_ifs
  · rfl
  · have e : ∀ D S P : ℝ, D / S * x ^ 2 / P = D / S * (x ^ 3) ^ 2 / P / x ^ 4 := by
      intro D S P
      field_simp
    exact congrArg some (e _ _ _)

/-- **C125, the third side.** For three vectors which close, the rule gives the length of the third from those of the two
others and the angle between them; the angle inside the triangle is the supplement. -/
theorem C125_cosine (u v w : EuclideanSpace ℝ (Fin 3)) (h : u + v + w = 0) :
    cosineRule ‖u‖ ‖v‖ (InnerProductGeometry.angle u v) = ‖w‖ ∧
      InnerProductGeometry.angle (-u) v = Real.pi - InnerProductGeometry.angle u v := by
  refine ⟨?_, InnerProductGeometry.angle_neg_left u v⟩
  have hw : w = -(u + v) := by rw [eq_neg_iff_add_eq_zero, add_comm]; exact h
  rw [hw, norm_neg]
  unfold cosineRule
  rw [show 2 * ‖u‖ * ‖v‖ * Real.cos (InnerProductGeometry.angle u v) =
    2 * (Real.cos (InnerProductGeometry.angle u v) * (‖u‖ * ‖v‖)) by ring,
    InnerProductGeometry.cos_angle_mul_norm_mul_norm]
  rw [show ‖u‖ ^ 2 + ‖v‖ ^ 2 + 2 * inner ℝ u v = ‖u + v‖ ^ 2 by rw [norm_add_sq_real]; ring,
    Real.sqrt_sq (norm_nonneg _)]

example (v : EuclideanSpace ℝ (Fin 3)) : cosineRule ‖v‖ ‖v‖ (InnerProductGeometry.angle v v) = ‖(-2 : ℝ) • v‖ :=
  (C125_cosine v v ((-2 : ℝ) • v) (by module)).1

/-- **The mask is false when it is given the components only**: in a box of side `2π` the wave of two periods along an axis
is not within a half of the wave number two. -/
theorem C125_mask_false : ∃ m, sphericalShellMask 2 1 (some (fun j (i : Fin 3 → ℤ) => (i j : ℝ))) none = .ok m ∧
    m ![2, 0, 0] = 0 ∧ waveNumber unitBox ![2, 0, 0] = 2 := by
  refine ⟨_, rfl, ?_, ?_⟩
  · unfold shell compMag
    rw [if_neg]
    rw [Fin.sum_univ_three]
    simp
    norm_num
  · unfold unitBox
    rw [waveNumber_unit, show (((![2, 0, 0] : Fin 3 → ℤ) 0 ^ 2 + (![2, 0, 0] : Fin 3 → ℤ) 1 ^ 2 +
      (![2, 0, 0] : Fin 3 → ℤ) 2 ^ 2 : ℤ) : ℝ) = 2 ^ 2 by simp; norm_num, Real.sqrt_sq (by norm_num)]

/-- **C125, exceptions.** The two methods users call raise; without magnitudes, or without box length, so does the
function, and so does the mask given neither components nor magnitudes. -/
theorem C125_raises (a : Arr (Fin 3) ℝ) (k dk : Fin 3 → ℝ) (dims : Dims) (km : (Fin 3 → ℤ) → ℝ)
    (window : Arr (Fin 3) ℝ → Arr (Fin 3) ℝ) (rest : Arr (Fin 3) ℝ → Arr (Fin 3) ℝ → Except Err (List ℝ)) :
    methods a window rest = .error .unboundLocal ∧
      fast a.shape (fftNd a) (k 0) (k 1) (k 2) (dk 0) (dk 1) (dk 2) dims none = .error .assertion ∧
      fast a.shape (fftNd a) (k 0) (k 1) (k 2) (dk 0) (dk 1) (dk 2) .none (some km) = .error .attribute ∧
      sphericalShellMask (d := 3) (k 0) (dk 0) none none = .error .assertion :=
  ⟨rfl, rfl, rfl, rfl⟩

/-! ## Examples -/

/-- A grid of `8³` cells with a field. -/
def grid : Arr (Fin 3) ℝ := ⟨fun _ => 8, fun x => if x = 0 then 1 else 0⟩

/-- It has such a triangle. -/
theorem has_triangle (a : Arr (Fin 3) ℝ) (h : a.shape = fun _ => 8) :
    triples a.shape unitBox rightAngled (fun _ => 1 / 5) (fun m => m = 0) ≠ ∅ := by
  rw [← Finset.nonempty_iff_ne_empty]
  refine ⟨(![1, 0, 0], ![0, 1, 0], ![-1, -1, 0]), (mem_rightAngled _ _ _).2 ⟨?_, ?_, ?_⟩⟩
  · rw [h]
    simp only [mem_waves]
    decide
  · decide
  · simp only []
    decide

/-- The shells are far from the greatest wave number. -/
theorem grid_bound (j : Fin 3) :
    ∑ i, (rightAngled i + (fun _ => 1 / 5 : Fin 3 → ℝ) i / 2) ≤ 2 * Real.pi * grid.shape j / unitBox j := by
  have hpi := Real.pi_pos
  have : Real.sqrt 2 ≤ 2 := by rw [Real.sqrt_le_left (by norm_num)]; norm_num
  have e : 2 * Real.pi * (grid.shape j : ℝ) / unitBox j = 8 := by
    unfold unitBox grid
    push_cast
    field_simp
  rw [e, Fin.sum_univ_three]
  show 1 + 1 / 5 / 2 + (1 + 1 / 5 / 2) + (Real.sqrt 2 + 1 / 5 / 2) ≤ 8
  linarith

/-- The partial theorem for the right-angled triangles of one and one period on `8³` cells. -/
example : ∃ b, call unitBox rightAngled (fun _ => 1 / 5) grid = .ok (some b) ∧
    (b : ℂ) = estimate unitBox grid (triples grid.shape unitBox rightAngled (fun _ => 1 / 5) fun m => m = 0) := by
  obtain ⟨T, hT, -, h⟩ := C125_partial unitBox rightAngled (fun _ => 1 / 5) grid (fun _ => Nat.succ_pos 7)
    (fun _ => (by norm_num : 8 % 2 = 0)) (fun _ _ _ => rfl) (fun _ => Real.two_pi_pos) grid_bound
  subst hT
  exact h (has_triangle grid rfl)

example : call unitBox rightAngled (fun _ => 1 / 5) ⟨fun _ => 8, fun x => grid.val x + 3⟩ =
    call unitBox rightAngled (fun _ => 1 / 5) grid :=
  C125_constant unitBox rightAngled (fun _ => 1 / 5) grid (fun _ => (by norm_num : 0 < 8)) (fun _ _ _ => rfl)
    (fun i => by
      have : (1 : ℝ) ≤ Real.sqrt 2 := by rw [Real.one_le_sqrt]; norm_num
      match i with
      | 0 => show (1 : ℝ) / 5 / 2 ≤ 1; norm_num
      | 1 => show (1 : ℝ) / 5 / 2 ≤ 1; norm_num
      | 2 => show (1 : ℝ) / 5 / 2 ≤ Real.sqrt 2; linarith) 3

example : call unitBox rightAngled (fun _ => 1 / 5) ⟨fun _ => 8, fun x => grid.val fun j => (x j + 5) % (8 : ℤ)⟩ =
    call unitBox rightAngled (fun _ => 1 / 5) grid :=
  C125_translate unitBox rightAngled (fun _ => 1 / 5) grid (fun _ => (by norm_num : 0 < 8))
    (fun _ => (by norm_num : 8 % 2 = 0)) (fun _ _ _ => rfl) fun _ => 5

end Verif.Bispectrum
