import Verif.Props.UVResponse
/-!
# C120: removing the foreground wedge
-/

namespace Verif.UVResponse
open Verif.Convolve Verif.PowerSpectrum Verif.RandomField Verif.Conversions Verif.Constants Complex

/-- Specification: the entry of a filter for the wave `m`, in an array whose entry `s j / 2` is for no periods along
axis `j`. -/
def atWave (s : Fin 3 → ℕ) (filt : (Fin 3 → ℤ) → ℝ) (m : Fin 3 → ℤ) : ℝ := filt fun j => (m j + (s j / 2 : ℕ)) % (s j : ℤ)

theorem md_shift_even {s : Fin 3 → ℕ} (he : ∀ j, s j % 2 = 0) (m : Fin 3 → ℤ) :
    md s (fun j => md s m j - (s j / 2 : ℕ)) = fun j => (m j + (s j / 2 : ℕ)) % (s j : ℤ) := by
  funext j
  have h2 : (s j : ℤ) = 2 * ((s j / 2 : ℕ) : ℤ) := by have := he j; omega
  simp only [md]
  rw [Int.sub_emod, Int.emod_emod, ← Int.sub_emod]
  rw [show m j - ((s j / 2 : ℕ) : ℤ) = m j + ((s j / 2 : ℕ) : ℤ) + (-1) * (s j : ℤ) by rw [h2]; ring,
    Int.add_mul_emod_self_right]

/-- Shifting, multiplying and shifting once more. -/
theorem shift_twice (s : Fin 3 → ℕ) (hs : ∀ j, 0 < s j) (b : (Fin 3 → ℤ) → ℂ) (g : (Fin 3 → ℤ) → ℂ) (i : Fin 3 → ℤ) :
    shift s (fun j => shift s (fftn s b) j * g j) i =
      fftn s b (fun j => i j - 2 * (s j / 2 : ℕ)) * g (md s fun j => i j - (s j / 2 : ℕ)) := by
  show fftn s b (md s fun j => md s (fun l => i l - (s l / 2 : ℕ)) j - (s j / 2 : ℕ)) * _ = _
  rw [fftn_md s hs]
  congr 1
  refine fftn_congr s hs b _ _ fun j => ?_
  obtain ⟨c, hc⟩ := Int.dvd_self_sub_emod (x := i j - ((s j / 2 : ℕ) : ℤ)) (m := (s j : ℤ))
  refine ⟨-c, ?_⟩
  simp only [md]
  generalize ((s j / 2 : ℕ) : ℤ) = w at hc ⊢
  linear_combination -hc

/-- **C120, even numbers of cells.** Every wave is multiplied by the mean of the entries of the filter for the wave and
for the opposite one. -/
theorem C120_even (a filt : Arr (Fin 3) ℝ) (h : a.shape = filt.shape) (hs : ∀ j, 0 < a.shape j)
    (he : ∀ j, a.shape j % 2 = 0) :
    ∃ r, removeWith a filt = .ok r ∧ r.shape = a.shape ∧ ∀ m, mode a.shape r.val m =
      mode a.shape a.val m * (((atWave a.shape filt.val m + atWave a.shape filt.val (-m)) / 2 : ℝ) : ℂ) := by
  refine ⟨_, if_pos h, rfl, fun m => ?_⟩
  have hA : ∀ i, (shift a.shape fun j => shift a.shape (fftn a.shape fun y => (a.val y : ℂ)) j * (filt.val j : ℂ)) i =
      ((filt.val (md a.shape fun j => i j - (a.shape j / 2 : ℕ)) : ℝ) : ℂ) * fftn a.shape (fun y => (a.val y : ℂ)) i := by
    intro i
    rw [shift_twice _ hs, mul_comm]
    congr 1
    refine fftn_congr _ hs _ _ _ fun j => ⟨-1, ?_⟩
    have h2 : (a.shape j : ℤ) = 2 * ((a.shape j / 2 : ℕ) : ℤ) := by have := he j; omega
    generalize ((a.shape j / 2 : ℕ) : ℤ) = w at h2 ⊢
    linear_combination h2
  have e : (shift a.shape fun j => shift a.shape (fftn a.shape fun y => (a.val y : ℂ)) j * (filt.val j : ℂ)) =
      fun i => ((filt.val (md a.shape fun j => i j - (a.shape j / 2 : ℕ)) : ℝ) : ℂ) *
        fftn a.shape (fun y => (a.val y : ℂ)) i := funext hA
  rw [mode_eq, mode_eq, e]
  have := filtered a.shape hs a.val (fun i => filt.val (md a.shape fun j => i j - (a.shape j / 2 : ℕ))) m
  rw [this]
  unfold atWave
  rw [md_shift_even he, md_shift_even he]

/-- **C120, given filters.** A filter which is given is used instead, whatever the redshift and the slope. -/
theorem C120_given (k : Const) (z mu : ℝ) (f : Funct) (L : ℝ) (a filt : Arr (Fin 3) ℝ) (h : a.shape = filt.shape)
    (hs : ∀ j, 0 < a.shape j) (he : ∀ j, a.shape j % 2 = 0) :
    ∃ r, removeWedge k a z mu f L (some filt) = .ok r ∧ r.shape = a.shape ∧ ∀ m, mode a.shape r.val m =
      mode a.shape a.val m * (((atWave a.shape filt.val m + atWave a.shape filt.val (-m)) / 2 : ℝ) : ℂ) :=
  C120_even a filt h hs he

/-- **C120 is false for odd numbers of cells**: a filter which lets everything pass multiplies the cube by a cosine. -/
theorem C120_odd_false (a filt : Arr (Fin 3) ℝ) (h : a.shape = filt.shape) (ho : ∀ j, a.shape j % 2 = 1)
    (hf : ∀ x, filt.val x = 1) :
    ∃ r, removeWith a filt = .ok r ∧ ∀ x : Fin 3 → ℤ, (∀ j, 0 ≤ x j ∧ x j < a.shape j) →
      r.val x = a.val x * Real.cos (2 * Real.pi * ∑ j, (x j : ℝ) / a.shape j) := by
  have hs : ∀ j, 0 < a.shape j := fun j => by have := ho j; omega
  refine ⟨_, if_pos h, fun x hx => ?_⟩
  have hA : ∀ i, (shift a.shape fun j => shift a.shape (fftn a.shape fun y => (a.val y : ℂ)) j * (filt.val j : ℂ)) i =
      fftn a.shape (fun y => (a.val y : ℂ)) (fun j => i j + 1) := by
    intro i
    rw [shift_twice _ hs, hf, ofReal_one, mul_one]
    refine fftn_congr _ hs _ _ _ fun j => ⟨-1, ?_⟩
    have h2 : (a.shape j : ℤ) = 2 * ((a.shape j / 2 : ℕ) : ℤ) + 1 := by have := ho j; omega
    generalize ((a.shape j / 2 : ℕ) : ℤ) = w at h2 ⊢
    linear_combination h2
  have e : (shift a.shape fun j => shift a.shape (fftn a.shape fun y => (a.val y : ℂ)) j * (filt.val j : ℂ)) =
      fun i => fftn a.shape (fun y => (a.val y : ℂ)) (fun j => i j + 1) := funext hA
  simp only [e]
  set A := fftn a.shape (fun y => (a.val y : ℂ)) with hAdef
  have key := modes_injective a.shape hs
    (fun x => ((ifftn a.shape (fun i => A (fun j => i j + 1)) x).re : ℂ))
    (fun x => ((a.val x * Real.cos (2 * Real.pi * ∑ j, (x j : ℝ) / a.shape j) : ℝ) : ℂ)) (fun m => by
      rw [fftn_re, fftn_ifftn _ hs, fftn_ifftn _ hs]
      have e1 : A (fun j => md a.shape m j + 1) = A (fun j => m j + 1) := by
        refine fftn_congr _ hs _ _ _ fun j => ?_
        simp only [md]
        obtain ⟨c, hc⟩ := Int.dvd_self_sub_emod (x := m j) (m := (a.shape j : ℤ))
        exact ⟨-c, by linear_combination -hc⟩
      have e2 : (starRingEnd ℂ) (A (fun j => md a.shape (-m) j + 1)) = A (fun j => m j - 1) := by
        have : A (fun j => md a.shape (-m) j + 1) = A (-fun j => m j - 1) := by
          refine fftn_congr _ hs _ _ _ fun j => ?_
          simp only [md, Pi.neg_apply]
          obtain ⟨c, hc⟩ := Int.dvd_self_sub_emod (x := -m j) (m := (a.shape j : ℤ))
          exact ⟨-c, by linear_combination -hc⟩
        rw [this, hAdef, fftn_neg, conj_conj]
      rw [e1, e2, hAdef]
      unfold fftn
      rw [← Finset.sum_add_distrib, Finset.sum_div]
      refine Finset.sum_congr rfl fun y _ => ?_
      have ec : ((Real.cos (2 * Real.pi * ∑ j, (y j : ℝ) / a.shape j) : ℝ) : ℂ) =
          (exp ((2 * Real.pi * I) * ∑ j, (y j : ℂ) / a.shape j) +
            exp (-(2 * Real.pi * I) * ∑ j, (y j : ℂ) / a.shape j)) / 2 := by
        rw [ofReal_cos]
        unfold Complex.cos
        push_cast
        congr 3 <;> ring
      have ep : ∀ σ : ℤ, exp (-(2 * Real.pi * I) * ∑ j, ((m j + σ : ℤ) : ℂ) * y j / a.shape j) =
          exp (-(2 * Real.pi * I) * ∑ j, (m j : ℂ) * y j / a.shape j) *
            exp (-(2 * Real.pi * I) * (σ * ∑ j, (y j : ℂ) / a.shape j)) := by
        intro σ
        rw [← exp_add, ← mul_add, Finset.mul_sum (f := fun j => (y j : ℂ) / a.shape j), ← Finset.sum_add_distrib]
        congr 2
        refine Finset.sum_congr rfl fun j _ => ?_
        push_cast
        ring
      have ep1 := ep 1
      have ep2 := ep (-1)
      have s2 : (fun j => m j - 1) = fun j => m j + (-1) := funext fun j => sub_eq_add_neg _ _
      rw [s2]
      simp only [ep1, ep2]
      push_cast [ec]
      rw [show (2 * (Real.pi : ℂ) * I) * ∑ j, (y j : ℂ) / a.shape j =
        -(2 * (Real.pi : ℂ) * I) * (-1 * ∑ j, (y j : ℂ) / a.shape j) by ring,
        show -(2 * (Real.pi : ℂ) * I) * ∑ j, (y j : ℂ) / a.shape j =
        -(2 * (Real.pi : ℂ) * I) * (1 * ∑ j, (y j : ℂ) / a.shape j) by ring]
      ring) ((mem_box _ _).2 hx)
  exact_mod_cast key

/-- A constant cube of 3 × 3 × 3 cells. -/
example : ∃ r, removeWith ⟨fun _ => 3, fun _ => 1⟩ ⟨fun _ => 3, fun _ => 1⟩ = .ok r ∧ r.val ![1, 0, 0] = -1 / 2 := by
  obtain ⟨r, h1, h2⟩ := C120_odd_false ⟨fun _ => 3, fun _ => 1⟩ ⟨fun _ => 3, fun _ => 1⟩ rfl
    (fun _ => show 3 % 2 = 1 from rfl) fun _ => rfl
  refine ⟨r, h1, ?_⟩
  rw [h2 ![1, 0, 0] (fun j => match j with | 0 | 1 | 2 => by simp)]
  simp only [Fin.sum_univ_three]
  rw [show 2 * Real.pi * ((((![1, 0, 0] : Fin 3 → ℤ) 0 : ℤ) : ℝ) / (3 : ℕ) + (((![1, 0, 0] : Fin 3 → ℤ) 1 : ℤ) : ℝ) / (3 : ℕ) +
      (((![1, 0, 0] : Fin 3 → ℤ) 2 : ℤ) : ℝ) / (3 : ℕ)) = Real.pi - Real.pi / 3 by simp; ring, Real.cos_pi_sub,
    Real.cos_pi_div_three]
  norm_num

/-! ## The default filter -/

/-- Specification: the wave number which the filter assigns to `m` periods along an axis of `2 h` cells: that of half
a period more, stretched by `n / (n - 1)`. -/
noncomputable def offWave (h : ℕ) (L : ℝ) (m : ℤ) : ℝ := 2 * Real.pi * (m + 1 / 2) / L * (2 * h / (2 * h - 1))

/-- Specification: the wave number across the line of sight. -/
noncomputable def offPerp (h : ℕ) (L : ℝ) (m : Fin 3 → ℤ) : ℝ := Real.sqrt (offWave h L (m 0) ^ 2 + offWave h L (m 1) ^ 2)

/-- Specification: the waves which the filter lets pass. -/
def Passes (h : ℕ) (L mu kmin : ℝ) (m : Fin 3 → ℤ) : Prop :=
  kmin < offPerp h L m ∧ |offWave h L (m 2)| * (1 - mu ^ 2) / mu < offPerp h L m

theorem wedgeAxis_eq (h : ℕ) (hh : 1 ≤ h) (L : ℝ) (m : ℤ) : wedgeAxis (2 * h) L (m + h) = offWave h L m := by
  have h1 : (1 : ℝ) ≤ h := by exact_mod_cast hh
  have h2 : (2 * (h : ℝ) - 1) ≠ 0 := by linarith
  unfold wedgeAxis offWave
  push_cast
  by_cases hL : L = 0
  · simp [hL]
  field_simp
  ring

theorem atWave_cube (h : ℕ) (g : (Fin 3 → ℤ) → ℝ) (m : Fin 3 → ℤ) (hm : ∀ j, -(h : ℤ) ≤ m j ∧ m j < h) :
    atWave (fun _ => 2 * h) g m = g fun j => m j + h := by
  unfold atWave
  congr 1
  funext j
  have := hm j
  rw [show (2 * h / 2 : ℕ) = h by omega]
  exact Int.emod_eq_of_lt (by omega) (by push_cast; omega)

/-- The entry of the default filter for the wave `m`. -/
theorem filter_eq (h : ℕ) (hh : 1 ≤ h) (L mu kmin : ℝ) (f : Funct) (m : Fin 3 → ℤ)
    (hm : ∀ j, -(h : ℤ) ≤ m j ∧ m j < h) :
    (f ≠ .sigmoid → Passes h L mu kmin m → atWave (fun _ => 2 * h) (filterAt (2 * h) L mu kmin f) m = 1) ∧
    (f ≠ .sigmoid → ¬ Passes h L mu kmin m → atWave (fun _ => 2 * h) (filterAt (2 * h) L mu kmin f) m = 0) ∧
    (f = .sigmoid → offPerp h L m ≤ kmin → atWave (fun _ => 2 * h) (filterAt (2 * h) L mu kmin f) m = 0) ∧
    (f = .sigmoid → kmin < offPerp h L m → atWave (fun _ => 2 * h) (filterAt (2 * h) L mu kmin f) m =
      1 / (1 + Real.exp (10 * (|offWave h L (m 2)| * (1 - mu ^ 2) / mu - offPerp h L m)))) := by
  have hp : perp (2 * h) L (fun j => m j + h) = offPerp h L m := by
    unfold perp offPerp
    rw [wedgeAxis_eq h hh, wedgeAxis_eq h hh]
  rw [atWave_cube h _ m hm]
  unfold filterAt
  simp only []
  rw [hp, wedgeAxis_eq h hh]
  refine ⟨fun hf hP => ?_, fun hf hP => ?_, fun hf hk => if_pos hk, fun hf hk => ?_⟩
  · rw [if_neg (not_le.2 hP.1), if_neg hf, if_neg (not_le.2 hP.2)]
  · by_cases h1 : offPerp h L m ≤ kmin
    · rw [if_pos h1]
    · rw [if_neg h1, if_neg hf, if_pos]
      by_contra h2
      exact hP ⟨not_le.1 h1, not_le.1 h2⟩
  · rw [if_neg (not_le.2 hk), if_pos hf]
    set x := 10 * (offPerp h L m - |offWave h L (m 2)| * (1 - mu ^ 2) / mu) with hx
    rw [show 10 * (|offWave h L (m 2)| * (1 - mu ^ 2) / mu - offPerp h L m) = -x by rw [hx]; ring, Real.exp_neg]
    have := Real.exp_pos x
    field_simp
    ring

/-- Specification: half the wave number at the distance `D` which a baseline of `b` metres resolves at 21 centimetres (the
wave length at emission). -/
noncomputable def baselineWave (D b : ℝ) : ℝ := Real.pi / (D * (0.21 / b))

theorem shortest_eq (k : Const) (z b : ℝ) : shortest k z b = baselineWave (cdist k z) b := by
  unfold shortest baselineWave
  rw [show (21 : ℝ) / b / 100 = 0.21 / b by ring]

theorem removeWedge_eq (k : Const) (a : Arr (Fin 3) ℝ) (z mu : ℝ) (f : Funct) (L : ℝ) (h : ℕ)
    (ha : a.shape = fun _ => 2 * h) (hf : f ≠ .other) :
    removeWedge k a z mu f L none = removeWith a ⟨fun _ => 2 * h, filterAt (2 * h) L mu (shortest k z 40) f⟩ := by
  unfold removeWedge diabolo
  simp only [ha, if_neg hf, max_self, lt_irrefl, if_false]

theorem neg_range {h : ℕ} {m : Fin 3 → ℤ} (hm : ∀ j, -(h : ℤ) < m j ∧ m j < h) :
    (∀ j, -(h : ℤ) ≤ m j ∧ m j < h) ∧ ∀ j, -(h : ℤ) ≤ (-m) j ∧ (-m) j < h := by
  refine ⟨fun j => ⟨(hm j).1.le, (hm j).2⟩, fun j => ?_⟩
  have := hm j
  simp only [Pi.neg_apply]
  omega

/-- **C120, the default filter of cubes with an even number of cells along each axis.** Waves which pass together with
their opposite are kept, waves of which neither passes are removed, and the others are halved. -/
theorem C120_partial (k : Const) (a : Arr (Fin 3) ℝ) (z mu : ℝ) (f : Funct) (L : ℝ) (h : ℕ) (hh : 1 ≤ h)
    (ha : a.shape = fun _ => 2 * h) (hf : f = .step ∨ f = .gaussian) :
    ∃ r, removeWedge k a z mu f L none = .ok r ∧ r.shape = a.shape ∧
      ∀ m : Fin 3 → ℤ, (∀ j, -(h : ℤ) < m j ∧ m j < h) →
        (Passes h L mu (baselineWave (cdist k z) 40) m → Passes h L mu (baselineWave (cdist k z) 40) (-m) →
          mode a.shape r.val m = mode a.shape a.val m) ∧
        (¬ Passes h L mu (baselineWave (cdist k z) 40) m → ¬ Passes h L mu (baselineWave (cdist k z) 40) (-m) → mode a.shape r.val m = 0) ∧
        (¬ (Passes h L mu (baselineWave (cdist k z) 40) m ↔ Passes h L mu (baselineWave (cdist k z) 40) (-m)) →
          mode a.shape r.val m = mode a.shape a.val m / 2) := by
  simp only [← shortest_eq] at *
  have hs : ∀ j, 0 < a.shape j := fun j => by rw [ha]; show 0 < 2 * h; omega
  have he : ∀ j, a.shape j % 2 = 0 := fun j => by rw [ha]; show 2 * h % 2 = 0; omega
  have hns : f ≠ .sigmoid := by rcases hf with rfl | rfl <;> decide
  have hno : f ≠ .other := by rcases hf with rfl | rfl <;> decide
  obtain ⟨r, hr, hrs, hm⟩ := C120_even a ⟨fun _ => 2 * h, filterAt (2 * h) L mu (shortest k z 40) f⟩ ha hs he
  refine ⟨r, by rw [removeWedge_eq k a z mu f L h ha hno, hr], hrs, fun m hmr => ?_⟩
  obtain ⟨g1, g2⟩ := neg_range hmr
  obtain ⟨p1, q1, -, -⟩ := filter_eq h hh L mu (shortest k z 40) f m g1
  obtain ⟨p2, q2, -, -⟩ := filter_eq h hh L mu (shortest k z 40) f (-m) g2
  have hmm := hm m
  rw [ha] at hmm ⊢
  refine ⟨fun h1 h2 => ?_, fun h1 h2 => ?_, fun h3 => ?_⟩
  · rw [hmm, p1 hns h1, p2 hns h2]
    norm_num
  · rw [hmm, q1 hns h1, q2 hns h2]
    norm_num
  · by_cases h1 : Passes h L mu (shortest k z 40) m <;> by_cases h2 : Passes h L mu (shortest k z 40) (-m)
    · exact absurd (iff_of_true h1 h2) h3
    · rw [hmm, p1 hns h1, q2 hns h2]
      push_cast
      ring
    · rw [hmm, q1 hns h1, p2 hns h2]
      push_cast
      ring
    · exact absurd (iff_of_false h1 h2) h3

example (k : Const) := C120_partial k ⟨fun _ => 2 * 4, fun x => x 0 + x 2⟩ 7 0.5 .gaussian 100 4 (by norm_num) rfl (by simp)

/-- **C120, the sigmoid filter**, for waves longer across the line of sight than `kmin` allows in both directions. -/
theorem C120_sigmoid (k : Const) (a : Arr (Fin 3) ℝ) (z mu : ℝ) (L : ℝ) (h : ℕ) (hh : 1 ≤ h)
    (ha : a.shape = fun _ => 2 * h) :
    ∃ r, removeWedge k a z mu .sigmoid L none = .ok r ∧
      ∀ m : Fin 3 → ℤ, (∀ j, -(h : ℤ) < m j ∧ m j < h) →
        (offPerp h L m ≤ baselineWave (cdist k z) 40 → offPerp h L (-m) ≤ baselineWave (cdist k z) 40 → mode a.shape r.val m = 0) ∧
        (baselineWave (cdist k z) 40 < offPerp h L m → baselineWave (cdist k z) 40 < offPerp h L (-m) →
          mode a.shape r.val m = mode a.shape a.val m *
            (((1 / (1 + Real.exp (10 * (|offWave h L (m 2)| * (1 - mu ^ 2) / mu - offPerp h L m))) +
              1 / (1 + Real.exp (10 * (|offWave h L (-m 2)| * (1 - mu ^ 2) / mu - offPerp h L (-m))))) / 2 : ℝ) : ℂ)) := by
  simp only [← shortest_eq] at *
  have hs : ∀ j, 0 < a.shape j := fun j => by rw [ha]; show 0 < 2 * h; omega
  have he : ∀ j, a.shape j % 2 = 0 := fun j => by rw [ha]; show 2 * h % 2 = 0; omega
  obtain ⟨r, hr, hrs, hm⟩ := C120_even a ⟨fun _ => 2 * h, filterAt (2 * h) L mu (shortest k z 40) .sigmoid⟩ ha hs he
  refine ⟨r, by rw [removeWedge_eq k a z mu .sigmoid L h ha (by decide), hr], fun m hmr => ?_⟩
  obtain ⟨g1, g2⟩ := neg_range hmr
  obtain ⟨-, -, p1, q1⟩ := filter_eq h hh L mu (shortest k z 40) .sigmoid m g1
  obtain ⟨-, -, p2, q2⟩ := filter_eq h hh L mu (shortest k z 40) .sigmoid (-m) g2
  have hmm := hm m
  rw [ha] at hmm ⊢
  refine ⟨fun h1 h2 => ?_, fun h1 h2 => ?_⟩
  · rw [hmm, p1 rfl h1, p2 rfl h2]
    norm_num
  · rw [hmm, q1 rfl h1, q2 rfl h2]
    rfl

example (k : Const) := C120_sigmoid k ⟨fun _ => 2 * 4, fun x => x 0 + x 2⟩ 7 0.5 100 4 (by norm_num) rfl

/-- Specification: the foreground wedge of slope `c`, for the wave numbers `2 π m / L`. -/
def InWedge (c L : ℝ) (m : Fin 3 → ℤ) : Prop :=
  |2 * Real.pi * m 2 / L| ≤ c * Real.sqrt ((2 * Real.pi * m 0 / L) ^ 2 + (2 * Real.pi * m 1 / L) ^ 2)

theorem offWave_abs (h : ℕ) (hh : 1 ≤ h) {L : ℝ} (hL : 0 < L) (m : ℤ) :
    |offWave h L m| = |2 * (m : ℝ) + 1| * offWave h L 0 ∧ 0 < offWave h L 0 := by
  have h1 : (1 : ℝ) ≤ h := by exact_mod_cast hh
  have h2 : (0 : ℝ) < 2 * h - 1 := by linarith
  have h0 : 0 < offWave h L 0 := by
    unfold offWave
    have := Real.pi_pos
    push_cast
    positivity
  refine ⟨?_, h0⟩
  have : offWave h L m = (2 * (m : ℝ) + 1) * offWave h L 0 := by
    unfold offWave
    push_cast
    ring
  rw [this, abs_mul, abs_of_pos h0]

/-- **C120 is false: the filter keeps the wedge and removes the window above it.**  A wave across the line of sight is
in every wedge, and it is kept as it is; a wave along the line of sight is in no wedge, and it is removed. -/
theorem C120_false (k : Const) (a : Arr (Fin 3) ℝ) (z : ℝ) (L : ℝ) (hL : 0 < L) (h : ℕ)
    (ha : a.shape = fun _ => 2 * h) (f : Funct) (hf : f = .step ∨ f = .gaussian) (p q : ℤ) (hp : 2 ≤ p) (hph : p < h)
    (hq : 1 ≤ q) (hqh : q < h) (hk : baselineWave (cdist k z) 40 < 2 * Real.pi * (p - 1 / 2) / L) (c : ℝ) (hc : 0 ≤ c) :
    ∃ r, removeWedge k a z (1 / 2) f L none = .ok r ∧
      (InWedge c L ![p, 0, 0] ∧ mode a.shape r.val ![p, 0, 0] = mode a.shape a.val ![p, 0, 0]) ∧
      (¬ InWedge c L ![0, 0, q] ∧ mode a.shape r.val ![0, 0, q] = 0) := by
  have hh : 1 ≤ h := by omega
  have h1 : (1 : ℝ) ≤ h := by exact_mod_cast hh
  have h2 : (0 : ℝ) < 2 * h - 1 := by linarith
  have hpi := Real.pi_pos
  have hpr : (2 : ℝ) ≤ p := by exact_mod_cast hp
  have hqr : (1 : ℝ) ≤ q := by exact_mod_cast hq
  obtain ⟨r, hr, hrs, hm⟩ := C120_partial k a z (1 / 2) f L h hh ha hf
  set u := offWave h L 0 with hu
  have h0 : 0 < u := (offWave_abs h hh hL 0).2
  have hsq : ∀ m : ℤ, offWave h L m ^ 2 = (2 * (m : ℝ) + 1) ^ 2 * u ^ 2 := by
    intro m
    rw [← sq_abs, (offWave_abs h hh hL m).1, mul_pow, sq_abs]
  have hstretch : 2 * Real.pi * (p - 1 / 2) / L ≤ (2 * (p : ℝ) - 1) * u := by
    rw [hu]
    unfold offWave
    have e : (2 * (p : ℝ) - 1) * (2 * Real.pi * ((0 : ℤ) + 1 / 2) / L * (2 * h / (2 * h - 1))) =
        2 * Real.pi * (p - 1 / 2) / L * (2 * h / (2 * h - 1)) := by
      push_cast
      ring
    rw [e]
    refine le_mul_of_one_le_right ?_ ?_
    · have : (0 : ℝ) ≤ p - 1 / 2 := by linarith
      positivity
    · rw [le_div_iff₀ h2]
      linarith
  have pass : ∀ m : Fin 3 → ℤ, m 1 = 0 → m 2 = 0 → (2 * (p : ℝ) - 1) ^ 2 ≤ (2 * (m 0 : ℝ) + 1) ^ 2 →
      Passes h L (1 / 2) (baselineWave (cdist k z) 40) m := by
    intro m m1 m2 hm0
    have hperp : (2 * (p : ℝ) - 1) * u < offPerp h L m := by
      unfold offPerp
      apply Real.lt_sqrt_of_sq_lt
      rw [hsq, hsq, m1, mul_pow]
      push_cast
      nlinarith [sq_pos_of_pos h0]
    refine ⟨lt_of_lt_of_le hk (hstretch.trans hperp.le), lt_of_le_of_lt ?_ hperp⟩
    rw [m2, (offWave_abs h hh hL 0).1]
    rw [← hu]
    norm_num
    nlinarith
  have fail : ∀ m : Fin 3 → ℤ, m 0 = 0 → m 1 = 0 → 1 ≤ |2 * (m 2 : ℝ) + 1| →
      ¬ Passes h L (1 / 2) (baselineWave (cdist k z) 40) m := by
    intro m m0 m1 hm2 hP
    have hx := hP.2
    rw [(offWave_abs h hh hL (m 2)).1, ← hu] at hx
    have hperp : offPerp h L m ≤ 3 / 2 * u := by
      unfold offPerp
      rw [Real.sqrt_le_left (by positivity), hsq, hsq, m0, m1]
      push_cast
      nlinarith [sq_pos_of_pos h0]
    have : 3 / 2 * u ≤ |2 * (m 2 : ℝ) + 1| * u * (1 - (1 / 2) ^ 2) / (1 / 2) := by
      have := mul_le_mul_of_nonneg_right hm2 h0.le
      norm_num
      linarith
    linarith
  have rp : ∀ j, -(h : ℤ) < (![p, 0, 0] : Fin 3 → ℤ) j ∧ (![p, 0, 0] : Fin 3 → ℤ) j < h := fun j => match j with
    | 0 => by show -(h : ℤ) < p ∧ p < h; omega
    | 1 | 2 => by show -(h : ℤ) < 0 ∧ (0 : ℤ) < h; omega
  have rq : ∀ j, -(h : ℤ) < (![0, 0, q] : Fin 3 → ℤ) j ∧ (![0, 0, q] : Fin 3 → ℤ) j < h := fun j => match j with
    | 0 | 1 => by show -(h : ℤ) < 0 ∧ (0 : ℤ) < h; omega
    | 2 => by show -(h : ℤ) < q ∧ q < h; omega
  refine ⟨r, hr, ⟨?_, (hm _ rp).1 (pass _ rfl rfl ?_) (pass _ ?_ ?_ ?_)⟩, ?_, (hm _ rq).2.1 (fail _ rfl rfl ?_)
    (fail _ ?_ ?_ ?_)⟩
  · unfold InWedge
    simp only [show (![p, 0, 0] : Fin 3 → ℤ) 2 = 0 from rfl]
    simp only [Int.cast_zero, mul_zero, zero_div, abs_zero]
    exact mul_nonneg hc (Real.sqrt_nonneg _)
  · show (2 * (p : ℝ) - 1) ^ 2 ≤ (2 * (p : ℝ) + 1) ^ 2
    nlinarith
  · show -(0 : ℤ) = 0
    rfl
  · show -(0 : ℤ) = 0
    rfl
  · show (2 * (p : ℝ) - 1) ^ 2 ≤ (2 * ((-p : ℤ) : ℝ) + 1) ^ 2
    push_cast
    nlinarith
  · unfold InWedge
    simp only [show (![0, 0, q] : Fin 3 → ℤ) 2 = q from rfl, show (![0, 0, q] : Fin 3 → ℤ) 1 = 0 from rfl,
      show (![0, 0, q] : Fin 3 → ℤ) 0 = 0 from rfl]
    simp only [Int.cast_zero, mul_zero, zero_div]
    norm_num
    have hq0 : (0 : ℝ) < q := by linarith
    exact ⟨by omega, hL.ne'⟩
  · show 1 ≤ |2 * (q : ℝ) + 1|
    rw [abs_of_pos (by linarith)]
    linarith
  · show -(0 : ℤ) = 0
    rfl
  · show -(0 : ℤ) = 0
    rfl
  · show 1 ≤ |2 * ((-q : ℤ) : ℝ) + 1|
    push_cast
    rw [abs_of_neg (by linarith)]
    linarith

/-- **C120, errors.** Without an array the filters cannot be made, `barrel_filter` fails for every cube of more than one
cell, and an array which is not a cube cannot be filtered. -/
theorem C120_raises (k : Const) (z mu : ℝ) (f : Funct) (L base : ℝ) :
    (∀ ncells, ∃ e, diabolo k z ncells none L mu f base = .error e) ∧
    (∀ ncells, ∃ e, barrel ncells none = .error e) ∧
    (∀ ncells (s : Fin 3 → ℕ), (∃ j, 1 < s j) → barrel ncells (some s) = .error .value) ∧
    (∀ a : Arr (Fin 3) ℝ, (∃ i j, a.shape i ≠ a.shape j) → ∃ e, removeWedge k a z mu f L none = .error e) := by
  refine ⟨fun n => ?_, fun n => ?_, fun n s hs => ?_, fun a ha => ?_⟩
  · unfold diabolo
    by_cases h1 : f = .other
    · exact ⟨.assertion, if_pos h1⟩
    · rw [if_neg h1]
      simp only []
      by_cases h2 : n.getD 0 = 0
      · exact ⟨.assertion, if_pos h2⟩
      · exact ⟨.attribute, if_neg h2⟩
  · unfold barrel
    simp only []
    split_ifs <;> exact ⟨_, rfl⟩
  · have : 1 < max (max (s 0) (s 1)) (s 2) := by
      obtain ⟨j, hj⟩ := hs
      match j with
      | 0 | 1 | 2 => simp [hj]
    unfold barrel
    simp only [if_pos this]
  · unfold removeWedge diabolo
    simp only []
    by_cases hf : f = .other
    · exact ⟨.assertion, by simp only [if_pos hf]⟩
    by_cases h2 : a.shape 2 < max (max (a.shape 0) (a.shape 1)) (a.shape 2)
    · exact ⟨.type, by simp only [if_neg hf, if_pos h2]⟩
    · refine ⟨.value, ?_⟩
      simp only [if_neg hf, if_neg h2]
      refine if_neg ?_
      show a.shape ≠ fun _ => _
      intro he
      obtain ⟨i, j, hij⟩ := ha
      exact hij ((congrFun he i).trans (congrFun he j).symm)

/-- The comoving distance to redshift 8 in the package's cosmology is more than 2000 Mpc. -/
theorem cdist_eight : 2000 < cdist (Const.init 3) 8 := by
  have hint : ∫ _ in (0 : ℝ)..8, (1 / 15 : ℝ) ≤ ∫ x in (0 : ℝ)..8, ezFunc (Const.init 3) x := by
    refine intervalIntegral.integral_mono_on (by norm_num) intervalIntegrable_const
      (ezFunc_int physical_init (by norm_num) (by norm_num)) fun x hx => ?_
    unfold ezFunc
    have h1 := rate_pos physical_init (x := x) (by linarith [hx.1])
    refine one_div_le_one_div_of_le (Real.sqrt_pos.2 h1) ?_
    rw [Real.sqrt_le_left (by norm_num)]
    have : (1 + x) ^ 3 ≤ 9 ^ 3 := pow_le_pow_left₀ (by linarith [hx.1]) (by linarith [hx.2]) 3
    norm_num [Const.init]
    linarith
  rw [intervalIntegral.integral_const] at hint
  unfold cdist
  have e : (c : ℝ) / ((Const.init 3).H0 : ℚ) = 300000 / 70 := by norm_num [c, Const.init]
  rw [e]
  norm_num at hint ⊢
  linarith

/-- A box of 8 × 8 × 8 cells and 50 Mpc at redshift 8. -/
example : ∃ r, removeWedge (Const.init 3) ⟨fun _ => 8, fun x => x 2⟩ 8 (1 / 2) .step 50 none = .ok r ∧
    ¬ InWedge 1 50 ![0, 0, 2] ∧ mode (fun _ => 8) r.val ![0, 0, 2] = 0 := by
  obtain ⟨r, h1, -, h2, h3⟩ := C120_false (Const.init 3) ⟨fun _ => 8, fun x => x 2⟩ 8 50 (by norm_num) 4 rfl .step
    (.inl rfl) 3 2 (by norm_num) (by norm_num) (by norm_num) (by norm_num) (by
      have hd := cdist_eight
      have hp := Real.pi_pos
      unfold baselineWave
      rw [div_lt_iff₀ (by positivity)]
      push_cast
      nlinarith [mul_pos hp (sub_pos.2 hd)]) 1 (by norm_num)
  exact ⟨r, h1, h2, h3⟩

/-- A filter of zeros removes everything. -/
example (k : Const) (a : Arr (Fin 3) ℝ) (ha : a.shape = fun _ => 4) :
    ∃ r, removeWedge k a 8 (1 / 2) .step 50 (some ⟨fun _ => 4, fun _ => 0⟩) = .ok r ∧ mode a.shape r.val ![1, 0, 0] = 0 := by
  obtain ⟨r, h1, -, h2⟩ := C120_given k 8 (1 / 2) .step 50 a ⟨fun _ => 4, fun _ => 0⟩ ha (fun j => by rw [ha]; norm_num)
    (fun j => by show a.shape j % 2 = 0; simp [ha])
  refine ⟨r, h1, ?_⟩
  rw [h2]
  simp [atWave]

end Verif.UVResponse
