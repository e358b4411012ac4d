import Verif.Model.FullConvolve
import Verif.Props.Kernels
import Mathlib.Tactic.Linarith
import Mathlib.Tactic.Ring
/-!
# Convolutions padded with zeros: smoothing of noise cubes (C168) and box counting (C169)
-/

namespace Verif.FullConvolve
open Verif.Convolve Verif.Smoothing

variable {ι : Type} [Fintype ι] [DecidableEq ι]

/-! ## Specification -/

/-- The Gaussian that has fallen to one half at a distance of `fwhm/2`, on the cells `-(n/2) … n-1-n/2`, times `c`. -/
noncomputable def gaussian (n : ℕ) (fwhm c : ℝ) (d : Fin 3 → ℤ) : ℝ :=
  open Classical in
  if ∀ i, -((n / 2 : ℕ) : ℤ) ≤ d i ∧ d i < (n : ℤ) - (n / 2 : ℕ) then
    c * Real.exp (-(4 * Real.log 2) * (∑ i, (d i : ℝ) ^ 2) / fwhm ^ 2)
  else 0

/-- The offsets of a cube of `s` cells around a cell. -/
noncomputable def cube (s : ℕ) : Finset (Fin 3 → ℤ) := Fintype.piFinset fun _ => Finset.Ico (-((s / 2 : ℕ) : ℤ)) ((s : ℤ) - (s / 2 : ℕ))

/-- The offsets of a ball with the diameter of `s` cells. -/
noncomputable def ball (s : ℕ) : Finset (Fin 3 → ℤ) := (cube s).filter fun d => d 0 ^ 2 + d 1 ^ 2 + d 2 ^ 2 ≤ ((s / 2 : ℕ) : ℤ) ^ 2

/-- The offsets of a cylinder along the third axis with a diameter and a height of `s` cells. -/
noncomputable def cylinder (s : ℕ) : Finset (Fin 3 → ℤ) := (cube s).filter fun d => d 0 ^ 2 + d 1 ^ 2 ≤ ((s / 2 : ℕ) : ℤ) ^ 2

/-- The sum over all cells of the power `q` of the mean over a window around the cell; there is nothing outside the box. -/
noncomputable def count (W : Finset (Fin 3 → ℤ)) (data : Arr (Fin 3) ℝ) (q : ℕ) : ℝ :=
  ∑ x ∈ box data.shape, ((∑ d ∈ W, data.ext (x + d)) / W.card) ^ q

/-! ## Convolutions -/

theorem full_comm (a k : Arr ι ℝ) (n : ι → ℤ) :
    ∑ x ∈ box a.shape, a.val x * k.ext (n - x) = ∑ j ∈ box k.shape, k.val j * a.ext (n - j) := by
  unfold Arr.ext
  simp only [mul_ite, mul_zero]
  rw [← Finset.sum_filter, ← Finset.sum_filter]
  refine Finset.sum_nbij' (fun x => n - x) (fun j => n - j) ?_ ?_ ?_ ?_ ?_
  · intro x hx
    rw [Finset.mem_filter] at hx ⊢
    exact ⟨hx.2, by rw [sub_sub_cancel]; exact hx.1⟩
  · intro x hx
    rw [Finset.mem_filter] at hx ⊢
    exact ⟨hx.2, by rw [sub_sub_cancel]; exact hx.1⟩
  · intro x _; exact sub_sub_cancel _ _
  · intro x _; exact sub_sub_cancel _ _
  · intro x _
    rw [sub_sub_cancel, mul_comm]

/-- Nothing is lost at the edges of the full convolution. -/
theorem full_total (a k : Arr ι ℝ) :
    ∑ n ∈ box (full a k).shape, (full a k).val n = (∑ x ∈ box a.shape, a.val x) * ∑ y ∈ box k.shape, k.val y := by
  unfold full
  dsimp only
  rw [Finset.sum_comm, Finset.sum_mul]
  refine Finset.sum_congr rfl fun x hx => ?_
  rw [← Finset.mul_sum]
  congr 1
  unfold Arr.ext
  rw [← Finset.sum_filter]
  refine Finset.sum_nbij' (fun n => n - x) (fun y => y + x) ?_ ?_ ?_ ?_ ?_
  · intro n hn
    exact (Finset.mem_filter.1 hn).2
  · intro y hy
    rw [Finset.mem_filter]
    refine ⟨?_, by rwa [add_sub_cancel_right]⟩
    rw [mem_box] at hx hy ⊢
    intro i
    have h1 := hx i
    have h2 := hy i
    simp only [Pi.add_apply]
    omega
  · intro n _; exact sub_add_cancel _ _
  · intro n _; exact add_sub_cancel_right _ _
  · intro n _; rfl

/-! ## C168 -/

theorem sigma_sq (fwhm : ℝ) (t : ℝ) : -t / (2 * sigmaOfFwhm fwhm ^ 2) = -(4 * Real.log 2) * t / fwhm ^ 2 := by
  have hl : 0 < Real.log 2 := Real.log_pos (by norm_num)
  unfold sigmaOfFwhm
  by_cases hf : fwhm = 0
  · simp [hf]
  · rw [div_pow, mul_pow, Real.sq_sqrt (by positivity)]
    field_simp
    ring

theorem sigma_ne {fwhm : ℝ} (h : fwhm ≠ 0) : sigmaOfFwhm fwhm ≠ 0 := by
  have hl : 0 < Real.log 2 := Real.log_pos (by norm_num)
  unfold sigmaOfFwhm
  positivity

/-- **C168** (partial).  The result is the convolution with a Gaussian of the given width, its total is that of the array, and it is
not negative where the array is not.  Missing: the shape of the array, see `C168_false`; the array is displaced by `n/2` cells along
every axis, where `n` is the length of the first axis. -/
theorem C168_partial (a : Arr (Fin 3) ℝ) (hn : 0 < a.shape 0) {fwhm : ℝ} (hf : fwhm ≠ 0) :
    ∃ (out : Arr (Fin 3) ℝ) (c : ℝ), smoothGauss3d a fwhm = .ok out ∧ 0 < c ∧
      (∀ i, out.shape i = a.shape i + a.shape 0 - 1) ∧
      (∀ n, out.val (fun i => n i + ((a.shape 0 / 2 : ℕ) : ℤ)) = ∑ x ∈ box a.shape, a.val x * gaussian (a.shape 0) fwhm c (n - x)) ∧
      ∑ n ∈ box out.shape, out.val n = ∑ x ∈ box a.shape, a.val x ∧
      ((∀ x ∈ box a.shape, 0 ≤ a.val x) → ∀ n, 0 ≤ out.val n) := by
  obtain ⟨k, hk, hs, hpos, hnorm, hval⟩ := gauss_spec (ι := Fin 3) (a.shape 0) hn _ (sigma_ne hf)
  refine ⟨full a k, k.val fun _ => ((a.shape 0 / 2 : ℕ) : ℤ), ?_, hpos _, ?_, ?_, ?_, ?_⟩
  · unfold smoothGauss3d
    rw [hk]
  · intro i
    show a.shape i + k.shape i - 1 = _
    rw [hs]
  · intro n
    refine Finset.sum_congr rfl fun x _ => ?_
    congr 1
    unfold Arr.ext gaussian
    refine if_congr ?_ ?_ rfl
    · rw [mem_box, hs]
      refine forall_congr' fun i => ?_
      simp only [Pi.sub_apply]
      omega
    · rw [hval, sigma_sq]
      have hd : ∀ i, ((((fun i => n i + ((a.shape 0 / 2 : ℕ) : ℤ)) - x) i : ℤ) : ℝ) - (a.shape 0 / 2 : ℕ) = (((n - x) i : ℤ) : ℝ) := by
        intro i
        generalize a.shape 0 / 2 = m
        simp only [Pi.sub_apply]
        push_cast
        ring
      simp only [hd]
  · rw [full_total]
    unfold Normalised at hnorm
    rw [hnorm, mul_one]
  · intro ha n
    refine Finset.sum_nonneg fun x hx => mul_nonneg (ha x hx) ?_
    unfold Arr.ext
    split
    · exact (hpos _).le
    · exact le_rfl

/-- The result never has the shape of the array, unless the first axis has a single cell. -/
theorem C168_false (a : Arr (Fin 3) ℝ) (hn : 2 ≤ a.shape 0) (fwhm : ℝ) :
    ∀ out, smoothGauss3d a fwhm = .ok out → ∀ i, a.shape i < out.shape i := by
  intro out h i
  by_cases hf : fwhm = 0
  · subst hf
    have : sigmaOfFwhm 0 = 0 := by simp [sigmaOfFwhm]
    have h0 : a.shape 0 ≠ 0 := by omega
    simp [smoothGauss3d, gaussKernel, this, h0] at h
  · obtain ⟨o, c, ho, _, hs, _⟩ := C168_partial a (by omega) hf
    rw [h] at ho
    cases ho
    rw [hs]
    omega

/-- A width of zero is not the identity. -/
theorem C168_nan (a : Arr (Fin 3) ℝ) (hn : 0 < a.shape 0) : smoothGauss3d a 0 = .error "nan" := by
  have : sigmaOfFwhm 0 = 0 := by simp [sigmaOfFwhm]
  simp [smoothGauss3d, gaussKernel, this, hn.ne']

/-- A cube with a single bright cell. -/
def bright : Arr (Fin 3) ℝ := ⟨fun _ => 3, fun x => if x = fun _ => 1 then 1 else 0⟩

example : ∃ out, smoothGauss3d bright 2 = .ok out ∧ out.shape 2 = 5 ∧ ∑ n ∈ box out.shape, out.val n = ∑ x ∈ box bright.shape, bright.val x := by
  obtain ⟨o, _, h, _, hs, _, ht, _⟩ := C168_partial bright (by decide) (fwhm := 2) (by norm_num)
  exact ⟨o, h, hs 2, ht⟩

/-! ## C169 -/

theorem same_window (data : Arr (Fin 3) ℝ) {s : ℕ} {cells : Finset (Fin 3 → ℤ)} (hs : cells ⊆ box fun _ => s)
    (k : Arr (Fin 3) ℚ) (hk : k.shape = fun _ => s) (hv : ∀ x, k.val x = if x ∈ cells then 1 / (cells.card : ℚ) else 0) (x : Fin 3 → ℤ) :
    (same data ⟨k.shape, fun y => (k.val y : ℝ)⟩).val x =
      (∑ j ∈ cells, data.ext ((fun i => x i + ((s - 1) / 2 : ℕ)) - j)) / cells.card := by
  show ∑ y ∈ box data.shape, _ = _
  rw [full_comm]
  dsimp only
  rw [hk, Finset.sum_div]
  symm
  rw [← Finset.sum_subset hs]
  · refine Finset.sum_congr rfl fun j hj => ?_
    rw [hv, if_pos hj]
    push_cast
    ring
  · intro j _ hj
    rw [hv, if_neg hj]
    simp

theorem count_window (data : Arr (Fin 3) ℝ) {s : ℕ} (W cells : Finset (Fin 3 → ℤ)) (q : ℕ)
    (hW : ∀ d, d ∈ W ↔ ((fun _ => (((s - 1) / 2 : ℕ) : ℤ)) - d) ∈ cells) :
    ∑ x ∈ box data.shape, ((∑ j ∈ cells, data.ext ((fun i => x i + ((s - 1) / 2 : ℕ)) - j)) / cells.card) ^ q = count W data q := by
  have hi : W = cells.image fun j => (fun _ => (((s - 1) / 2 : ℕ) : ℤ)) - j := by
    ext d
    rw [hW, Finset.mem_image]
    constructor
    · intro h
      exact ⟨_, h, sub_sub_cancel _ _⟩
    · rintro ⟨j, hj, rfl⟩
      rwa [sub_sub_cancel]
  have hinj : Function.Injective fun j : Fin 3 → ℤ => (fun _ => (((s - 1) / 2 : ℕ) : ℤ)) - j := fun a b h => sub_right_injective h
  unfold count
  refine Finset.sum_congr rfl fun x _ => ?_
  rw [hi, Finset.card_image_of_injective _ hinj, Finset.sum_image fun a _ b _ h => hinj h]
  congr 2
  refine Finset.sum_congr rfl fun j _ => ?_
  congr 1
  funext i
  simp only [Pi.add_apply, Pi.sub_apply]
  ring

theorem sliding (data : Arr (Fin 3) ℝ) {s : ℕ} (W : Finset (Fin 3 → ℤ)) (q : ℕ) (w : Window) (hw : w ≠ .other)
    (hne : (kernelCells s w).Nonempty)
    (hW : ∀ d, d ∈ W ↔ ((fun _ => (((s - 1) / 2 : ℕ) : ℤ)) - d) ∈ kernelCells s w) :
    boxCountSliding data (.int s) q w = .ok (count W data q) := by
  have hs : kernelCells s w ⊆ box fun _ => s := by
    cases w
    · exact Finset.filter_subset _ _
    · exact Finset.Subset.refl _
    · exact Finset.Subset.refl _
  obtain ⟨k, hk, hsh, hv, _⟩ := normalised_spec (K := ℚ) s (kernelCells s w) hs hne
  have hg : getKernel (.int s) w = .ok k := by
    cases w
    · exact hk
    · exact hk
    · exact absurd rfl hw
  rw [← count_window data W _ q hW]
  cases w
  · simp only [boxCountSliding, hg, same_window data hs k hsh hv]
  · simp only [boxCountSliding, hg, same_window data hs k hsh hv]
  · exact absurd rfl hw

/-- **C169** (partial).  Cubes of any size are counted.  Missing: balls, see `C169_cylinder`. -/
theorem C169_partial (data : Arr (Fin 3) ℝ) {s : ℕ} (hs : 0 < s) (q : ℕ) :
    boxCountSliding data (.int s) q .cube = .ok (count (cube s) data q) := by
  refine sliding data _ q .cube (by simp) ⟨fun _ => 0, ?_⟩ fun d => ?_
  · show _ ∈ box _
    rw [mem_box]
    intro i
    exact ⟨le_rfl, by exact_mod_cast hs⟩
  · show d ∈ Fintype.piFinset _ ↔ _ ∈ box _
    rw [mem_box, Fintype.mem_piFinset]
    refine forall_congr' fun i => ?_
    rw [Finset.mem_Ico]
    simp only [Pi.sub_apply]
    omega

/-- What is counted for balls of odd sizes: cylinders along the third axis. -/
theorem C169_cylinder (data : Arr (Fin 3) ℝ) (h q : ℕ) :
    boxCountSliding data (.int (2 * h + 1)) q .ball = .ok (count (cylinder (2 * h + 1)) data q) := by
  have e : (2 * h + 1) / 2 = h := by omega
  have e' : (2 * h + 1 - 1) / 2 = h := by omega
  refine sliding data _ q .ball (by simp) ⟨fun _ => h, ?_⟩ fun d => ?_
  · unfold kernelCells
    rw [Finset.mem_filter, mem_box, e]
    refine ⟨fun i => ?_, ?_⟩
    · push_cast
      omega
    · simp only [sub_self]
      positivity
  · unfold cylinder cube kernelCells
    rw [Finset.mem_filter, Finset.mem_filter, mem_box, Fintype.mem_piFinset, e, e']
    simp only [Finset.mem_Ico, Pi.sub_apply]
    refine and_congr (forall_congr' fun i => ?_) ?_
    · push_cast
      omega
    · rw [show ((h : ℤ) - d 0 - h) ^ 2 = d 0 ^ 2 by ring, show ((h : ℤ) - d 1 - h) ^ 2 = d 1 ^ 2 by ring]

theorem count_bright (W : Finset (Fin 3 → ℤ)) (n : ℕ)
    (hn : ((box fun _ : Fin 3 => 3).filter fun x => (fun _ => 1) - x ∈ W).card = n) : count W bright 2 = n / (W.card : ℝ) ^ 2 := by
  have hx : ∀ x, ∑ d ∈ W, bright.ext (x + d) = if (fun _ => 1) - x ∈ W then 1 else 0 := by
    intro x
    have hd : ∀ d, bright.ext (x + d) = if (fun _ => 1) - x = d then 1 else 0 := by
      intro d
      by_cases h : (fun _ => (1 : ℤ)) - x = d
      · have h' : x + d = fun _ => 1 := by rw [← h, add_sub_cancel]
        rw [if_pos h, h', ext_of_mem _ (by decide)]
        simp [bright]
      · have h' : x + d ≠ fun _ => 1 := fun e => h (by rw [← e, add_sub_cancel_left])
        rw [if_neg h]
        simp [Arr.ext, bright, h']
    simp only [hd, Finset.sum_ite_eq]
  unfold count
  simp only [hx, div_pow, ite_pow, one_pow]
  rw [← Finset.sum_div]
  simp only [ne_eq, OfNat.ofNat_ne_zero, not_false_eq_true, zero_pow]
  rw [← Finset.sum_filter, Finset.sum_const, nsmul_eq_mul, mul_one]
  show (((box fun _ : Fin 3 => 3).filter _).card : ℝ) / _ = _
  rw [hn]

/-- The window `'ball'` is not a ball: a bright cell gives 1/15 instead of 1/7. -/
theorem C169_false : boxCountSliding bright (.int 3) 2 .ball = .ok (1 / 15) ∧ count (ball 3) bright 2 = 1 / 7 := by
  constructor
  · rw [C169_cylinder bright 1 2, count_bright _ 15 (by decide +kernel),
      show (cylinder (2 * 1 + 1)).card = 15 by decide +kernel]
    norm_num
  · rw [count_bright _ 7 (by decide +kernel), show (ball 3).card = 7 by decide +kernel]
    norm_num

/-- The dimensions are never computed: the sizes are not integers. -/
theorem C169_renyi_false (spline : List ℝ → ℝ) (data : Arr (Fin 3) ℝ) (q : ℕ) : renyi spline data q = .error "TypeError" := rfl

/-- Other windows are rejected whatever the size. -/
theorem C169_window (data : Arr (Fin 3) ℝ) (s : Size) (q : ℕ) : boxCountSliding data s q .other = .error "AssertionError" := rfl

example : boxCountSliding bright (.int 2) 3 .cube = .ok (count (cube 2) bright 3) ∧ (cube 2).card = 8 :=
  ⟨C169_partial bright (by norm_num) 3, by decide +kernel⟩

end Verif.FullConvolve
