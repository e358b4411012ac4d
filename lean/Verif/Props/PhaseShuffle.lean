import Verif.Model.FieldLike
import Verif.Props.RollingWedge
import Verif.Props.RandomField
/-!
# Fields with exchanged phases (C142)
-/

namespace Verif.FieldLike
open Verif.Convolve Verif.PowerSpectrum Verif.RandomField Complex

/-- The transform from which the result is made. -/
noncomputable def mixed {d : ℕ} (f : Arr (Fin (d + 1)) ℝ) (perm : ℤ → ℤ) (i : Fin (d + 1) → ℤ) : ℂ :=
  ((‖shift f.shape (fftn f.shape fun x => (f.val x : ℂ)) i‖ : ℝ) : ℂ) *
    exp (I * (arg (shift f.shape (fftn f.shape fun x => (f.val x : ℂ)) fun j => if j = 0 then perm (i j) else i j) : ℂ))

theorem mixed_norm {d : ℕ} (f : Arr (Fin (d + 1)) ℝ) (perm : ℤ → ℤ) (i : Fin (d + 1) → ℤ) :
    ‖mixed f perm i‖ = ‖shift f.shape (fftn f.shape fun x => (f.val x : ℂ)) i‖ := by
  unfold mixed
  rw [norm_mul, mul_comm I, norm_exp_ofReal_mul_I, mul_one, norm_real, norm_norm]

theorem shuffled_eq {d : ℕ} (f : Arr (Fin (d + 1)) ℝ) (perm : ℤ → ℤ) :
    phaseShuffled f perm = ⟨f.shape, fun x => (ifftn f.shape (shift f.shape (mixed f perm)) x).re⟩ := rfl

/-- The modes of the result: the mean of the new mode and the conjugate of the opposite one. -/
theorem shuffled_mode {d : ℕ} (f : Arr (Fin (d + 1)) ℝ) (hs : ∀ j, 0 < f.shape j) (perm : ℤ → ℤ) (m : Fin (d + 1) → ℤ) :
    fftn f.shape (fun x => ((phaseShuffled f perm).val x : ℂ)) m =
      (shift f.shape (mixed f perm) (md f.shape m) +
        (starRingEnd ℂ) (shift f.shape (mixed f perm) (md f.shape (-m)))) / 2 := by
  rw [shuffled_eq]
  simp only []
  rw [fftn_re, fftn_ifftn _ hs, fftn_ifftn _ hs]

/-- For even sizes the second shift undoes the first. -/
theorem mixed_shift_norm {d : ℕ} (f : Arr (Fin (d + 1)) ℝ) (hs : ∀ j, 0 < f.shape j) (he : ∀ j, f.shape j % 2 = 0) (perm : ℤ → ℤ)
    (m : Fin (d + 1) → ℤ) :
    ‖shift f.shape (mixed f perm) (md f.shape m)‖ = ‖fftn f.shape (fun x => (f.val x : ℂ)) m‖ := by
  have e : ‖shift f.shape (mixed f perm) (md f.shape m)‖ =
      ‖mixed f perm (md f.shape fun j => md f.shape m j - (f.shape j / 2 : ℕ))‖ := rfl
  rw [e, mixed_norm, shift_fftn _ hs]
  congr 1
  refine fftn_congr _ hs _ _ _ fun j => ?_
  have h2 : (2 : ℤ) * ((f.shape j / 2 : ℕ) : ℤ) = f.shape j := by
    have : 2 * (f.shape j / 2) = f.shape j := by have := he j; omega
    exact_mod_cast this
  simp only [md]
  generalize ((f.shape j / 2 : ℕ) : ℤ) = c at h2 ⊢
  have h3 := Int.mul_ediv_add_emod (m j) (f.shape j : ℤ)
  have h4 := Int.mul_ediv_add_emod (m j % (f.shape j : ℤ) - c) (f.shape j : ℤ)
  refine ⟨-1 - (m j % (f.shape j : ℤ) - c) / (f.shape j : ℤ) - m j / (f.shape j : ℤ), ?_⟩
  linear_combination h4 + h3 - h2

/-- **C142 (part).** The result has the shape of the field; for even numbers of cells no mode has more power than in the field,
however the phases are exchanged. -/
theorem C142_partial {d : ℕ} (f : Arr (Fin (d + 1)) ℝ) (hs : ∀ j, 0 < f.shape j) (he : ∀ j, f.shape j % 2 = 0) (perm : ℤ → ℤ)
    (L : List ℝ) (hL : ∀ x ∈ L, 0 < x) (i : Fin (d + 1) → ℤ) :
    (phaseShuffled f perm).shape = f.shape ∧
    (powerNd L (phaseShuffled f perm)).val i ≤ (powerNd L f).val i := by
  refine ⟨rfl, ?_⟩
  unfold powerNd
  simp only [show (phaseShuffled f perm).shape = f.shape from rfl]
  refine mul_le_mul_of_nonneg_right ?_ (scale_pos hs hL).le
  refine pow_le_pow_left₀ (norm_nonneg _) ?_ 2
  rw [shift_fftn _ hs, shift_fftn _ hs, shuffled_mode f hs]
  set m : Fin (d + 1) → ℤ := fun j => i j - (f.shape j / 2 : ℕ)
  have h1 := mixed_shift_norm f hs he perm m
  have h2 := mixed_shift_norm f hs he perm (-m)
  rw [fftn_neg, norm_conj] at h2
  rw [norm_div, norm_ofNat, div_le_iff₀ (by norm_num)]
  refine (norm_add_le _ _).trans ?_
  rw [norm_conj, h1, h2]
  linarith

example := C142_partial ⟨![4, 6], fun x => x 0 + x 1⟩ (by decide) (by decide) (fun i => (i + 3) % 4) [10, 20] (by simp) ![1, 2]

/-- **C142, total power**: for any numbers of cells the sum of the squares is not more than that of the field. -/
theorem C142_total {d : ℕ} (f : Arr (Fin (d + 1)) ℝ) (hs : ∀ j, 0 < f.shape j) (perm : ℤ → ℤ) :
    ∑ x ∈ box f.shape, (phaseShuffled f perm).val x ^ 2 ≤ ∑ x ∈ box f.shape, f.val x ^ 2 := by
  set A := shift f.shape (mixed f perm)
  have hN : (0 : ℝ) < ∏ i, (f.shape i : ℝ) := Finset.prod_pos fun i _ => by exact_mod_cast hs i
  -- Parseval for the new transform
  have p1 : ∑ k ∈ box f.shape, ‖A k‖ ^ 2 = (∏ i, (f.shape i : ℝ)) * ∑ x ∈ box f.shape, ‖ifftn f.shape A x‖ ^ 2 := by
    have := parseval f.shape hs (ifftn f.shape A) (ifftn f.shape A)
    simp only [fftn_ifftn _ hs, mul_conj, normSq_eq_norm_sq] at this
    rw [← ofReal_inj]
    push_cast
    push_cast at this
    rw [← this]
    refine Finset.sum_congr rfl fun k hk => ?_
    rw [md_of_mem hk]
  have p2 : ∑ k ∈ box f.shape, ‖fftn f.shape (fun x => (f.val x : ℂ)) k‖ ^ 2 =
      (∏ i, (f.shape i : ℝ)) * ∑ x ∈ box f.shape, f.val x ^ 2 := by
    have := parseval f.shape hs (fun x => (f.val x : ℂ)) (fun x => (f.val x : ℂ))
    simp only [mul_conj, normSq_eq_norm_sq, norm_real, Real.norm_eq_abs, sq_abs] at this
    rw [← ofReal_inj]
    push_cast
    push_cast at this
    exact this
  have p3 : ∑ k ∈ box f.shape, ‖A k‖ ^ 2 = ∑ k ∈ box f.shape, ‖fftn f.shape (fun x => (f.val x : ℂ)) k‖ ^ 2 := by
    have e1 : ∀ k, ‖A k‖ ^ 2 = shift f.shape (shift f.shape fun k => ‖fftn f.shape (fun x => (f.val x : ℂ)) k‖ ^ 2) k := by
      intro k
      have : ‖A k‖ = ‖mixed f perm (md f.shape fun j => k j - (f.shape j / 2 : ℕ))‖ := rfl
      rw [this, mixed_norm]
      rfl
    simp only [e1]
    rw [sum_box_shift, sum_box_shift]
  have p4 : ∑ x ∈ box f.shape, (phaseShuffled f perm).val x ^ 2 ≤ ∑ x ∈ box f.shape, ‖ifftn f.shape A x‖ ^ 2 := by
    refine Finset.sum_le_sum fun x _ => ?_
    have : (phaseShuffled f perm).val x = (ifftn f.shape A x).re := rfl
    rw [this, ← sq_abs]
    exact pow_le_pow_left₀ (abs_nonneg _) (abs_re_le_norm _) 2
  refine p4.trans ?_
  have := p1.symm.trans (p3.trans p2)
  exact (mul_left_cancel₀ hN.ne' this).le

example := C142_total ⟨![3, 6], fun x => x 0 + x 1⟩ (by decide) (fun i => (i + 2) % 3)

/-- **C142, the documented purpose is missed**: the amplitudes are not removed. When the shuffling leaves the phases in place, which it
may, a field with even numbers of cells comes back as it was. -/
theorem C142_amplitude_false {d : ℕ} (f : Arr (Fin (d + 1)) ℝ) (hs : ∀ j, 0 < f.shape j) (he : ∀ j, f.shape j % 2 = 0)
    {x : Fin (d + 1) → ℤ} (hx : x ∈ box f.shape) : (phaseShuffled f id).val x = f.val x := by
  have h1 : mixed f id = shift f.shape (fftn f.shape fun x => (f.val x : ℂ)) := by
    funext i
    unfold mixed
    have : (fun j : Fin (d + 1) => if j = 0 then id (i j) else i j) = i := by
      funext j
      simp
    rw [this, mul_comm I]
    exact norm_mul_exp_arg_mul_I _
  have h2 : shift f.shape (mixed f id) = fftn f.shape fun x => (f.val x : ℂ) := by
    funext k
    rw [h1]
    show shift f.shape (fftn f.shape fun x => (f.val x : ℂ)) (md f.shape fun j => k j - (f.shape j / 2 : ℕ)) = _
    rw [shift_fftn _ hs]
    refine fftn_congr _ hs _ _ _ fun j => ?_
    have h2 : (2 : ℤ) * ((f.shape j / 2 : ℕ) : ℤ) = f.shape j := by
      have : 2 * (f.shape j / 2) = f.shape j := by have := he j; omega
      exact_mod_cast this
    simp only [md]
    generalize ((f.shape j / 2 : ℕ) : ℤ) = c at h2 ⊢
    have h3 := Int.mul_ediv_add_emod (k j - c) (f.shape j : ℤ)
    refine ⟨-1 - (k j - c) / (f.shape j : ℤ), ?_⟩
    linear_combination h3 - h2
  rw [shuffled_eq]
  simp only []
  rw [h2, RollingWedge.ifftn_fftn f.shape hs _ hx]
  exact ofReal_re _

/-! ### Failures in one dimension -/

theorem sum_box1 {R : Type} [AddCommMonoid R] (n : ℕ) (g : (Fin 1 → ℤ) → R) :
    ∑ x ∈ box (fun _ : Fin 1 => n), g x = ∑ t ∈ Finset.Ico (0 : ℤ) n, g fun _ => t := by
  refine Finset.sum_nbij' (fun x => x 0) (fun t _ => t) ?_ ?_ ?_ ?_ ?_
  · intro x hx
    exact Finset.mem_Ico.2 ((mem_box _ _).1 hx 0)
  · intro t ht
    exact (mem_box _ _).2 fun _ => Finset.mem_Ico.1 ht
  · intro x _
    funext j
    rw [Subsingleton.elim j 0]
  · intro t _
    rfl
  · intro x _
    congr 1
    funext j
    rw [Subsingleton.elim j 0]

/-- A sine wave in four cells. -/
noncomputable def sine : Arr (Fin 1) ℝ := ⟨fun _ => 4, fun x => if x 0 = 1 then 1 else if x 0 = 3 then -1 else 0⟩

theorem sine_modes (k : ℤ) : fftn sine.shape (fun x => (sine.val x : ℂ)) (fun _ => k) =
    exp (-(2 * Real.pi * I) * (k / 4)) - exp (-(2 * Real.pi * I) * (k * 3 / 4)) := by
  unfold fftn
  rw [show sine.shape = fun _ : Fin 1 => 4 from rfl, sum_box1, show Finset.Ico (0 : ℤ) (4 : ℕ) = {0, 1, 2, 3} by decide]
  rw [Finset.sum_insert (by decide), Finset.sum_insert (by decide), Finset.sum_insert (by decide), Finset.sum_singleton]
  simp [sine]
  ring

/-- The exchange of the first two entries. -/
def swap01 (t : ℤ) : ℤ := if t = 0 then 1 else if t = 1 then 0 else t

/-- **C142 is false: power is lost**, because a real field needs opposite phases of opposite modes. If the first two phases change
places, the sine wave has half of its power, at its wave number (index 3) and its total. -/
theorem C142_false (L : List ℝ) : (powerNd L (phaseShuffled sine swap01)).val (fun _ => 3) = (powerNd L sine).val (fun _ => 3) / 2 ∧
    (powerNd L sine).val (fun _ => 3) = 4 * ((L.prod / 4) ^ 2 / L.prod) := by
  have hs : ∀ j, 0 < sine.shape j := fun _ => by show 0 < 4; norm_num
  have q1 : exp (-(2 * Real.pi * I) * (((1 : ℤ) : ℂ) / 4)) = -I := by
    rw [show -(2 * Real.pi * I) * (((1 : ℤ) : ℂ) / 4) = -(Real.pi / 2 * I) by push_cast; ring, exp_neg, exp_pi_div_two_mul_I]
    simp
  have q3 : exp (-(2 * Real.pi * I) * (((1 : ℤ) : ℂ) * 3 / 4)) = I := by
    rw [show -(2 * Real.pi * I) * (((1 : ℤ) : ℂ) * 3 / 4) = Real.pi / 2 * I + -(2 * Real.pi * I) by push_cast; ring, exp_add,
      exp_pi_div_two_mul_I, exp_neg, exp_two_pi_mul_I]
    simp
  have r1 : exp (-(2 * Real.pi * I) * (((2 : ℤ) : ℂ) / 4)) = -1 := by
    rw [show -(2 * Real.pi * I) * (((2 : ℤ) : ℂ) / 4) = -(Real.pi * I) by push_cast; ring, exp_neg, exp_pi_mul_I]
    norm_num
  have r3 : exp (-(2 * Real.pi * I) * (((2 : ℤ) : ℂ) * 3 / 4)) = -1 := by
    rw [show -(2 * Real.pi * I) * (((2 : ℤ) : ℂ) * 3 / 4) = -(Real.pi * I) + -(2 * Real.pi * I) by push_cast; ring, exp_add,
      exp_neg, exp_pi_mul_I, exp_neg, exp_two_pi_mul_I]
    norm_num
  have F1 : fftn sine.shape (fun x => (sine.val x : ℂ)) (fun _ => 1) = -(2 * I) := by
    rw [sine_modes, q1, q3]; ring
  have F2 : fftn sine.shape (fun x => (sine.val x : ℂ)) (fun _ => 2) = 0 := by
    rw [sine_modes, r1, r3]; ring
  have F3 : fftn sine.shape (fun x => (sine.val x : ℂ)) (fun _ => 3) = 2 * I := by
    have e : fftn sine.shape (fun x => (sine.val x : ℂ)) (fun _ => 3) =
        fftn sine.shape (fun x => (sine.val x : ℂ)) (-fun _ => 1) :=
      fftn_congr _ hs _ _ _ fun j => by
        show ((4 : ℕ) : ℤ) ∣ 3 - (-1)
        norm_num
    rw [e, fftn_neg, F1]
    rw [map_neg, map_mul, conj_I, map_ofNat]
    ring
  -- entries of the shifted transform
  have S : ∀ a b : ℤ, (a - 2) % 4 = b → shift sine.shape (fftn sine.shape fun x => (sine.val x : ℂ)) (fun _ => a) =
      fftn sine.shape (fun x => (sine.val x : ℂ)) (fun _ => b) := by
    intro a b h
    subst h
    rfl
  have M1 : mixed sine swap01 (fun _ => 1) = 2 := by
    unfold mixed
    have : (fun j : Fin 1 => if j = 0 then swap01 1 else 1) = fun _ => (0 : ℤ) := by
      funext j
      rw [Subsingleton.elim j 0]
      rfl
    rw [this, S 1 3 (by norm_num), S 0 2 (by norm_num), F2, F3]
    simp
  have M3 : mixed sine swap01 (fun _ => 3) = -(2 * I) := by
    unfold mixed
    have : (fun j : Fin 1 => if j = 0 then swap01 3 else 3) = fun _ => (3 : ℤ) := by
      funext j
      rw [Subsingleton.elim j 0]
      rfl
    rw [this, S 3 1 (by norm_num), F1, mul_comm I]
    exact norm_mul_exp_arg_mul_I _
  have P : ‖fftn sine.shape (fun x => (sine.val x : ℂ)) (fun _ => 1)‖ ^ 2 = 4 := by
    rw [F1, norm_neg, norm_mul, norm_I]
    norm_num
  have Q : ‖fftn sine.shape (fun x => ((phaseShuffled sine swap01).val x : ℂ)) (fun _ => 1)‖ ^ 2 = 2 := by
    rw [shuffled_mode sine hs]
    have e1 : shift sine.shape (mixed sine swap01) (md sine.shape fun _ => 1) = mixed sine swap01 (fun _ => 3) := rfl
    have e2 : shift sine.shape (mixed sine swap01) (md sine.shape (-fun _ => 1)) = mixed sine swap01 (fun _ => 1) := rfl
    rw [e1, e2, M1, M3, ← normSq_eq_norm_sq]
    simp [normSq_apply]
    norm_num
  have hsc : scale sine.shape L = (L.prod / 4) ^ 2 / L.prod := by
    unfold scale
    simp [sine]
  unfold powerNd
  simp only [show (phaseShuffled sine swap01).shape = sine.shape from rfl]
  rw [shift_fftn _ hs, shift_fftn _ hs,
    show (fun j : Fin 1 => (3 : ℤ) - ((sine.shape j / 2 : ℕ) : ℤ)) = fun _ => 1 by funext j; show (3 : ℤ) - ((4 / 2 : ℕ) : ℤ) = 1; norm_num, P, Q, hsc]
  constructor
  · ring
  · trivial

/-- **C142 is false for odd numbers of cells**: a constant field becomes a cosine, however the phases are exchanged. -/
theorem C142_odd_false (m : ℕ) (c : ℝ) (hc : 0 ≤ c) (perm : ℤ → ℤ) (x : ℤ) :
    (phaseShuffled ⟨fun _ : Fin 1 => 2 * m + 1, fun _ => c⟩ perm).val (fun _ => x) =
      c * Real.cos (2 * Real.pi * x / (2 * m + 1)) := by
  set f : Arr (Fin 1) ℝ := ⟨fun _ : Fin 1 => 2 * m + 1, fun _ => c⟩ with hf
  have hs : ∀ j, 0 < f.shape j := fun _ => Nat.succ_pos _
  have hn : ((2 * m + 1 : ℕ) : ℂ) ≠ 0 := Nat.cast_ne_zero.2 (Nat.succ_ne_zero _)
  -- the transform of a constant
  have F : ∀ k : ℤ, fftn f.shape (fun x => (f.val x : ℂ)) (fun _ => k) =
      if ((2 * m + 1 : ℕ) : ℤ) ∣ k then ((c * (2 * m + 1 : ℕ) : ℝ) : ℂ) else 0 := by
    intro k
    unfold fftn
    rw [show f.shape = fun _ : Fin 1 => 2 * m + 1 from rfl, sum_box1]
    have h := sum_root (2 * m + 1) (Nat.succ_pos _) (-k)
    have e : ∀ t : ℤ, (f.val (fun _ => t) : ℂ) * exp (-(2 * Real.pi * I) * ∑ _i : Fin 1, (k : ℂ) * (t : ℂ) / ((2 * m + 1 : ℕ) : ℂ)) =
        c * exp ((2 * Real.pi * I) * ((t : ℂ) * ((-k : ℤ) : ℂ) / ((2 * m + 1 : ℕ) : ℂ))) := by
      intro t
      rw [Fin.sum_univ_one]
      show (c : ℂ) * _ = _
      congr 2
      push_cast
      ring
    rw [Finset.sum_congr rfl fun t _ => e t, ← Finset.mul_sum, h]
    simp only [dvd_neg]
    split
    · push_cast
      rfl
    · rw [mul_zero]
  have S : ∀ i : Fin 1 → ℤ, shift f.shape (fftn f.shape fun x => (f.val x : ℂ)) i =
      if ((2 * m + 1 : ℕ) : ℤ) ∣ i 0 - m then ((c * (2 * m + 1 : ℕ) : ℝ) : ℂ) else 0 := by
    intro i
    rw [shift_fftn _ hs, ← F]
    congr 1
    funext j
    rw [Subsingleton.elim j 0]
    have : f.shape 0 / 2 = m := by show (2 * m + 1) / 2 = m; omega
    rw [this]
  have hcn : 0 ≤ c * (2 * m + 1 : ℕ) := mul_nonneg hc (Nat.cast_nonneg _)
  have M : ∀ i : Fin 1 → ℤ, mixed f perm i = if ((2 * m + 1 : ℕ) : ℤ) ∣ i 0 - m then ((c * (2 * m + 1 : ℕ) : ℝ) : ℂ) else 0 := by
    intro i
    unfold mixed
    have ha : arg (shift f.shape (fftn f.shape fun x => (f.val x : ℂ)) fun j => if j = 0 then perm (i j) else i j) = 0 := by
      rw [S, if_pos rfl]
      split
      · exact arg_ofReal_of_nonneg hcn
      · exact arg_zero
    rw [ha, S]
    split
    · rw [norm_real, Real.norm_of_nonneg hcn]
      simp
    · simp
  have A : ∀ t ∈ Finset.Ico (0 : ℤ) ((2 * m + 1 : ℕ) : ℤ), shift f.shape (mixed f perm) (fun _ => t) =
      if t = 2 * m then ((c * (2 * m + 1 : ℕ) : ℝ) : ℂ) else 0 := by
    intro t ht
    rw [Finset.mem_Ico] at ht
    have e : shift f.shape (mixed f perm) (fun _ => t) = mixed f perm (md f.shape fun j => t - (f.shape j / 2 : ℕ)) := rfl
    rw [e, M]
    have : (md f.shape fun j => t - (f.shape j / 2 : ℕ)) 0 = (t - m) % ((2 * m + 1 : ℕ) : ℤ) := by
      have : f.shape 0 / 2 = m := by show (2 * m + 1) / 2 = m; omega
      simp only [md, this]
      rfl
    rw [this]
    have iff : (((2 * m + 1 : ℕ) : ℤ) ∣ (t - m) % ((2 * m + 1 : ℕ) : ℤ) - m) ↔ t = 2 * m := by
      have h3 := Int.mul_ediv_add_emod (t - m) ((2 * m + 1 : ℕ) : ℤ)
      have : (((2 * m + 1 : ℕ) : ℤ) ∣ (t - m) % ((2 * m + 1 : ℕ) : ℤ) - m) ↔ (((2 * m + 1 : ℕ) : ℤ) ∣ t - 2 * m) := by
        rw [show t - 2 * (m : ℤ) = ((t - m) % ((2 * m + 1 : ℕ) : ℤ) - m) + ((2 * m + 1 : ℕ) : ℤ) * ((t - m) / ((2 * m + 1 : ℕ) : ℤ)) by
          linear_combination -h3]
        exact (dvd_add_left (dvd_mul_right _ _)).symm
      rw [this]
      constructor
      · intro h
        have := Int.eq_zero_of_abs_lt_dvd h (by rw [abs_lt]; push_cast at *; constructor <;> linarith)
        linarith
      · intro h
        rw [h, sub_self]
        exact dvd_zero _
    simp only [iff]
  rw [shuffled_eq]
  simp only []
  have I1 : ifftn f.shape (shift f.shape (mixed f perm)) (fun _ => x) =
      c * exp ((2 * Real.pi * I) * (((2 * m : ℤ) : ℂ) * x / ((2 * m + 1 : ℕ) : ℂ))) := by
    unfold ifftn
    rw [show box f.shape = box (fun _ : Fin 1 => 2 * m + 1) from rfl, sum_box1]
    rw [Finset.sum_congr rfl fun t ht => by rw [A t ht]]
    rw [Finset.sum_eq_single (2 * (m : ℤ))]
    · rw [if_pos rfl, Fin.prod_univ_one, Fin.sum_univ_one]
      show _ / (((2 * m + 1 : ℕ) : ℂ)) = _
      rw [div_eq_iff hn]
      show ((c * (2 * m + 1 : ℕ) : ℝ) : ℂ) * exp ((2 * Real.pi * I) * (((2 * m : ℤ) : ℂ) * x / ((2 * m + 1 : ℕ) : ℂ))) = _
      push_cast
      ring
    · intro t _ ht
      rw [if_neg ht, zero_mul]
    · intro h
      exact absurd (Finset.mem_Ico.2 ⟨by positivity, by push_cast; linarith⟩) h
  rw [I1]
  have hr : (2 * Real.pi * I) * (((2 * m : ℤ) : ℂ) * x / ((2 * m + 1 : ℕ) : ℂ)) =
      ((x * (2 * Real.pi) - 2 * Real.pi * x / (2 * m + 1) : ℝ) : ℂ) * I := by
    have : (2 * (m : ℂ) + 1) ≠ 0 := by exact_mod_cast hn
    push_cast
    field_simp
    ring
  rw [hr, re_ofReal_mul, exp_ofReal_mul_I_re, Real.cos_int_mul_two_pi_sub]

example : ∀ j : Fin 1, 0 < sine.shape j ∧ sine.shape j % 2 = 0 := fun _ => by
  constructor
  · show 0 < 4
    norm_num
  · show 4 % 2 = 0
    norm_num

/-- A constant field of three cells is not constant any more. -/
example : (phaseShuffled ⟨fun _ : Fin 1 => 3, fun _ => 2⟩ id).val (fun _ => 1) = -1 := by
  have := C142_odd_false 1 2 (by norm_num) id 1
  rw [this]
  rw [show (2 * Real.pi * ((1 : ℤ) : ℝ) / (2 * ((1 : ℕ) : ℝ) + 1)) = Real.pi - Real.pi / 3 by push_cast; ring, Real.cos_pi_sub,
    Real.cos_pi_div_three]
  norm_num

end Verif.FieldLike
