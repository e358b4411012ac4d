import Verif.Lemmas.Convolve
import Verif.Lemmas.DFT
import Mathlib.Algebra.Order.BigOperators.Group.Finset
import Mathlib.Algebra.Order.BigOperators.Ring.Finset
import Mathlib.Algebra.Order.Ring.Rat
import Mathlib.Tactic.NormNum
/-!
# FFT convolution (C24, C25, C26)
-/

set_option linter.unusedSectionVars false
set_option linter.unusedDecidableInType false

namespace Verif.Convolve

variable {ι : Type} [Fintype ι] [DecidableEq ι] {R : Type} [CommRing R]

/-! ## Specifications -/

/-- Specification: the periodic convolution of the map `a` with the kernel `k` whose centre is cell `c`:
`out[x] = ∑ⱼ k[j] a[x + c - j]`, indices periodic in the shape of the map. -/
def Periodic (a k : Arr ι R) (c x : ι → ℤ) : R :=
  ∑ j ∈ box k.shape, k.val j * a.val (md a.shape (x + c - j))

/-- Specification: the linear convolution, the map being 0 outside its box. -/
def Linear (a k : Arr ι R) (x : ι → ℤ) : R := ∑ j ∈ box k.shape, k.val j * a.ext (x - j)

/-- Specification: the convolution of a map `e` that is defined at every integer position. -/
def Extended (e : (ι → ℤ) → R) (k : Arr ι R) (x : ι → ℤ) : R := ∑ j ∈ box k.shape, k.val j * e (x - j)

/-- The map is not smaller than the kernel, and both are non-empty. -/
structure Fits (a k : Arr ι R) : Prop where
  kernel : ∀ i, 0 < k.shape i
  le : ∀ i, k.shape i ≤ a.shape i

/-! ## C24: the circular boundary -/

/-- What `boundary='circular'` computes, for every map and kernel: the periodic convolution with the kernel's
centre taken at `⌈s/2⌉`. -/
theorem circular_result (a k : Arr ι R) (h : Fits a k) (mode : Mode) (hm : mode ≠ .valid) (be : Backend)
    (hb : be ≠ .other) :
    ∃ o, fftconvolve a k mode .circular be = .ok ⟨a.shape, o⟩ ∧
      ∀ x, o x = Periodic a k (fun i => (((k.shape i + 1) / 2 : ℕ) : ℤ)) x := by
  have hf : (fun i => max (a.shape i) (k.shape i)) = a.shape := by
    funext i; exact max_eq_left (h.le i)
  refine ⟨_, by simp only [fftconvolve, hm, hb, false_and, if_false, if_true, hf]; rfl, ?_⟩
  intro x
  simp only [rolled]
  rw [circ_md, circ_kernel a.shape a k h.le]
  unfold Periodic
  apply Finset.sum_congr rfl
  intro j hj
  have hpos : ∀ i, 0 < a.shape i := fun i => (h.kernel i).trans_le (h.le i)
  rw [ext_of_mem a (md_mem a.shape hpos _)]
  congr 3
  funext i
  simp only [Pi.add_apply, Pi.sub_apply]
  omega

/-- C24, proved part: for kernels with an even number of cells along every axis the result is the periodic
convolution with centre cell `s/2`.  Missing: odd kernels (`C24_false`). -/
theorem C24_partial (a k : Arr ι R) (h : Fits a k) (heven : ∀ i, k.shape i % 2 = 0) (be : Backend)
    (hb : be ≠ .other) :
    ∃ o, fftconvolve a k .same .circular be = .ok ⟨a.shape, o⟩ ∧
      ∀ x, o x = Periodic a k (fun i => ((k.shape i / 2 : ℕ) : ℤ)) x := by
  obtain ⟨o, h1, h2⟩ := circular_result a k h .same (by simp) be hb
  refine ⟨o, h1, fun x => ?_⟩
  rw [h2]
  congr 1
  funext i
  have := heven i
  congr 1
  omega

example : Fits (⟨fun _ : Fin 2 => 6, fun _ => (1 : ℤ)⟩ : Arr (Fin 2) ℤ) ⟨fun _ => 4, fun _ => 1⟩ :=
  ⟨fun _ => by norm_num, fun _ => by norm_num⟩

/-- C24 fails for every kernel with an odd number of cells along every axis: the result is the centred periodic
convolution (centre cell `(s-1)/2`) moved by one cell along every axis. -/
theorem C24_false_odd (a k : Arr ι R) (h : Fits a k) (hodd : ∀ i, k.shape i % 2 = 1) (be : Backend)
    (hb : be ≠ .other) :
    ∃ o, fftconvolve a k .same .circular be = .ok ⟨a.shape, o⟩ ∧
      ∀ x, o x = Periodic a k (fun i => (((k.shape i - 1) / 2 : ℕ) : ℤ)) (x + fun _ => 1) := by
  obtain ⟨o, h1, h2⟩ := circular_result a k h .same (by simp) be hb
  refine ⟨o, h1, fun x => ?_⟩
  rw [h2]
  unfold Periodic
  apply Finset.sum_congr rfl
  intro j _
  congr 3
  funext i
  have := hodd i
  simp only [Pi.add_apply, Pi.sub_apply]
  omega

/-- C24 fails: convolving with the one-cell kernel 1, which should do nothing, moves every map by one cell. -/
theorem C24_false (a : Arr ι R) (ha : ∀ i, 0 < a.shape i) :
    ∃ o, fftconvolve a ⟨fun _ => 1, fun _ => 1⟩ .same .circular .numpy = .ok ⟨a.shape, o⟩ ∧
      ∀ x, o x = a.val (md a.shape (x + fun _ => 1)) := by
  obtain ⟨o, h1, h2⟩ := C24_false_odd a ⟨fun _ => 1, fun _ => 1⟩
    ⟨fun _ => by norm_num, fun i => ha i⟩ (fun _ => rfl) .numpy (by simp)
  refine ⟨o, h1, fun x => ?_⟩
  rw [h2]
  unfold Periodic
  have hb : box (fun _ : ι => 1) = {0} := by
    ext x
    rw [mem_box, Finset.mem_singleton]
    constructor
    · intro h
      funext i
      have := h i
      simp only [Pi.zero_apply]
      omega
    · rintro rfl i
      simp
  rw [hb, Finset.sum_singleton]
  simp only [one_mul, sub_zero]
  congr 2
  funext i
  simp

/-- The hypotheses are met by a two-dimensional map, where the result differs from the map. -/
example : ∃ a : Arr (Fin 2) ℤ, (∀ i, 0 < a.shape i) ∧ a.val 0 ≠ a.val (md a.shape (0 + fun _ => 1)) :=
  ⟨⟨fun _ => 3, fun x => x 0⟩, fun _ => by norm_num, by decide⟩

/-- C24: the response to a point source at `p`: cell `j` of the kernel appears at distance `j - c` of it (periodic).
For even kernels the kernel's centre cell `c = s/2` therefore appears at `p`. -/
theorem point_response (a k : Arr ι R) (h : Fits a k) (p : ι → ℤ) (hp : p ∈ box a.shape)
    (ha : ∀ x ∈ box a.shape, a.val x = if x = p then 1 else 0) (be : Backend) (hb : be ≠ .other) :
    ∃ o, fftconvolve a k .same .circular be = .ok ⟨a.shape, o⟩ ∧
      ∀ j ∈ box k.shape, o (md a.shape (p + j - fun i => (((k.shape i + 1) / 2 : ℕ) : ℤ))) = k.val j := by
  obtain ⟨o, h1, h2⟩ := circular_result a k h .same (by simp) be hb
  refine ⟨o, h1, fun j hj => ?_⟩
  rw [h2]
  unfold Periodic
  have hpos : ∀ i, 0 < a.shape i := fun i => (h.kernel i).trans_le (h.le i)
  set c : ι → ℤ := fun i => (((k.shape i + 1) / 2 : ℕ) : ℤ) with hc
  have key : ∀ j' ∈ box k.shape, (md a.shape (md a.shape (p + j - c) + c - j') = p ↔ j' = j) := by
    intro j' hj'
    have e : md a.shape (md a.shape (p + j - c) + c - j') = md a.shape (p + (j - j')) := by
      rw [add_sub_assoc, md_md_add]
      congr 1
      funext i
      simp only [Pi.add_apply, Pi.sub_apply]
      ring
    rw [e]
    constructor
    · intro he
      funext i
      have h3 := congrFun he i
      have h4 := (mem_box _ _).1 hp i
      have h5 := (mem_box _ _).1 hj i
      have h6 := (mem_box _ _).1 hj' i
      have h7 := h.le i
      simp only [md, Pi.add_apply, Pi.sub_apply] at h3
      have h8 : (a.shape i : ℤ) ∣ p i + (j i - j' i) - p i := by
        have := Int.dvd_self_sub_emod (x := p i + (j i - j' i)) (m := (a.shape i : ℤ))
        rwa [h3] at this
      rw [add_sub_cancel_left] at h8
      have h9 : j i - j' i = 0 := by
        apply Int.eq_zero_of_abs_lt_dvd h8
        rw [abs_lt]
        constructor <;> omega
      omega
    · rintro rfl
      rw [sub_self, add_zero, md_of_mem hp]
  rw [Finset.sum_eq_single_of_mem j hj]
  · rw [ha _ (md_mem _ hpos _), if_pos ((key j hj).2 rfl), mul_one]
  · intro j' hj' hne
    rw [ha _ (md_mem _ hpos _), if_neg (fun h => hne ((key j' hj').1 h)), mul_zero]

example := point_response (⟨fun _ : Fin 1 => 6, fun x => if x = fun _ => 2 then 1 else 0⟩ : Arr (Fin 1) ℤ) ⟨fun _ => 4, fun j => j 0 + 1⟩
  ⟨fun _ => by norm_num, fun _ => by norm_num⟩ (fun _ => 2) (by decide) (fun x _ => rfl) .torch (by decide)

/-! ## C25: what circular smoothing preserves -/

/-- C25: the sum of the smoothed map is the sum of the map times the sum of the kernel. -/
theorem circular_sum (a k : Arr ι R) (h : Fits a k) (be : Backend) (hb : be ≠ .other) :
    ∃ o, fftconvolve a k .same .circular be = .ok ⟨a.shape, o⟩ ∧
      ∑ x ∈ box a.shape, o x = (∑ x ∈ box a.shape, a.val x) * ∑ j ∈ box k.shape, k.val j := by
  obtain ⟨o, h1, h2⟩ := circular_result a k h .same (by simp) be hb
  refine ⟨o, h1, ?_⟩
  simp only [h2, Periodic]
  rw [Finset.sum_comm, Finset.mul_sum]
  apply Finset.sum_congr rfl
  intro j _
  rw [← Finset.mul_sum, mul_comm]
  congr 1
  have := Verif.Convolve.sum_shift a.shape ((fun i => (((k.shape i + 1) / 2 : ℕ) : ℤ)) - j) a.val
  rw [← this]
  apply Finset.sum_congr rfl
  intro x _
  rw [add_sub_assoc]

example := circular_sum (⟨fun _ : Fin 2 => 6, fun x => x 0⟩ : Arr (Fin 2) ℤ) ⟨fun _ => 4, fun j => j 1⟩ ⟨fun _ => by norm_num, fun _ => by norm_num⟩ .torch (by decide)

/-- C25: a map without structure is left unchanged by a kernel with sum 1. -/
theorem circular_constant (a k : Arr ι R) (h : Fits a k) (v : R) (ha : ∀ x ∈ box a.shape, a.val x = v)
    (hk : ∑ j ∈ box k.shape, k.val j = 1) (be : Backend) (hb : be ≠ .other) :
    ∃ o, fftconvolve a k .same .circular be = .ok ⟨a.shape, o⟩ ∧ ∀ x, o x = v := by
  obtain ⟨o, h1, h2⟩ := circular_result a k h .same (by simp) be hb
  refine ⟨o, h1, fun x => ?_⟩
  have hpos : ∀ i, 0 < a.shape i := fun i => (h.kernel i).trans_le (h.le i)
  rw [h2]
  unfold Periodic
  rw [Finset.sum_congr rfl fun j _ => by rw [ha _ (md_mem _ hpos _)], ← Finset.sum_mul, hk, one_mul]

/-- C25: smoothing a cyclically shifted map gives the cyclically shifted smoothed map. -/
theorem circular_shift (a k : Arr ι R) (h : Fits a k) (d : ι → ℤ) (be : Backend) (hb : be ≠ .other) :
    ∃ o o', fftconvolve a k .same .circular be = .ok ⟨a.shape, o⟩ ∧
      fftconvolve ⟨a.shape, fun x => a.val (md a.shape (x + d))⟩ k .same .circular be = .ok ⟨a.shape, o'⟩ ∧
      ∀ x, o' x = o (md a.shape (x + d)) := by
  obtain ⟨o, h1, h2⟩ := circular_result a k h .same (by simp) be hb
  obtain ⟨o', h1', h2'⟩ := circular_result (⟨a.shape, fun x => a.val (md a.shape (x + d))⟩ : Arr ι R) k
    ⟨h.kernel, h.le⟩ .same (by simp) be hb
  refine ⟨o, o', h1, h1', fun x => ?_⟩
  rw [h2, h2']
  unfold Periodic
  apply Finset.sum_congr rfl
  intro j _
  simp only
  congr 2
  rw [md_md_add, add_sub_assoc (md _ _), md_md_add]
  congr 1
  funext i
  simp only [Pi.add_apply, Pi.sub_apply]
  ring

/-- C25: smoothing is linear. -/
theorem circular_linear (s : ι → ℕ) (u v : (ι → ℤ) → R) (r t : R) (k : Arr ι R) (h : Fits ⟨s, u⟩ k) (be : Backend)
    (hb : be ≠ .other) :
    ∃ ou ov o, fftconvolve ⟨s, u⟩ k .same .circular be = .ok ⟨s, ou⟩ ∧
      fftconvolve ⟨s, v⟩ k .same .circular be = .ok ⟨s, ov⟩ ∧
      fftconvolve ⟨s, fun x => r * u x + t * v x⟩ k .same .circular be = .ok ⟨s, o⟩ ∧
      ∀ x, o x = r * ou x + t * ov x := by
  obtain ⟨ou, h1, h2⟩ := circular_result (⟨s, u⟩ : Arr ι R) k h .same (by simp) be hb
  obtain ⟨ov, h1', h2'⟩ := circular_result (⟨s, v⟩ : Arr ι R) k ⟨h.kernel, h.le⟩ .same (by simp) be hb
  obtain ⟨o, h1'', h2''⟩ := circular_result (⟨s, fun x => r * u x + t * v x⟩ : Arr ι R) k ⟨h.kernel, h.le⟩ .same
    (by simp) be hb
  refine ⟨ou, ov, o, h1, h1', h1'', fun x => ?_⟩
  rw [h2, h2', h2'']
  unfold Periodic
  rw [Finset.mul_sum, Finset.mul_sum, ← Finset.sum_add_distrib]
  apply Finset.sum_congr rfl
  intro j _
  ring

/-- C25: a non-negative kernel with sum 1 keeps all values between the bounds of the map. -/
theorem circular_bounds {K : Type} [Field K] [LinearOrder K] [IsStrictOrderedRing K] (a k : Arr ι K) (h : Fits a k)
    (lo hi : K) (ha : ∀ x ∈ box a.shape, lo ≤ a.val x ∧ a.val x ≤ hi) (hk0 : ∀ j ∈ box k.shape, 0 ≤ k.val j)
    (hk1 : ∑ j ∈ box k.shape, k.val j = 1) (be : Backend) (hb : be ≠ .other) :
    ∃ o, fftconvolve a k .same .circular be = .ok ⟨a.shape, o⟩ ∧ ∀ x, lo ≤ o x ∧ o x ≤ hi := by
  obtain ⟨o, h1, h2⟩ := circular_result a k h .same (by simp) be hb
  refine ⟨o, h1, fun x => ?_⟩
  have hpos : ∀ i, 0 < a.shape i := fun i => (h.kernel i).trans_le (h.le i)
  rw [h2]
  unfold Periodic
  constructor
  · calc lo = ∑ j ∈ box k.shape, k.val j * lo := by rw [← Finset.sum_mul, hk1, one_mul]
      _ ≤ _ := Finset.sum_le_sum fun j hj =>
        mul_le_mul_of_nonneg_left (ha _ (md_mem _ hpos _)).1 (hk0 j hj)
  · calc _ ≤ ∑ j ∈ box k.shape, k.val j * hi := Finset.sum_le_sum fun j hj =>
        mul_le_mul_of_nonneg_left (ha _ (md_mem _ hpos _)).2 (hk0 j hj)
      _ = hi := by rw [← Finset.sum_mul, hk1, one_mul]

/-- A kernel meeting the hypotheses of the theorems above. -/
example : (∑ j ∈ box (fun _ : Fin 1 => 2), (fun _ : Fin 1 → ℤ => (1 / 2 : ℚ)) j) = 1 ∧
    ∀ j ∈ box (fun _ : Fin 1 => 2), (0 : ℚ) ≤ (fun _ : Fin 1 → ℤ => (1 / 2 : ℚ)) j := by
  constructor
  · rw [Finset.sum_const]
    have : (box fun _ : Fin 1 => 2).card = 2 := by simp [box]
    rw [this]; norm_num
  · intro j _; norm_num

/-! ## C26: the other boundaries -/

/-- C26, `mode='full'`: all positions at which map and kernel overlap, with the linear convolution. -/
theorem constant_full (a k : Arr ι R) (ha : ∀ i, 0 < a.shape i) (hk : ∀ i, 0 < k.shape i) (be : Backend)
    (hb : be ≠ .other) :
    ∃ o, fftconvolve a k .full .constant be = .ok ⟨fun i => a.shape i + k.shape i - 1, o⟩ ∧
      ∀ x ∈ box (fun i => a.shape i + k.shape i - 1), o x = Linear a k x := by
  refine ⟨_, by simp only [fftconvolve, hb, reduceCtorEq, false_and, if_false, if_true]; rfl, ?_⟩
  intro x hx
  have e : x + (fun _ => 0 : ι → ℤ) = x := by funext i; simp
  rw [e, circ_linear _ a k (fun i => by have := ha i; omega) hk ha x hx]
  rfl

example := constant_full (⟨fun _ : Fin 2 => 6, fun x => x 0⟩ : Arr (Fin 2) ℤ) ⟨fun _ => 9, fun j => j 1⟩ (fun _ => by norm_num) (fun _ => by norm_num) .torch (by decide)

/-- C26, `mode='same'`: the linear convolution at the positions of the map, centre cell `s/2`. -/
theorem constant_same (a k : Arr ι R) (hk : ∀ i, 0 < k.shape i) (be : Backend) (hb : be ≠ .other) :
    ∃ o, fftconvolve a k .same .constant be = .ok ⟨a.shape, o⟩ ∧
      ∀ x ∈ box a.shape, o x = Linear a k (x + fun i => ((k.shape i / 2 : ℕ) : ℤ)) := by
  refine ⟨_, by simp only [fftconvolve, hb, reduceCtorEq, false_and, if_false, if_true]; rfl, ?_⟩
  intro x hx
  have ha : ∀ i, 0 < a.shape i := box_pos hx
  rw [circ_linear _ a k (fun i => by have := ha i; omega) hk ha]
  · rfl
  · rw [mem_box] at hx ⊢
    intro i
    have h1 := hx i; have h2 := hk i
    simp only [Pi.add_apply]
    omega

example := constant_same (⟨fun _ : Fin 2 => 6, fun x => x 0⟩ : Arr (Fin 2) ℤ) ⟨fun _ => 9, fun j => j 1⟩ (fun _ => by norm_num) .torch (by decide)

/-- C26, `mode='valid'`: only positions where the kernel lies inside the map, none of the terms touches the
outside; the boundary argument is ignored. Kernels larger than the map are refused. -/
theorem valid_spec (a k : Arr ι R) (hk : ∀ i, 0 < k.shape i) (b : Boundary) (be : Backend) (hb : be ≠ .other) :
    ((∃ i, a.shape i < k.shape i) → fftconvolve a k .valid b be = .error "ValueError") ∧
    ((∀ i, k.shape i ≤ a.shape i) →
      ∃ o, fftconvolve a k .valid b be = .ok ⟨fun i => a.shape i - k.shape i + 1, o⟩ ∧
        ∀ x ∈ box (fun i => a.shape i - k.shape i + 1),
          (∀ j ∈ box k.shape, x + (fun i => (k.shape i : ℤ) - 1) - j ∈ box a.shape) ∧
          o x = ∑ j ∈ box k.shape, k.val j * a.val (x + (fun i => (k.shape i : ℤ) - 1) - j)) := by
  constructor
  · intro h
    simp only [fftconvolve]
    exact if_pos ⟨trivial, h⟩
  · intro h
    have hno : ¬ ∃ i, a.shape i < k.shape i := by
      rintro ⟨i, hi⟩
      have := h i; omega
    refine ⟨_, by simp only [fftconvolve, hb, hno, reduceCtorEq, and_false, if_false, if_true]; rfl, ?_⟩
    intro x hx
    have ha : ∀ i, 0 < a.shape i := fun i => (hk i).trans_le (h i)
    have hin : ∀ j ∈ box k.shape, x + (fun i => (k.shape i : ℤ) - 1) - j ∈ box a.shape := by
      intro j hj
      rw [mem_box] at hx hj ⊢
      intro i
      have h1 := hx i; have h2 := hj i; have h3 := h i
      simp only [Pi.add_apply, Pi.sub_apply]
      omega
    refine ⟨hin, ?_⟩
    rw [circ_linear _ a k (fun i => by have := ha i; omega) hk ha]
    · apply Finset.sum_congr rfl
      intro j hj
      have := hin j hj
      rw [ext_of_mem a this]
    · rw [mem_box] at hx ⊢
      intro i
      have h1 := hx i; have h2 := hk i; have h3 := h i
      simp only [Pi.add_apply]
      omega

/-- The map continued to all integer positions by the rule `p`. -/
def extend (p : Pad) (a : Arr ι R) : (ι → ℤ) → R := fun x => a.val fun i => p.index (a.shape i) (x i)

/-- The rules that the boundary names stand for, on an axis of `n` cells: inside nothing changes; `wrap` is
periodic with period `n`; `edge` repeats the first and last cell; `symmetric` mirrors at the outer face of
the first cell, `reflect` at its centre, both with the corresponding period. -/
theorem pad_rules (n : ℕ) (hn : 0 < n) :
    (∀ p : Pad, ∀ t : ℤ, 0 ≤ t → t < n → p.index n t = t) ∧
    (∀ t : ℤ, Pad.index .wrap n (t + n) = Pad.index .wrap n t) ∧
    (∀ t : ℤ, t < 0 → Pad.index .edge n t = 0) ∧ (∀ t : ℤ, n ≤ t → Pad.index .edge n t = n - 1) ∧
    (∀ t : ℤ, Pad.index .symmetric n (-1 - t) = Pad.index .symmetric n t) ∧
    (∀ t : ℤ, Pad.index .symmetric n (t + 2 * n) = Pad.index .symmetric n t) ∧
    (∀ t : ℤ, Pad.index .reflect n (-t) = Pad.index .reflect n t) ∧
    (∀ t : ℤ, Pad.index .reflect n (t + (2 * n - 2)) = Pad.index .reflect n t) := by
  have hn' : (0 : ℤ) < n := by exact_mod_cast hn
  refine ⟨?_, ?_, ?_, ?_, ?_, ?_, ?_, ?_⟩
  · intro p t h0 h1
    cases p with
    | wrap => exact Int.emod_eq_of_lt h0 h1
    | edge => simp only [Pad.index]; omega
    | symmetric =>
      simp only [Pad.index]
      rw [Int.emod_eq_of_lt h0 (by omega), if_pos h1]
    | reflect =>
      simp only [Pad.index]
      by_cases h : n = 1
      · rw [if_pos h]; subst h; omega
      · rw [if_neg h]
        rcases lt_or_ge t (2 * n - 2) with h2 | h2
        · rw [Int.emod_eq_of_lt h0 h2, if_pos h1]
        · omega
  · intro t; simp [Pad.index]
  · intro t ht; simp only [Pad.index]; omega
  · intro t ht; simp only [Pad.index]; omega
  · intro t
    simp only [Pad.index]
    have h1 := Int.emod_nonneg t (show (2 * n : ℤ) ≠ 0 by omega)
    have h2 := Int.emod_lt_of_pos t (show (0 : ℤ) < 2 * n by omega)
    have h3 : (-1 - t) % (2 * n : ℤ) = 2 * n - 1 - t % (2 * n : ℤ) := by
      rw [Int.emod_eq_iff (by omega)]
      refine ⟨by omega, by omega, ?_⟩
      have := Int.mul_ediv_add_emod t (2 * n : ℤ)
      refine ⟨1 + t / (2 * n), ?_⟩
      rw [mul_add]
      omega
    rw [h3]
    split_ifs <;> omega
  · intro t; simp [Pad.index]
  · intro t
    simp only [Pad.index]
    by_cases h : n = 1
    · rw [if_pos h, if_pos h]
    · rw [if_neg h, if_neg h]
      have hp : (0 : ℤ) < 2 * n - 2 := by omega
      have h1 := Int.emod_nonneg t hp.ne'
      have h2 := Int.emod_lt_of_pos t hp
      rcases h1.eq_or_lt with h0 | h0
      · have h3 : (-t) % (2 * n - 2 : ℤ) = 0 := by
          rw [Int.neg_emod_eq_sub_emod]
          have : (2 * (n : ℤ) - 2 - t) % (2 * n - 2) = (-t) % (2 * n - 2) := by
            rw [← Int.neg_emod_eq_sub_emod]
          rw [this]
          exact Int.emod_eq_zero_of_dvd ((Int.dvd_neg).2 (Int.dvd_of_emod_eq_zero h0.symm))
        rw [h3, ← h0]
      · have h3 : (-t) % (2 * n - 2 : ℤ) = 2 * n - 2 - t % (2 * n - 2 : ℤ) := by
          rw [Int.emod_eq_iff (by omega)]
          refine ⟨by omega, by omega, ?_⟩
          have := Int.mul_ediv_add_emod t (2 * n - 2 : ℤ)
          refine ⟨1 + t / (2 * n - 2), ?_⟩
          rw [mul_add]
          omega
        rw [h3]
        split_ifs <;> omega
  · intro t; simp [Pad.index]

/-- torch accepts the padding (numpy and jax always do). -/
def PadAccepted (be : Backend) (b : Boundary) (mode : Mode) (a k : Arr ι R) : Prop :=
  be = .torch → ∀ i, torchPadOk (padMode be b) (a.shape i) (padBefore mode (k.shape i))
    (padAfter mode (k.shape i)) = true

/-- Padded boundaries, all backends: `'full'` gives the full convolution of the extended map, `'same'` the one with
the kernel's centre taken at `(s-1)/2`. -/
theorem padded_result (a k : Arr ι R) (ha : ∀ i, 0 < a.shape i) (hk : ∀ i, 0 < k.shape i) (b : Boundary)
    (hb1 : b ≠ .circular) (hb2 : b ≠ .constant) (be : Backend) (hb : be ≠ .other) (mode : Mode) (hm : mode ≠ .valid)
    (hpad : PadAccepted be b mode a k) :
    ∃ s o, fftconvolve a k mode b be = .ok ⟨s, o⟩ ∧
      (mode = .full → s = (fun i => a.shape i + k.shape i - 1) ∧
        ∀ x ∈ box s, o x = Extended (extend (padMode be b) a) k x) ∧
      (mode = .same → s = a.shape ∧
        ∀ x ∈ box s, o x = Extended (extend (padMode be b) a) k (x + fun i => (((k.shape i - 1) / 2 : ℕ) : ℤ))) := by
  set p := padMode be b with hp
  have hok : ¬ (be = .torch ∧ ¬ ∀ i, torchPadOk p (a.shape i) (padBefore mode (k.shape i))
      (padAfter mode (k.shape i)) = true) := by
    rintro ⟨h1, h2⟩
    exact h2 (hpad h1)
  refine ⟨fun i => if mode = .full then a.shape i + k.shape i - 1 else a.shape i,
    fun x => circ (fun i => (padded p mode a k.shape).shape i + k.shape i - 1) (padded p mode a k.shape).ext k.ext
      (x + fun i => (k.shape i : ℤ) - 1), ?_, ?_⟩
  · simp only [fftconvolve, hm, hb, hb1, hb2, false_and, if_false]
    rw [if_neg hok]
  have hbig : ∀ i, 0 < (padded p mode a k.shape).shape i := by
    intro i; have := ha i; simp only [padded]; omega
  have key : ∀ x : ι → ℤ, (∀ i, 0 ≤ x i ∧
      x i < a.shape i + padBefore mode (k.shape i) + padAfter mode (k.shape i) - k.shape i + 1) →
      circ (fun i => (padded p mode a k.shape).shape i + k.shape i - 1) (padded p mode a k.shape).ext k.ext
        (x + fun i => (k.shape i : ℤ) - 1) =
      Extended (extend p a) k (x + fun i => (k.shape i : ℤ) - 1 - padBefore mode (k.shape i)) := by
    intro x hx
    rw [circ_linear _ _ k (fun i => by have := hbig i; omega) hk hbig]
    · unfold Extended
      apply Finset.sum_congr rfl
      intro j hj
      rw [ext_of_mem]
      · simp only [padded, extend]
        congr 3
        funext i
        simp only [Pi.add_apply, Pi.sub_apply]
        congr 1
        ring
      · rw [mem_box] at hj ⊢
        intro i
        have h1 := hx i; have h2 := hj i
        simp only [padded, Pi.add_apply, Pi.sub_apply]
        push_cast
        omega
    · rw [mem_box]
      intro i
      have h1 := hx i; have h2 := hk i; have h3 := ha i
      simp only [padded, Pi.add_apply]
      have h4 : ((a.shape i + padBefore mode (k.shape i) + padAfter mode (k.shape i) + k.shape i - 1 : ℕ) : ℤ) =
        a.shape i + padBefore mode (k.shape i) + padAfter mode (k.shape i) + k.shape i - 1 := by omega
      rw [h4]
      omega
  constructor
  · rintro rfl
    refine ⟨by simp, ?_⟩
    intro x hx
    rw [mem_box] at hx
    beta_reduce
    rw [key]
    · congr 1
      funext i
      have := hk i
      simp only [padBefore, if_true, Pi.add_apply]
      omega
    · intro i
      have h1 := hx i; have h2 := hk i; have h3 := ha i
      simp only [if_true] at h1
      simp only [padBefore, padAfter, if_true]
      omega
  · rintro rfl
    refine ⟨by simp, ?_⟩
    intro x hx
    rw [mem_box] at hx
    beta_reduce
    rw [key]
    · congr 1
      funext i
      have := hk i
      simp only [padBefore, reduceCtorEq, if_false, Pi.add_apply]
      omega
    · intro i
      have h1 := hx i; have h2 := hk i; have h3 := ha i
      simp only [reduceCtorEq, if_false] at h1
      simp only [padBefore, padAfter, reduceCtorEq, if_false]
      omega

/-- C26, proved part for padded boundaries: with an odd kernel, `mode='same'` is the convolution of the extended map,
centred on the kernel's middle cell, the same for numpy and jax, and for torch with every boundary but
`'mirror'`.  Missing: even kernels (`C26_false_even`), `'mirror'` with torch (`C26_false_mirror`). -/
theorem C26_partial (a k : Arr ι R) (ha : ∀ i, 0 < a.shape i) (hodd : ∀ i, k.shape i % 2 = 1) (b : Boundary)
    (hb1 : b ≠ .circular) (hb2 : b ≠ .constant) (be : Backend) (hb : be ≠ .other)
    (hmirror : be = .torch → b ≠ .mirror) (hpad : PadAccepted be b .same a k) :
    ∃ o, fftconvolve a k .same b be = .ok ⟨a.shape, o⟩ ∧
      ∀ x ∈ box a.shape, o x = Extended (extend (padMode .numpy b) a) k (x + fun i => ((k.shape i / 2 : ℕ) : ℤ)) := by
  obtain ⟨s, o, h1, -, h2⟩ := padded_result a k ha (fun i => by have := hodd i; omega) b hb1 hb2 be hb .same (by simp) hpad
  obtain ⟨rfl, h3⟩ := h2 rfl
  refine ⟨o, h1, fun x hx => ?_⟩
  rw [h3 x hx]
  have hp : padMode be b = padMode .numpy b := by
    cases b <;> cases be <;> simp_all [padMode]
  rw [hp]
  congr 1
  funext i
  have := hodd i
  simp only [Pi.add_apply]
  congr 2
  omega

example : PadAccepted .torch .wrap .same (⟨fun _ : Fin 1 => 5, fun _ => (1 : ℤ)⟩ : Arr (Fin 1) ℤ)
    ⟨fun _ => 3, fun _ => 1⟩ := by
  intro _ i; simp only; decide

/-- C26 fails for even kernels: `'wrap'` (and every other padded boundary) centres an even kernel on cell `s/2 - 1`
while `'circular'` and `'constant'` centre it on `s/2`; a two-cell kernel (0, 1), which is the identity for
`'constant'`, moves the map by one cell for `'wrap'`. -/
theorem C26_false_even (n : ℕ) (hn : 2 ≤ n) (v : ℤ → R) :
    ∃ o o', fftconvolve (⟨fun _ : Fin 1 => n, fun x => v (x 0)⟩ : Arr (Fin 1) R)
        ⟨fun _ => 2, fun x => if x 0 = 1 then 1 else 0⟩ .same .constant .numpy = .ok ⟨fun _ => n, o⟩ ∧
      fftconvolve (⟨fun _ : Fin 1 => n, fun x => v (x 0)⟩ : Arr (Fin 1) R)
        ⟨fun _ => 2, fun x => if x 0 = 1 then 1 else 0⟩ .same .wrap .numpy = .ok ⟨fun _ => n, o'⟩ ∧
      ∀ t : ℤ, 0 ≤ t → t < n → o (fun _ => t) = v t ∧ o' (fun _ => t) = v ((t - 1) % n) := by
  set a : Arr (Fin 1) R := ⟨fun _ : Fin 1 => n, fun x => v (x 0)⟩ with ha
  set k : Arr (Fin 1) R := ⟨fun _ => 2, fun x => if x 0 = 1 then 1 else 0⟩ with hk
  have hk0 : ∀ i, 0 < k.shape i := fun i => by simp [hk]
  have ha0 : ∀ i, 0 < a.shape i := fun i => by simp only [ha]; omega
  obtain ⟨o, h1, h2⟩ := constant_same a k hk0 .numpy (by simp)
  obtain ⟨s, o', h3, -, h4⟩ := padded_result a k ha0 hk0 .wrap (by simp) (by simp) .numpy (by simp) .same (by simp)
    (by intro h; simp at h)
  obtain ⟨rfl, h5⟩ := h4 rfl
  refine ⟨o, o', h1, h3, fun t ht0 ht1 => ?_⟩
  have hmem : (fun _ => t : Fin 1 → ℤ) ∈ box a.shape := by
    rw [mem_box]; intro i; exact ⟨ht0, ht1⟩
  have hone : (fun _ => 1 : Fin 1 → ℤ) ∈ box k.shape := by
    rw [mem_box]; intro i; simp [hk]
  have pick : ∀ e : (Fin 1 → ℤ) → R, ∑ j ∈ box k.shape, k.val j * e j = e fun _ => 1 := by
    intro e
    rw [Finset.sum_eq_single_of_mem _ hone]
    · simp [hk]
    · intro j hj hne
      have : j 0 ≠ 1 := by
        intro h
        apply hne
        funext i
        have : i = 0 := Subsingleton.elim _ _
        rw [this, h]
      simp [hk, this]
  rw [h2 _ hmem, h5 _ hmem]
  unfold Linear Extended
  rw [pick fun j => a.ext (_ - j), pick fun j => extend _ a (_ - j)]
  constructor
  · rw [ext_of_mem a]
    · simp [ha, hk]
    · rw [mem_box]
      intro i
      simp [ha, hk]
      omega
  · simp [extend, ha, hk, padMode, Pad.index]

/-- C26 fails for `'mirror'`: torch mirrors at the centre of the first cell, numpy and jax at its outer face.  The map
(5, 7, 9) with the kernel (0, 0, 1), which takes the left neighbour, has left neighbour 5 in numpy and 7 in torch. -/
theorem C26_false_mirror :
    ∃ o o', fftconvolve (⟨fun _ : Fin 1 => 3, fun x => 5 + 2 * x 0⟩ : Arr (Fin 1) ℤ)
        ⟨fun _ => 3, fun x => if x 0 = 2 then 1 else 0⟩ .same .mirror .numpy = .ok ⟨fun _ => 3, o⟩ ∧
      fftconvolve (⟨fun _ : Fin 1 => 3, fun x => 5 + 2 * x 0⟩ : Arr (Fin 1) ℤ)
        ⟨fun _ => 3, fun x => if x 0 = 2 then 1 else 0⟩ .same .mirror .torch = .ok ⟨fun _ => 3, o'⟩ ∧
      o (fun _ => 0) = 5 ∧ o' (fun _ => 0) = 7 := by
  set a : Arr (Fin 1) ℤ := ⟨fun _ : Fin 1 => 3, fun x => 5 + 2 * x 0⟩ with ha
  set k : Arr (Fin 1) ℤ := ⟨fun _ => 3, fun x => if x 0 = 2 then 1 else 0⟩ with hk
  have hk0 : ∀ i, 0 < k.shape i := fun i => by simp [hk]
  have ha0 : ∀ i, 0 < a.shape i := fun i => by simp [ha]
  obtain ⟨s, o, h1, -, h2⟩ := padded_result a k ha0 hk0 .mirror (by simp) (by simp) .numpy (by simp) .same (by simp)
    (by intro h; simp at h)
  obtain ⟨s', o', h3, -, h4⟩ := padded_result a k ha0 hk0 .mirror (by simp) (by simp) .torch (by simp) .same (by simp)
    (by intro _ i; simp only [ha, hk]; decide)
  obtain ⟨rfl, h5⟩ := h2 rfl
  obtain ⟨rfl, h6⟩ := h4 rfl
  have hmem : (fun _ => 0 : Fin 1 → ℤ) ∈ box a.shape := by
    rw [mem_box]; intro i; simp [ha]
  have htwo : (fun _ => 2 : Fin 1 → ℤ) ∈ box k.shape := by
    rw [mem_box]; intro i; simp [hk]
  have pick : ∀ e : (Fin 1 → ℤ) → ℤ, ∑ j ∈ box k.shape, k.val j * e j = e fun _ => 2 := by
    intro e
    rw [Finset.sum_eq_single_of_mem _ htwo]
    · simp [hk]
    · intro j hj hne
      have : j 0 ≠ 2 := by
        intro h
        apply hne
        funext i
        have : i = 0 := Subsingleton.elim _ _
        rw [this, h]
      simp [hk, this]
  refine ⟨o, o', h1, h3, ?_, ?_⟩
  · rw [h5 _ hmem]
    unfold Extended
    rw [pick fun j => extend _ a (_ - j)]
    simp [extend, ha, hk, padMode, Pad.index]
  · rw [h6 _ hmem]
    unfold Extended
    rw [pick fun j => extend _ a (_ - j)]
    simp [extend, ha, hk, padMode, Pad.index]

/-- An unknown backend name is not refused with a message: the result variable is simply never assigned. -/
theorem unknown_backend (a k : Arr ι R) (mode : Mode) (b : Boundary) (h : mode ≠ .valid) :
    fftconvolve a k mode b .other = .error "UnboundLocalError" := by
  simp [fftconvolve, h]

example : fftconvolve (⟨fun _ : Fin 2 => 6, fun x => x 0⟩ : Arr (Fin 2) ℤ) ⟨fun _ => 9, fun j => j 1⟩ .full .wrap .other = .error "UnboundLocalError" :=
  unknown_backend _ _ _ _ (by decide)

end Verif.Convolve
