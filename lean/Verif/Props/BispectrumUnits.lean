import Verif.Props.Bispectrum
import Verif.Props.LengthUnits
/-!
# C252: the bispectrum carries the unit of length

A bispectrum in `d` dimensions is the square of a volume: in a unit of length `l` times smaller the sides of the box are `l` times
larger, those of the triangles `l` times smaller, and the value is `l ^ (2 d)` times larger.
-/

namespace Verif.BispectrumUnits

open Verif.Convolve Verif.PowerSpectrum Verif.Bispectrum

/-! ## Specification -/

/-- The box as an argument: the sides, or one number for all of them. -/
inductive Length
  | sides (L : List ℝ)
  | number (x : ℝ)

/-- The argument `box_dims`. -/
def Length.dims : Length → Bispectrum.Dims
  | .sides L => .list L
  | .number x => .number x

/-- The sides in `d` dimensions. -/
def Length.list (d : ℕ) : Length → List ℝ
  | .sides L => L
  | .number x => List.replicate d x

/-- The box in a unit `l` times smaller. -/
def Length.longer (l : ℝ) : Length → Length
  | .sides L => .sides (L.map (l * ·))
  | .number x => .number (l * x)

/-- A side for each axis. -/
def Length.Fits (d : ℕ) : Length → Prop
  | .sides L => L.length = d ∧ ∀ x ∈ L, 0 < x
  | .number x => 0 < x

/-- `bispectrum_fast` for a triangle, with the transform and the magnitudes which `fft_nd` returns for the same box. -/
noncomputable def value {d : ℕ} (a : Arr (Fin d) ℝ) (b : Length) (k dk : Fin 3 → ℝ) : Except Bispectrum.Err (Option ℝ) :=
  fast a.shape (fftNd a) (k 0) (k 1) (k 2) (dk 0) (dk 1) (dk 2) b.dims (some (kMag a.shape (b.list d)))

/-- The value in the smaller unit is `f` times larger; where there is no triangle, there is none in either unit. -/
def Larger (f : ℝ) (v v' : Except Bispectrum.Err (Option ℝ)) : Prop := ∃ r, v = .ok r ∧ v' = .ok (r.map (f * ·))

/-! ## Theorems -/

theorem shell_longer {l : ℝ} (hl : 0 < l) {d : ℕ} (km km' : (Fin d → ℤ) → ℝ) (h : ∀ i, km' i = km i / l) (k dk : ℝ) :
    shell km' (k / l) (dk / l) = shell km k dk := by
  funext i
  unfold shell
  have e : |km' i - k / l| < dk / l / 2 ↔ |km i - k| < dk / 2 := by
    rw [h, ← sub_div, abs_div, abs_of_pos hl, div_right_comm dk l 2, div_lt_div_iff_of_pos_right hl]
  simp only [e]

theorem shells_longer {l : ℝ} (hl : 0 < l) {d : ℕ} (km km' : (Fin d → ℤ) → ℝ) (h : ∀ i, km' i = km i / l) (k1 k2 k3 dk1 dk2 dk3 : ℝ) :
    shells km' (k1 / l) (k2 / l) (k3 / l) (dk1 / l) (dk2 / l) (dk3 / l) = shells km k1 k2 k3 dk1 dk2 dk3 := by
  unfold shells
  simp only [shell_longer hl km km' h, div_left_inj' hl.ne']

theorem fast_longer {l : ℝ} (hl : 0 < l) {d : ℕ} (a : Arr (Fin d) ℝ) (km km' : (Fin d → ℤ) → ℝ) (h : ∀ i, km' i = km i / l)
    (k dk : Fin 3 → ℝ) (b b' : Bispectrum.Dims) (V f : ℝ) (hb : volume b = .ok V) (hb' : volume b' = .ok (f * V)) :
    Larger (f ^ 2) (fast a.shape (fftNd a) (k 0) (k 1) (k 2) (dk 0) (dk 1) (dk 2) b (some km))
      (fast a.shape (fftNd a) (k 0 / l) (k 1 / l) (k 2 / l) (dk 0 / l) (dk 1 / l) (dk 2 / l) b' (some km')) := by
  unfold fast
  simp only [hb, hb', shells_longer hl km km' h]
  refine ⟨_, rfl, ?_⟩
  congr 1
  split_ifs
  · rfl
  · simp only [Option.map_some]
    congr 1
    ring

/-- C252, proved part: for a box given by its sides the value carries the unit of a volume squared.  Missing: a box given by one
number, for which this is false (`C252_false`). -/
theorem C252_partial {l : ℝ} (hl : 0 < l) {d : ℕ} (a : Arr (Fin d) ℝ) (L : List ℝ) (hL : (Length.sides L).Fits d) (k dk : Fin 3 → ℝ) :
    Larger (l ^ (2 * d)) (value a (.sides L) k dk) (value a ((Length.sides L).longer l) (fun i => k i / l) fun i => dk i / l) := by
  have := fast_longer hl a (kMag a.shape L) (kMag a.shape (L.map (l * ·))) (LengthUnits.kMag_longer hl a.shape L) k dk
    (.list L) (.list (L.map (l * ·))) L.prod (l ^ d) rfl (by rw [Bispectrum.volume, LengthUnits.prod_longer, hL.1])
  rwa [← pow_mul, mul_comm d 2] at this

/-- C252, what happens for a box given by one number: the value carries the unit of an area, in any number of dimensions. -/
theorem C252_number {l : ℝ} (hl : 0 < l) {d : ℕ} (a : Arr (Fin d) ℝ) (x : ℝ) (k dk : Fin 3 → ℝ) :
    Larger (l ^ 2) (value a (.number x) k dk) (value a ((Length.number x).longer l) (fun i => k i / l) fun i => dk i / l) := by
  refine fast_longer hl a (kMag a.shape (List.replicate d x)) (kMag a.shape (List.replicate d (l * x))) (fun i => ?_) k dk
    (.number x) (.number (l * x)) x l rfl rfl
  rw [← LengthUnits.kMag_longer hl, List.map_replicate]

/-- The mean of a single cell. -/
theorem value_one : value (⟨fun _ => 1, fun _ => 1⟩ : Arr (Fin 3) ℝ) (.number 1) (fun _ => 0) (fun _ => 1) = .ok (some 1) := by
  have hbox : box (fun _ : Fin 3 => 1) = {0} := by
    ext x
    rw [mem_box, Finset.mem_singleton, funext_iff]
    refine forall_congr' fun j => ?_
    simp only [Nat.cast_one, Pi.zero_apply]
    omega
  have hmd : ∀ y : Fin 3 → ℤ, md (fun _ => 1) y = 0 := by
    intro y
    funext j
    simp [md, Int.emod_one]
  have hb : ∀ (A : (Fin 3 → ℤ) → ℂ) (x : Fin 3 → ℤ), back (fun _ => 1) A x = A 0 := by
    intro A x
    unfold back ifftn shift
    rw [hbox, Finset.sum_singleton, hmd]
    simp
  have hf : ∀ i, fftNd (⟨fun _ => 1, fun _ => 1⟩ : Arr (Fin 3) ℝ) i = 1 := by
    intro i
    unfold fftNd fftn shift
    simp only [hbox, Finset.sum_singleton, hmd]
    simp
  have hk : kMag (fun _ : Fin 3 => 1) (List.replicate 3 1) 0 = 0 := by
    unfold kMag kComp center
    simp
  have hs : shell (kMag (fun _ : Fin 3 => 1) (List.replicate 3 1)) 0 1 0 = 1 := by
    unfold shell
    rw [hk, if_pos (by norm_num)]
  unfold value fast
  simp only [Length.dims, Length.list, Bispectrum.volume, shells, hb, hf, hbox, Finset.sum_singleton, if_true, hs]
  norm_num

/-- C252 is false for a box given by one number. -/
theorem C252_false : ¬ ∀ (l : ℝ) (a : Arr (Fin 3) ℝ) (b : Length) (k dk : Fin 3 → ℝ), 0 < l → b.Fits 3 →
    Larger (l ^ (2 * 3)) (value a b k dk) (value a (b.longer l) (fun i => k i / l) fun i => dk i / l) := by
  intro h
  obtain ⟨r, e1, e2⟩ := h 2 ⟨fun _ => 1, fun _ => 1⟩ (.number 1) (fun _ => 0) (fun _ => 1) two_pos one_pos
  obtain ⟨r', e3, e4⟩ := C252_number (l := 2) two_pos (⟨fun _ => 1, fun _ => 1⟩ : Arr (Fin 3) ℝ) 1 (fun _ => 0) (fun _ => 1)
  rw [e4] at e2
  rw [e3] at e1
  cases e1
  rw [value_one] at e3
  cases e3
  simp only [Option.map_some, Except.ok.injEq, Option.some.injEq] at e2
  norm_num at e2

example : (Length.sides [100, 200, 300]).Fits 3 ∧ (Length.sides [100, 200]).Fits 2 := by
  refine ⟨⟨rfl, ?_⟩, ⟨rfl, ?_⟩⟩ <;> simp

end Verif.BispectrumUnits
