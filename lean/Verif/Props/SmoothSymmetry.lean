import Verif.Props.MirroredSpectra
import Verif.Props.SmoothOrder
/-!
# C258: Gaussian smoothing follows the symmetries of the map
-/

namespace Verif.SmoothSymmetry
open Verif.Convolve Verif.Smoothing

/-! ## Specification -/

/-- `b` is the map `a`, read backwards along the axes in `S` (`np.flip`). -/
def Mirrored (S : Finset (Fin 2)) (a b : Arr (Fin 2) ℝ) : Prop :=
  b.shape = a.shape ∧ ∀ x ∈ box a.shape, b.val x = a.val fun j => if j ∈ S then (a.shape j : ℤ) - 1 - x j else x j

/-- `b` is the map `a` with rows and columns exchanged (`a.T`). -/
def Exchanged (a b : Arr (Fin 2) ℝ) : Prop :=
  b.shape = ![a.shape 1, a.shape 0] ∧ ∀ x ∈ box a.shape, b.val ![x 1, x 0] = a.val x

/-- Results in a relation, or the same error. -/
def Results (r : Arr (Fin 2) ℝ → Arr (Fin 2) ℝ → Prop) : Except String (Arr (Fin 2) ℝ) → Except String (Arr (Fin 2) ℝ) → Prop
  | .ok o, .ok o' => r o o'
  | .error e, .error e' => e = e'
  | _, _ => False

/-! ## Proofs -/

/-- What `smooth_gauss` computes on a square map. -/
theorem gauss_result (n : ℕ) (hn : 0 < n) (f : ℝ) :
    (∀ a : Arr (Fin 2) ℝ, (∀ i, a.shape i = n) → smoothGauss a f = .error "nan") ∨
      ∀ a : Arr (Fin 2) ℝ, (∀ i, a.shape i = n) → ∃ o, smoothGauss a f = .ok ⟨a.shape, o⟩ ∧
        ∀ x, o x = ∑ j ∈ box (fun _ : Fin 2 => n), gaussVal n (sigmaOfFwhm f) j /
          (∑ y ∈ box (fun _ : Fin 2 => n), gaussVal n (sigmaOfFwhm f) y) *
            a.val fun i => (x i + ((n + 1) / 2 : ℕ) - j i) % (n : ℤ) := by
  by_cases hc : sigmaOfFwhm f = 0 ∧ n ≠ 0
  · refine Or.inl fun a ha => ?_
    simp only [smoothGauss, ha 0, gaussKernel, if_pos hc]
    rfl
  · refine Or.inr fun a ha => ?_
    obtain ⟨o, h1, h2⟩ := circular_result a ⟨fun _ => n, fun x => gaussVal n (sigmaOfFwhm f) x /
      ∑ y ∈ box (fun _ : Fin 2 => n), gaussVal n (sigmaOfFwhm f) y⟩ ⟨fun _ => hn, fun i => (ha i).ge⟩ .same (by simp) .numpy (by simp)
    refine ⟨o, ?_, fun x => ?_⟩
    · rw [← h1]
      simp only [smoothGauss, ha 0, gaussKernel, if_neg hc]
      rfl
    · rw [h2]
      unfold Periodic md
      refine Finset.sum_congr rfl fun j _ => ?_
      congr 2
      funext i
      simp only [ha i, Pi.sub_apply, Pi.add_apply]

open Verif.MirroredSpectra in
theorem gaussVal_back {n : ℕ} (S : Finset (Fin 2)) (hn : n % 2 = 0) (sigma : ℝ) {j : Fin 2 → ℤ} (hj : j ∈ box (fun _ : Fin 2 => n)) :
    gaussVal n sigma (back S (fun _ => n) j) = gaussVal n sigma j := by
  unfold gaussVal
  congr 3
  refine Finset.sum_congr rfl fun i _ => ?_
  have e : ((n / 2 : ℕ) : ℝ) * 2 = n := by
    have : n / 2 * 2 = n := by omega
    exact_mod_cast this
  rcases back_cases S hj i with ⟨_, h⟩ | ⟨_, h2, h⟩ | ⟨_, _, h3, h⟩ | ⟨_, _, _, h⟩
  · rw [h]
  · omega
  · rw [h, h3]
  · rw [h]
    generalize ((n / 2 : ℕ) : ℝ) = c at e ⊢
    push_cast
    rw [← e]
    ring

/-! ## Theorems -/

open Verif.MirroredSpectra in
/-- C258 for mirrored maps with even numbers of cells. -/
theorem C258_partial (n : ℕ) (hn : 0 < n) (he : n % 2 = 0) (S : Finset (Fin 2)) (a b : Arr (Fin 2) ℝ) (ha : ∀ i, a.shape i = n)
    (h : Mirrored S a b) (f : ℝ) : Results (Mirrored S) (smoothGauss a f) (smoothGauss b f) := by
  have hb : ∀ i, b.shape i = n := fun i => by rw [h.1, ha i]
  rcases gauss_result n hn f with hr | hr
  · rw [hr a ha, hr b hb]
    exact rfl
  · obtain ⟨o, e, v⟩ := hr a ha
    obtain ⟨o', e', v'⟩ := hr b hb
    rw [e, e']
    refine ⟨h.1, fun x hx => ?_⟩
    simp only
    rw [v, v']
    refine Finset.sum_nbij' (back S fun _ => n) (back S fun _ => n) (fun j hj => back_mem hj) (fun j hj => back_mem hj)
      (fun j hj => back_back hj) (fun j hj => back_back hj) fun j hj => ?_
    rw [gaussVal_back S he _ hj]
    congr 1
    have hm : (fun i => (x i + ((n + 1) / 2 : ℕ) - j i) % (n : ℤ)) ∈ box a.shape := (mem_box _ _).2 fun i => by
      rw [ha i]
      exact ⟨Int.emod_nonneg _ (by omega), Int.emod_lt_of_pos _ (by omega)⟩
    rw [h.2 _ hm]
    congr 1
    funext i
    have hxi := (mem_box _ _).1 hx i
    have hji := (mem_box _ _).1 hj i
    rw [ha i] at hxi ⊢
    have h2 : (((n + 1) / 2 : ℕ) : ℤ) * 2 = n := by omega
    generalize (((n + 1) / 2 : ℕ) : ℤ) = c at h2 ⊢
    unfold back
    split_ifs with hS
    · have h3 : ((n / 2 : ℕ) : ℤ) * 2 = n := by omega
      generalize ((n / 2 : ℕ) : ℤ) = q at h3 ⊢
      rw [Int.sub_emod_emod]
      have e1 : (n : ℤ) - 1 - (x i + c - j i) % n = ((n : ℤ) - 1 - (x i + c - j i)) % n := by
        have h4 := Int.emod_nonneg (x i + c - j i) (b := (n : ℤ)) (by omega)
        have h5 := Int.emod_lt_of_pos (x i + c - j i) (b := (n : ℤ)) (by omega)
        have h6 := Int.emod_add_mul_ediv (x i + c - j i) n
        have h7 : (n : ℤ) - 1 - (x i + c - j i) = ((n : ℤ) - 1 - (x i + c - j i) % n) + n * (-((x i + c - j i) / n)) := by
          linear_combination h6
        rw [h7, Int.add_mul_emod_self_left, Int.emod_eq_of_lt (a := (n : ℤ) - 1 - _) (by omega) (by omega)]
      rw [e1]
      congr 1
      omega
    · rfl

/-- A map of 4×4 cells and its mirror image. -/
example : Mirrored {0} ⟨fun _ => 4, fun x => (x 0 : ℝ) + 10 * x 1⟩ ⟨fun _ => 4, fun x => (3 - x 0 : ℝ) + 10 * x 1⟩ := by
  refine ⟨rfl, fun x _ => ?_⟩
  simp

/-- C258 for exchanged rows and columns of square maps. -/
theorem C258_exchange (n : ℕ) (hn : 0 < n) (a b : Arr (Fin 2) ℝ) (ha : ∀ i, a.shape i = n) (h : Exchanged a b) (f : ℝ) :
    Results Exchanged (smoothGauss a f) (smoothGauss b f) := by
  have hb : ∀ i, b.shape i = n := fun i => by
    rw [h.1]
    fin_cases i <;> simp [ha]
  have sw : ∀ x : Fin 2 → ℤ, x ∈ box (fun _ : Fin 2 => n) → ![x 1, x 0] ∈ box (fun _ : Fin 2 => n) := by
    intro x hx
    have hx := (mem_box _ _).1 hx
    refine (mem_box _ _).2 fun i => ?_
    fin_cases i
    · exact hx 1
    · exact hx 0
  have sw2 : ∀ x : Fin 2 → ℤ, (![(![x 1, x 0] : Fin 2 → ℤ) 1, (![x 1, x 0] : Fin 2 → ℤ) 0] : Fin 2 → ℤ) = x := by
    intro x
    funext i
    fin_cases i <;> rfl
  rcases gauss_result n hn f with hr | hr
  · rw [hr a ha, hr b hb]
    exact rfl
  · obtain ⟨o, e, v⟩ := hr a ha
    obtain ⟨o', e', v'⟩ := hr b hb
    rw [e, e']
    refine ⟨h.1, fun x hx => ?_⟩
    simp only
    rw [v, v']
    refine Finset.sum_nbij' (fun j => ![j 1, j 0]) (fun j => ![j 1, j 0]) sw sw (fun j _ => sw2 j) (fun j _ => sw2 j) fun j hj => ?_
    have hg : gaussVal n (sigmaOfFwhm f) (![j 1, j 0] : Fin 2 → ℤ) = gaussVal n (sigmaOfFwhm f) j := by
      unfold gaussVal
      simp only [Fin.sum_univ_two, Matrix.cons_val_zero, Matrix.cons_val_one]
      rw [add_comm]
    rw [hg]
    congr 1
    have hm : (fun i => (x i + ((n + 1) / 2 : ℕ) - (![j 1, j 0] : Fin 2 → ℤ) i) % (n : ℤ)) ∈ box a.shape := (mem_box _ _).2 fun i => by
      rw [ha i]
      exact ⟨Int.emod_nonneg _ (by omega), Int.emod_lt_of_pos _ (by omega)⟩
    rw [← h.2 _ hm]
    congr 1
    funext i
    fin_cases i <;> rfl

/-- A map of 3×3 cells with its rows and columns exchanged. -/
example : Exchanged ⟨fun _ => 3, fun x => (x 0 : ℝ) + 10 * x 1⟩ ⟨fun _ => 3, fun x => (x 1 : ℝ) + 10 * x 0⟩ := by
  refine ⟨?_, fun x _ => by simp⟩
  funext i
  fin_cases i <;> rfl

/-- C258 fails for mirrored maps with odd numbers of cells: a bright cell in the middle is its own mirror image, the smoothed map, which
is moved by one cell, is not. -/
theorem C258_false : ¬ ∀ (n : ℕ), 0 < n → ∀ (S : Finset (Fin 2)) (a b : Arr (Fin 2) ℝ), (∀ i, a.shape i = n) → Mirrored S a b →
    ∀ f, Results (Mirrored S) (smoothGauss a f) (smoothGauss b f) := by
  intro H
  let a : Arr (Fin 2) ℝ := ⟨fun _ => 3, fun x => if x = 1 then 1 else 0⟩
  have h := H 3 (by norm_num) {0} a a (fun _ => rfl) ⟨rfl, fun x hx => by
    have e : x = 1 ↔ (fun j => if j ∈ ({0} : Finset (Fin 2)) then ((3 : ℕ) : ℤ) - 1 - x j else x j) = 1 := by
      rw [funext_iff, funext_iff, Fin.forall_fin_two, Fin.forall_fin_two]
      simp
      omega
    simp only [a]
    exact if_congr e rfl rfl⟩ 1
  have hs : sigmaOfFwhm 1 ≠ 0 := by
    unfold sigmaOfFwhm
    have : 0 < Real.log 2 := Real.log_pos (by norm_num)
    positivity
  rcases gauss_result 3 (by norm_num) 1 with hr | hr
  · have := hr a fun _ => rfl
    simp only [smoothGauss, gaussKernel, a] at this
    rw [if_neg (by simp [hs])] at this
    obtain ⟨o, e, -⟩ := circular_result a ⟨fun _ => 3, fun x => gaussVal 3 (sigmaOfFwhm 1) x /
      ∑ y ∈ box (fun _ : Fin 2 => 3), gaussVal 3 (sigmaOfFwhm 1) y⟩ ⟨fun _ => by norm_num, fun i => le_refl _⟩ .same (by simp) .numpy (by simp)
    have e2 : (Except.error "nan" : Except String (Arr (Fin 2) ℝ)) = .ok ⟨a.shape, o⟩ := by
      rw [← this, ← e]
      rfl
    cases e2
  · obtain ⟨o, e, v⟩ := hr a fun _ => rfl
    rw [e] at h
    have hx := h.2 0 ((mem_box _ _).2 fun j => by simp [a])
    simp only at hx
    rw [v, v] at hx
    have key : ∀ (x p : Fin 2 → ℤ), p ∈ box (fun _ : Fin 2 => 3) → (∀ j ∈ box (fun _ : Fin 2 => 3),
        (fun i => (x i + ((3 + 1) / 2 : ℕ) - j i) % ((3 : ℕ) : ℤ)) = 1 ↔ j = p) →
        ∑ j ∈ box (fun _ : Fin 2 => 3), gaussVal 3 (sigmaOfFwhm 1) j / (∑ y ∈ box (fun _ : Fin 2 => 3), gaussVal 3 (sigmaOfFwhm 1) y) *
          a.val (fun i => (x i + ((3 + 1) / 2 : ℕ) - j i) % ((3 : ℕ) : ℤ)) =
        gaussVal 3 (sigmaOfFwhm 1) p / (∑ y ∈ box (fun _ : Fin 2 => 3), gaussVal 3 (sigmaOfFwhm 1) y) := by
      intro x p hp hj
      rw [Finset.sum_eq_single_of_mem p hp]
      · simp only [a]
        rw [if_pos ((hj p hp).2 rfl), mul_one]
      · intro j hjb hne
        simp only [a]
        rw [if_neg fun hc => hne ((hj j hjb).1 hc), mul_zero]
    rw [key 0 ![1, 1] (by decide) (by decide), key _ ![0, 1] (by decide) (by decide)] at hx
    have hpos : 0 < ∑ y ∈ box (fun _ : Fin 2 => 3), gaussVal 3 (sigmaOfFwhm 1) y :=
      Finset.sum_pos (fun y _ => Real.exp_pos _) ⟨0, by decide⟩
    rw [div_left_inj' hpos.ne'] at hx
    unfold gaussVal at hx
    rw [Real.exp_eq_exp] at hx
    simp at hx
    have hd : 2 * sigmaOfFwhm 1 * sigmaOfFwhm 1 ≠ 0 := by positivity
    rw [eq_div_iff hd] at hx
    linarith

end Verif.SmoothSymmetry
