import Verif.Props.TurnedSpectra
import Verif.Lemmas.Spectrum
import Mathlib.Tactic.FinCases
import Mathlib.Tactic.Linarith
import Mathlib.Tactic.Ring
/-!
# C256: a box may be mirrored before its spectrum is taken
-/

namespace Verif.MirroredSpectra
open Verif.Convolve Verif.PowerSpectrum Verif.CrossSpectrum Complex

variable {d : ℕ}

/-! ## Specification -/

/-- `b` is the array `a`, read backwards along the axes in `S` (`np.flip`). -/
def Mirrored (S : Finset (Fin d)) (a b : Arr (Fin d) ℝ) : Prop :=
  b.shape = a.shape ∧ ∀ x ∈ box a.shape, b.val x = a.val fun j => if j ∈ S then (a.shape j : ℤ) - 1 - x j else x j

/-! ## Proofs -/

/-- Mirrored cell. -/
def flip (S : Finset (Fin d)) (s : Fin d → ℕ) (x : Fin d → ℤ) : Fin d → ℤ := fun j => if j ∈ S then (s j : ℤ) - 1 - x j else x j

theorem flip_mem {S : Finset (Fin d)} {s : Fin d → ℕ} {x : Fin d → ℤ} (h : x ∈ box s) : flip S s x ∈ box s := by
  rw [mem_box] at h ⊢
  intro j
  have := h j
  unfold flip
  split_ifs <;> omega

theorem flip_flip (S : Finset (Fin d)) (s : Fin d → ℕ) (x : Fin d → ℤ) : flip S s (flip S s x) = x := by
  funext j
  unfold flip
  split_ifs <;> omega

/-- Mirrored wave. -/
def neg (S : Finset (Fin d)) (k : Fin d → ℤ) : Fin d → ℤ := fun j => if j ∈ S then -k j else k j

theorem norm_phase (w : ℝ) : ‖exp (-(2 * Real.pi * I) * (w : ℂ))‖ = 1 := by
  have : -(2 * Real.pi * I) * (w : ℂ) = ((-(2 * Real.pi * w) : ℝ) : ℂ) * I := by
    push_cast
    ring
  rw [this, norm_exp_ofReal_mul_I]

theorem fftn_flip {S : Finset (Fin d)} {a b : Arr (Fin d) ℝ} (h : Mirrored S a b) (hs : ∀ j, 0 < a.shape j) (k : Fin d → ℤ) :
    ‖fftn b.shape (fun x => (b.val x : ℂ)) k‖ = ‖fftn a.shape (fun x => (a.val x : ℂ)) (neg S k)‖ := by
  have e : fftn b.shape (fun x => (b.val x : ℂ)) k =
      exp (-(2 * Real.pi * I) * ((∑ j, if j ∈ S then (k j : ℝ) * ((a.shape j : ℝ) - 1) / a.shape j else 0 : ℝ) : ℂ)) *
        fftn a.shape (fun x => (a.val x : ℂ)) (neg S k) := by
    unfold fftn
    rw [h.1, Finset.mul_sum]
    refine Finset.sum_nbij' (flip S a.shape) (flip S a.shape) (fun x hx => flip_mem hx) (fun x hx => flip_mem hx)
      (fun x _ => flip_flip _ _ _) (fun x _ => flip_flip _ _ _) fun x hx => ?_
    have e1 : b.val x = a.val (flip S a.shape x) := h.2 x hx
    simp only [e1]
    rw [mul_left_comm, ← exp_add, ← mul_add]
    congr 3
    push_cast
    rw [← Finset.sum_add_distrib]
    refine Finset.sum_congr rfl fun j _ => ?_
    have hj : (a.shape j : ℂ) ≠ 0 := by exact_mod_cast (hs j).ne'
    unfold neg flip
    split_ifs
    · push_cast
      field_simp
      ring
    · simp
  rw [e, norm_mul, norm_phase, one_mul]

/-- Mirrored index of the shifted transform: along the axes in `S`, `n - i` for even numbers of cells, where the first wave stays, and
`n - 1 - i` for odd ones. -/
def back (S : Finset (Fin d)) (s : Fin d → ℕ) (i : Fin d → ℤ) : Fin d → ℤ :=
  fun j => if j ∈ S then (2 * (s j / 2 : ℕ) - i j) % (s j : ℤ) else i j

theorem back_cases (S : Finset (Fin d)) {s : Fin d → ℕ} {i : Fin d → ℤ} (h : i ∈ box s) (j : Fin d) :
    (j ∉ S ∧ back S s i j = i j) ∨ (j ∈ S ∧ s j % 2 = 1 ∧ back S s i j = s j - 1 - i j) ∨
      (j ∈ S ∧ s j % 2 = 0 ∧ i j = 0 ∧ back S s i j = 0) ∨ (j ∈ S ∧ s j % 2 = 0 ∧ 0 < i j ∧ back S s i j = s j - i j) := by
  have hj := (mem_box _ _).1 h j
  unfold back
  by_cases hS : j ∈ S
  · simp only [hS, not_true_eq_false, false_and, if_true, true_and, false_or]
    rcases Nat.mod_two_eq_zero_or_one (s j) with h2 | h2
    · have e : 2 * ((s j / 2 : ℕ) : ℤ) = s j := by omega
      rw [e]
      by_cases h0 : i j = 0
      · refine Or.inr (Or.inl ⟨h2, h0, ?_⟩)
        rw [h0, sub_zero, Int.emod_self]
      · exact Or.inr (Or.inr ⟨h2, by omega, Int.emod_eq_of_lt (by omega) (by omega)⟩)
    · have e : 2 * ((s j / 2 : ℕ) : ℤ) = s j - 1 := by omega
      rw [e]
      exact Or.inl ⟨h2, Int.emod_eq_of_lt (by omega) (by omega)⟩
  · exact Or.inl ⟨hS, if_neg hS⟩

theorem back_mem {S : Finset (Fin d)} {s : Fin d → ℕ} {i : Fin d → ℤ} (h : i ∈ box s) : back S s i ∈ box s := by
  rw [mem_box]
  intro j
  have hj := (mem_box _ _).1 h j
  rcases back_cases S h j with ⟨_, e⟩ | ⟨_, _, e⟩ | ⟨_, _, _, e⟩ | ⟨_, _, _, e⟩ <;> rw [e] <;> omega

theorem back_back {S : Finset (Fin d)} {s : Fin d → ℕ} {i : Fin d → ℤ} (h : i ∈ box s) : back S s (back S s i) = i := by
  funext j
  have hj := (mem_box _ _).1 h j
  have hb := (mem_box _ _).1 (back_mem (S := S) h) j
  rcases back_cases S h j with ⟨h1, e⟩ | ⟨h1, h2, e⟩ | ⟨h1, h2, h3, e⟩ | ⟨h1, h2, h3, e⟩ <;>
    rcases back_cases S (back_mem (S := S) h) j with ⟨h1', e'⟩ | ⟨h1', h2', e'⟩ | ⟨h1', h2', h3', e'⟩ | ⟨h1', h2', h3', e'⟩ <;>
    first | exact absurd h1' h1 | exact absurd h1 h1' | omega

theorem power_back {S : Finset (Fin d)} {a b : Arr (Fin d) ℝ} (h : Mirrored S a b) (hs : ∀ j, 0 < a.shape j) (L : List ℝ)
    (i : Fin d → ℤ) : (powerNd L b).val i = (powerNd L a).val (back S a.shape i) := by
  have hb : ∀ j, 0 < b.shape j := by rw [h.1]; exact hs
  simp only [powerNd, shift]
  rw [fftn_md _ hb, fftn_md _ hs, fftn_flip h hs, h.1]
  congr 3
  refine fftn_congr _ hs _ _ _ fun j => ?_
  unfold neg back
  split_ifs
  · rw [show -(i j - ((a.shape j / 2 : ℕ) : ℤ)) - ((2 * ((a.shape j / 2 : ℕ) : ℤ) - i j) % (a.shape j : ℤ) - ((a.shape j / 2 : ℕ) : ℤ)) =
      (2 * ((a.shape j / 2 : ℕ) : ℤ) - i j) - (2 * ((a.shape j / 2 : ℕ) : ℤ) - i j) % (a.shape j : ℤ) by ring]
    exact Int.dvd_self_sub_emod
  · simp

/-- Where the waves of the code are those of the transform. -/
def Centred (s : Fin d → ℕ) : Prop := d = 3 ∨ ∀ j, s j % 2 = 1

theorem center_eq {s : Fin d → ℕ} (hc : Centred s) (j : Fin d) : center d (s j) = ((s j / 2 : ℕ) : ℝ) := by
  unfold center
  rcases Nat.mod_two_eq_zero_or_one (s j) with h | h
  · rcases hc with h3 | hc
    · rw [if_pos h3, if_pos h, Nat.cast_div (Nat.dvd_of_mod_eq_zero h) (by norm_num)]
      norm_num
    · exact absurd (hc j) (by omega)
  · have e : (((s j - 1) / 2 : ℕ) : ℝ) = ((s j : ℝ) - 1) / 2 := by
      rw [Nat.cast_div (by omega) (by norm_num), Nat.cast_sub (by omega)]
      norm_num
    have e' : s j / 2 = (s j - 1) / 2 := by omega
    rw [e', e]
    have : ¬ s j % 2 = 0 := by omega
    rw [if_neg this]
    simp

theorem kComp_back {S : Finset (Fin d)} {s : Fin d → ℕ} (hc : Centred s) (L : List ℝ) {i : Fin d → ℤ} (h : i ∈ box s) (j : Fin d) :
    (kComp s L j (back S s i) = kComp s L j i) ∨ (j ∈ S ∧ kComp s L j (back S s i) = -kComp s L j i) := by
  unfold kComp
  rw [center_eq hc]
  rcases back_cases S h j with ⟨_, e⟩ | ⟨h1, h2, e⟩ | ⟨_, _, h3, e⟩ | ⟨h1, h2, h3, e⟩
  · left; rw [e]
  · right
    refine ⟨h1, ?_⟩
    have : ((s j / 2 : ℕ) : ℝ) * 2 = s j - 1 := by
      have : s j / 2 * 2 + 1 = s j := by omega
      rw [eq_sub_iff_add_eq]
      exact_mod_cast this
    rw [e, ← neg_div]
    generalize ((s j / 2 : ℕ) : ℝ) = c at this ⊢
    push_cast
    congr 1
    linear_combination (2 * Real.pi) * (-this)
  · left; rw [e, h3]
  · right
    refine ⟨h1, ?_⟩
    have : ((s j / 2 : ℕ) : ℝ) * 2 = s j := by
      have : s j / 2 * 2 = s j := by omega
      exact_mod_cast this
    rw [e, ← neg_div]
    generalize ((s j / 2 : ℕ) : ℝ) = c at this ⊢
    push_cast
    congr 1
    linear_combination (2 * Real.pi) * (-this)

section
variable {S : Finset (Fin d)} {s : Fin d → ℕ}

theorem kComp_sq (hc : Centred s) (L : List ℝ) {i : Fin d → ℤ} (h : i ∈ box s) (j : Fin d) :
    kComp s L j (back S s i) ^ 2 = kComp s L j i ^ 2 := by
  rcases kComp_back (S := S) hc L h j with e | ⟨-, e⟩ <;> rw [e]
  ring

theorem kMag_back (hd : d ≠ 1) (hc : Centred s) (L : List ℝ) {i : Fin d → ℤ} (h : i ∈ box s) :
    kMag s L (back S s i) = kMag s L i := by
  unfold kMag
  rw [if_neg hd, if_neg hd]
  simp only [kComp_sq hc L h]

theorem card_back (p q : (Fin d → ℤ) → Prop) [DecidablePred p] [DecidablePred q] (hp : ∀ i ∈ box s, q i ↔ p (back S s i)) :
    ((box s).filter q).card = ((box s).filter p).card := by
  refine Finset.card_nbij' (back S s) (back S s) (fun i hi => ?_) (fun i hi => ?_) (fun i hi => ?_) fun i hi => ?_
  all_goals simp only [Finset.coe_filter, Set.mem_setOf_eq] at hi ⊢
  · exact ⟨back_mem hi.1, (hp i hi.1).1 hi.2⟩
  · exact ⟨back_mem hi.1, (hp _ (back_mem hi.1)).2 (by rw [back_back hi.1]; exact hi.2)⟩
  · exact back_back hi.1
  · exact back_back hi.1

theorem sum_back (p q : (Fin d → ℤ) → Prop) [DecidablePred p] [DecidablePred q] (hp : ∀ i ∈ box s, q i ↔ p (back S s i))
    (f g : (Fin d → ℤ) → ℝ) (hf : ∀ i ∈ box s, g i = f (back S s i)) :
    ∑ i ∈ (box s).filter q, g i = ∑ i ∈ (box s).filter p, f i := by
  refine Finset.sum_nbij' (back S s) (back S s) (fun i hi => ?_) (fun i hi => ?_) (fun i hi => ?_) (fun i hi => ?_) fun i hi => ?_
  all_goals simp only [Finset.mem_filter] at hi ⊢
  · exact ⟨back_mem hi.1, (hp i hi.1).1 hi.2⟩
  · exact ⟨back_mem hi.1, (hp _ (back_mem hi.1)).2 (by rw [back_back hi.1]; exact hi.2)⟩
  · exact back_back hi.1
  · exact back_back hi.1
  · exact hf i hi.1

theorem average_back (k v v' : (Fin d → ℤ) → ℝ) (hk : ∀ i ∈ box s, k (back S s i) = k i)
    (hv : ∀ i ∈ box s, v' i = v (back S s i)) (e : List ℝ) : average s k v' e = average s k v e := by
  classical
  funext b
  unfold average
  rw [sum_back (S := S) (fun i => inBin e b (k i)) (fun i => inBin e b (k i)) (fun i hi => by rw [hk i hi]) v v' hv]

end

/-- Opposite waves in one dimension. -/
theorem power_one {S : Finset (Fin 1)} {a b : Arr (Fin 1) ℝ} (h : Mirrored S a b) (hs : ∀ j, 0 < a.shape j) (L : List ℝ)
    (i : Fin 1 → ℤ) : (powerNd L b).val i = (powerNd L a).val i := by
  have hb : ∀ j, 0 < b.shape j := by rw [h.1]; exact hs
  simp only [powerNd, shift]
  rw [fftn_md _ hb, fftn_md _ hs, fftn_flip h hs, h.1]
  by_cases h0 : (0 : Fin 1) ∈ S
  · have e : ∀ k : Fin 1 → ℤ, neg S k = -k := by
      intro k
      funext j
      obtain rfl : j = 0 := Subsingleton.elim _ _
      simp [neg, h0]
    rw [e, fftn_neg, RCLike.norm_conj]
  · have e : ∀ k : Fin 1 → ℤ, neg S k = k := by
      intro k
      funext j
      obtain rfl : j = 0 := Subsingleton.elim _ _
      simp [neg, h0]
    rw [e]

/-! ## Theorems -/

/-- C256 for `power_spectrum_1d` of cubes, of lines, and of maps with odd numbers of cells. -/
theorem C256_partial (LB : ℝ) (S : Finset (Fin d)) (a b : Arr (Fin d) ℝ) (h : Mirrored S a b) (hs : ∀ j, 0 < a.shape j)
    (hc : d = 1 ∨ d = 3 ∨ ∀ j, a.shape j % 2 = 1) (dims : Dims) (kb : KBins) (bi : Binning) (bp : ℝ) :
    power1d LB b dims kb bi bp = power1d LB a dims kb bi bp := by
  classical
  unfold power1d
  rcases getDims LB d dims with e | L
  · rfl
  · simp only []
    unfold radialAverage
    have hsh : ∀ L, (powerNd L b).shape = a.shape := fun L => h.1
    have hsh' : ∀ L, (powerNd L a).shape = a.shape := fun L => rfl
    rw [hsh, hsh']
    by_cases hd : d = 1
    · subst hd
      have : (powerNd L b).val = (powerNd L a).val := funext fun i => power_one h hs L i
      rw [this]
    · have hc' : Centred a.shape := by
        rcases hc with h1 | h1
        · exact absurd h1 hd
        · exact h1
      simp only [average_back (S := S) (kMag a.shape _) (powerNd L a).val (powerNd L b).val
        (fun i hi => kMag_back hd hc' _ hi) (fun i _ => power_back h hs L i)]

/-- A map of 3×5 cells, read backwards along the second axis. -/
example : Mirrored {1} ⟨![3, 5], fun x => (x 0 : ℝ) + 10 * x 1⟩ ⟨![3, 5], fun x => (x 0 : ℝ) + 10 * (4 - x 1)⟩ ∧
    ∀ j : Fin 2, ![3, 5] j % 2 = 1 := by
  refine ⟨⟨rfl, fun x _ => ?_⟩, by decide⟩
  simp

section
variable {S : Finset (Fin 3)} {s : Fin 3 → ℕ} {los : Fin 3}

theorem muAt_back (L : List ℝ) (ab : Bool) (hab : ab = true ∨ los ∉ S) {i : Fin 3 → ℤ} (h : i ∈ box s) :
    muAt s L los ab (back S s i) = muAt s L los ab i := by
  have hc : Centred s := Or.inl rfl
  unfold muAt
  rw [kMag_back (by norm_num) hc L h]
  rcases kComp_back (S := S) hc L h los with e | ⟨hS, e⟩
  · rw [e]
  · rcases hab with rfl | hn
    · rw [e, neg_div, abs_neg]
      rfl
    · exact absurd hS hn

theorem nonzero_back {i : Fin 3 → ℤ} (h : i ∈ box s) : nonzeroIdx s los (back S s i) ↔ nonzeroIdx s los i := by
  have key : ∀ j, ((back S s i j : ℝ) = (s j : ℝ) / 2 ↔ (i j : ℝ) = (s j : ℝ) / 2) := by
    intro j
    have hj := (mem_box _ _).1 h j
    have e : ∀ z : ℤ, ((z : ℝ) = (s j : ℝ) / 2 ↔ 2 * z = s j) := by
      intro z
      rw [eq_div_iff (by norm_num), mul_comm]
      exact_mod_cast Iff.rfl
    rw [e, e]
    rcases back_cases S h j with ⟨_, e⟩ | ⟨h1, h2, e⟩ | ⟨_, _, h3, e⟩ | ⟨h1, h2, h3, e⟩ <;> omega
  unfold nonzeroIdx
  simp only [key]

theorem middle_back {i : Fin 3 → ℤ} (h : i ∈ box s) :
    (i = fun j => ((s j / 2 : ℕ) : ℤ)) ↔ back S s i = fun j => ((s j / 2 : ℕ) : ℤ) := by
  rw [funext_iff, funext_iff]
  refine forall_congr' fun j => ?_
  have hj := (mem_box _ _).1 h j
  rcases back_cases S h j with ⟨_, e⟩ | ⟨h1, h2, e⟩ | ⟨_, _, h3, e⟩ | ⟨h1, h2, h3, e⟩ <;> omega

theorem selected_back (L : List ℝ) (ab ex : Bool) (hab : ab = true ∨ los ∉ S) (em ek : List ℝ) (mb kb : ℕ) {i : Fin 3 → ℤ}
    (h : i ∈ box s) : selected s L los ab ex em ek mb kb i ↔ selected s L los ab ex em ek mb kb (back S s i) := by
  unfold selected
  rw [kMag_back (by norm_num) (Or.inl rfl) L h, muAt_back L ab hab h, nonzero_back h]

end

/-- C256 for `power_spectrum_mu`: every axis may be mirrored with absolute values of the cosine, and the axes across the line of sight
without. -/
theorem C256_mu (LB : ℝ) (S : Finset (Fin 3)) (a b : Arr (Fin 3) ℝ) (h : Mirrored S a b) (hs : ∀ j, 0 < a.shape j) (los : Fin 3)
    (mub : MuBins) (kb : KBins) (dims : Dims) (w : Weights) (ex ab : Bool) (hab : ab = true ∨ los ∉ S) :
    powerMu LB b ((los : ℕ) : ℤ) mub kb dims w ex ab = powerMu LB a ((los : ℕ) : ℤ) mub kb dims w ex ab := by
  classical
  unfold powerMu
  rcases getDims LB 3 dims with e | L
  · rfl
  · simp only []
    have hsh : (powerNd L b).shape = a.shape := h.1
    have hsh' : (powerNd L a).shape = a.shape := rfl
    have c : (⟨((los : ℕ) : ℤ).toNat, by have := los.2; omega⟩ : Fin 3) = los := by ext; simp
    have key : ∀ (M em ek : List ℝ) (mb : ℕ), muAverage (powerNd L b) M los ab ex em ek mb = muAverage (powerNd L a) M los ab ex em ek mb := by
      intro M em ek mb
      funext kb
      unfold muAverage
      simp only [hsh, hsh']
      rw [sum_back (S := S) (s := a.shape) _ _ (fun i hi => selected_back M ab ex hab em ek mb kb hi)]
      intro i hi
      rw [power_back h hs]
      by_cases hm : i = fun j => ((a.shape j / 2 : ℕ) : ℤ)
      · rw [if_pos hm, if_pos ((middle_back hi).1 hm)]
      · rw [if_neg hm, if_neg (mt (middle_back hi).2 hm)]
    unfold muBinning
    simp only [c, key, hsh, hsh']

/-- C256 for `power_spectrum_2d`. -/
theorem C256_cylinder (LB : ℝ) (S : Finset (Fin 3)) (a b : Arr (Fin 3) ℝ) (h : Mirrored S a b) (hs : ∀ j, 0 < a.shape j) (nu : ℤ)
    (kb : KBins2) (bi : Binning) (dims : Dims) : power2d LB b kb bi dims nu = power2d LB a kb bi dims nu := by
  classical
  unfold power2d
  rcases getDims LB 3 dims with e | L
  · rfl
  · simp only []
    have hc : Centred a.shape := Or.inl rfl
    have key : ∀ (M : List ℝ) (ax : Fin 3) (log : Bool) (e e' : List ℝ),
        cylinder (powerNd M b) M ax log e e' = cylinder (powerNd M a) M ax log e e' := by
      intro M ax log e e'
      have k1 : ∀ i ∈ box a.shape, kPar a.shape M ax (back S a.shape i) = kPar a.shape M ax i := by
        intro i hi
        unfold kPar
        rw [← sq_eq_sq_iff_abs_eq_abs]
        exact kComp_sq hc M hi ax
      have k2 : ∀ i ∈ box a.shape, kPerp a.shape M ax (back S a.shape i) = kPerp a.shape M ax i := by
        intro i hi
        unfold kPerp
        simp only [kComp_sq hc M hi]
      have hv : ∀ b₁, cylAverage (powerNd M b) M ax log e e' b₁ = cylAverage (powerNd M a) M ax log e e' b₁ := by
        intro b₁
        funext b₂
        unfold cylAverage
        have hsh : (powerNd M b).shape = a.shape := h.1
        have hsh' : (powerNd M a).shape = a.shape := rfl
        rw [hsh, hsh']
        rw [sum_back (S := S) (s := a.shape)
          (fun i => inBin2 e b₁ (coordinate log (kPerp a.shape M ax i)) ∧ inBin2 e' b₂ (coordinate log (kPar a.shape M ax i)))
          (fun i => inBin2 e b₁ (coordinate log (kPerp a.shape M ax i)) ∧ inBin2 e' b₂ (coordinate log (kPar a.shape M ax i)))
          (fun i hi => by rw [k1 i hi, k2 i hi]) (powerNd M a).val (powerNd M b).val (fun i _ => power_back h hs M i)]
      have hsh : (powerNd M b).shape = a.shape := h.1
      have hsh' : (powerNd M a).shape = a.shape := rfl
      unfold cylinder
      simp only [hv, hsh, hsh']
    simp only [key, h.1]

/-- A cube of 2×3×4 cells, mirrored along two axes but not along the line of sight. -/
example : Mirrored {0, 1} ⟨![2, 3, 4], fun x => (x 0 : ℝ) + 10 * x 1 + 100 * x 2⟩
    ⟨![2, 3, 4], fun x => (1 - x 0 : ℝ) + 10 * (2 - x 1) + 100 * x 2⟩ ∧ (2 : Fin 3) ∉ ({0, 1} : Finset (Fin 3)) := by
  refine ⟨⟨rfl, fun x _ => ?_⟩, by decide⟩
  simp

/-! ### Maps with even numbers of cells -/

/-- Two bright cells on a diagonal. -/
def pair : Arr (Fin 2) ℝ := ⟨fun _ => 4, fun x => if x = 0 ∨ x = 1 then 1 else 0⟩

/-- The same map read backwards along the first axis. -/
def other : Arr (Fin 2) ℝ := ⟨fun _ => 4, fun x => pair.val fun j => if j ∈ ({0} : Finset (Fin 2)) then 4 - 1 - x j else x j⟩

theorem mirrored_pair : Mirrored {0} pair other := ⟨rfl, fun _ _ => rfl⟩

theorem power_pair (k : Fin 2 → ℤ) :
    ‖fftn pair.shape (fun x => (pair.val x : ℂ)) k‖ ^ 2 = 2 + 2 * Real.cos (Real.pi / 2 * ((k 0 + k 1 : ℤ) : ℝ)) := by
  have e : fftn pair.shape (fun x => (pair.val x : ℂ)) k = 1 + exp (((-(Real.pi / 2 * ((k 0 + k 1 : ℤ) : ℝ)) : ℝ) : ℂ) * I) := by
    unfold fftn
    have h0 : (0 : Fin 2 → ℤ) ∈ box pair.shape := (mem_box _ _).2 fun j => by simp [pair]
    have h1 : (1 : Fin 2 → ℤ) ∈ box pair.shape := (mem_box _ _).2 fun j => by simp [pair]
    have hne : (0 : Fin 2 → ℤ) ≠ 1 := by
      intro h
      exact absurd (congrFun h 0) (by norm_num)
    rw [← Finset.sum_subset (s₁ := {0, 1}) (by
      intro x hx
      rcases Finset.mem_insert.1 hx with rfl | hx
      · exact h0
      · rw [Finset.mem_singleton.1 hx]; exact h1)]
    · rw [Finset.sum_pair hne]
      have v0 : pair.val 0 = 1 := by simp [pair]
      have v1 : pair.val 1 = 1 := by simp [pair]
      beta_reduce
      rw [v0, v1]
      congr 1
      · simp
      · rw [Complex.ofReal_one, one_mul]
        congr 1
        rw [Fin.sum_univ_two]
        simp only [pair, Pi.one_apply]
        push_cast
        ring
    · intro x _ hx
      have : pair.val x = 0 := by
        simp only [pair]
        rw [if_neg]
        rintro (rfl | rfl) <;> simp at hx
      beta_reduce
      rw [this]
      simp
  rw [e, exp_mul_I, ← normSq_eq_norm_sq, ← ofReal_cos, ← ofReal_sin, normSq_apply]
  simp only [add_re, one_re, ofReal_re, mul_re, I_re, mul_zero, ofReal_im, I_im, mul_one, sub_self, add_zero, add_im, one_im, mul_im,
    zero_add, Real.cos_neg, Real.sin_neg]
  have := Real.sin_sq_add_cos_sq (Real.pi / 2 * ((k 0 + k 1 : ℤ) : ℝ))
  nlinarith

theorem kMag_pair (i : Fin 2 → ℤ) : kMag pair.shape [1, 1] i = 2 * Real.pi * Real.sqrt (((i 0 : ℝ) - 3 / 2) ^ 2 + ((i 1 : ℝ) - 3 / 2) ^ 2) := by
  have hpi := Real.pi_pos
  have hc : ∀ j, kComp pair.shape [1, 1] j i = 2 * Real.pi * ((i j : ℝ) - 3 / 2) := by
    intro j
    unfold kComp
    have h : ([1, 1] : List ℝ).getD j 0 = 1 := by fin_cases j <;> rfl
    rw [h, div_one]
    norm_num [center, pair]
  unfold kMag
  rw [if_neg (by norm_num)]
  simp only [hc, Fin.sum_univ_two, mul_pow]
  rw [← mul_add, Real.sqrt_mul (by positivity)]
  congr 1
  rw [← mul_pow, Real.sqrt_sq (by positivity)]

theorem corners : (box pair.shape).filter (fun i => ∀ j, i j = 0 ∨ i j = 3) = {![0, 0], ![0, 3], ![3, 0], ![3, 3]} := by
  decide

open Classical in
theorem bin_pair : (box pair.shape).filter (fun i => inBin [4 * Real.pi, 6 * Real.pi] 0 (kMag pair.shape [1, 1] i)) =
    {![0, 0], ![0, 3], ![3, 0], ![3, 3]} := by
  have hpi := Real.pi_pos
  rw [← corners]
  refine Finset.filter_congr fun i hi => ?_
  rw [kMag_pair]
  have h := (mem_box _ _).1 hi
  have h0 : 0 ≤ i 0 ∧ i 0 < 4 := h 0
  have h1 : 0 ≤ i 1 ∧ i 1 < 4 := h 1
  have hr : ∀ r : ℝ, 0 ≤ r → (inBin [4 * Real.pi, 6 * Real.pi] 0 (2 * Real.pi * Real.sqrt r) ↔ 4 ≤ r ∧ r ≤ 9) := by
    intro r hr
    unfold inBin
    simp only [List.getD_cons_zero, List.getD_cons_succ, List.length_cons, List.length_nil, zero_add, true_and]
    have e4 : 4 * Real.pi ≤ 2 * Real.pi * Real.sqrt r ↔ 4 ≤ r := by
      rw [show 4 * Real.pi = 2 * Real.pi * 2 by ring, mul_le_mul_iff_right₀ (by positivity), Real.le_sqrt (by norm_num)]
      · norm_num
      all_goals exact hr
    have e9 : (2 * Real.pi * Real.sqrt r < 6 * Real.pi ∨ 2 * Real.pi * Real.sqrt r = 6 * Real.pi) ↔ r ≤ 9 := by
      rw [← le_iff_lt_or_eq, show 6 * Real.pi = 2 * Real.pi * 3 by ring, mul_le_mul_iff_right₀ (by positivity),
        Real.sqrt_le_left (by norm_num)]
      norm_num
    rw [e4, e9]
  rw [hr _ (by positivity), Fin.forall_fin_two]
  have c0 : i 0 = 0 ∨ i 0 = 1 ∨ i 0 = 2 ∨ i 0 = 3 := by omega
  have c1 : i 1 = 0 ∨ i 1 = 1 ∨ i 1 = 2 ∨ i 1 = 3 := by omega
  rcases c0 with e0 | e0 | e0 | e0 <;> rcases c1 with e1 | e1 | e1 | e1 <;> rw [e0, e1] <;> norm_num

theorem power_at (i : Fin 2 → ℤ) : (powerNd [1, 1] pair).val i =
    (2 + 2 * Real.cos (Real.pi / 2 * ((i 0 + i 1 - 4 : ℤ) : ℝ))) * scale pair.shape [1, 1] := by
  simp only [powerNd, shift]
  rw [fftn_md _ (fun j => by simp [pair]), power_pair]
  have : (i 0 - ((pair.shape 0 / 2 : ℕ) : ℤ)) + (i 1 - ((pair.shape 1 / 2 : ℕ) : ℤ)) = i 0 + i 1 - 4 := by
    have e : ∀ j, ((pair.shape j / 2 : ℕ) : ℤ) = 2 := fun j => by simp [pair]
    rw [e, e]
    ring
  rw [this]

/-- C256 fails for maps with even numbers of cells: `_get_k` puts the wave numbers half a cell off, so a wave and its mirror image have
different wave numbers. -/
theorem C256_false : ¬ ∀ (LB : ℝ) (S : Finset (Fin 2)) (a b : Arr (Fin 2) ℝ), Mirrored S a b → (∀ j, 0 < a.shape j) →
    ∀ (dims : Dims) (kb : KBins) (bi : Binning) (bp : ℝ), power1d LB b dims kb bi bp = power1d LB a dims kb bi bp := by
  classical
  intro H
  have hpi := Real.pi_pos
  have h := H 1 {0} pair other mirrored_pair (fun j => by simp [pair]) (.list [1, 1]) (.array [4 * Real.pi, 6 * Real.pi]) .log 0
  have hpw : [4 * Real.pi, 6 * Real.pi].Pairwise (· ≤ ·) := by
    simp only [List.pairwise_cons, List.mem_singleton, forall_eq, List.not_mem_nil, false_imp_iff, implies_true, List.Pairwise.nil, and_true]
    linarith
  have e : ∀ a : Arr (Fin 2) ℝ, power1d 1 a (.list [1, 1]) (.array [4 * Real.pi, 6 * Real.pi]) .log 0 = .ok
      { data := (List.range 1).map (average a.shape (kMag a.shape [1, 1]) (powerNd [1, 1] a).val [4 * Real.pi, 6 * Real.pi])
        bins := centres [4 * Real.pi, 6 * Real.pi]
        modes := (List.range 1).map (nModes a.shape (kMag a.shape [1, 1]) [4 * Real.pi, 6 * Real.pi]) } := by
    intro a
    unfold power1d radialAverage
    simp only [getDims, getK, boxOf, getKbins]
    rw [if_pos (by norm_num)]
    simp only [List.length_cons, List.length_nil, if_true, zero_add, Nat.reduceAdd, le_refl]
    rw [if_pos hpw]
    rfl
  rw [e, e] at h
  have h2 := congrArg (fun r : Except Err Radial => match r with | .ok r => r.data | .error _ => []) h
  simp only [List.range_one, List.map_cons, List.map_nil, List.cons.injEq, and_true] at h2
  have hsh : other.shape = pair.shape := rfl
  rw [hsh] at h2
  have hn : nModes pair.shape (kMag pair.shape [1, 1]) [4 * Real.pi, 6 * Real.pi] 0 = 4 := by
    unfold nModes
    rw [bin_pair]
    decide
  unfold average at h2
  rw [hn, if_neg (by norm_num), if_neg (by norm_num), bin_pair, Option.some.injEq, div_left_inj' (by norm_num)] at h2
  have hne : ∀ f : (Fin 2 → ℤ) → ℝ, ∑ i ∈ ({![0, 0], ![0, 3], ![3, 0], ![3, 3]} : Finset (Fin 2 → ℤ)), f i =
      f ![0, 0] + f ![0, 3] + f ![3, 0] + f ![3, 3] := by
    intro f
    rw [Finset.sum_insert (by decide), Finset.sum_insert (by decide), Finset.sum_insert (by decide), Finset.sum_singleton]
    ring
  have hs : scale pair.shape [1, 1] = 1 / 256 := by
    simp [scale, pair]
    norm_num
  have hb : ∀ i, (powerNd [1, 1] other).val i = (powerNd [1, 1] pair).val (back {0} pair.shape i) :=
    fun i => power_back mirrored_pair (fun j => by simp [pair]) [1, 1] i
  have b1 : back {0} pair.shape ![0, 0] = ![0, 0] := by decide
  have b2 : back {0} pair.shape ![0, 3] = ![0, 3] := by decide
  have b3 : back {0} pair.shape ![3, 0] = ![1, 0] := by decide
  have b4 : back {0} pair.shape ![3, 3] = ![1, 3] := by decide
  rw [hne, hne, hb, hb, hb, hb, b1, b2, b3, b4] at h2
  simp only [power_at, hs] at h2
  simp at h2
  have c2 : Real.cos (Real.pi / 2 * 2) = -1 := by rw [show Real.pi / 2 * 2 = Real.pi by ring, Real.cos_pi]
  have c1 : Real.cos (Real.pi / 2) = 0 := Real.cos_pi_div_two
  have c3 : Real.cos (Real.pi / 2 * 3) = 0 := by
    rw [show Real.pi / 2 * 3 = Real.pi / 2 + Real.pi by ring, Real.cos_add_pi, c1, neg_zero]
  norm_num [c1, c2, c3] at h2

end Verif.MirroredSpectra
