import Verif.Model.RaySizes
import Mathlib.Tactic.Linarith
import Mathlib.Tactic.Ring
import Mathlib.Tactic.LinearCombination
import Mathlib.Algebra.BigOperators.Fin
import Mathlib.Tactic.NormNum
import Mathlib.Tactic.FieldSimp
import Mathlib.Tactic.Positivity
/-!
# Mean free paths: C36, C74
-/

namespace Verif.RaySizes

set_option linter.unusedSectionVars false

variable {ι : Type} [Fintype ι] [DecidableEq ι]

/-! ## Specification -/

/-- Position of a ray after `n` steps. -/
noncomputable def at_ (r : Ray ι) (n : ℕ) : ι → ℝ := r.pos + (n : ℝ) • r.dir

/-- The ray is inside the structure at steps `1, ..., n` and outside at step `n + 1`. -/
def Exits (inside : (ι → ℝ) → Bool) (n : ℕ) (r : Ray ι) : Prop :=
  (∀ j, 1 ≤ j → j ≤ n → inside (at_ r j) = true) ∧ inside (at_ r (n + 1)) = false

/-- The ray is inside the structure at all of the steps `1, ..., k`. -/
def Survives (inside : (ι → ℝ) → Bool) (k : ℕ) (r : Ray ι) : Prop := ∀ j, 1 ≤ j → j ≤ k → inside (at_ r j) = true

/-- Number of rays with a property. -/
noncomputable def number (p : Ray ι → Prop) (l : List (Ray ι)) : ℕ := by classical exact l.countP fun r => decide (p r)

/-! ## Proofs -/

lemma at_step (r : Ray ι) (n : ℕ) : at_ r.step n = at_ r (n + 1) := by
  simp only [at_, Ray.step]
  push_cast
  rw [add_smul, one_smul]
  abel

lemma at_one (r : Ray ι) : r.step.pos = at_ r 1 := by simp [at_, Ray.step]

lemma exits_zero (inside : (ι → ℝ) → Bool) (r : Ray ι) : Exits inside 0 r ↔ inside (at_ r 1) = false := by
  refine ⟨fun h => h.2, fun h => ⟨fun j h1 h2 => by omega, h⟩⟩

lemma exits_succ (inside : (ι → ℝ) → Bool) (n : ℕ) (r : Ray ι) :
    Exits inside (n + 1) r ↔ inside (at_ r 1) = true ∧ Exits inside n r.step := by
  simp only [Exits, at_step]
  constructor
  · intro h
    exact ⟨h.1 1 le_rfl (by omega), fun j h1 h2 => h.1 (j + 1) (by omega) (by omega), h.2⟩
  · intro h
    refine ⟨fun j h1 h2 => ?_, h.2.2⟩
    rcases Nat.lt_or_ge j 2 with hj | hj
    · obtain rfl : j = 1 := by omega
      exact h.1
    · obtain ⟨i, rfl⟩ : ∃ i, j = i + 1 := ⟨j - 1, by omega⟩
      exact h.2.1 i (by omega) (by omega)

lemma survives_succ (inside : (ι → ℝ) → Bool) (n : ℕ) (r : Ray ι) :
    Survives inside (n + 1) r ↔ inside (at_ r 1) = true ∧ Survives inside n r.step := by
  simp only [Survives, at_step]
  constructor
  · intro h
    exact ⟨h 1 le_rfl (by omega), fun j h1 h2 => h (j + 1) (by omega) (by omega)⟩
  · intro h j h1 h2
    rcases Nat.lt_or_ge j 2 with hj | hj
    · obtain rfl : j = 1 := by omega
      exact h.1
    · obtain ⟨i, rfl⟩ : ∃ i, j = i + 1 := ⟨j - 1, by omega⟩
      exact h.2 i (by omega) (by omega)

/-- Rays that pass the first step, with a property afterwards. -/
lemma number_valid (inside : (ι → ℝ) → Bool) (p q : Ray ι → Prop) (h : ∀ r, q r ↔ inside (at_ r 1) = true ∧ p r.step)
    (l : List (Ray ι)) : number p ((l.map Ray.step).filter fun r => inside r.pos) = number q l := by
  classical
  simp only [number]
  rw [List.countP_filter, List.countP_map]
  refine List.countP_congr fun r _ => ?_
  simp only [Function.comp, Bool.and_eq_true, decide_eq_true_iff, at_one, h]
  tauto

lemma valid_length (inside : (ι → ℝ) → Bool) (l : List (Ray ι)) :
    ((l.map Ray.step).filter fun r => inside r.pos).length = number (fun r => inside (at_ r 1) = true) l := by
  classical
  rw [← number_valid inside (fun _ => True) _ (by simp)]
  simp [number]

lemma number_add (inside : (ι → ℝ) → Bool) (l : List (Ray ι)) :
    number (fun r => inside (at_ r 1) = true) l + number (fun r => inside (at_ r 1) = false) l = l.length := by
  classical
  simp only [number]
  rw [List.length_eq_countP_add_countP (fun r => decide (inside (at_ r 1) = true)) (l := l)]
  congr 1 <;> exact List.countP_congr fun r _ => by simp

/-- **C36**: bin `n` counts the rays whose first step outside the structure is step `n + 1`. -/
theorem C36_bins (inside : (ι → ℝ) → Bool) (k : ℕ) (l : List (Ray ι)) : (rayLoop inside k l).length = k ∧
    ∀ n < k, (rayLoop inside k l)[n]? = some (number (Exits inside n) l) := by
  induction k generalizing l with
  | zero => exact ⟨rfl, fun n h => by omega⟩
  | succ k ih =>
    simp only [rayLoop]
    refine ⟨?_, fun n hn => ?_⟩
    · split
      · simp
      · simp [(ih _).1]
    · match n with
      | 0 =>
        rw [List.getElem?_cons_zero, List.length_map, valid_length]
        have := number_add inside l
        congr 1
        rw [show number (Exits inside 0) l = number (fun r => inside (at_ r 1) = false) l by
          congr 1; funext r; exact propext (exits_zero inside r)]
        omega
      | n + 1 =>
        rw [List.getElem?_cons_succ]
        split
        · rename_i h0
          rw [List.getElem?_replicate, if_pos (by omega), ← number_valid inside _ _ (exits_succ inside n)]
          rw [List.length_eq_zero_iff] at h0
          rw [h0]
          rfl
        · rw [(ih _).2 n (by omega), number_valid inside _ _ (exits_succ inside n)]

/-- **C36**: counts and rays still inside after the last step add up to the number of rays. -/
theorem C36_total (inside : (ι → ℝ) → Bool) (k : ℕ) (l : List (Ray ι)) :
    (rayLoop inside k l).sum + number (Survives inside k) l = l.length := by
  induction k generalizing l with
  | zero =>
    classical
    have : number (Survives inside 0) l = l.length := by
      simp only [number]
      rw [List.countP_eq_length]
      intro r _
      exact decide_eq_true fun j h1 h2 => by omega
    simp [rayLoop, this]
  | succ k ih =>
    simp only [rayLoop]
    have h1 := number_add inside l
    have h2 := valid_length inside l
    have h3 := ih ((l.map Ray.step).filter fun r => inside r.pos)
    rw [number_valid inside _ _ (survives_succ inside k)] at h3
    rw [List.sum_cons, List.length_map]
    split
    · rename_i h0
      rw [List.sum_replicate]
      simp only [smul_zero]
      omega
    · omega

/-- A ray through two ionised cells of a line. -/
example : Exits (fun x : Unit → ℝ => decide (x () ≤ 2)) 2 ⟨fun _ => 0, fun _ => 1⟩ := by
  refine ⟨fun j h1 h2 => ?_, ?_⟩
  · have : (j : ℝ) ≤ 2 := by exact_mod_cast h2
    exact decide_eq_true (by simpa [at_] using this)
  · exact decide_eq_false (by simp [at_]; norm_num)

lemma interp_outside (shape : ι → ℕ) (ar : (ι → ℤ) → ℝ) (x : ι → ℝ) (h : ¬ ∀ i, 0 ≤ x i ∧ x i ≤ (shape i : ℝ) - 1) :
    inside shape ar x = false := by
  classical
  simp only [inside, interp, if_neg h]
  norm_num

/-- In two dimensions no ray survives: the number of steps exceeds the diagonal of the box. -/
lemma no_survivor (shape : Fin 2 → ℕ) (ar : (Fin 2 → ℤ) → ℝ) (c : Fin 2 → ℤ) (hc : ∀ i, 0 ≤ c i ∧ c i < shape i) (theta : ℕ) :
    ¬ Survives (inside shape ar) (longest2 shape) ⟨fun i => (c i : ℝ), dir2 theta⟩ := by
  intro hs
  set m := Finset.univ.sup shape with hm
  have hle : ∀ i, shape i ≤ m := fun i => Finset.le_sup (Finset.mem_univ i)
  have hm1 : 1 ≤ m := by have := hc 0; have := hle 0; omega
  have hm1' : (1 : ℝ) ≤ m := by exact_mod_cast hm1
  have h2 : Real.sqrt 2 ^ 2 = 2 := Real.sq_sqrt (by norm_num)
  have h2p : 1 < Real.sqrt 2 := by
    rw [Real.lt_sqrt (by norm_num)]
    norm_num
  have hk1 : 1 ≤ longest2 shape := by
    rw [longest2, ← hm, Nat.one_le_floor_iff]
    nlinarith
  have hk2 : Real.sqrt 2 * m < longest2 shape + 1 := Nat.lt_floor_add_one _
  have hin := hs (longest2 shape) hk1 le_rfl
  have hbox : ∀ i, 0 ≤ at_ ⟨fun i => (c i : ℝ), dir2 theta⟩ (longest2 shape) i ∧
      at_ ⟨fun i => (c i : ℝ), dir2 theta⟩ (longest2 shape) i ≤ (shape i : ℝ) - 1 := by
    by_contra hcon
    rw [interp_outside _ _ _ hcon] at hin
    cases hin
  set k : ℝ := (longest2 shape : ℝ)
  have hc' : ∀ i, (0 : ℝ) ≤ c i ∧ (c i : ℝ) ≤ (shape i : ℝ) - 1 := by
    intro i
    have h := hc i
    refine ⟨by exact_mod_cast h.1, ?_⟩
    have : c i + 1 ≤ (shape i : ℤ) := by omega
    have : (c i : ℝ) + 1 ≤ shape i := by exact_mod_cast this
    linarith
  have hsh : ∀ i, (shape i : ℝ) ≤ m := fun i => by exact_mod_cast hle i
  have hd : ∀ i, (k * dir2 theta i) ^ 2 ≤ ((m : ℝ) - 1) ^ 2 := by
    intro i
    have h := hbox i
    simp only [at_, Pi.add_apply, Pi.smul_apply, smul_eq_mul] at h
    have h' := hc' i
    have := hsh i
    apply sq_le_sq'
    · linarith [h.1]
    · linarith [h.2]
  have hunit : (dir2 theta 0) ^ 2 + (dir2 theta 1) ^ 2 = 1 := by
    simp only [dir2, Matrix.cons_val_zero, Matrix.cons_val_one]
    exact Real.sin_sq_add_cos_sq _
  have hk : k ^ 2 ≤ 2 * ((m : ℝ) - 1) ^ 2 := by
    have h0 := hd 0
    have h1 := hd 1
    have : k ^ 2 = (k * dir2 theta 0) ^ 2 + (k * dir2 theta 1) ^ 2 := by
      rw [mul_pow, mul_pow, ← mul_add, hunit, mul_one]
    linarith
  have hkk : k ≤ Real.sqrt 2 * ((m : ℝ) - 1) := by
    have hs : k ^ 2 ≤ (Real.sqrt 2 * ((m : ℝ) - 1)) ^ 2 := by
      rw [mul_pow, h2]
      exact hk
    exact (abs_le_of_sq_le_sq' hs (mul_nonneg (by linarith) (by linarith))).2
  nlinarith

/-- **C36 in two dimensions**: every ray from a cell of the box is counted, whatever the structure and the angles. -/
theorem C36_mfp2d (shape : Fin 2 → ℕ) (arr : (Fin 2 → ℤ) → ℝ) (xth : ℝ) (starts : List (Fin 2 → ℤ)) (thetas : List ℕ)
    (hs : ∀ c ∈ starts, ∀ i, 0 ≤ c i ∧ c i < shape i) (hlen : starts.length = thetas.length) :
    (mfp2d shape arr xth starts thetas).sum = starts.length := by
  classical
  have h := C36_total (inside shape (mask arr xth)) (longest2 shape) (rays dir2 starts thetas)
  have h0 : number (Survives (inside shape (mask arr xth)) (longest2 shape)) (rays dir2 starts thetas) = 0 := by
    simp only [number]
    rw [List.countP_eq_zero]
    intro r hr
    simp only [decide_eq_true_iff]
    simp only [rays, List.mem_iff_getElem, List.length_zipWith] at hr
    obtain ⟨j, hj, rfl⟩ := hr
    rw [List.getElem_zipWith]
    exact no_survivor _ _ _ (hs _ (List.getElem_mem _)) _
  rw [h0] at h
  simp only [rays, List.length_zipWith] at h
  rw [mfp2d, rays]
  omega

example : ∀ c ∈ ([fun _ => 1, fun _ => 2] : List (Fin 2 → ℤ)), ∀ i, 0 ≤ c i ∧ c i < ((fun _ => 3 : Fin 2 → ℕ) i : ℤ) := by
  intro c hc i
  simp only [List.mem_cons, List.not_mem_nil, or_false] at hc
  rcases hc with rfl | rfl <;> norm_num

lemma lower_spec (n : ℕ) (hn : 2 ≤ n) (t : ℝ) (h0 : 0 ≤ t) (h1 : t ≤ (n : ℝ) - 1) :
    (lower n t : ℝ) ≤ t ∧ t ≤ lower n t + 1 ∧ 0 ≤ lower n t ∧ lower n t + 1 < n := by
  have hf0 : (0 : ℤ) ≤ ⌊t⌋ := Int.floor_nonneg.2 h0
  have hf1 := Int.floor_le t
  have hf2 := Int.lt_floor_add_one t
  rw [lower]
  rcases le_total ⌊t⌋ ((n : ℤ) - 2) with h | h
  · rw [min_eq_left h, max_eq_right hf0]
    exact ⟨hf1, hf2.le, hf0, by omega⟩
  · rw [min_eq_right h, max_eq_right (by omega)]
    refine ⟨?_, ?_, by omega, by omega⟩
    · have : (((n : ℤ) - 2 : ℤ) : ℝ) ≤ ⌊t⌋ := by exact_mod_cast h
      linarith
    · push_cast
      linarith

lemma weights (a : ι → ℝ) : ∑ S : Finset ι, ∏ i, (if i ∈ S then a i else 1 - a i) = 1 := by
  have h := Fintype.prod_add a (fun i => 1 - a i)
  have h1 : ∏ i, (a i + (1 - a i)) = 1 := Finset.prod_eq_one fun i _ => by ring
  refine Eq.trans ?_ (h.symm.trans h1)
  refine Finset.sum_congr rfl fun S _ => ?_
  rw [Finset.prod_ite]
  congr 1
  · exact Finset.prod_congr (by ext; simp) fun _ _ => rfl
  · exact Finset.prod_congr (by ext; simp) fun _ _ => rfl

/-- The interpolated value where all cells closer than one cell along every axis have the same value. -/
lemma interp_const (shape : ι → ℕ) (hsh : ∀ i, 2 ≤ shape i) (x : ι → ℝ) (h : ∀ i, 0 ≤ x i ∧ x i ≤ (shape i : ℝ) - 1)
    (ar : (ι → ℤ) → ℝ) (v : ℝ) (hv : ∀ c : ι → ℤ, (∀ i, 0 ≤ c i ∧ c i < shape i) → (∀ i, |(c i : ℝ) - x i| < 1) → ar c = v) :
    interp shape ar x = v := by
  classical
  rw [interp, if_pos h]
  have key : ∀ S : Finset ι, (∏ i, if i ∈ S then x i - lower (shape i) (x i) else 1 - (x i - lower (shape i) (x i))) *
      (ar fun i => lower (shape i) (x i) + if i ∈ S then 1 else 0) =
      (∏ i, if i ∈ S then x i - lower (shape i) (x i) else 1 - (x i - lower (shape i) (x i))) * v := by
    intro S
    by_cases hz : ∃ i, (if i ∈ S then x i - lower (shape i) (x i) else 1 - (x i - lower (shape i) (x i))) = 0
    · obtain ⟨i, hi⟩ := hz
      rw [Finset.prod_eq_zero (Finset.mem_univ i) hi, zero_mul, zero_mul]
    · push Not at hz
      congr 1
      refine hv _ (fun i => ?_) fun i => ?_
      · obtain ⟨l1, l2, l3, l4⟩ := lower_spec (shape i) (hsh i) (x i) (h i).1 (h i).2
        split <;> omega
      · obtain ⟨l1, l2, l3, l4⟩ := lower_spec (shape i) (hsh i) (x i) (h i).1 (h i).2
        have hzi := hz i
        rw [abs_lt]
        split at hzi
        · rename_i hi
          rw [if_pos hi]
          push_cast
          have : (lower (shape i) (x i) : ℝ) < x i := lt_of_le_of_ne l1 fun he => hzi (by linarith)
          constructor <;> linarith
        · rename_i hi
          rw [if_neg hi]
          push_cast
          have : x i < lower (shape i) (x i) + 1 := lt_of_le_of_ne l2 fun he => hzi (by linarith)
          constructor <;> linarith
  rw [Finset.sum_congr rfl fun S _ => key S, ← Finset.sum_mul, weights, one_mul]

/-- **C36, the structure**: a ray is inside where the surrounding cells reach the threshold and outside where none of them does; at a cell
itself this is the comparison of its value with the threshold; directions are unit vectors. -/
theorem C36_structure (shape : ι → ℕ) (hsh : ∀ i, 2 ≤ shape i) (arr : (ι → ℤ) → ℝ) (xth : ℝ) :
    (∀ c : ι → ℤ, (∀ i, 0 ≤ c i ∧ c i < shape i) → (inside shape (mask arr xth) (fun i => (c i : ℝ)) = true ↔ arr c ≥ xth)) ∧
    (∀ x : ι → ℝ, (∀ i, 0 ≤ x i ∧ x i ≤ (shape i : ℝ) - 1) →
      ((∀ c : ι → ℤ, (∀ i, 0 ≤ c i ∧ c i < shape i) → (∀ i, |(c i : ℝ) - x i| < 1) → arr c ≥ xth) →
        inside shape (mask arr xth) x = true) ∧
      ((∀ c : ι → ℤ, (∀ i, 0 ≤ c i ∧ c i < shape i) → (∀ i, |(c i : ℝ) - x i| < 1) → arr c < xth) →
        inside shape (mask arr xth) x = false)) := by
  classical
  have hx : ∀ x : ι → ℝ, (∀ i, 0 ≤ x i ∧ x i ≤ (shape i : ℝ) - 1) →
      ((∀ c : ι → ℤ, (∀ i, 0 ≤ c i ∧ c i < shape i) → (∀ i, |(c i : ℝ) - x i| < 1) → arr c ≥ xth) →
        inside shape (mask arr xth) x = true) ∧
      ((∀ c : ι → ℤ, (∀ i, 0 ≤ c i ∧ c i < shape i) → (∀ i, |(c i : ℝ) - x i| < 1) → arr c < xth) →
        inside shape (mask arr xth) x = false) := by
    intro x hx
    constructor
    · intro h
      rw [inside, interp_const shape hsh x hx (mask arr xth) 1 fun c hc hcx => if_pos (h c hc hcx)]
      norm_num
    · intro h
      rw [inside, interp_const shape hsh x hx (mask arr xth) 0 fun c hc hcx => if_neg (not_le.2 (h c hc hcx))]
      norm_num
  refine ⟨fun c hc => ?_, hx⟩
  have hb : ∀ i, (0 : ℝ) ≤ c i ∧ (c i : ℝ) ≤ (shape i : ℝ) - 1 := by
    intro i
    have h := hc i
    refine ⟨by exact_mod_cast h.1, ?_⟩
    have h1 : c i + 1 ≤ (shape i : ℤ) := by omega
    have h2 : (c i : ℝ) + 1 ≤ shape i := by exact_mod_cast h1
    linarith
  have heq : ∀ d : ι → ℤ, (∀ i, |(d i : ℝ) - c i| < 1) → d = c := by
    intro d hd
    funext i
    have h := hd i
    rw [← Int.cast_sub, ← Int.cast_abs] at h
    have h' : |d i - c i| < 1 := by exact_mod_cast h
    have := abs_lt.1 h'
    omega
  constructor
  · intro h
    by_contra hlt
    rw [(hx _ hb).2 fun d _ hd => heq d hd ▸ not_le.1 hlt] at h
    cases h
  · intro h
    exact (hx _ hb).1 fun d _ hd => heq d hd ▸ h

/-- **C36, the directions** are unit vectors. -/
theorem C36_unit (theta : ℕ) (angles : ℕ × ℕ) : ∑ i, dir2 theta i ^ 2 = 1 ∧ ∑ i, dir3 angles i ^ 2 = 1 := by
  constructor
  · rw [Fin.sum_univ_two]
    simp only [dir2, Matrix.cons_val_zero, Matrix.cons_val_one]
    exact Real.sin_sq_add_cos_sq _
  · rw [Fin.sum_univ_three]
    simp only [dir3, Matrix.cons_val_zero, Matrix.cons_val_one, Matrix.cons_val]
    have h1 := Real.sin_sq_add_cos_sq (radians angles.1)
    have h2 := Real.sin_sq_add_cos_sq (radians angles.2)
    linear_combination h1 + Real.sin (radians angles.1) ^ 2 * h2

example : ∃ c : Fin 2 → ℤ, (∀ i, 0 ≤ c i ∧ c i < ((fun _ => 3 : Fin 2 → ℕ) i : ℤ)) ∧ (fun c : Fin 2 → ℤ => (c 0 : ℝ)) c ≥ 1 :=
  ⟨fun _ => 2, fun i => by norm_num, by norm_num⟩

lemma inside_ones (shape : ι → ℕ) (x : ι → ℝ) (h : ∀ i, 0 ≤ x i ∧ x i ≤ (shape i : ℝ) - 1) (ar : (ι → ℤ) → ℝ) (har : ∀ c, ar c = 1) :
    inside shape ar x = true := by
  classical
  simp only [inside, interp, if_pos h, har, mul_one, decide_eq_true_iff]
  rw [weights]
  norm_num

/-- **C36 is false in three dimensions as a distribution of all rays**: the number of steps is the longest side of the box, less than its diagonal.
In a fully ionised box of any size from 4 cells a ray from the corner at 45 degrees is counted in no bin. -/
theorem C36_false_3d (n : ℕ) (hn : 4 ≤ n) : mfp3d (fun _ => n) (fun _ => 1) (1 / 2) [fun _ => 0] [(45, 0)] = List.replicate n 0 := by
  classical
  have hl : longest3 (fun _ => n) = n := by
    rw [longest3, Finset.sup_const Finset.univ_nonempty]
  have hdir : dir3 (45, 0) = ![Real.sqrt 2 / 2, 0, Real.sqrt 2 / 2] := by
    have : radians 45 = Real.pi / 4 := by
      rw [radians]
      push_cast
      ring
    simp only [dir3, this]
    rw [show radians 0 = 0 by simp [radians], Real.sin_pi_div_four, Real.cos_pi_div_four, Real.sin_zero, Real.cos_zero]
    simp
  rw [mfp3d, hl]
  have h := C36_bins (inside (fun _ => n) (mask (fun _ => 1) (1 / 2))) n (rays dir3 [fun _ => 0] [(45, 0)])
  apply List.ext_getElem?
  intro k
  by_cases hk : k < n
  · rw [h.2 k hk, List.getElem?_replicate, if_pos hk]
    congr 1
    simp only [number]
    rw [List.countP_eq_zero]
    intro r hr
    simp only [rays, List.zipWith_cons_cons, List.zipWith_nil_left, List.mem_singleton] at hr
    subst hr
    simp only [decide_eq_true_iff]
    intro he
    have hbad := he.2
    rw [inside_ones] at hbad
    · cases hbad
    · intro i
      have hk' : (k : ℝ) + 1 ≤ n := by exact_mod_cast hk
      have hn' : (4 : ℝ) ≤ n := by exact_mod_cast hn
      have hs0 : 0 ≤ Real.sqrt 2 := Real.sqrt_nonneg 2
      have hs1 : Real.sqrt 2 ≤ 3 / 2 := by
        rw [Real.sqrt_le_left (by norm_num)]
        norm_num
      have hb : 0 ≤ ((k : ℝ) + 1) * (Real.sqrt 2 / 2) ∧ ((k : ℝ) + 1) * (Real.sqrt 2 / 2) ≤ (n : ℝ) - 1 := by
        refine ⟨by positivity, ?_⟩
        have : ((k : ℝ) + 1) * (Real.sqrt 2 / 2) ≤ n * (3 / 4) := by
          refine mul_le_mul hk' (by linarith) (by positivity) (by positivity)
        linarith
      simp only [at_, Pi.add_apply, Pi.smul_apply, smul_eq_mul, hdir]
      push_cast
      match i with
      | 0 => simpa using hb
      | 1 => simp; linarith
      | 2 => simpa using hb
    · intro c
      simp only [mask]
      norm_num
  · rw [List.getElem?_eq_none (by rw [h.1]; omega), List.getElem?_eq_none (by simp; omega)]

/-- **C36, the returned curve**: with a cell at the threshold, entry `n` of the curve is `n` times the fraction of the rays counted in bin `n`. -/
theorem C36_curve (trace : ((ι → ℤ) → ℝ) → List (ι → ℤ) → List ℕ) (loc : ((ι → ℤ) → ℝ) → List (ι → ℤ)) (data : (ι → ℤ) → ℝ)
    (hne : loc data ≠ []) (iterations : ℕ) (draw : ℕ → ∀ high, List (Fin high)) :
    ∃ starts p, mfp trace loc data iterations draw = .ok p ∧ (∀ c ∈ starts, c ∈ loc data) ∧
      starts.length = (draw iterations (loc data).length).length ∧ p.length = (trace data starts).length ∧
      ∀ n c : ℕ, (trace data starts)[n]? = some c → p[n]? = some ((n : ℝ) * ((c : ℝ) / iterations)) := by
  have h0 : (loc data).length ≠ 0 := fun h => hne (List.length_eq_zero_iff.1 h)
  refine ⟨(draw iterations (loc data).length).map fun k => (loc data).get k,
    ((trace data ((draw iterations (loc data).length).map fun k => (loc data).get k)).map fun (c : ℕ) =>
      (c : ℝ) / iterations).zipIdx.map fun p => (p.2 : ℝ) * p.1, ?_, ?_, by simp, by simp, ?_⟩
  · have hd : (if (loc data).length = 0 then (fun _ => 1 : (ι → ℤ) → ℝ) else data) = data := if_neg h0
    simp only [mfp, h0, if_false]
    rw [hd]
  · intro c hc
    obtain ⟨k, -, rfl⟩ := List.mem_map.1 hc
    exact List.get_mem _ _
  · intro n c hc
    rw [List.getElem?_map, List.getElem?_zipIdx, List.getElem?_map, hc]
    simp

/-! ## C74: data without a region of interest -/

/-- **C74, partial** (threshold at most 1): when no cell reaches the threshold, the size distribution is returned and is zero everywhere. -/
theorem C74_no_roi_partial (trace : ((ι → ℤ) → ℝ) → List (ι → ℤ) → List ℕ) (loc : ((ι → ℤ) → ℝ) → List (ι → ℤ)) (shape : ι → ℕ) (xth : ℝ)
    (hloc : ∀ d c, c ∈ loc d ↔ (∀ i, 0 ≤ c i ∧ c i < shape i) ∧ d c ≥ xth) (data : (ι → ℤ) → ℝ)
    (hno : ∀ c : ι → ℤ, (∀ i, 0 ≤ c i ∧ c i < (shape i : ℤ)) → data c < xth) (hs : ∀ i, 0 < shape i) (hx : xth ≤ 1) (iterations : ℕ)
    (draw : ℕ → ∀ high, List (Fin high)) : ∃ p, mfp trace loc data iterations draw = .ok p ∧ ∀ v ∈ p, v = 0 := by
  have h0 : (loc data).length = 0 := by
    rw [List.length_eq_zero_iff, List.eq_nil_iff_forall_not_mem]
    intro c hc
    have := (hloc data c).1 hc
    have := hno c this.1
    linarith [this, ((hloc data c).1 hc).2]
  have h1 : (loc fun _ => 1).length ≠ 0 := by
    have : (fun _ => (0 : ℤ)) ∈ loc fun _ => 1 := (hloc _ _).2 ⟨fun i => ⟨le_rfl, by exact_mod_cast hs i⟩, hx⟩
    exact fun h => List.ne_nil_of_mem this (List.length_eq_zero_iff.1 h)
  simp only [mfp, h0, if_true]
  rw [if_neg h1]
  refine ⟨_, rfl, fun v hv => ?_⟩
  obtain ⟨q, hq, rfl⟩ := List.mem_map.1 hv
  obtain ⟨_, -, hz⟩ := List.mem_map.1 (List.fst_mem_of_mem_zipIdx hq)
  rw [← hz, mul_zero]

/-- **C74 is false for thresholds above 1** (brightness temperatures, for instance): without a cell at the threshold the data are replaced by
ones, which do not reach it either, and the draw of the start cells raises. -/
theorem C74_false (trace : ((ι → ℤ) → ℝ) → List (ι → ℤ) → List ℕ) (loc : ((ι → ℤ) → ℝ) → List (ι → ℤ)) (shape : ι → ℕ) (xth : ℝ)
    (hloc : ∀ d c, c ∈ loc d ↔ (∀ i, 0 ≤ c i ∧ c i < shape i) ∧ d c ≥ xth) (data : (ι → ℤ) → ℝ)
    (hno : ∀ c : ι → ℤ, (∀ i, 0 ≤ c i ∧ c i < (shape i : ℤ)) → data c < xth) (hx : 1 < xth) (iterations : ℕ)
    (draw : ℕ → ∀ high, List (Fin high)) : mfp trace loc data iterations draw = .error .emptyRange := by
  have hz : ∀ d : (ι → ℤ) → ℝ, (∀ c : ι → ℤ, (∀ i, 0 ≤ c i ∧ c i < (shape i : ℤ)) → d c < xth) → (loc d).length = 0 := by
    intro d hd
    rw [List.length_eq_zero_iff, List.eq_nil_iff_forall_not_mem]
    intro c hc
    have h1 := (hloc d c).1 hc
    linarith [hd c h1.1, h1.2]
  simp only [mfp, hz data hno, if_true]
  rw [if_pos (hz _ fun _ _ => hx)]

/-- A box of one cell below the threshold. -/
example : ∃ loc : ((Unit → ℤ) → ℝ) → List (Unit → ℤ), (∀ d c, c ∈ loc d ↔ (∀ i, 0 ≤ c i ∧ c i < ((fun _ => 1 : Unit → ℕ) i : ℤ)) ∧ d c ≥ 5) ∧
    ∀ c : Unit → ℤ, (fun _ => (2 : ℝ)) c < 5 := by
  classical
  refine ⟨fun d => if d (fun _ => 0) ≥ 5 then [fun _ => 0] else [], fun d c => ?_, fun c => by norm_num⟩
  have hc : (∀ i, 0 ≤ c i ∧ c i < ((fun _ => 1 : Unit → ℕ) i : ℤ)) ↔ c = fun _ => 0 := by
    constructor
    · intro h
      funext i
      have := h i
      push_cast at this
      omega
    · rintro rfl i
      norm_num
  rw [hc]
  beta_reduce
  constructor
  · intro h
    split at h
    · obtain rfl := List.mem_singleton.1 h
      exact ⟨rfl, ‹_›⟩
    · simp at h
  · rintro ⟨rfl, h⟩
    rw [if_pos h]
    simp

end Verif.RaySizes
