import Verif.Props.Quantiles
import Mathlib.Algebra.BigOperators.Group.Finset.Basic
import Mathlib.LinearAlgebra.Matrix.Determinant.Basic
import Mathlib.Algebra.BigOperators.Field
import Mathlib.Analysis.SpecialFunctions.Pow.Real

/-!
# Weights and repeated samples (C149), comparison with true values (C150)
-/

namespace Verif.Diagnostics

/-! ## C149 -/

/-- Every sample as often as its weight says. -/
def expanded {d : ℕ} (pts : List (Fin d → ℝ)) (k : List ℕ) : List (Fin d → ℝ) :=
  (pts.zip k).flatMap fun s => List.replicate s.2 s.1

theorem expanded_length {d : ℕ} {pts : List (Fin d → ℝ)} {k : List ℕ} (h : pts.length = k.length) :
    (expanded pts k).length = k.sum := by
  unfold expanded
  induction pts generalizing k with
  | nil =>
    have : k = [] := List.length_eq_zero_iff.1 (by simpa using h.symm)
    subst this; rfl
  | cons a pts ih =>
    cases k with
    | nil => simp at h
    | cons b k => simp only [List.zip_cons_cons, List.flatMap_cons, List.length_append, List.length_replicate,
        List.sum_cons, ih (by simpa using h)]

theorem wsum_expanded {d : ℕ} {pts : List (Fin d → ℝ)} {k : List ℕ} (h : pts.length = k.length)
    (f : (Fin d → ℝ) → ℝ) :
    ((expanded pts k).map f).sum = wsum pts (k.map fun (n : ℕ) => (n : ℝ)) f := by
  unfold expanded wsum
  induction pts generalizing k with
  | nil =>
    have : k = [] := List.length_eq_zero_iff.1 (by simpa using h.symm)
    subst this; rfl
  | cons a pts ih =>
    cases k with
    | nil => simp at h
    | cons b k =>
      have hl : pts.length = k.length := by simpa using h
      have hi := ih hl
      rw [List.map_cons, List.zip_cons_cons, List.zip_cons_cons, List.flatMap_cons, List.map_append, List.sum_append,
        List.map_cons, List.sum_cons, hi, List.map_replicate, List.sum_replicate, nsmul_eq_mul]

theorem cast_sum (k : List ℕ) : (k.map fun (n : ℕ) => (n : ℝ)).sum = ((k.sum : ℕ) : ℝ) := by
  induction k with
  | nil => simp
  | cons a k ih => rw [List.map_cons, List.sum_cons, List.sum_cons, ih, Nat.cast_add]

/-- A whole number as weight counts for the mean like that many samples; the covariance differs by a factor. -/
theorem C149_partial {d : ℕ} (hd : d ≠ 1) (srt : List ℝ → List ℕ) {pts : List (Fin d → ℝ)} {k : List ℕ}
    (hlen : pts.length = k.length) (hk : 2 ≤ k.sum) :
    ∃ m m', metrics srt none pts (k.map fun (n : ℕ) => (n : ℝ)) = .ok m ∧
      metrics srt none (expanded pts k) (List.replicate k.sum 1) = .ok m' ∧ m'.means = m.means ∧
      ∀ C, m.cov = some C → ∃ C', m'.cov = some C' ∧ ∀ p q,
        C' p q * (((k.sum : ℕ) : ℝ) ^ 2 - (k.sum : ℕ)) =
          C p q * (((k.sum : ℕ) : ℝ) ^ 2 - (k.map fun (n : ℕ) => (n : ℝ) ^ 2).sum) := by
  have hk' : (2 : ℝ) ≤ ((k.sum : ℕ) : ℝ) := by exact_mod_cast hk
  obtain ⟨m, hm, h1, -, -, -, h5⟩ := C147_partial hd srt (pts := pts) (w := k.map fun (n : ℕ) => (n : ℝ))
    (by simpa using hlen) (by
      intro x hx
      obtain ⟨n, -, rfl⟩ := List.mem_map.1 hx
      exact Nat.cast_nonneg n) (by rw [cast_sum]; linarith)
  obtain ⟨m', C', hm', hC', g1, g2⟩ := C147_equal hd srt (pts := expanded pts k) (c := 1)
    (by rw [expanded_length hlen]; exact hk) one_pos
  rw [expanded_length hlen] at hm'
  have hmeans : m'.means = m.means := by
    funext p
    rw [g1 p, h1 p, wsum_expanded hlen, expanded_length hlen, cast_sum]
  refine ⟨m, m', hm, hm', hmeans, fun C hC => ⟨C', hC', fun p q => ?_⟩⟩
  obtain ⟨s, -, hs⟩ := h5 C hC
  have h6 := (hs p).2.2 q
  rw [cast_sum, List.map_map] at h6
  rw [g2 p q, wsum_expanded hlen, expanded_length hlen, hmeans]
  have h7 : ((k.sum : ℕ) : ℝ) - 1 ≠ 0 := by intro h; linarith
  have h8 : (k.map fun (n : ℕ) => (n : ℝ) ^ 2).sum = (k.map ((fun x : ℝ => x ^ 2) ∘ fun (n : ℕ) => (n : ℝ))).sum := rfl
  rw [h8, h6]
  field_simp

/-- Two samples with the weight two have another sigma than the same four samples. -/
theorem C149_false (srt : List ℝ → List ℕ) :
    ∃ m m' : Metrics 2, metrics srt none [![0, 0], ![1, 1]] [2, 2] = .ok m ∧
      metrics srt none [![0, 0], ![0, 0], ![1, 1], ![1, 1]] [1, 1, 1, 1] = .ok m' ∧
      m.sigmas = some (fun _ => Real.sqrt (1 / 2)) ∧ m'.sigmas = some (fun _ => Real.sqrt (1 / 3)) := by
  obtain ⟨m, C, hm, hC, g1, g2⟩ := C147_equal (d := 2) (by norm_num) srt (pts := [![0, 0], ![1, 1]]) (c := 2)
    (by simp) (by norm_num)
  obtain ⟨m', C', hm', hC', g1', g2'⟩ := C147_equal (d := 2) (by norm_num) srt
    (pts := [![0, 0], ![0, 0], ![1, 1], ![1, 1]]) (c := 1) (by simp) (by norm_num)
  have s1 := (metrics_inv hm).2.2.2.2.2.2
  have s2 := (metrics_inv hm').2.2.2.2.2.2
  refine ⟨m, m', hm, hm', ?_, ?_⟩
  · rw [s1.1, ← s1.2.1, hC]
    simp only [Option.map_some, Option.some.injEq]
    funext p
    rw [g2, g1]
    match p with
    | 0 => norm_num
    | 1 => norm_num
  · rw [s2.1, ← s2.2.1, hC']
    simp only [Option.map_some, Option.some.injEq]
    funext p
    rw [g2', g1']
    match p with
    | 0 => norm_num
    | 1 => norm_num

/-- Weights 1 and 3: the mean of the four samples. -/
example : ∃ m m', metrics (fun _ => []) none [![0, 0], ![4, 8]] [1, 3] = .ok m ∧
    metrics (fun _ => []) none [![0, 0], ![4, 8], ![4, 8], ![4, 8]] [1, 1, 1, 1] = .ok m' ∧ m'.means = m.means := by
  obtain ⟨m, m', h1, h2, h3, -⟩ := C149_partial (d := 2) (by norm_num) (fun _ => []) (pts := [![0, 0], ![4, 8]])
    (k := [1, 3]) rfl (by norm_num)
  exact ⟨m, m', by simpa using h1, by simpa [expanded, List.replicate] using h2, h3⟩

/-! ## C150 -/

theorem metrics_some {d : ℕ} {srt : List ℝ → List ℕ} {tv : List ℝ} {pts : List (Fin d → ℝ)} {w : List ℝ} {m : Metrics d}
    (h : metrics srt none pts w = .ok m) :
    metrics srt (some tv) pts w =
      match truthMetrics m.means m.cov m.cis tv with
      | .error e => .error e
      | .ok t => .ok { m with truth := some t } := by
  classical
  unfold metrics at h ⊢
  simp only [] at h ⊢
  split_ifs at h with h1 h2 h3 h4 h5 h6
  rw [if_neg h1, if_neg h2, if_neg h3, if_neg h5, if_neg h6]
  simp only [Except.ok.injEq] at h
  subst h
  rfl

theorem metrics_of_some {d : ℕ} {srt : List ℝ → List ℕ} {tv : List ℝ} {pts : List (Fin d → ℝ)} {w : List ℝ}
    {m : Metrics d} (h : metrics srt (some tv) pts w = .ok m) :
    metrics srt none pts w = .ok { m with truth := none } ∧
      ∃ t, m.truth = some t ∧ truthMetrics m.means m.cov m.cis tv = .ok t := by
  classical
  unfold metrics at h ⊢
  simp only [] at h ⊢
  split_ifs at h with h1 h2 h3 h4 h5 h6
  rw [if_neg h1, if_neg h2, if_neg h3, if_neg h5, if_neg h6]
  split at h
  · exact absurd h (by simp)
  · rename_i t ht
    simp only [Except.ok.injEq] at h
    subst h
    exact ⟨rfl, t, rfl, ht⟩

theorem differences_enough {d : ℕ} (means : Fin d → ℝ) {tv : List ℝ} (hd : d ≤ tv.length) :
    differences means (tv.take d) = some fun p => means p - tv.getD p 0 := by
  unfold differences
  rw [if_pos (by simp [hd])]
  congr 1
  funext p
  rw [List.getD_eq_getElem _ _ (by simp; omega), List.getD_eq_getElem _ _ (by omega), List.getElem_take]

/-- With a true value for each parameter (more are ignored): the z score is the distance from the mean in sigmas, the root
mean square of the distances, and the distance of Mahalanobis solves the linear system with the covariance. -/
theorem C150_partial {d : ℕ} {srt : List ℝ → List ℕ} {tv : List ℝ} {pts : List (Fin d → ℝ)} {w : List ℝ}
    {m : Metrics d} (h : metrics srt none pts w = .ok m) (hd : d ≤ tv.length) :
    ∃ t, metrics srt (some tv) pts w = .ok { m with truth := some t } ∧
      (m.sigmas = none → (∀ p, t.z p = none) ∧ t.mahalanobis = none ∧ t.entropy = none) ∧
      (∀ s, m.sigmas = some s → ∀ p, 0 < s p → t.z p = some (|m.means p - tv.getD p 0| / s p)) ∧
      (0 < d → ∃ r, t.rmse = some r ∧ 0 ≤ r ∧ d * r ^ 2 = ∑ p, (m.means p - tv.getD p 0) ^ 2) ∧
      (∀ C, m.cov = some C →
        (t.mahalanobis = none ↔ C.det = 0) ∧
        ∀ y : Fin d → ℝ, C.det ≠ 0 → C.mulVec y = (fun p => m.means p - tv.getD p 0) →
          t.mahalanobis = some (Real.sqrt (∑ p, (m.means p - tv.getD p 0) * y p))) := by
  classical
  have hsig : m.sigmas = m.cov.map fun c p => Real.sqrt (c p p) := by
    obtain ⟨-, -, -, -, -, -, h1, h2, -⟩ := metrics_inv h
    rw [h1, h2]
  rw [metrics_some h]
  unfold truthMetrics
  simp only []
  rw [differences_enough m.means hd]
  simp only []
  refine ⟨_, rfl, ?_, ?_, ?_, ?_⟩
  · intro hs
    rw [hsig, Option.map_eq_none_iff] at hs
    rw [hs]
    exact ⟨fun _ => rfl, rfl, rfl⟩
  · intro s hs p hp
    rw [hsig, Option.map_eq_some_iff] at hs
    obtain ⟨c, hc, rfl⟩ := hs
    rw [hc]
    show (if Real.sqrt (c p p) = 0 then none else some _) = _
    rw [if_neg (ne_of_gt hp)]
  · intro h0
    rw [if_neg h0.ne']
    refine ⟨_, rfl, Real.sqrt_nonneg _, ?_⟩
    rw [Real.sq_sqrt (div_nonneg (Finset.sum_nonneg fun p _ => sq_nonneg _) (Nat.cast_nonneg _))]
    have : (d : ℝ) ≠ 0 := by exact_mod_cast h0.ne'
    field_simp
  · intro C hC
    rw [hC]
    constructor
    · show (if C.det = 0 then none else some _) = none ↔ _
      split_ifs with h0 <;> simp [h0]
    · intro y hdet hy
      show (if C.det = 0 then none else some _) = _
      rw [if_neg hdet]
      congr 2
      refine Finset.sum_congr rfl fun p _ => ?_
      have hinv : y p = ∑ q, C⁻¹ p q * (m.means q - tv.getD q 0) := by
        have h1 : C⁻¹.mulVec (C.mulVec y) = y := by
          rw [Matrix.mulVec_mulVec, Matrix.nonsing_inv_mul _ (isUnit_iff_ne_zero.2 hdet), Matrix.one_mulVec]
        rw [hy] at h1
        rw [← congrFun h1 p]
        rfl
      rw [hinv, Finset.mul_sum]
      refine Finset.sum_congr rfl fun q _ => ?_
      ring

theorem wsum_finset {d : ℕ} (pts : List (Fin d → ℝ)) (w : List ℝ) (F : Fin d → (Fin d → ℝ) → ℝ) (c : Fin d → ℝ) :
    wsum pts w (fun r => ∑ k, c k * F k r) = ∑ k, c k * wsum pts w (F k) := by
  unfold wsum
  induction pts generalizing w with
  | nil => simp
  | cons a pts ih =>
    cases w with
    | nil => simp
    | cons b w =>
      simp only [List.zip_cons_cons, List.map_cons, List.sum_cons, mul_add, Finset.sum_add_distrib]
      have := ih w
      simp only [] at this
      rw [this, Finset.mul_sum]
      congr 1
      refine Finset.sum_congr rfl fun k _ => ?_
      ring

theorem wsum_const {d : ℕ} {pts : List (Fin d → ℝ)} {w : List ℝ} (h : pts.length = w.length) (c : ℝ) :
    wsum pts w (fun _ => c) = c * w.sum := by
  unfold wsum
  induction pts generalizing w with
  | nil =>
    have : w = [] := List.length_eq_zero_iff.1 (by simpa using h.symm)
    subst this; simp
  | cons a pts ih =>
    cases w with
    | nil => simp at h
    | cons b w =>
      simp only [List.zip_cons_cons, List.map_cons, List.sum_cons, ih (w := w) (by simpa using h)]
      ring

theorem wsum_add {d : ℕ} (pts : List (Fin d → ℝ)) (w : List ℝ) (f g : (Fin d → ℝ) → ℝ) :
    wsum pts w (fun r => f r + g r) = wsum pts w f + wsum pts w g := by
  unfold wsum
  induction pts generalizing w with
  | nil => simp
  | cons a pts ih =>
    cases w with
    | nil => simp
    | cons b w => simp only [List.zip_cons_cons, List.map_cons, List.sum_cons, ih]; ring

theorem wsum_map {d : ℕ} (pts : List (Fin d → ℝ)) (w : List ℝ) (T : (Fin d → ℝ) → Fin d → ℝ) (f : (Fin d → ℝ) → ℝ) :
    wsum (pts.map T) w f = wsum pts w (fun r => f (T r)) := by
  unfold wsum
  induction pts generalizing w with
  | nil => simp
  | cons a pts ih =>
    cases w with
    | nil => simp
    | cons b w => simp only [List.map_cons, List.zip_cons_cons, List.sum_cons, ih]

/-- New parameters: an affine map of the old ones. -/
def affine {d : ℕ} (A : Matrix (Fin d) (Fin d) ℝ) (b r : Fin d → ℝ) : Fin d → ℝ := fun p => ∑ q, A p q * r q + b p

theorem cov_affine {d : ℕ} {pts : List (Fin d → ℝ)} {w : List ℝ} (hlen : pts.length = w.length) (h : w.sum ≠ 0)
    (A : Matrix (Fin d) (Fin d) ℝ) (b : Fin d → ℝ) :
    (∀ p, average (pts.map (affine A b)) (w.map (· / w.sum)) p =
      affine A b (average pts (w.map (· / w.sum))) p) ∧
    cov (pts.map (affine A b)) (w.map (· / w.sum)) =
      (cov pts (w.map (· / w.sum))).map fun C => A * C * A.transpose := by
  have hmean : ∀ p, wsum (pts.map (affine A b)) w (fun r => r p) / w.sum =
      affine A b (fun q => wsum pts w (fun r => r q) / w.sum) p := by
    intro p
    rw [wsum_map]
    unfold affine
    rw [wsum_add, wsum_finset pts w (fun k r => r k), wsum_const hlen, add_div, mul_div_cancel_right₀ _ h,
      Finset.sum_div]
    congr 1
    refine Finset.sum_congr rfl fun q _ => ?_
    ring
  constructor
  · intro p
    rw [average_spec h, hmean]
    unfold affine
    congr 1
    refine Finset.sum_congr rfl fun q _ => ?_
    rw [average_spec h]
  · rw [cov_spec h, cov_spec h]
    split_ifs with hc
    · rfl
    · simp only [Option.map_some]
      congr 1
      ext p q
      rw [Matrix.of_apply, hmean, hmean, wsum_map]
      set mu : Fin d → ℝ := fun q => wsum pts w (fun r => r q) / w.sum with hmu
      have e1 : (fun r : Fin d → ℝ => (affine A b r p - affine A b mu p) * (affine A b r q - affine A b mu q)) =
          fun r => ∑ k, A p k * ∑ l, A q l * ((r k - mu k) * (r l - mu l)) := by
        funext r
        have : ∀ p, affine A b r p - affine A b mu p = ∑ k, A p k * (r k - mu k) := by
          intro p
          unfold affine
          rw [add_sub_add_right_eq_sub, ← Finset.sum_sub_distrib]
          refine Finset.sum_congr rfl fun k _ => ?_
          ring
        rw [this, this, Finset.sum_mul]
        refine Finset.sum_congr rfl fun k _ => ?_
        rw [mul_assoc, Finset.mul_sum]
        congr 1
        refine Finset.sum_congr rfl fun l _ => ?_
        ring
      rw [e1, wsum_finset pts w (fun k r => ∑ l, A q l * ((r k - mu k) * (r l - mu l)))]
      simp only [wsum_finset]
      show _ = ∑ l, (∑ k, A p k * _) * A q l
      simp only [Finset.sum_mul, Finset.mul_sum, Finset.sum_div]
      rw [Finset.sum_comm]
      refine Finset.sum_congr rfl fun l _ => Finset.sum_congr rfl fun k _ => ?_
      rw [Matrix.of_apply]
      change _ = A p k * (wsum pts w (fun r => (r k - mu k) * (r l - mu l)) * w.sum / _) * A q l
      generalize wsum pts w (fun r => (r k - mu k) * (r l - mu l)) = S
      ring

theorem mahalanobis_affine {d : ℕ} {A C : Matrix (Fin d) (Fin d) ℝ} (hA : A.det ≠ 0) (x : Fin d → ℝ) :
    ∑ p, ∑ q, (∑ k, A p k * x k) * (A * C * A.transpose)⁻¹ p q * (∑ l, A q l * x l) =
      ∑ p, ∑ q, x p * C⁻¹ p q * x q := by
  have form : ∀ (M : Matrix (Fin d) (Fin d) ℝ) (y : Fin d → ℝ), ∑ p, ∑ q, y p * M p q * y q = dotProduct y (M.mulVec y) := by
    intro M y
    unfold dotProduct Matrix.mulVec dotProduct
    refine Finset.sum_congr rfl fun p _ => ?_
    rw [Finset.mul_sum]
    refine Finset.sum_congr rfl fun q _ => ?_
    ring
  rw [form, form]
  have hx : (fun p => ∑ k, A p k * x k) = A.mulVec x := rfl
  have hAT : A.transpose.det ≠ 0 := by rwa [Matrix.det_transpose]
  rw [hx, Matrix.mul_inv_rev, Matrix.mul_inv_rev, Matrix.mulVec_mulVec, Matrix.mul_assoc, Matrix.mul_assoc,
    Matrix.nonsing_inv_mul _ (isUnit_iff_ne_zero.2 hA), Matrix.mul_one, ← Matrix.vecMul_transpose,
    ← Matrix.dotProduct_mulVec, Matrix.mulVec_mulVec, ← Matrix.mul_assoc,
    Matrix.mul_nonsing_inv _ (isUnit_iff_ne_zero.2 hAT), Matrix.one_mul]

theorem getD_take {tv : List ℝ} {d : ℕ} (p : Fin d) (hd : d ≤ tv.length) : (tv.take d).getD p 0 = tv.getD p 0 := by
  rw [List.getD_eq_getElem _ _ (by simp; omega), List.getD_eq_getElem _ _ (by omega), List.getElem_take]

/-- The distance of Mahalanobis does not depend on the choice of the parameters, and the entropy changes by the logarithm of
the determinant: for parameters that are an invertible affine map of the old ones, and the true values mapped in the
same way. -/
theorem C150_affine {d : ℕ} {srt : List ℝ → List ℕ} {tv tv' : List ℝ} {pts : List (Fin d → ℝ)} {w : List ℝ}
    {m : Metrics d} (h : metrics srt (some tv) pts w = .ok m) (hd : d ≤ tv.length) (hd' : d ≤ tv'.length)
    {A : Matrix (Fin d) (Fin d) ℝ} (hA : A.det ≠ 0) {b : Fin d → ℝ}
    (htv : ∀ p : Fin d, tv'.getD p 0 = ∑ q : Fin d, A p q * tv.getD q 0 + b p) :
    ∃ m' t t', metrics srt (some tv') (pts.map fun r p => ∑ q, A p q * r q + b p) w = .ok m' ∧
      m.truth = some t ∧ m'.truth = some t' ∧
      (∀ p, m'.means p = ∑ q, A p q * m.means q + b p) ∧
      t'.mahalanobis = t.mahalanobis ∧
      (t.entropy = none → t'.entropy = none) ∧
      ∀ E, t.entropy = some E → t'.entropy = some (E + Real.log |A.det|) := by
  classical
  obtain ⟨h0, t, ht, htm⟩ := metrics_of_some h
  obtain ⟨hlen, hne, hsum, hw, hd1, hmeans, -, hcov, -⟩ := metrics_inv h
  have hT : (pts.map fun r p => ∑ q, A p q * r q + b p) = pts.map (affine A b) := rfl
  rw [hT]
  obtain ⟨ha, hc⟩ := cov_affine hlen hsum A b
  have hok : ∃ m', metrics srt none (pts.map (affine A b)) w = .ok m' := by
    unfold metrics
    simp only []
    rw [if_neg (by simpa using hlen), if_neg (by simpa using hne), if_neg hsum, if_neg, if_neg hd1]
    · exact ⟨_, rfl⟩
    · rintro ⟨x, hx, hx0⟩
      obtain ⟨y, hy, rfl⟩ := List.mem_map.1 hx
      exact absurd hx0 (not_lt.2 (hw y hy))
  obtain ⟨m', hm'⟩ := hok
  obtain ⟨-, -, -, -, -, hmeans', -, hcov', -⟩ := metrics_inv hm'
  have hdelta : ∀ p : Fin d, m'.means p - tv'.getD p 0 = ∑ q : Fin d, A p q * (m.means q - tv.getD q 0) := by
    intro p
    rw [hmeans', ha p, htv p, ← hmeans]
    unfold affine
    rw [add_sub_add_right_eq_sub, ← Finset.sum_sub_distrib]
    refine Finset.sum_congr rfl fun q _ => ?_
    ring
  have hcc : m'.cov = m.cov.map fun C => A * C * A.transpose := by rw [hcov', hc, hcov]
  unfold truthMetrics at htm
  simp only [] at htm
  rw [differences_enough m.means hd] at htm
  simp only [Except.ok.injEq] at htm
  rw [metrics_some hm']
  unfold truthMetrics
  simp only []
  rw [differences_enough m'.means hd']
  simp only []
  refine ⟨_, t, _, rfl, ht, rfl, ?_, ?_, ?_, ?_⟩
  · intro p
    show m'.means p = _
    rw [hmeans', ha p, hmeans]
    rfl
  · rw [← htm, hcc]
    cases hmc : m.cov with
    | none => rfl
    | some C =>
      show (if (A * C * A.transpose).det = 0 then none else some _) = (if C.det = 0 then none else some _)
      have hdet : (A * C * A.transpose).det = 0 ↔ C.det = 0 := by
        rw [Matrix.det_mul, Matrix.det_mul, Matrix.det_transpose]
        simp [hA]
      by_cases hC : C.det = 0
      · rw [if_pos (hdet.2 hC), if_pos hC]
      · rw [if_neg (fun hh => hC (hdet.1 hh)), if_neg hC]
        congr 2
        simp only [hdelta]
        exact mahalanobis_affine hA _
  · intro hE
    rw [← htm] at hE
    rw [hcc]
    cases hmc : m.cov with
    | none => rfl
    | some C =>
      rw [hmc] at hE
      change (if ((2 * Real.pi * Real.exp 1) • C).det ≤ 0 then none else some _) = none at hE
      split_ifs at hE with h1
      show (if ((2 * Real.pi * Real.exp 1) • (A * C * A.transpose)).det ≤ 0 then none else some _) = none
      rw [if_pos]
      rw [Matrix.det_smul] at h1 ⊢
      rw [Matrix.det_mul, Matrix.det_mul, Matrix.det_transpose]
      have : 0 ≤ A.det ^ 2 := sq_nonneg _
      nlinarith [mul_nonneg this (neg_nonneg.2 h1)]
  · intro E hE
    rw [← htm] at hE
    rw [hcc]
    cases hmc : m.cov with
    | none => rw [hmc] at hE; exact absurd hE (by simp)
    | some C =>
      rw [hmc] at hE
      change (if ((2 * Real.pi * Real.exp 1) • C).det ≤ 0 then none else some _) = some E at hE
      split_ifs at hE with h1
      have hE' := Option.some.inj hE
      show (if ((2 * Real.pi * Real.exp 1) • (A * C * A.transpose)).det ≤ 0 then none else some _) = some _
      have hdet : ((2 * Real.pi * Real.exp 1) • (A * C * A.transpose)).det =
          ((2 * Real.pi * Real.exp 1) • C).det * A.det ^ 2 := by
        rw [Matrix.det_smul, Matrix.det_smul, Matrix.det_mul, Matrix.det_mul, Matrix.det_transpose]
        ring
      have h2 : 0 < A.det ^ 2 := by positivity
      rw [if_neg (by rw [hdet]; exact not_le.2 (mul_pos (not_le.1 h1) h2)), hdet,
        Real.log_mul (not_le.1 h1).ne' h2.ne', ← hE', Real.log_abs, Real.log_pow]
      congr 1
      push_cast
      ring

/-- Fewer true values than parameters are refused, unless there is a single one. -/
theorem C150_raises {d : ℕ} {srt : List ℝ → List ℕ} {tv : List ℝ} {pts : List (Fin d → ℝ)} {w : List ℝ} {m : Metrics d}
    (h : metrics srt none pts w = .ok m) (hd : tv.length < d) (h1 : tv.length ≠ 1) :
    metrics srt (some tv) pts w = .error .value := by
  rw [metrics_some h]
  unfold truthMetrics differences
  simp only []
  rw [List.take_of_length_le hd.le, if_neg hd.ne, if_neg h1]

/-- A single true value is compared with all the parameters: the second parameter, which has no true value, has a z score. -/
theorem C150_false (srt : List ℝ → List ℕ) :
    ∃ (m : Metrics 2) (t : Truth 2), metrics srt (some [2]) [![1, 5], ![3, 9]] [1, 1] = .ok m ∧ m.truth = some t ∧
      t.pit.length = 1 ∧ t.rmse = some (Real.sqrt (25 / 2)) ∧ t.z 1 = some (5 / Real.sqrt 8) := by
  obtain ⟨m, C, hm, hC, g1, g2⟩ := C147_equal (d := 2) (by norm_num) srt (pts := [![1, 5], ![3, 9]]) (c := 1)
    (by simp) (by norm_num)
  have hm' : metrics srt none [![1, 5], ![3, 9]] [1, 1] = .ok m := hm
  have e0 : m.means 0 = 2 := by rw [g1]; norm_num
  have e1 : m.means 1 = 7 := by rw [g1]; norm_num
  have e2 : C 1 1 = 8 := by rw [g2, e1]; norm_num
  rw [metrics_some hm']
  unfold truthMetrics differences
  simp only []
  rw [if_neg (by simp), if_pos (by simp)]
  simp only []
  refine ⟨_, _, rfl, rfl, ?_, ?_, ?_⟩
  · simp [entries]
  · rw [if_neg (by norm_num)]
    simp [Fin.sum_univ_two, e0, e1]
    norm_num
  · rw [hC]
    simp only [Option.bind_some]
    rw [e2, e1, if_neg (by positivity)]
    norm_num

/-- Two parameters and three samples: the distance of the truth (1, 1), with a third true value that is ignored. -/
example : ∃ m t, metrics (fun _ => []) (some [1, 1, 4]) [![0, 0], ![2, 0], ![1, 3]] [1, 1, 1] = .ok m ∧
    m.truth = some t ∧ t.rmse = some 0 := by
  obtain ⟨m, C, hm, hC, g1, g2⟩ := C147_equal (d := 2) (by norm_num) (fun _ => [])
    (pts := [![0, 0], ![2, 0], ![1, 3]]) (c := 1) (by simp) (by norm_num)
  have hm' : metrics (fun _ => []) none [![0, 0], ![2, 0], ![1, 3]] [1, 1, 1] = .ok m := hm
  obtain ⟨t, ht, -, -, hr, -⟩ := C150_partial (tv := [1, 1, 4]) hm' (by simp)
  refine ⟨_, t, ht, rfl, ?_⟩
  obtain ⟨r, hr1, hr2, hr3⟩ := hr (by norm_num)
  rw [hr1]
  congr 1
  have e0 : m.means 0 = 1 := by rw [g1]; norm_num
  have e1 : m.means 1 = 1 := by rw [g1]; norm_num
  rw [Fin.sum_univ_two, e0, e1] at hr3
  norm_num at hr3
  exact hr3

end Verif.Diagnostics
