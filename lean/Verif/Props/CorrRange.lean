import Verif.Props.Correlation
import Mathlib.Analysis.SpecialFunctions.Trigonometric.Bounds
/-!
# C266: the correlation function of a power spectrum
-/

namespace Verif.CorrRange
open Verif.Correlation Verif.PowerSpectrum

/-! ## Specification -/

/-- The measured points of a spectrum: the bins with a value. -/
def Measured (ks : List ℝ) (ps : List (Option ℝ)) : List (ℝ × ℝ) := (ks.zip ps).filterMap fun kp => kp.2.map fun p => (kp.1, p)

/-! ## Lemmas -/

theorem resolve_array (r : List ℝ) (box : Option ℝ) (n : ℕ) (log : Bool) : (RBins.array r).resolve box n log = .ok r := rfl

theorem j0_abs (x : ℝ) : |j0 x| ≤ 1 := by
  unfold j0
  split
  · simp
  · rw [abs_div]
    exact div_le_one_of_le₀ Real.abs_sin_le_abs (abs_nonneg x)

theorem j0_zero : j0 0 = 1 := if_pos rfl

theorem integrand_abs (r : ℝ) (kp : ℝ × ℝ) (hp : 0 ≤ kp.2) : |integrand r kp| ≤ integrand 0 kp := by
  unfold integrand
  rw [mul_zero, j0_zero, mul_one, abs_mul]
  have h0 : 0 ≤ 4 * Real.pi * kp.1 ^ 2 * kp.2 := by have := Real.pi_pos; positivity
  rw [abs_of_nonneg h0]
  exact mul_le_of_le_one_right h0 (j0_abs _)

theorem transform_nil (r : ℝ) : transform [] r = 0 := by simp [transform]

theorem transform_one (p : ℝ × ℝ) (r : ℝ) : transform [p] r = 0 := by simp [transform]

/-- The integral at any distance is at most that at distance zero. -/
theorem transform_abs (l : List (ℝ × ℝ)) (hk : (l.map Prod.fst).Pairwise (· ≤ ·)) (hp : ∀ kp ∈ l, 0 ≤ kp.2) (r : ℝ) :
    |transform l r| ≤ transform l 0 := by
  induction l with
  | nil => simp [transform_nil]
  | cons p l ih =>
    cases l with
    | nil => simp [transform_one]
    | cons q l =>
      rw [transform_cons, transform_cons]
      have h1 := ih (List.pairwise_cons.mp hk).2 fun kp h => hp kp (List.mem_cons_of_mem _ h)
      have h2 : p.1 ≤ q.1 := (List.pairwise_cons.mp hk).1 q.1 (by simp)
      have hq := abs_le.mp (integrand_abs r q (hp q (by simp)))
      have hp' := abs_le.mp (integrand_abs r p (hp p (by simp)))
      have h3 := abs_le.mp h1
      have hd : 0 ≤ q.1 - p.1 := by linarith
      have ha := mul_le_mul_of_nonneg_left
        (show (integrand r q + integrand r p) / 2 ≤ (integrand 0 q + integrand 0 p) / 2 by linarith) hd
      have hb := mul_le_mul_of_nonneg_left
        (show -((integrand 0 q + integrand 0 p) / 2) ≤ (integrand r q + integrand r p) / 2 by linarith) hd
      rw [abs_le]
      constructor <;> linarith

theorem integrand_units {c : ℝ} (hc : c ≠ 0) (r : ℝ) (kp : ℝ × ℝ) :
    integrand (r / c) (c * kp.1, kp.2 / c ^ 3) = integrand r kp / c := by
  unfold integrand
  dsimp only
  rw [show c * kp.1 * (r / c) = kp.1 * r by field_simp]
  field_simp

theorem transform_units {c : ℝ} (hc : c ≠ 0) (l : List (ℝ × ℝ)) (r : ℝ) :
    transform (l.map fun kp => (c * kp.1, kp.2 / c ^ 3)) (r / c) = transform l r := by
  induction l with
  | nil => simp [transform_nil]
  | cons p l ih =>
    cases l with
    | nil => simp [transform_one]
    | cons q l =>
      rw [List.map_cons] at ih ⊢
      rw [List.map_cons, transform_cons, transform_cons, ih]
      rw [integrand_units hc, integrand_units hc]
      field_simp

theorem measured_fst (ks : List ℝ) (ps : List (Option ℝ)) : ((Measured ks ps).map Prod.fst).Sublist ks := by
  induction ks generalizing ps with
  | nil => simp [Measured]
  | cons k ks ih =>
    cases ps with
    | nil => simp [Measured]
    | cons p ps =>
      cases p with
      | none => exact (ih ps).trans (List.sublist_cons_self _ _)
      | some v => exact (ih ps).cons_cons k

theorem measured_snd (ks : List ℝ) (ps : List (Option ℝ)) (h : ∀ p, some p ∈ ps → 0 ≤ p) : ∀ kp ∈ Measured ks ps, 0 ≤ kp.2 := by
  intro kp hkp
  obtain ⟨⟨k, o⟩, hm, he⟩ := List.mem_filterMap.mp hkp
  obtain ⟨p, rfl, rfl⟩ := Option.map_eq_some_iff.mp he
  exact h p (List.of_mem_zip hm).2

theorem measured_units (c : ℝ) (ks : List ℝ) (ps : List (Option ℝ)) :
    Measured (ks.map (c * ·)) (ps.map (·.map (· / c ^ 3))) = (Measured ks ps).map fun kp => (c * kp.1, kp.2 / c ^ 3) := by
  induction ks generalizing ps with
  | nil => simp [Measured]
  | cons k ks ih =>
    cases ps with
    | nil => simp [Measured]
    | cons p ps =>
      cases p with
      | none => exact ih ps
      | some v => exact congrArg _ (ih ps)

theorem measured_gap (ks ks' : List ℝ) (ps ps' : List (Option ℝ)) (k : ℝ) (h : ks.length = ps.length) :
    Measured (ks ++ k :: ks') (ps ++ none :: ps') = Measured (ks ++ ks') (ps ++ ps') := by
  unfold Measured
  rw [List.zip_append h, List.zip_append h, List.filterMap_append, List.filterMap_append]
  rfl

/-! ## Properties -/

/-- **C266, range.** For increasing wave numbers and powers which are not negative, the correlation at no distance
exceeds that at distance zero, in absolute value. -/
theorem C266_range (ps : List (Option ℝ)) (ks rs : List ℝ) (box : Option ℝ) (n : ℕ) (log : Bool)
    (hl : ps.length = ks.length) (hk : ks.Pairwise (· ≤ ·)) (hp : ∀ p, some p ∈ ps → 0 ≤ p) :
    ∃ xi x0, psToCorr ps ks (.array rs) box n log = .ok (xi, rs) ∧ psToCorr ps ks (.array [0]) box n log = .ok ([x0], [0]) ∧
      xi.length = rs.length ∧ ∀ x ∈ xi, |x| ≤ x0 := by
  refine ⟨_, _, C111_partial ps ks rs _ box n log hl (resolve_array rs box n log),
    C111_partial ps ks [0] _ box n log hl (resolve_array [0] box n log), by simp, fun x hx => ?_⟩
  obtain ⟨r, _, rfl⟩ := List.mem_map.mp hx
  beta_reduce
  rw [mul_zero]
  exact transform_abs (Measured ks ps) (hk.sublist (measured_fst ks ps)) (measured_snd ks ps hp) _

example := C266_range [some 3, none, some 1] [1, 2, 4] [0.5, 1, 2] none 1 false rfl
  (by simp only [List.pairwise_cons]; norm_num) (by simp)

/-- **C266, units.** In other units of length the correlation is the same. -/
theorem C266_units (ps : List (Option ℝ)) (ks rs : List ℝ) (box box' : Option ℝ) (n : ℕ) (log : Bool)
    (hl : ps.length = ks.length) (c : ℝ) (hc : c ≠ 0) :
    ∃ xi, psToCorr ps ks (.array rs) box n log = .ok (xi, rs) ∧
      psToCorr (ps.map (·.map (· / c ^ 3))) (ks.map (c * ·)) (.array (rs.map (· / c))) box' n log =
        .ok (xi, rs.map (· / c)) := by
  refine ⟨_, C111_partial ps ks rs _ box n log hl (resolve_array rs box n log), ?_⟩
  rw [C111_partial _ _ _ _ box' n log (by simpa using hl) (resolve_array (rs.map (· / c)) box' n log)]
  congr 2
  rw [List.map_map]
  refine List.map_congr_left fun r _ => ?_
  show transform (Measured (ks.map (c * ·)) (ps.map (·.map (· / c ^ 3)))) (Real.pi * (r / c)) = transform (Measured ks ps) _
  rw [measured_units, ← mul_div_assoc, transform_units hc]

example := C266_units [some 3, none, some 1] [1, 2, 4] [0.5, 1, 2] none (some 100) 1 false rfl 0.7 (by norm_num)

/-- **C266, gaps.** A bin without a value may as well be left out. -/
theorem C266_gap (ps ps' : List (Option ℝ)) (ks ks' rs : List ℝ) (k : ℝ) (box : Option ℝ) (n : ℕ) (log : Bool)
    (hl : ps.length = ks.length) (hl' : ps'.length = ks'.length) :
    ∃ xi, psToCorr (ps ++ none :: ps') (ks ++ k :: ks') (.array rs) box n log = .ok (xi, rs) ∧
      psToCorr (ps ++ ps') (ks ++ ks') (.array rs) box n log = .ok (xi, rs) := by
  refine ⟨_, C111_partial _ _ rs _ box n log (by simp [hl, hl']) (resolve_array rs box n log), ?_⟩
  rw [C111_partial _ _ rs _ box n log (by simp [hl, hl']) (resolve_array rs box n log)]
  congr 2
  refine List.map_congr_left fun r _ => ?_
  show transform (Measured _ _) _ = transform (Measured _ _) _
  rw [measured_gap ks ks' ps ps' k hl.symm]

example := C266_gap [some 3] [some 1, some 2] [1] [4, 5] [0.5, 1, 2] 2 none 1 false rfl rfl

end Verif.CorrRange
