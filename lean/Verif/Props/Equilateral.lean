import Verif.Model.Equilateral
import Mathlib.Tactic.Linarith
import Mathlib.Tactic.NormNum
import Mathlib.Tactic.FieldSimp
import Mathlib.Tactic.Ring
import Mathlib.Tactic.Positivity
/-!
# Properties of `bispectrum_equilateral` (C164)
-/

namespace Verif.Equilateral

/-! ## Specification -/

/-- The third side of the triangle that closes two vectors of the lengths `a` and `b` with the angle `θ` between them. -/
noncomputable def thirdSide (a b θ : ℝ) : ℝ := Real.sqrt ((a + b * Real.cos θ) ^ 2 + (b * Real.sin θ) ^ 2)

/-- The fundamental mode of the box. -/
noncomputable def low (L : ℝ) : ℝ := 2 * Real.pi / L

/-- The largest mode of a grid with `side` cells. -/
noncomputable def high (L : ℝ) (side : ℕ) : ℝ := Real.pi * side / L

/-- The centre of bin `i` of `n` between `a` and `b`. -/
noncomputable def centre (a b : ℝ) (n i : ℕ) : ℝ := a + (b - a) * ((i + 1 / 2) / n)

/-! ## Lemmas -/

theorem high_eq (L : ℝ) (side : ℕ) : 2 * Real.pi / L * side / 2 = high L side := by
  unfold high
  ring

theorem centres_get (a b : ℝ) (n : ℕ) : (centres (linspace a b n)).length = n ∧
    ∀ i < n, (centres (linspace a b n))[i]? = some (centre a b n i) := by
  constructor
  · simp [centres, linspace]
  · intro i hi
    have h1 : i < n + 1 := by omega
    have hn : (n : ℝ) ≠ 0 := by
      have : n ≠ 0 := by omega
      exact_mod_cast this
    unfold centres linspace
    rw [List.getElem?_zipWith]
    simp [List.getElem?_tail, List.getElem?_map, List.getElem?_range, hi, h1]
    unfold centre
    field_simp
    ring

theorem centre_mono {a b : ℝ} (h : a < b) {n i j : ℕ} (hij : i < j) (hj : j < n) : centre a b n i < centre a b n j := by
  have hn : (0 : ℝ) < n := by exact_mod_cast (by omega : 0 < n)
  have : (i : ℝ) < j := by exact_mod_cast hij
  unfold centre
  have h2 : ((i : ℝ) + 1 / 2) / n < (j + 1 / 2) / n := by
    rw [div_lt_div_iff_of_pos_right hn]
    linarith
  nlinarith

theorem centre_mem {a b : ℝ} (h : a < b) {n i : ℕ} (hi : i < n) : a < centre a b n i ∧ centre a b n i < b := by
  have hn : (0 : ℝ) < n := by exact_mod_cast (by omega : 0 < n)
  have h1 : (i : ℝ) + 1 ≤ n := by exact_mod_cast hi
  unfold centre
  have h2 : 0 < ((i : ℝ) + 1 / 2) / n := by positivity
  have h3 : ((i : ℝ) + 1 / 2) / n < 1 := by
    rw [div_lt_one hn]
    linarith
  constructor <;> nlinarith

theorem fold_eq (pkl : ℝ → ℝ → ℝ → List ℝ → Bk) (L : ℝ) (ks : List ℝ) (o : Out) :
    ks.foldl (fun o k => append o (k1k2 pkl L k k [Real.pi / 3])) o =
      append o ⟨ks, ks, ks.flatMap fun k => (pkl L k k [Real.pi / 3]).k, ks.map fun _ => Real.pi / 3,
        ks.flatMap fun k => (pkl L k k [Real.pi / 3]).B, ks.flatMap fun k => (pkl L k k [Real.pi / 3]).Q,
        ks.flatMap fun k => (pkl L k k [Real.pi / 3]).Pk⟩ := by
  induction ks generalizing o with
  | nil => simp [append]
  | cons k ks ih =>
    rw [List.foldl_cons, ih]
    simp [append, k1k2]

/-! ## C164 -/

/-- **C164, partial**: the two sides `k1` and `k2` are equal; they are the centres of `n` bins between the fundamental mode and the
largest one, on the linear or the logarithmic scale, in increasing order; every one is measured once.  The full property: the third
side is as long as they are. -/
theorem C164_partial (pkl : ℝ → ℝ → ℝ → List ℝ → Bk) {side : ℕ} (hs : 3 ≤ side) (n : ℕ) {L : ℝ} (hL : 0 < L) (binning : Binning)
    (hb : binning ≠ .other) :
    ∃ o, equilateral pkl side n (some L) binning = .ok o ∧ o.k1 = o.k2 ∧ o.k1.length = n ∧
      (∀ i < n, ∃ k, o.k1[i]? = some k ∧ low L < k ∧ k < high L side ∧
        match binning with
        | .linear => k = centre (low L) (high L side) n i
        | _ => Real.logb 10 k = centre (Real.logb 10 (low L)) (Real.logb 10 (high L side)) n i) ∧
      (∀ (i j : ℕ) (a b : ℝ), i < j → o.k1[i]? = some a → o.k1[j]? = some b → a < b) ∧
      o.Bk = (o.k1.map fun k => (pkl L k k [Real.pi / 3]).B).flatten ∧ o.Qk = (o.k1.map fun k => (pkl L k k [Real.pi / 3]).Q).flatten ∧
      o.Pk = (o.k1.map fun k => (pkl L k k [Real.pi / 3]).Pk).flatten ∧ o.k3 = (o.k1.map fun k => (pkl L k k [Real.pi / 3]).k).flatten := by
  have hpi := Real.pi_pos
  have hlow : 0 < low L := by unfold low; positivity
  have hlt : low L < high L side := by
    unfold low high
    have : (3 : ℝ) ≤ side := by exact_mod_cast hs
    rw [div_lt_div_iff_of_pos_right hL]
    nlinarith
  have hhigh : 0 < high L side := hlow.trans hlt
  have hlog : Real.logb 10 (low L) < Real.logb 10 (high L side) := Real.logb_lt_logb (by norm_num) hlow hlt
  suffices main : ∃ ks, kbins side n L binning = .ok ks ∧ ks.length = n ∧
      (∀ i < n, ∃ k, ks[i]? = some k ∧ low L < k ∧ k < high L side ∧
        match binning with
        | .linear => k = centre (low L) (high L side) n i
        | _ => Real.logb 10 k = centre (Real.logb 10 (low L)) (Real.logb 10 (high L side)) n i) ∧
      (∀ (i j : ℕ) (a b : ℝ), i < j → ks[i]? = some a → ks[j]? = some b → a < b) by
    obtain ⟨ks, hk, hl, h1, h2⟩ := main
    refine ⟨⟨ks, ks, ks.flatMap fun k => (pkl L k k [Real.pi / 3]).k, ks.map fun _ => Real.pi / 3,
        ks.flatMap fun k => (pkl L k k [Real.pi / 3]).B, ks.flatMap fun k => (pkl L k k [Real.pi / 3]).Q,
        ks.flatMap fun k => (pkl L k k [Real.pi / 3]).Pk⟩, ?_, rfl, hl, h1, h2, by simp [List.flatMap], by simp [List.flatMap],
        by simp [List.flatMap], by simp [List.flatMap]⟩
    unfold equilateral
    simp only [hk, fold_eq]
    simp [append]
  cases binning with
  | other => exact absurd rfl hb
  | linear =>
    obtain ⟨c1, c2⟩ := centres_get (low L) (high L side) n
    refine ⟨centres (linspace (low L) (high L side) n), ?_, c1, ?_, ?_⟩
    · unfold kbins
      rw [high_eq]
      rfl
    · intro i hi
      exact ⟨_, c2 i hi, (centre_mem hlt hi).1, (centre_mem hlt hi).2, rfl⟩
    · intro i j a b hij ha hb
      have hj : j < n := by
        obtain ⟨h, _⟩ := List.getElem?_eq_some_iff.1 hb
        omega
      rw [c2 i (by omega)] at ha
      rw [c2 j hj] at hb
      cases ha
      cases hb
      exact centre_mono hlt hij hj
  | log =>
    obtain ⟨c1, c2⟩ := centres_get (Real.logb 10 (low L)) (Real.logb 10 (high L side)) n
    refine ⟨(centres (linspace (Real.logb 10 (low L)) (Real.logb 10 (high L side)) n)).map fun x => (10 : ℝ) ^ x, ?_,
      by simpa using c1, ?_, ?_⟩
    · unfold kbins
      rw [high_eq]
      rfl
    · intro i hi
      refine ⟨_, by rw [List.getElem?_map, c2 i hi]; rfl, ?_, ?_, ?_⟩
      · rw [← Real.logb_lt_iff_lt_rpow (by norm_num) hlow]
        exact (centre_mem hlog hi).1
      · rw [← Real.lt_logb_iff_rpow_lt (by norm_num) hhigh]
        exact (centre_mem hlog hi).2
      · exact Real.logb_rpow (by norm_num) (by norm_num)
    · intro i j a b hij ha hb
      rw [List.getElem?_map] at ha hb
      have hj : j < n := by
        by_contra h
        rw [List.getElem?_eq_none (by omega)] at hb
        cases hb
      rw [c2 i (by omega)] at ha
      rw [c2 j hj] at hb
      cases ha
      cases hb
      exact Real.rpow_lt_rpow_of_exponent_lt (by norm_num) (centre_mono hlog hij hj)

theorem third_eq {k : ℝ} (hk : 0 < k) (θ : ℝ) : thirdSide k k θ = k * Real.sqrt (2 + 2 * Real.cos θ) := by
  unfold thirdSide
  have : (k + k * Real.cos θ) ^ 2 + (k * Real.sin θ) ^ 2 = k ^ 2 * (2 + 2 * Real.cos θ) := by
    have := Real.sin_sq_add_cos_sq θ
    linear_combination k ^ 2 * this
  rw [this, Real.sqrt_mul (by positivity), Real.sqrt_sq hk.le]

/-- **C164 is false**: all triangles that are measured have a third side that is longer by the root of three; the angle of
an equilateral one is twice as large. -/
theorem C164_false (pkl : ℝ → ℝ → ℝ → List ℝ → Bk) {side : ℕ} (hs : 3 ≤ side) (n : ℕ) {L : ℝ} (hL : 0 < L) (binning : Binning) {o : Out}
    (h : equilateral pkl side n (some L) binning = .ok o) : o.theta.length = n ∧
      ∀ (i : ℕ) (a b θ : ℝ), o.k1[i]? = some a → o.k2[i]? = some b → o.theta[i]? = some θ →
        thirdSide a b θ = Real.sqrt 3 * a ∧ thirdSide a b θ ≠ a ∧ thirdSide a b (2 * θ) = a := by
  have hb : binning ≠ .other := by
    rintro rfl
    simp [equilateral, kbins] at h
  obtain ⟨o', h1, h2, h3, h4, -⟩ := C164_partial pkl hs n hL binning hb
  rw [h] at h1
  cases h1
  have ht : o.theta = o.k1.map fun _ => Real.pi / 3 := by
    unfold equilateral at h
    dsimp only at h
    cases hk : kbins side n L binning with
    | error e =>
      rw [hk] at h
      cases h
    | ok ks =>
      rw [hk] at h
      dsimp only at h
      rw [fold_eq] at h
      cases h
      simp [append]
  refine ⟨by rw [ht, List.length_map, h3], ?_⟩
  intro i a b θ ha hb' hθ
  rw [← h2, ha] at hb'
  cases hb'
  rw [ht, List.getElem?_map, ha] at hθ
  cases hθ
  have hi : i < n := by
    obtain ⟨h, _⟩ := List.getElem?_eq_some_iff.1 ha
    omega
  obtain ⟨k, hk, hlo, _⟩ := h4 i hi
  rw [ha] at hk
  cases hk
  have hpos : 0 < a := lt_trans (by unfold low; have := Real.pi_pos; positivity) hlo
  have e1 : thirdSide a a (Real.pi / 3) = Real.sqrt 3 * a := by
    rw [third_eq hpos, Real.cos_pi_div_three]
    norm_num
    ring
  have e2 : thirdSide a a (2 * (Real.pi / 3)) = a := by
    rw [third_eq hpos, Real.cos_two_mul, Real.cos_pi_div_three]
    norm_num
  refine ⟨e1, ?_, e2⟩
  show thirdSide a a (Real.pi / 3) ≠ a
  rw [e1]
  have : 1 < Real.sqrt 3 := by
    rw [Real.lt_sqrt (by norm_num)]
    norm_num
  nlinarith

/-- Without `box_dims`, which is the default, or with an unknown binning nothing is returned. -/
theorem C164_raises (pkl : ℝ → ℝ → ℝ → List ℝ → Bk) (side n : ℕ) (binning : Binning) (L : ℝ) :
    equilateral pkl side n none binning = .error "TypeError" ∧ equilateral pkl side n (some L) .other = .error "UnboundLocalError" :=
  ⟨rfl, rfl⟩

/-! ## Examples -/

/-- A library that returns the product of the sides. -/
def library : ℝ → ℝ → ℝ → List ℝ → Bk := fun _ a b _ => ⟨[a * b], [1], [a, b], [a]⟩

example : ∃ o, equilateral library 64 15 (some 100) .log = .ok o ∧ o.k1 = o.k2 ∧ o.k1.length = 15 := by
  obtain ⟨o, h1, h2, h3, _⟩ := C164_partial library (side := 64) (by norm_num) 15 (L := 100) (by norm_num) .log (by simp)
  exact ⟨o, h1, h2, h3⟩

example : ∃ o, equilateral library 64 15 (some 100) .linear = .ok o ∧ o.theta.length = 15 := by
  obtain ⟨o, h1, _⟩ := C164_partial library (side := 64) (by norm_num) 15 (L := 100) (by norm_num) .linear (by simp)
  exact ⟨o, h1, (C164_false library (by norm_num) 15 (by norm_num) .linear h1).1⟩

end Verif.Equilateral
