import Verif.Props.Distances
/-!
# Redshift of a comoving distance

C80: `cdist_to_z` inverts `z_to_cdist` for `0 <= z < 100`.
-/

namespace Verif.Conversions

open Verif.Constants

/-- A spline goes through its points. -/
def Interpolates (spline : List (ℝ × ℝ) → ℝ → ℝ) : Prop :=
  ∀ pts : List (ℝ × ℝ), 4 ≤ pts.length → (pts.map Prod.fst).Pairwise (· < ·) →
    ∀ q ∈ pts, spline pts q.1 = q.2

/-- Such splines exist: look the point up. -/
noncomputable def lookup (pts : List (ℝ × ℝ)) (x : ℝ) : ℝ :=
  open Classical in ((pts.find? fun q => decide (q.1 = x)).map Prod.snd).getD 0

theorem lookup_mem (pts : List (ℝ × ℝ)) (x : ℝ) : lookup pts x = 0 ∨ ∃ q ∈ pts, lookup pts x = q.2 := by
  unfold lookup
  cases h : pts.find? _ with
  | none => exact Or.inl rfl
  | some q => exact Or.inr ⟨q, List.mem_of_find?_eq_some h, rfl⟩

theorem interpolates_lookup : Interpolates lookup := by
  classical
  intro pts _ hs q hq
  unfold lookup
  cases h : pts.find? fun r => @decide (r.1 = q.1) (Classical.propDecidable _) with
  | none =>
    have := List.find?_eq_none.mp h q hq
    simp at this
  | some r =>
    have hrm := List.mem_of_find?_eq_some h
    have hre : r.1 = q.1 := by simpa using List.find?_some h
    obtain ⟨m, hm, rfl⟩ := List.mem_iff_getElem.mp hrm
    obtain ⟨n, hn, rfl⟩ := List.mem_iff_getElem.mp hq
    have hp := List.pairwise_iff_getElem.mp (List.pairwise_map.mp hs)
    rcases lt_trichotomy m n with hmn | rfl | hmn
    · exact absurd hre (hp m n hm hn hmn).ne
    · rfl
    · exact absurd hre (hp n m hn hm hmn).ne'

/-! ### The table -/

theorem tableZ_sorted : tableZ.Pairwise (· < ·) := by
  unfold tableZ
  rw [List.pairwise_append]
  refine ⟨?_, ?_, ?_⟩
  · rw [List.pairwise_map]
    refine List.pairwise_lt_range.imp fun h => ?_
    have : ((_ : ℕ) : ℝ) < ((_ : ℕ) : ℝ) := Nat.cast_lt.mpr h
    linarith
  · rw [List.pairwise_map]
    refine List.pairwise_lt_range.imp fun h => ?_
    have : ((_ : ℕ) : ℝ) < ((_ : ℕ) : ℝ) := Nat.cast_lt.mpr h
    exact Real.rpow_lt_rpow_of_exponent_lt (by norm_num) (by linarith)
  · intro x hx y hy
    simp only [List.mem_map, List.mem_range] at hx hy
    obtain ⟨i, hi, rfl⟩ := hx
    obtain ⟨j, hj, rfl⟩ := hy
    have h1 : (i : ℝ) ≤ 49 := by exact_mod_cast Nat.lt_succ_iff.mp hi
    have h2 : (1 : ℝ) ≤ (10 : ℝ) ^ (2 * (j : ℝ) / 199) :=
      Real.one_le_rpow (by norm_num) (by positivity)
    linarith

theorem tableZ_nonneg {z : ℝ} (h : z ∈ tableZ) : 0 ≤ z := by
  unfold tableZ at h
  simp only [List.mem_append, List.mem_map] at h
  rcases h with ⟨i, _, rfl⟩ | ⟨i, _, rfl⟩ <;> positivity

/-- Table entries in units of `1e-8` are increasing. -/
theorem tableCdist_sorted : tableCdist.Pairwise (· < ·) := by decide +kernel

theorem length_tableCdist : tableCdist.length = 250 := by decide +kernel

theorem length_tableZ : tableZ.length = 250 := by simp [tableZ]

/-- The first guess is exact at the tabulated distances. -/
theorem firstGuess_node {spline} (hs : Interpolates spline) (i : ℕ) (hi : i < 250) :
    firstGuess spline ((tableCdist[i]'(by rw [length_tableCdist]; exact hi) : ℕ) / 10 ^ 8) =
      tableZ[i]'(by rw [length_tableZ]; exact hi) := by
  unfold firstGuess
  refine hs _ ?_ ?_ (_, _) ?_
  · simp [length_tableCdist, length_tableZ]
  · rw [List.map_fst_zip (by simp [length_tableCdist, length_tableZ]), List.pairwise_map]
    refine tableCdist_sorted.imp fun h => ?_
    have : ((_ : ℕ) : ℝ) < ((_ : ℕ) : ℝ) := Nat.cast_lt.mpr h
    exact div_lt_div_of_pos_right this (by positivity)
  · rw [List.mem_iff_getElem]
    refine ⟨i, by simp [length_tableCdist, length_tableZ, hi], by simp⟩

/-- Four consecutive entries of the logarithmic part above `z = 28` span more than 2. -/
theorem step_gt {a : ℝ} (ha : 28 < a) : a + 2 < a * (10 : ℝ) ^ ((6 : ℝ) / 199) := by
  have h : (15 / 14 : ℝ) < (10 : ℝ) ^ ((6 : ℝ) / 199) := by
    have h1 : (15 / 14 : ℝ) = ((15 / 14 : ℝ) ^ (199 : ℝ)) ^ ((1 : ℝ) / 199) := by
      rw [← Real.rpow_mul (by norm_num)]; norm_num
    have h2 : (10 : ℝ) ^ ((6 : ℝ) / 199) = ((10 : ℝ) ^ (6 : ℝ)) ^ ((1 : ℝ) / 199) := by
      rw [← Real.rpow_mul (by norm_num)]; norm_num
    rw [h1, h2]
    refine Real.rpow_lt_rpow (by positivity) ?_ (by norm_num)
    rw [show (199 : ℝ) = ((199 : ℕ) : ℝ) by norm_num, show (6 : ℝ) = ((6 : ℕ) : ℝ) by norm_num,
      Real.rpow_natCast, Real.rpow_natCast]
    norm_num
  nlinarith

/-- Fewer than four table entries lie within 1 of any guess of at least 29. -/
theorem window_short {w : ℝ} (hw : 29 ≤ w) :
    (tableZ.filter fun z => decide (w - 1 < z) && decide (z < w + 1)).length < 4 := by
  unfold tableZ
  rw [List.filter_append, List.length_append]
  have h0 : (((List.range 50).map fun (i : ℕ) => (i : ℝ) * (2 / 100)).filter
      fun z => decide (w - 1 < z) && decide (z < w + 1)) = [] := by
    rw [List.filter_eq_nil_iff]
    intro z hz
    simp only [List.mem_map, List.mem_range] at hz
    obtain ⟨i, hi, rfl⟩ := hz
    have h1 : (i : ℝ) ≤ 49 := by exact_mod_cast Nat.lt_succ_iff.mp hi
    simp only [Bool.and_eq_true, decide_eq_true_eq, not_and]
    intro h; linarith
  rw [h0, List.length_nil, zero_add, List.filter_map, List.length_map]
  set P : ℕ → Bool := (fun z : ℝ => decide (w - 1 < z) && decide (z < w + 1)) ∘
    fun (i : ℕ) => (10 : ℝ) ^ (2 * (i : ℝ) / 199) with hP
  have hspan : ∀ i j : ℕ, P i = true → P j = true → j < i + 3 := by
    intro i j hi hj
    by_contra hc
    have hij : (i : ℝ) + 3 ≤ j := by exact_mod_cast (not_lt.mp hc)
    simp only [hP, Function.comp, Bool.and_eq_true, decide_eq_true_eq] at hi hj
    have h1 := step_gt (a := (10 : ℝ) ^ (2 * (i : ℝ) / 199)) (by linarith [hi.1])
    rw [← Real.rpow_add (by norm_num)] at h1
    have h2 : (10 : ℝ) ^ (2 * (i : ℝ) / 199 + 6 / 199) ≤ (10 : ℝ) ^ (2 * (j : ℝ) / 199) :=
      Real.rpow_le_rpow_of_exponent_le (by norm_num) (by linarith)
    linarith [hi.1, hj.2]
  cases hl : (List.range 200).filter P with
  | nil => simp
  | cons i l =>
    have hsub : (i :: l) ⊆ List.range' i 3 := by
      intro j hj
      have hs : (i :: l).Pairwise (· < ·) := hl ▸ List.pairwise_lt_range.filter P
      have hPi : P i = true := (List.mem_filter.mp (hl ▸ List.mem_cons_self : i ∈ _)).2
      have hPj : P j = true := (List.mem_filter.mp (hl ▸ hj : j ∈ _)).2
      have := hspan i j hPi hPj
      rw [List.mem_range'_1]
      rcases List.mem_cons.mp hj with rfl | h
      · omega
      · have := List.rel_of_pairwise_cons hs h; omega
    have hn : (i :: l).Nodup := hl ▸ List.nodup_range.filter P
    have := (List.subperm_of_subset hn hsub).length_le
    simp only [List.length_range'] at this
    omega

/-! ## C80 -/

/-- `cdist_to_z` raises for every single distance whose guessed redshift is 29 or more, in
every cosmology. -/
theorem C80_raises (k : Const) (spline : List (ℝ × ℝ) → ℝ → ℝ) (d : ℝ)
    (h : 29 ≤ firstGuess spline d) : ∃ e, cdist_to_z k spline (.float [d]) = .error e := by
  have hw := window_short h
  refine ⟨"x and y arrays must have at least 4 entries", ?_⟩
  simp only [cdist_to_z, Vec.floats, List.min?_singleton, List.max?_singleton]
  simp only [cubic, windowZ, List.length_zip, List.length_map, min_self, if_pos hw]
  rfl

/-- This happens for the last 50 distances of the package's own table (redshifts 31 to 100),
whatever the spline is. -/
theorem C80_false (k : Const) {spline} (hs : Interpolates spline) (i : ℕ) (h0 : 200 ≤ i)
    (hi : i < 250) : ∃ e, cdist_to_z k spline
      (.float [(tableCdist[i]'(by rw [length_tableCdist]; exact hi) : ℕ) / 10 ^ 8]) = .error e := by
  refine C80_raises k spline _ ?_
  rw [firstGuess_node hs i hi]
  have e : tableZ[i]'(by rw [length_tableZ]; exact hi) =
      (10 : ℝ) ^ (2 * ((i - 50 : ℕ) : ℝ) / 199) := by
    simp only [tableZ]
    rw [List.getElem_append_right (by simp; omega)]
    simp
  rw [e]
  have h1 : (150 : ℝ) ≤ ((i - 50 : ℕ) : ℝ) := by
    have : 150 ≤ i - 50 := by omega
    exact_mod_cast this
  have h2 : (10 : ℝ) ^ (3 / 2 : ℝ) ≤ (10 : ℝ) ^ (2 * ((i - 50 : ℕ) : ℝ) / 199) :=
    Real.rpow_le_rpow_of_exponent_le (by norm_num) (by linarith)
  have h3 : (29 : ℝ) ≤ (10 : ℝ) ^ (3 / 2 : ℝ) := by
    have : (29 : ℝ) = ((29 : ℝ) ^ (2 : ℝ)) ^ ((1 : ℝ) / 2) := by
      rw [← Real.rpow_mul (by norm_num)]; norm_num
    rw [this, show (3 / 2 : ℝ) = 3 * (1 / 2) by norm_num, Real.rpow_mul (by norm_num)]
    refine Real.rpow_le_rpow (by positivity) ?_ (by norm_num)
    norm_num
  linarith

example : 200 ≤ 249 ∧ 249 < 250 := by norm_num

/-- Where it does not raise it inverts `z_to_cdist` at every table redshift inside the
search window. -/
theorem C80_partial (k : Const) (p : Physical k) {spline} (hs : Interpolates spline)
    (zs : List ℝ) (lo hi : ℝ) (hlo : (zs.map (cdist k)).min? = some lo)
    (hhi : (zs.map (cdist k)).max? = some hi) (h4 : 4 ≤ (windowZ spline lo hi).length)
    (hz : ∀ z ∈ zs, z ∈ tableZ ∧ firstGuess spline lo - 1 < z ∧ z < firstGuess spline hi + 1) :
    cdist_to_z k spline (z_to_cdist k (.float zs)) = .ok (.float zs) := by
  have hsub : (windowZ spline lo hi).Sublist tableZ := List.filter_sublist
  have hmono : ((windowZ spline lo hi).map (cdist k)).Pairwise (· < ·) := by
    rw [List.pairwise_map]
    refine ((tableZ_sorted.sublist hsub).imp_of_mem fun ha _ h => ?_)
    exact C78_monotone k p (by linarith [tableZ_nonneg (hsub.subset ha)]) h
  simp only [cdist_to_z, z_to_cdist, Vec.fill, Vec.floats, hlo, hhi]
  have hl : ¬ (((windowZ spline lo hi).map (cdist k)).zip (windowZ spline lo hi)).length < 4 := by
    simp; omega
  simp only [cubic, if_neg hl]
  show Except.ok (Vec.float _) = _
  congr 2
  rw [List.map_map]
  conv_rhs => rw [← List.map_id zs]
  refine List.map_congr_left fun z h => ?_
  have hzw : z ∈ windowZ spline lo hi := by
    obtain ⟨h1, h2, h3⟩ := hz z h
    simp [windowZ, h1, h2, h3]
  refine hs _ (by simpa using h4) ?_ (cdist k z, z) ?_
  · rw [List.map_fst_zip (by simp)]; exact hmono
  · obtain ⟨n, hn, e⟩ := List.mem_iff_getElem.mp hzw
    rw [List.mem_iff_getElem]
    exact ⟨n, by simp [hn], by simp [e]⟩

theorem lookup_nonneg (x : ℝ) : 0 ≤ firstGuess lookup x := by
  unfold firstGuess
  rcases lookup_mem ((tableCdist.map fun (n : ℕ) => (n : ℝ) / 10 ^ 8).zip tableZ) x with h | ⟨q, hq, h⟩
  · rw [h]
  · rw [h]; exact tableZ_nonneg (List.of_mem_zip hq).2

/-- The hypotheses of `C80_partial` are met by the redshifts 0 and 0.02 in the default cosmology. -/
example : ∃ lo hi : ℝ, ([0, 2 / 100].map (cdist (Const.init 3))).min? = some lo ∧
    ([0, 2 / 100].map (cdist (Const.init 3))).max? = some hi ∧
    4 ≤ (windowZ lookup lo hi).length ∧ ∀ z ∈ ([0, 2 / 100] : List ℝ),
      z ∈ tableZ ∧ firstGuess lookup lo - 1 < z ∧ z < firstGuess lookup hi + 1 := by
  have h0 : cdist (Const.init 3) 0 = 0 := (C78_distance _ physical_init).1
  have h2 := cdist_pos physical_init (z := 2 / 100) (by norm_num)
  have g0 : firstGuess lookup 0 = 0 := by
    have := firstGuess_node interpolates_lookup 0 (by norm_num)
    have e : tableCdist[0]'(by rw [length_tableCdist]; norm_num) = 0 := rfl
    rw [e] at this
    simpa [tableZ] using this
  have g2 := lookup_nonneg (cdist (Const.init 3) (2 / 100))
  have hmem : ∀ i : ℕ, i < 50 → (i : ℝ) * (2 / 100) ∈ tableZ := fun i hi => by
    unfold tableZ
    exact List.mem_append_left _ (List.mem_map.mpr ⟨i, List.mem_range.mpr hi, rfl⟩)
  refine ⟨0, cdist (Const.init 3) (2 / 100), ?_, ?_, ?_, ?_⟩
  · simp [List.min?, h0, h2.le]
  · simp [List.max?, h0, h2.le]
  · have hn : ((List.range 4).map fun (i : ℕ) => (i : ℝ) * (2 / 100)).Nodup := by
      refine List.nodup_range.map fun a b h => ?_
      have : (a : ℝ) = b := by simpa using h
      exact_mod_cast this
    have := (List.subperm_of_subset hn (l₂ := windowZ lookup 0 (cdist (Const.init 3) (2 / 100)))
      fun z hz => by
        obtain ⟨i, hi, rfl⟩ := List.mem_map.mp hz
        have hi := List.mem_range.mp hi
        have hi' : (i : ℝ) ≤ 3 := by exact_mod_cast Nat.lt_succ_iff.mp hi
        have hi0 : (0 : ℝ) ≤ i := Nat.cast_nonneg i
        refine List.mem_filter.mpr ⟨hmem i (by omega), ?_⟩
        rw [g0]
        simp only [Bool.and_eq_true, decide_eq_true_eq]
        constructor <;> linarith).length_le
    simpa using this
  · intro z hz
    have : z = 0 ∨ z = 2 / 100 := by simpa using hz
    rw [g0]
    rcases this with rfl | rfl
    · exact ⟨by simpa using hmem 0 (by norm_num), by norm_num, by linarith⟩
    · exact ⟨by simpa using hmem 1 (by norm_num), by norm_num, by linarith⟩

/-- Integer distances give integer redshifts: nothing between whole redshifts is ever
returned for them. -/
theorem C80_int (k : Const) (spline : List (ℝ × ℝ) → ℝ → ℝ) (l : List ℤ) (r : Vec)
    (h : cdist_to_z k spline (.int l) = .ok r) : ∃ l', r = .int l' := by
  unfold cdist_to_z at h
  split at h
  · simp only [bind, Except.bind] at h
    split at h
    · exact absurd h (by simp)
    · simp only [pure, Except.pure, Except.ok.injEq] at h
      exact ⟨_, h.symm⟩
  · exact absurd h (by simp)

end Verif.Conversions
