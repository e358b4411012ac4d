import Verif.Props.Lightcone
/-!
# Output redshifts of `lightcone.py` (C10, C11, C12)
-/

set_option linter.unusedSectionVars false

namespace Verif.Lightcone

variable {K : Type} [Field K] [LinearOrder K] [IsStrictOrderedRing K] {D : Type}

/-! ## C10: equal frequency width -/

/-- C10, closed form.  For `-1 < z_low < z_high` and a positive channel width the loop ends, and the
result is the list of the redshifts of the frequencies `ν(z_high) + k dnu`, `k = n-1, …, 0`, where
`n` counts the `k` whose frequency is below `ν(z_low)`. -/
theorem freqRedshifts_closed [Archimedean K] (nu0 zl zh dnu : K) (hnu : 0 < nu0) (hd : 0 < dnu)
    (hzl : -1 < zl) (hz : zl < zh) :
    ∃ n : ℕ, (∀ k : ℕ, k < n ↔ nu0 / (1 + zh) + k * dnu < nu0 / (1 + zl)) ∧
      ∀ fuel, n < fuel → freqRedshifts nu0 zl zh dnu fuel =
        some (.ok (((List.range n).map fun k : ℕ => nu0 / (nu0 / (1 + zh) + k * dnu) - 1).reverse)) := by
  have hl : 0 < 1 + zl := by linarith
  have hh : 0 < 1 + zh := by linarith
  have hpos : ∀ k : ℕ, 0 < nu0 / (1 + zh) + k * dnu := fun k => by positivity
  set f : ℕ → K := fun k => nu0 / (nu0 / (1 + zh) + k * dnu) - 1 with hf
  have hcond : ∀ k : ℕ, (zl < f k ↔ nu0 / (1 + zh) + k * dnu < nu0 / (1 + zl)) := by
    intro k
    have : zl < f k ↔ 1 + zl < nu0 / (nu0 / (1 + zh) + k * dnu) := by
      simp only [hf]; constructor <;> intro h <;> linarith
    rw [this, lt_div_iff₀ (hpos k), lt_div_iff₀ hl, mul_comm]
  obtain ⟨n, hn, hn'⟩ := first_exit (fun k : ℕ => nu0 / (1 + zh) + k * dnu < nu0 / (1 + zl)) (by
    obtain ⟨m, hm⟩ := exists_nat_gt ((nu0 / (1 + zl)) / dnu)
    refine ⟨m, ?_⟩
    rw [div_lt_iff₀ hd] at hm
    have : 0 < nu0 / (1 + zh) := by positivity
    push Not
    linarith)
  refine ⟨n, fun k => ⟨hn k, fun h => ?_⟩, ?_⟩
  · by_contra hge
    apply hn'
    have : (n : K) ≤ k := by exact_mod_cast not_lt.1 hge
    have := mul_le_mul_of_nonneg_right this hd.le
    linarith
  · intro fuel hfuel
    unfold freqRedshifts
    rw [if_pos hz]
    have h0 : zh = f 0 := by simp only [hf]; field_simp; push_cast; ring
    have := whileLoop_eq (fun z => decide (zl < z)) (freqNext nu0 dnu) n f ?_ ?_ ?_ fuel hfuel
    · rw [← h0] at this
      rw [this]; rfl
    · intro k _
      have h1 : 1 + f k = nu0 / (nu0 / (1 + zh) + k * dnu) := by simp only [hf]; ring
      have h2 : 0 < 1 + f k := by rw [h1]; exact div_pos hnu (hpos k)
      have h3 := freqNext_add_one hnu hd h2
      rw [h1] at h3
      have h4 : nu0 / (nu0 / (nu0 / (1 + zh) + k * dnu)) = nu0 / (1 + zh) + k * dnu := by
        have := (hpos k).ne'
        field_simp
      rw [h4] at h3
      simp only [hf]
      push_cast
      rw [show nu0 / (1 + zh) + ((k : K) + 1) * dnu = nu0 / (1 + zh) + k * dnu + dnu by ring]
      linarith
    · intro k hk
      exact decide_eq_true ((hcond k).2 (hn k hk))
    · exact decide_eq_false fun h => hn' ((hcond n).1 h)

/-- C10.  For `-1 < z_low < z_high` and a positive channel width the function returns a list
(terminates) that ascends strictly, ends in `z_high`, lies above `z_low`, whose neighbouring frequencies
differ by exactly `dnu`, and which cannot be continued: one more channel would reach or pass the
frequency of `z_low`. -/
theorem freqRedshifts_spec [Archimedean K] (nu0 zl zh dnu : K) (hnu : 0 < nu0) (hd : 0 < dnu)
    (hzl : -1 < zl) (hz : zl < zh) :
    ∃ (N : ℕ) (out : List K), (∀ fuel, N < fuel → freqRedshifts nu0 zl zh dnu fuel = some (.ok out)) ∧
      out.getLast? = some zh ∧
      out.IsChain (fun z z' => z < z' ∧ nu0 / (1 + z) - nu0 / (1 + z') = dnu) ∧
      (∀ z ∈ out, zl < z ∧ z ≤ zh) ∧
      ∀ z, out.head? = some z → nu0 / (1 + zl) ≤ nu0 / (1 + z) + dnu := by
  obtain ⟨n, hn, hres⟩ := freqRedshifts_closed nu0 zl zh dnu hnu hd hzl hz
  have hl : 0 < 1 + zl := by linarith
  have hh : 0 < 1 + zh := by linarith
  have hpos : ∀ k : ℕ, 0 < nu0 / (1 + zh) + k * dnu := fun k => by positivity
  set f : ℕ → K := fun k => nu0 / (nu0 / (1 + zh) + k * dnu) - 1 with hf
  have hnu_f : ∀ k, nu0 / (1 + f k) = nu0 / (1 + zh) + k * dnu := by
    intro k
    have h1 : 1 + f k = nu0 / (nu0 / (1 + zh) + k * dnu) := by simp only [hf]; ring
    have := (hpos k).ne'
    rw [h1]; field_simp
  have hf1 : ∀ k, 0 < 1 + f k := by
    intro k
    have h1 : 1 + f k = nu0 / (nu0 / (1 + zh) + k * dnu) := by simp only [hf]; ring
    rw [h1]; exact div_pos hnu (hpos k)
  have h0 : f 0 = zh := by simp only [hf]; field_simp; push_cast; ring
  have hn0 : 0 < n := (hn 0).2 (by
    rw [Nat.cast_zero, zero_mul, add_zero]
    exact div_lt_div_of_pos_left hnu hl (by linarith))
  refine ⟨n, _, hres, ?_, ?_, ?_, ?_⟩
  · rw [List.getLast?_reverse]
    obtain ⟨m, rfl⟩ : ∃ m, n = m + 1 := ⟨n - 1, by omega⟩
    rw [List.range_succ_eq_map]
    simp [h0]
  · rw [List.isChain_reverse]
    rw [List.isChain_iff_getElem]
    intro i hi
    simp only [List.getElem_map, List.getElem_range]
    have e : nu0 / (1 + f (i + 1)) - nu0 / (1 + f i) = dnu := by
      rw [hnu_f, hnu_f]; push_cast; ring
    refine ⟨?_, e⟩
    have : nu0 / (1 + f i) < nu0 / (1 + f (i + 1)) := by linarith
    rw [div_lt_div_iff_of_pos_left hnu (hf1 i) (hf1 (i + 1))] at this
    linarith
  · intro z hz'
    rw [List.mem_reverse, List.mem_map] at hz'
    obtain ⟨k, hk, rfl⟩ := hz'
    have hk := (hn k).1 (List.mem_range.1 hk)
    change zl < f k ∧ f k ≤ zh
    constructor
    · rw [← hnu_f, div_lt_div_iff_of_pos_left hnu (hf1 k) hl] at hk
      linarith
    · have : nu0 / (1 + zh) ≤ nu0 / (1 + f k) := by
        rw [hnu_f]
        have : 0 ≤ (k : K) * dnu := by positivity
        linarith
      rw [div_le_div_iff_of_pos_left hnu hh (hf1 k)] at this
      linarith
  · intro z hz'
    rw [List.head?_reverse] at hz'
    obtain ⟨m, rfl⟩ : ∃ m, n = m + 1 := ⟨n - 1, by omega⟩
    rw [List.range_succ] at hz'
    simp only [List.map_append, List.map_cons, List.map_nil, List.getLast?_concat,
      Option.some.injEq] at hz'
    have := mt (hn (m + 1)).2 (lt_irrefl _)
    push Not at this
    rw [← hz']
    change _ ≤ nu0 / (1 + f m) + dnu
    rw [hnu_f]
    push_cast at this
    linarith

/-- `z_low ≥ z_high` is rejected. -/
theorem freqRedshifts_rejects (nu0 zl zh dnu : K) (fuel : ℕ) (h : zh ≤ zl) :
    freqRedshifts nu0 zl zh dnu fuel = some (.error "AssertionError") := by
  unfold freqRedshifts; rw [if_neg (not_lt.2 h)]

/-- Redshifts 6 to 9 with channels of 20 MHz at a rest frequency of 1420 MHz: four channels. -/
example : (0 : ℚ) < 1420 ∧ (0 : ℚ) < 20 ∧ (-1 : ℚ) < 6 ∧ (6 : ℚ) < 9 ∧
    freqRedshifts (1420 : ℚ) 6 9 20 9 = some (.ok [1420/202 - 1, 1420/182 - 1, 1420/162 - 1, 9]) := by
  refine ⟨by norm_num, by norm_num, by norm_num, by norm_num, ?_⟩
  decide +kernel

/-! ## C11: equal comoving distance -/

/-- C11.  Whenever the light-crossing of one cell is a fixed positive fraction of the frequency
(`δ(z) = H(z) L / (c n (1+z))` with `δmin ≤ δ(z) < 1` on `[z_low, z_high)`), the loop ends and the list
starts at `z_low`, ascends strictly, stays below `z_high`, every step lowers the frequency by
`nu0 H(z) dx / (c (1+z)²)` with `dx = L/n`, and the last step reaches `z_high`. -/
theorem comovingRedshifts_spec [Archimedean K] (H : K → K) (nu0 c L n zl zh δmin : K)
    (hnu : 0 < nu0) (hc : 0 < c) (hn : 0 < n) (hzl : -1 < zl) (hz : zl < zh) (hδ : 0 < δmin)
    (hmin : ∀ z, zl ≤ z → z < zh → δmin ≤ H z * L / (c * n * (1 + z)))
    (hmax : ∀ z, zl ≤ z → z < zh → H z * L < c * n * (1 + z)) :
    ∃ (N : ℕ) (out : List K),
      (∀ fuel, N < fuel → comovingRedshifts H nu0 c L n zl zh fuel = some (.ok out)) ∧
      out.head? = some zl ∧
      out.IsChain (fun z z' => z < z' ∧
        nu0 / (1 + z) - nu0 / (1 + z') = nu0 * H z * (L / n) / (c * (1 + z) ^ 2)) ∧
      (∀ z ∈ out, zl ≤ z ∧ z < zh) ∧
      ∀ z, out.getLast? = some z →
        nu0 / (1 + z) - nu0 * H z * (L / n) / (c * (1 + z) ^ 2) ≤ nu0 / (1 + zh) := by
  set f : ℕ → K := fun k => (comovingNext H nu0 c L n)^[k] zl with hf
  have hfs : ∀ k, f (k + 1) = comovingNext H nu0 c L n (f k) := fun k => by
    simp only [hf]; rw [Function.iterate_succ_apply']
  have hl : 0 < 1 + zl := by linarith
  have grow : ∀ z, zl ≤ z → z < zh →
      z + (1 + zl) * δmin ≤ comovingNext H nu0 c L n z ∧
      nu0 / (1 + comovingNext H nu0 c L n z) =
        nu0 / (1 + z) - nu0 * H z * (L / n) / (c * (1 + z) ^ 2) := by
    intro z h1 h2
    have hz1 : 0 < 1 + z := by linarith
    have e := comovingNext_add_one (H := H) (L := L) hnu hc hn hz1 (hmax z h1 h2)
    have d1 := hmin z h1 h2
    have hp : 0 < c * n * (1 + z) := by positivity
    have d2 : H z * L / (c * n * (1 + z)) < 1 := (div_lt_one hp).2 (hmax z h1 h2)
    constructor
    · have : (1 + z) * (1 + δmin) ≤ (1 + z) / (1 - H z * L / (c * n * (1 + z))) := by
        rw [le_div_iff₀ (by linarith), mul_assoc]
        apply mul_le_of_le_one_right hz1.le
        nlinarith
      have h3 : (1 + zl) * δmin ≤ (1 + z) * δmin := mul_le_mul_of_nonneg_right (by linarith) hδ.le
      nlinarith
    · rw [e]
      have : 1 - H z * L / (c * n * (1 + z)) ≠ 0 := by linarith
      field_simp
  have low : ∀ k, (∀ j, j < k → f j < zh) → zl + k * ((1 + zl) * δmin) ≤ f k := by
    intro k
    induction k with
    | zero => intro _; simp [hf]
    | succ k ih =>
      intro h
      have h1 := ih fun j hj => h j (by omega)
      have hk0 : (0 : K) ≤ k * ((1 + zl) * δmin) := by positivity
      have := (grow (f k) (by linarith) (h k (by omega))).1
      rw [hfs]; push_cast
      linarith
  obtain ⟨m, hm, hm'⟩ := first_exit (fun k : ℕ => f k < zh) (by
    by_contra hcon
    push Not at hcon
    obtain ⟨m, hm⟩ := exists_nat_gt ((zh - zl) / ((1 + zl) * δmin))
    rw [div_lt_iff₀ (by positivity)] at hm
    have := low m fun j _ => hcon j
    have := hcon m
    linarith)
  have hge : ∀ k, k ≤ m → zl ≤ f k := by
    intro k hk
    have := low k fun j hj => hm j (by omega)
    have hk0 : (0 : K) ≤ k * ((1 + zl) * δmin) := by positivity
    linarith
  have hm0 : 0 < m := by
    rcases Nat.eq_zero_or_pos m with rfl | h
    · exact absurd hz hm'
    · exact h
  refine ⟨m, (List.range m).map f, ?_, ?_, ?_, ?_, ?_⟩
  · intro fuel hfuel
    unfold comovingRedshifts
    rw [if_pos hz]
    have := whileLoop_eq (fun z => decide (z < zh)) (comovingNext H nu0 c L n) m f
      (fun k _ => (hfs k).symm) (fun k hk => decide_eq_true (hm k hk)) (decide_eq_false hm') fuel hfuel
    rw [show zl = f 0 from rfl]
    rw [this]; rfl
  · obtain ⟨k, rfl⟩ : ∃ k, m = k + 1 := ⟨m - 1, by omega⟩
    rw [List.range_succ_eq_map]; simp [hf]
  · rw [List.isChain_iff_getElem]
    intro i hi
    rw [List.length_map, List.length_range] at hi
    simp only [List.getElem_map, List.getElem_range]
    have g := grow (f i) (hge i (by omega)) (hm i (by omega))
    rw [hfs]
    refine ⟨?_, ?_⟩
    · have : 0 < (1 + zl) * δmin := by positivity
      linarith [g.1]
    · rw [g.2]; ring
  · intro z hz'
    obtain ⟨k, hk, rfl⟩ := List.mem_map.1 hz'
    rw [List.mem_range] at hk
    exact ⟨hge k hk.le, hm k hk⟩
  · intro z hz'
    obtain ⟨k, rfl⟩ : ∃ k, m = k + 1 := ⟨m - 1, by omega⟩
    rw [List.range_succ] at hz'
    simp only [List.map_append, List.map_cons, List.map_nil, List.getLast?_concat,
      Option.some.injEq] at hz'
    subst hz'
    rw [← (grow (f k) (hge k (by omega)) (hm k (by omega))).2, ← hfs]
    have h1 : 0 < 1 + zh := by linarith
    have h2 : 0 < 1 + f (k + 1) := by linarith [hge (k + 1) le_rfl]
    rw [div_le_div_iff_of_pos_left hnu h2 h1]
    linarith [not_lt.1 hm']

/-- `const.Hz` (`const.py` line 41). -/
noncomputable def hubble (H0 Omega0 lam z : ℝ) : ℝ := H0 * Real.sqrt (Omega0 * (1 + z) ^ 3 + lam)

/-- C11 for the code's Hubble rate: a cell smaller than the Hubble radius (`H L / n < c (1+z)`) is all
the loop needs. -/
theorem comovingRedshifts_hubble (H0 Omega0 lam nu0 c L n zl zh : ℝ) (hH0 : 0 < H0) (hO : 0 < Omega0)
    (hlam : 0 ≤ lam) (hnu : 0 < nu0) (hc : 0 < c) (hL : 0 < L) (hn : 0 < n) (hzl : -1 < zl)
    (hz : zl < zh)
    (hcell : ∀ z, zl ≤ z → z < zh → hubble H0 Omega0 lam z * L < c * n * (1 + z)) :
    ∃ (N : ℕ) (out : List ℝ),
      (∀ fuel, N < fuel →
        comovingRedshifts (hubble H0 Omega0 lam) nu0 c L n zl zh fuel = some (.ok out)) ∧
      out.head? = some zl ∧
      out.IsChain (fun z z' => z < z' ∧ nu0 / (1 + z) - nu0 / (1 + z') =
        nu0 * hubble H0 Omega0 lam z * (L / n) / (c * (1 + z) ^ 2)) ∧
      (∀ z ∈ out, zl ≤ z ∧ z < zh) ∧
      ∀ z, out.getLast? = some z →
        nu0 / (1 + z) - nu0 * hubble H0 Omega0 lam z * (L / n) / (c * (1 + z) ^ 2) ≤
          nu0 / (1 + zh) := by
  have hl : 0 < 1 + zl := by linarith
  have hh : 0 < 1 + zh := by linarith
  refine comovingRedshifts_spec (hubble H0 Omega0 lam) nu0 c L n zl zh
    (H0 * Real.sqrt (Omega0 * (1 + zl) ^ 3) * L / (c * n * (1 + zh))) hnu hc hn hzl hz
    (by have : 0 < Real.sqrt (Omega0 * (1 + zl) ^ 3) := Real.sqrt_pos.2 (by positivity)
        positivity) ?_ hcell
  intro z h1 h2
  have hz1 : 0 < 1 + z := by linarith
  unfold hubble
  have hs : Real.sqrt (Omega0 * (1 + zl) ^ 3) ≤ Real.sqrt (Omega0 * (1 + z) ^ 3 + lam) := by
    apply Real.sqrt_le_sqrt
    have : (1 + zl) ^ 3 ≤ (1 + z) ^ 3 := pow_le_pow_left₀ hl.le (by linarith) 3
    nlinarith
  apply div_le_div₀
  · positivity
  · exact mul_le_mul_of_nonneg_right (mul_le_mul_of_nonneg_left hs hH0.le) hL.le
  · positivity
  · exact mul_le_mul_of_nonneg_left (by linarith) (by positivity)

/-- The default cosmology with a box of 100 Mpc and 256 cells between redshifts 6 and 9. -/
example : ∀ z : ℝ, 6 ≤ z → z < 9 → hubble 70 0.27 0.73 z * 100 < 299792 * 256 * (1 + z) := by
  intro z h1 h2
  have : Real.sqrt (0.27 * (1 + z) ^ 3 + 0.73) ≤ 17 := by
    rw [Real.sqrt_le_left (by norm_num)]
    have : (1 + z) ^ 3 ≤ (10 : ℝ) ^ 3 := pow_le_pow_left₀ (by linarith) (by linarith) 3
    nlinarith
  unfold hubble
  nlinarith

/-! ## C12: truncation to the snapshots -/

/-- C12, truncation: the output list is the sublist of requested redshifts that lie between the lowest
and the highest snapshot, and the call raises exactly when that sublist is empty. -/
theorem truncate_spec (zs out : List K) (hzs : zs ≠ []) :
    let keep := out.filter fun z => decide ((∃ x ∈ zs, x ≤ z) ∧ ∃ x ∈ zs, z ≤ x)
    (keep ≠ [] → truncate zs out = .ok keep) ∧
    (keep = [] → ∃ e, truncate zs out = .error e) := by
  intro keep
  unfold truncate
  cases hlo : out.min? with
  | none =>
    have := List.min?_eq_none_iff.1 hlo
    subst this
    exact ⟨fun h => absurd rfl h, fun _ => ⟨_, rfl⟩⟩
  | some lo =>
    have hne : out ≠ [] := by rintro rfl; cases hlo
    cases hhi : out.max? with
    | none => exact absurd (List.max?_eq_none_iff.1 hhi) hne
    | some hi =>
      cases hflo : zs.min? with
      | none => exact absurd (List.min?_eq_none_iff.1 hflo) hzs
      | some flo =>
        cases hfhi : zs.max? with
        | none => exact absurd (List.max?_eq_none_iff.1 hfhi) hzs
        | some fhi =>
          have mlo := List.min?_eq_some_iff.1 hlo
          have mhi := List.max?_eq_some_iff.1 hhi
          have mflo := List.min?_eq_some_iff.1 hflo
          have mfhi := List.max?_eq_some_iff.1 hfhi
          have hin : ∀ z, (decide ((∃ x ∈ zs, x ≤ z) ∧ ∃ x ∈ zs, z ≤ x)) =
              (decide (flo ≤ z) && decide (z ≤ fhi)) := by
            intro z
            rw [← Bool.decide_and]
            congr 1
            refine propext ⟨?_, ?_⟩
            · rintro ⟨⟨x, hx, h1⟩, ⟨y, hy, h2⟩⟩
              exact ⟨(mflo.2 x hx).trans h1, h2.trans (mfhi.2 y hy)⟩
            · rintro ⟨h1, h2⟩
              exact ⟨⟨flo, mflo.1, h1⟩, ⟨fhi, mfhi.1, h2⟩⟩
          have hkeep : (if lo < flo ∨ fhi < hi then
              (out.filter fun z => decide (flo ≤ z)).filter fun z => decide (z ≤ fhi) else out) = keep := by
            simp only [keep, hin]
            split
            · rw [List.filter_filter]
              congr 1
              funext z
              exact Bool.and_comm _ _
            · next hc =>
              push Not at hc
              symm
              rw [List.filter_eq_self]
              intro z hz
              simp only [Bool.and_eq_true, decide_eq_true_eq]
              exact ⟨hc.1.trans (mlo.2 z hz), (mhi.2 z hz).trans hc.2⟩
          dsimp only
          rw [hkeep]
          constructor
          · intro h
            rw [if_neg (by have := List.length_pos_iff.2 h; omega)]
          · intro h
            rw [if_pos (by rw [h]; simp)]
            exact ⟨_, rfl⟩

example : truncate [(6 : ℚ), 8, 7] [5, 13/2, 8, 9] = .ok [13/2, 8] ∧
    ([(5 : ℚ), 13/2, 8, 9].filter fun z =>
      decide ((∃ x ∈ [(6 : ℚ), 8, 7], x ≤ z) ∧ ∃ x ∈ [(6 : ℚ), 8, 7], z ≤ x)) ≠ [] := by
  decide +kernel

/-- C12 fails in the frequency mode: when `z_high` is left at its default, or is set to the highest
snapshot, the last output redshift is that of the highest snapshot, there is no snapshot above it, and
`make_lightcone` raises for every cosmology, every list of snapshots and every channel width. -/
theorem C12_false [Archimedean K] (C : Cosmo K) (read : ℕ → D) (zs : List K) (zLow : Option K)
    (fhi n L dnu : K) (hnu : 0 < C.nu0) (hd : 0 < dnu) (hfhi : zs.max? = some fhi)
    (hpos : ∀ x ∈ zs, -1 < x) (hlow : ∀ zl, zLow = some zl → -1 < zl ∧ zl < fhi)
    (htwo : ∃ x ∈ zs, x < fhi) :
    ∃ N, ∀ fuel, N < fuel → ∀ zHigh, zHigh = none ∨ zHigh = some fhi →
      makeLightcone C read zs zLow zHigh n L (some dnu) fuel = some (.error "ValueError") := by
  have mfhi := List.max?_eq_some_iff.1 hfhi
  have hne : zs ≠ [] := by rintro rfl; cases hfhi
  cases hflo : zs.min? with
  | none => exact absurd (List.min?_eq_none_iff.1 hflo) hne
  | some flo =>
    have mflo := List.min?_eq_some_iff.1 hflo
    obtain ⟨x, hx, hxf⟩ := htwo
    set zl := zLow.getD flo with hzl
    have hzl' : -1 < zl ∧ zl < fhi := by
      rw [hzl]
      cases zLow with
      | none => exact ⟨hpos flo mflo.1, (mflo.2 x hx).trans_lt hxf⟩
      | some a => exact hlow a rfl
    obtain ⟨N, out, hout, hlast, -, hmem, -⟩ :=
      freqRedshifts_spec C.nu0 zl fhi dnu hnu hd hzl'.1 hzl'.2
    refine ⟨N, fun fuel hfuel zHigh hzh => ?_⟩
    have hget : zHigh.getD fhi = fhi := by rcases hzh with rfl | rfl <;> rfl
    have hin : fhi ∈ out.filter fun z => decide ((∃ x ∈ zs, x ≤ z) ∧ ∃ x ∈ zs, z ≤ x) := by
      rw [List.mem_filter]
      exact ⟨List.mem_of_getLast? hlast,
        decide_eq_true ⟨⟨fhi, mfhi.1, le_rfl⟩, ⟨fhi, mfhi.1, le_rfl⟩⟩⟩
    have htr := (truncate_spec zs out hne).1 (List.ne_nil_of_mem hin)
    unfold makeLightcone outputZ
    rw [hflo, hfhi]
    dsimp only
    rw [if_neg hd.ne', hget, hout fuel hfuel]
    simp only [Option.map_some, Except.bind, htr]
    rw [((slices_ok_iff read zs _).2 ⟨fhi, hin, ?_⟩).1]
    rintro ⟨-, y, hy, hlt⟩
    exact absurd (mfhi.2 y hy) (not_le.2 hlt)

/-- Snapshots at 6, 7, 8, channels of 20 MHz. -/
example : makeLightcone ⟨fun _ => (1 : ℚ), 1420, 300000⟩ (id : ℕ → ℕ) [6, 7, 8] none none 100 100
    (some 20) 10 = some (.error "ValueError") := by decide +kernel

/-- C12, proved part: with the comoving spacing and `z_high` not above the highest snapshot, every
output redshift is bracketed by two snapshots, so `make_lightcone` and `make_velocity_lightcone` get a
slice for each of them.  Missing: the frequency mode with the default `z_high` (`C12_false`). -/
theorem C12_partial (C : Cosmo K) (zs : List K) (zLow zHigh : Option K) (n L : K) (fuel : ℕ)
    (out : List K) (hzh : ∀ zh, zHigh = some zh → ∃ x ∈ zs, zh ≤ x)
    (h : outputZ C zs zLow zHigh n L none fuel = some (.ok out)) :
    out ≠ [] ∧ ∀ z ∈ out, Bracketed zs z := by
  unfold outputZ at h
  cases hflo : zs.min? with
  | none => rw [hflo] at h; cases h
  | some flo =>
    cases hfhi : zs.max? with
    | none => rw [hflo, hfhi] at h; cases h
    | some fhi =>
      have hne : zs ≠ [] := by rintro rfl; cases hflo
      rw [hflo, hfhi] at h
      dsimp only at h
      unfold comovingRedshifts at h
      have mfhi := List.max?_eq_some_iff.1 hfhi
      have hzh' : zHigh.getD fhi ≤ fhi := by
        cases zHigh with
        | none => exact le_rfl
        | some a =>
          obtain ⟨x, hx, hle⟩ := hzh a rfl
          exact hle.trans (mfhi.2 x hx)
      split at h
      · cases hw : whileLoop (fun z => decide (z < zHigh.getD fhi))
            (comovingNext C.H C.nu0 C.c L n) fuel (zLow.getD flo) with
        | none => rw [hw] at h; cases h
        | some l =>
          rw [hw] at h
          simp only [Option.map_some, Except.bind, Option.some.injEq] at h
          have hl : ∀ z ∈ l, z < zHigh.getD fhi := by
            intro z hz
            have := whileLoop_cond _ _ _ _ _ hw z hz
            exact of_decide_eq_true this
          obtain ⟨t1, t2⟩ := truncate_spec zs l hne
          by_cases hk : (l.filter fun z => decide ((∃ x ∈ zs, x ≤ z) ∧ ∃ x ∈ zs, z ≤ x)) = []
          · obtain ⟨e, he⟩ := t2 hk
            rw [he] at h; cases h
          · rw [t1 hk] at h
            cases h
            refine ⟨hk, fun z hz => ?_⟩
            obtain ⟨hz1, hz2⟩ := List.mem_filter.1 hz
            have hz2 := of_decide_eq_true hz2
            exact ⟨hz2.1, ⟨fhi, mfhi.1, (hl z hz1).trans_le hzh'⟩⟩
      · cases h

/-- C08, C11 and C12 together for the comoving mode of `make_lightcone`: when the requested range is
inside the snapshots and one cell never spans two snapshot redshifts, the call succeeds and every slice
is made from the two snapshots around its redshift. -/
theorem lightcone_comoving_correct [Archimedean K] (C : Cosmo K) (read : ℕ → D) (zs : List K)
    (zLow zHigh : Option K) (flo fhi n L δmin : K) (hflo : zs.min? = some flo)
    (hfhi : zs.max? = some fhi) (hnu : 0 < C.nu0) (hc : 0 < C.c) (hn : 0 < n) (hδ : 0 < δmin)
    (hflo1 : -1 < flo) (hzl : flo ≤ zLow.getD flo) (hzh : zHigh.getD fhi ≤ fhi)
    (hz : zLow.getD flo < zHigh.getD fhi)
    (hmin : ∀ z, flo ≤ z → z < fhi → δmin ≤ C.H z * L / (C.c * n * (1 + z)))
    (hmax : ∀ z, flo ≤ z → z < fhi → C.H z * L < C.c * n * (1 + z))
    (hone : ∀ z, flo ≤ z → z < fhi → AtMostOne zs z (comovingNext C.H C.nu0 C.c L n z)) :
    ∃ (N : ℕ) (out : List K) (us : List (Used K D)),
      (∀ fuel, N < fuel → outputZ C zs zLow zHigh n L none fuel = some (.ok out) ∧
        makeLightcone C read zs zLow zHigh n L none fuel = some (.ok us)) ∧
      out.head? = some (zLow.getD flo) ∧ us.length = out.length ∧
      ∀ i z u, out[i]? = some z → us[i]? = some u → Correct read zs z i u := by
  have mflo := List.min?_eq_some_iff.1 hflo
  have mfhi := List.max?_eq_some_iff.1 hfhi
  have hne : zs ≠ [] := List.ne_nil_of_mem mflo.1
  obtain ⟨N, out, hout, hhead, hchain, hmem, -⟩ := comovingRedshifts_spec C.H C.nu0 C.c L n
    (zLow.getD flo) (zHigh.getD fhi) δmin hnu hc hn (by linarith) hz hδ
    (fun z h1 h2 => hmin z (hzl.trans h1) (h2.trans_le hzh))
    (fun z h1 h2 => hmax z (hzl.trans h1) (h2.trans_le hzh))
  have hkeep : (out.filter fun z => decide ((∃ x ∈ zs, x ≤ z) ∧ ∃ x ∈ zs, z ≤ x)) = out := by
    rw [List.filter_eq_self]
    intro z hz'
    obtain ⟨h1, h2⟩ := hmem z hz'
    exact decide_eq_true ⟨⟨flo, mflo.1, hzl.trans h1⟩, ⟨fhi, mfhi.1, (h2.trans_le hzh).le⟩⟩
  have hone' : out ≠ [] := by rintro rfl; cases hhead
  have htr := (truncate_spec zs out hne).1 (by rw [hkeep]; exact hone')
  rw [hkeep] at htr
  have hoz : ∀ fuel, N < fuel → outputZ C zs zLow zHigh n L none fuel = some (.ok out) := by
    intro fuel hf
    unfold outputZ
    rw [hflo, hfhi]
    dsimp only
    rw [hout fuel hf]
    simp only [Option.map_some, Except.bind, htr]
  have hbr : ∀ z ∈ out, Bracketed zs z := by
    intro z hz'
    obtain ⟨h1, h2⟩ := hmem z hz'
    exact ⟨⟨flo, mflo.1, hzl.trans h1⟩, ⟨fhi, mfhi.1, h2.trans_le hzh⟩⟩
  obtain ⟨us, hus⟩ := ((slices_ok_iff read zs out).1 hbr).1
  have hc2 : out.IsChain fun z z' => z ≤ z' ∧ AtMostOne zs z z' := by
    rw [List.isChain_iff_getElem] at hchain ⊢
    intro i hi
    obtain ⟨a, b⟩ := hchain i hi
    refine ⟨a.le, ?_⟩
    obtain ⟨h1, h2⟩ := hmem out[i] (List.getElem_mem _)
    obtain ⟨h3, -⟩ := hmem out[i + 1] (List.getElem_mem _)
    have e : out[i + 1] = comovingNext C.H C.nu0 C.c L n out[i] := by
      have h4 : 0 < 1 + out[i] := by linarith
      have h5 : 0 < 1 + out[i + 1] := by linarith
      have h6 : 1 + out[i + 1] = C.nu0 / (C.nu0 / (1 + out[i]) -
          C.nu0 * C.H out[i] * (L / n) / (C.c * (1 + out[i]) ^ 2)) := by
        rw [← b, sub_sub_cancel]; field_simp
      unfold comovingNext
      dsimp only
      rw [show C.nu0 * C.H out[i] * L / (1 + out[i]) ^ 2 / C.c / n =
        C.nu0 * C.H out[i] * (L / n) / (C.c * (1 + out[i]) ^ 2) by field_simp, ← h6]
      ring
    rw [e]
    exact hone _ (hzl.trans h1) (h2.trans_le hzh)
  obtain ⟨hlen, hok⟩ := C08_partial read zs out us hc2 hus
  refine ⟨N, out, us, fun fuel hf => ⟨hoz fuel hf, ?_⟩, hhead, hlen, hok⟩
  unfold makeLightcone
  rw [hoz fuel hf]
  simp only [Option.map_some, Except.bind, hus]

/-- A made-up cosmology (`H = c n / (10 L) · (1 + z)`, so that every step multiplies `1 + z` by 10/9)
with snapshots at 6, 7, 8, 9: all hypotheses of `lightcone_comoving_correct` hold. -/
example :
    let C : Cosmo ℚ := ⟨fun z => 1 / 10 * (1 + z), 1420, 1⟩
    let zs : List ℚ := [6, 7, 8, 9]
    (∀ z, 6 ≤ z → z < 9 → 1 / 10 ≤ C.H z * 1 / (C.c * 1 * (1 + z))) ∧
    (∀ z, 6 ≤ z → z < 9 → C.H z * 1 < C.c * 1 * (1 + z)) ∧
    (∀ z, 6 ≤ z → z < 9 → AtMostOne zs z (comovingNext C.H C.nu0 C.c 1 1 z)) ∧
    makeLightcone C (id : ℕ → ℕ) zs none none 1 1 none 10 =
      some (.ok [⟨1, 0, 7, 6, 6, 0⟩, ⟨1, 0, 7, 6, 61/9, 1⟩, ⟨2, 1, 8, 7, 619/81, 2⟩,
        ⟨3, 2, 9, 8, 6271/729, 3⟩]) := by
  intro C zs
  refine ⟨?_, ?_, ?_, by decide +kernel⟩
  · intro z h1 h2
    have : (0 : ℚ) < 1 + z := by linarith
    simp only [C]
    field_simp
    norm_num
  · intro z h1 h2
    simp only [C]
    linarith
  · intro z h1 h2
    have hz : (0 : ℚ) < 1 + z := by linarith
    have e := comovingNext_add_one (H := C.H) (nu0 := C.nu0) (c := C.c) (L := 1) (n := 1) (z := z)
      (by norm_num [C]) (by norm_num [C]) (by norm_num) hz (by simp only [C]; linarith)
    have e2 : comovingNext C.H C.nu0 C.c 1 1 z = 10 / 9 * (1 + z) - 1 := by
      have : 1 - C.H z * 1 / (C.c * 1 * (1 + z)) = 9 / 10 := by
        simp only [C]
        field_simp
        norm_num
      rw [this] at e
      linarith
    rw [e2]
    simp only [AtMostOne, zs, List.mem_cons, List.not_mem_nil, or_false, forall_eq_or_imp, forall_eq]
    refine ⟨⟨?_, ?_, ?_, ?_⟩, ⟨?_, ?_, ?_, ?_⟩, ⟨?_, ?_, ?_, ?_⟩, ⟨?_, ?_, ?_, ?_⟩⟩ <;>
      first | (intro a b c d; exfalso; linarith) | simp

end Verif.Lightcone
