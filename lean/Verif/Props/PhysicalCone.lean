import Verif.Model.PhysicalCone
import Verif.Props.Angular
import Verif.Lemmas.UVResponse
/-!
# C138: lightcones from angle and frequency to lengths
-/

namespace Verif.PhysicalCone

open Verif.Conversions Verif.Constants Verif.Padding Verif.Binning Verif.Angular

/-! ## Specification -/

/-- The comoving length in Mpc of an angle in degrees at a distance, with 3.1415 for π as everywhere in the package. -/
noncomputable def across (deg d : ℝ) : ℝ := deg * (31415 / 10000) / 180 * d

/-- `n` is the whole part of `r` or, if that is even, the odd number above. -/
def OddAround (n : ℕ) (r : ℝ) : Prop := n % 2 = 1 ∧ r - 1 < n ∧ n ≤ r + 1

/-- Redshift of a frequency. -/
noncomputable def redshift (nu : ℝ) : ℝ := 1420 / nu - 1

/-! ## Slices -/

theorem deg_eq {k : Const} (p : Physical k) (f : Flat k) (deg : ℝ) {z : ℝ} (hz : 0 < z) :
    deg_to_cdist k deg z = across deg (cdist k z) := by
  have hD := cdist_pos p hz
  unfold deg_to_cdist across
  rw [(C79_angular k p f 1 z hz).1]
  field_simp

theorem resampled {k : Const} (p : Physical k) (f : Flat k) {deg z cell : ℝ} (hz : 0 < z)
    (hr : 0 ≤ across deg (cdist k z) / cell) :
    ∃ n : ℕ, resampledN k z deg cell = n ∧ OddAround n (across deg (cdist k z) / cell) ∧
      ⌊across deg (cdist k z) / cell⌋₊ ≤ n := by
  unfold resampledN
  rw [deg_eq p f _ hz]
  simp only []
  set r := across deg (cdist k z) / cell
  rw [trunc_nonneg hr]
  have h1 := Nat.floor_le hr
  have h2 := Nat.lt_floor_add_one r
  unfold OddAround
  split_ifs with h
  · refine ⟨⌊r⌋₊ + 1, by push_cast; rfl, ⟨by omega, ?_, ?_⟩, by omega⟩
    · push_cast; linarith
    · push_cast; linarith
  · exact ⟨⌊r⌋₊, rfl, ⟨by omega, by linarith, by linarith⟩, le_rfl⟩

/-- **C138, slices.** A slice is resampled to cells of about the size asked for, an odd number of them, and the cells
nearest to the first corner are kept, as many as fill the size asked for. -/
theorem C138_slice (k : Const) (p : Physical k) (f : Flat k) (resample : Resample) (hsq : Square resample)
    (s : Mat ℝ) {z deg cell size : ℝ} (hz : 0 < z) (hc : 0 < cell) (hs0 : 0 ≤ size)
    (hs : size ≤ across deg (cdist k z)) (hn : size / cell ≤ s.rows) :
    ∃ n b, OddAround n (across deg (cdist k z) / cell) ∧ sliceToPhysical k resample s z deg cell size = .ok b ∧
      b.rows = ⌊size / cell⌋₊ ∧ b.cols = ⌊size / cell⌋₊ ∧ ∀ x y, b.val x y = (resample s n).val x y := by
  have hr : 0 ≤ across deg (cdist k z) / cell := div_nonneg (hs0.trans hs) hc.le
  obtain ⟨n, h1, h2, h3⟩ := resampled p f hz hr
  have hle : ⌊size / cell⌋₊ ≤ n := le_trans (Nat.floor_mono (by gcongr)) h3
  have hcut : ⌊size / cell⌋₊ ≤ s.rows := Nat.floor_le_of_le hn
  unfold sliceToPhysical
  rw [if_neg hc.ne']
  simp only [h1]
  rw [if_neg (by omega), Int.toNat_natCast, trunc_nonneg (div_nonneg hs0 hc.le), if_neg (by omega)]
  simp only [stopOf_nonneg]
  exact ⟨n, _, h2, rfl, by simp only [(hsq s n).1]; omega, by simp only [(hsq s n).2]; omega, fun x y => rfl⟩

/-! ## Lightcones -/

theorem plane_eq (k : Const) (p : Physical k) (f : Flat k) (resample : Resample) (hsq : Square resample)
    (lc : Cone) {freqs : List ℝ} {deg cell size : ℝ} {i : ℕ} (hi : i < freqs.length)
    (hz : 0 < redshift (freqs.getD i 0)) (hc : 0 < cell) (hs0 : 0 ≤ size)
    (hs : size ≤ across deg (cdist k (redshift (freqs.getD i 0)))) (hn : size / cell ≤ lc.n0) :
    ∃ n v, OddAround n (across deg (cdist k (redshift (freqs.getD i 0))) / cell) ∧
      plane k resample lc freqs deg cell size ⌊size / cell⌋₊ i = .ok v ∧
      ∀ x y, v x y = (resample (Cone.slice lc i) n).val x y := by
  obtain ⟨n, b, h1, h2, h3, h4, h5⟩ := C138_slice k p f resample hsq (Cone.slice lc i) hz hc hs0 hs hn
  unfold plane
  rw [List.getElem?_eq_getElem hi]
  simp only []
  rw [List.getD_eq_getElem _ _ hi] at h2
  rw [show nu_to_z freqs[i] = redshift freqs[i] from rfl, h2]
  simp only []
  unfold assign
  rw [if_pos ⟨Or.inl h3, Or.inl h4⟩]
  refine ⟨n, _, h1, rfl, fun x y => ?_⟩
  simp only [h3, h4, h5, spread, if_true, Option.getD_some]

/-- **C138.** The cell size returned is the larger one of the width of an angular cell at the first frequency and the
depth of the last channel.  The output has as many cells across as fill the field of view at the first frequency, and as
many whole cells along the line of sight as fit between the first and the last channel; each slice is the average of
channels around the last one that is not farther, resampled to cells of about that size.

Missing: slices averaged with channels outside the lightcone, which count as zero (`C109_false_edge`), and the list of
redshifts, which may be longer than the output (`C109_false`). -/
theorem C138_partial (k : Const) (p : Physical k) (f : Flat k) (toZ : List ℝ → Except String (List ℝ))
    (resample : Resample) (hsq : Square resample) (lc : Cone) (freqs : List ℝ) {dtheta cell n : ℝ} (zs : List ℝ)
    (hl : freqs.length = lc.n2) (h2 : 2 ≤ lc.n2) (h0 : 0 < lc.n0) (hsquare : lc.n1 = lc.n0)
    (hdesc : freqs.Pairwise (· > ·)) (hpos : ∀ nu ∈ freqs, 0 < nu ∧ nu < 1420) (hd : 0 < dtheta)
    (hcell : cell = max (cdist k (redshift (freqs.getD (lc.n2 - 1) 0)) - cdist k (redshift (freqs.getD (lc.n2 - 2) 0)))
      (across (dtheta / 60) (cdist k (redshift (freqs.getD 0 0)))))
    (hn : n = (cdist k (redshift (freqs.getD (lc.n2 - 1) 0)) - cdist k (redshift (freqs.getD 0 0))) / cell)
    (hw : n < 2 * lc.n2)
    (hz : toZ ((List.range ⌈n⌉₊).map fun (i : ℕ) => cdist k (redshift (freqs.getD 0 0)) + i * cell) = .ok zs) :
    ∃ (out : Cone) (w : ℕ) (N : ℕ → ℕ), coneToPhysical k toZ resample lc freqs dtheta = .ok (out, zs, cell) ∧
      out.n0 = ⌊across (lc.n0 * (dtheta / 60)) (cdist k (redshift (freqs.getD 0 0))) / cell⌋₊ ∧ out.n1 = out.n0 ∧
      out.n0 ≤ lc.n0 ∧ out.n2 = ⌊n⌋₊ ∧ 1 ≤ w ∧ |(w : ℝ) - lc.n2 / n| ≤ 1 / 2 ∧
      (∀ s < lc.n2, OddAround (N s)
        (across (lc.n0 * (dtheta / 60)) (cdist k (redshift (freqs.getD s 0))) / cell)) ∧
      ∀ i < out.n2, ∃ j < lc.n2,
        cdist k (redshift (freqs.getD j 0)) ≤ cdist k (redshift (freqs.getD 0 0)) + i * cell ∧
        (∀ j', j < j' → j' < lc.n2 →
          cdist k (redshift (freqs.getD 0 0)) + i * cell < cdist k (redshift (freqs.getD j' 0))) ∧
        ∀ x y, out.val x y i =
          (∑ s ∈ around w lc.n2 j, (resample ⟨lc.n0, lc.n0, fun x y => lc.val x y s⟩ (N s)).val x y) / w := by
  have hne : freqs ≠ [] := List.ne_nil_of_length_pos (by omega)
  have hget : ∀ i < lc.n2, freqs.getD i 0 ∈ freqs := fun i hi => by
    rw [List.getD_eq_getElem _ _ (by omega)]
    exact List.getElem_mem _
  have hzpos : ∀ i < lc.n2, 0 < redshift (freqs.getD i 0) := by
    intro i hi
    obtain ⟨h3, h4⟩ := hpos _ (hget i hi)
    unfold redshift
    have : 1 < 1420 / freqs.getD i 0 := (one_lt_div h3).mpr h4
    linarith
  have hlt : ∀ i j, i < j → j < lc.n2 → redshift (freqs.getD i 0) < redshift (freqs.getD j 0) := by
    intro i j hij hj
    have h3 : freqs.getD j 0 < freqs.getD i 0 := by
      rw [List.getD_eq_getElem _ _ (by omega), List.getD_eq_getElem _ _ (by omega)]
      exact List.pairwise_iff_getElem.1 hdesc i j _ _ hij
    unfold redshift
    have := div_lt_div_of_pos_left (show (0 : ℝ) < 1420 by norm_num) (hpos _ (hget j hj)).1 h3
    linarith
  have hdist : ∀ i j, i < j → j < lc.n2 → cdist k (redshift (freqs.getD i 0)) < cdist k (redshift (freqs.getD j 0)) :=
    fun i j hij hj => C78_monotone k p (by linarith [hzpos i (by omega)]) (hlt i j hij hj)
  have hD0 := cdist_pos p (hzpos 0 (by omega))
  set d0 := cdist k (redshift (freqs.getD 0 0)) with hd0
  have hn0 : (0 : ℝ) < lc.n0 := by exact_mod_cast h0
  have hperp : 0 < across (dtheta / 60) d0 := by unfold across; positivity
  have hcpos : 0 < cell := by rw [hcell]; exact lt_max_of_lt_right hperp
  have hfov : across (lc.n0 * (dtheta / 60)) d0 = lc.n0 * across (dtheta / 60) d0 := by unfold across; ring
  have hfov0 : 0 ≤ across (lc.n0 * (dtheta / 60)) d0 := by rw [hfov]; positivity
  have hfit : across (lc.n0 * (dtheta / 60)) d0 / cell ≤ lc.n0 := by
    rw [div_le_iff₀ hcpos, hfov]
    have : across (dtheta / 60) d0 ≤ cell := by rw [hcell]; exact le_max_right _ _
    gcongr
  have hplane : ∀ i < lc.n2, ∃ n v, OddAround n
      (across (lc.n0 * (dtheta / 60)) (cdist k (redshift (freqs.getD i 0))) / cell) ∧
      plane k resample lc freqs (lc.n0 * (dtheta / 60)) cell (across (lc.n0 * (dtheta / 60)) d0)
        ⌊across (lc.n0 * (dtheta / 60)) d0 / cell⌋₊ i = .ok v ∧
      ∀ x y, v x y = (resample (Cone.slice lc i) n).val x y := by
    intro i hi
    refine plane_eq k p f resample hsq lc (by omega) (hzpos i hi) hcpos hfov0 ?_ hfit
    have : d0 ≤ cdist k (redshift (freqs.getD i 0)) := by
      rcases Nat.eq_zero_or_pos i with rfl | h
      · exact le_rfl
      · exact (hdist 0 i h hi).le
    unfold across
    gcongr
  choose! N v hN hv hval using hplane
  have hmapM := UVResponse.mapM_ok' (plane k resample lc freqs (lc.n0 * (dtheta / 60)) cell
    (across (lc.n0 * (dtheta / 60)) d0) ⌊across (lc.n0 * (dtheta / 60)) d0 / cell⌋₊) v (List.range lc.n2)
    fun i hi => hv i (List.mem_range.mp hi)
  set m := ⌊across (lc.n0 * (dtheta / 60)) d0 / cell⌋₊ with hm
  set vol : Cone := ⟨m, m, lc.n2, fun x y i => (((List.range lc.n2).map v).getD i fun _ _ => 0) x y⟩ with hvol
  obtain ⟨out, w, e1, e2, e3, e4, e5, e6, e7⟩ := C109_partial k p toZ vol freqs cell n zs hl h2 hdesc
    (fun nu h => (hpos nu h).1) hcpos hn hw hz
  have hres : coneToPhysical k toZ resample lc freqs dtheta = .ok (out, zs, cell) := by
    unfold coneToPhysical
    rw [head_getD _ hne, last_getD _ hne, hl]
    simp only []
    have h3 : freqs.getD (lc.n2 - 1) 0 < freqs.getD 0 0 := by
      rw [List.getD_eq_getElem _ _ (by omega), List.getD_eq_getElem _ _ (by omega)]
      exact List.pairwise_iff_getElem.1 hdesc 0 _ _ _ (by omega)
    rw [if_neg (by simpa using h3), if_neg (by simp [hsquare]), if_neg (by omega)]
    have h4 : (lc.n0 : ℝ) * dtheta / 60 = lc.n0 * (dtheta / 60) := by ring
    have h5 : (lc.n0 : ℝ) * (dtheta / 60) / angular_size_comoving k 1 (nu_to_z (freqs.getD 0 0)) =
        across (lc.n0 * (dtheta / 60)) d0 := by
      have := deg_eq p f (lc.n0 * (dtheta / 60)) (hzpos 0 (by omega))
      unfold deg_to_cdist at this
      rw [hd0, ← this]
      rfl
    have h6 : across (lc.n0 * (dtheta / 60)) d0 / lc.n0 = across (dtheta / 60) d0 := by
      rw [hfov]
      field_simp
    rw [h4, h5, h6]
    have h7 : max (nu_to_cdist k (freqs.getD (lc.n2 - 1) 0) - nu_to_cdist k (freqs.getD (lc.n2 - 2) 0))
        (across (dtheta / 60) d0) = cell := hcell.symm
    rw [h7, if_neg hcpos.ne', trunc_nonneg (div_nonneg hfov0 hcpos.le), if_neg (by omega), Int.toNat_natCast]
    rw [hmapM]
    simp only []
    rw [e1]
  refine ⟨out, w, N, hres, e2, e3.trans e2.symm, ?_, e4, e5, e6, hN, ?_⟩
  · rw [e2]
    exact Nat.floor_le_of_le hfit
  · intro i hi
    obtain ⟨j, hj, g1, g2, g3⟩ := e7 i hi
    refine ⟨j, hj, g1, g2, fun x y => ?_⟩
    rw [g3]
    congr 1
    refine Finset.sum_congr rfl fun s hs => ?_
    have hs' : s < lc.n2 := by
      unfold around at hs
      exact Finset.mem_range.mp (Finset.mem_filter.mp hs).1
    simp only [hvol]
    rw [List.getD_eq_getElem _ _ (by simpa using hs'), List.getElem_map, List.getElem_range, hval s hs']
    unfold Cone.slice
    rw [hsquare]

/-- The hypotheses can be met: two channels at redshifts one and two. -/
example : ∃ (lc : Cone) (freqs : List ℝ) (dtheta cell n : ℝ) (toZ : List ℝ → Except String (List ℝ)) (zs : List ℝ),
    freqs.length = lc.n2 ∧ 2 ≤ lc.n2 ∧ 0 < lc.n0 ∧ lc.n1 = lc.n0 ∧ freqs.Pairwise (· > ·) ∧
    (∀ nu ∈ freqs, 0 < nu ∧ nu < 1420) ∧ 0 < dtheta ∧
    cell = max (cdist (Const.init 3) (redshift (freqs.getD (lc.n2 - 1) 0)) -
      cdist (Const.init 3) (redshift (freqs.getD (lc.n2 - 2) 0)))
      (across (dtheta / 60) (cdist (Const.init 3) (redshift (freqs.getD 0 0)))) ∧
    n = (cdist (Const.init 3) (redshift (freqs.getD (lc.n2 - 1) 0)) -
      cdist (Const.init 3) (redshift (freqs.getD 0 0))) / cell ∧ n < 2 * lc.n2 ∧
    toZ ((List.range ⌈n⌉₊).map fun (i : ℕ) => cdist (Const.init 3) (redshift (freqs.getD 0 0)) + i * cell) = .ok zs := by
  refine ⟨⟨8, 8, 2, fun x y i => x + y + i⟩, [710, 400], 1, _, _, fun ds => .ok ds, _, rfl, le_rfl, by norm_num, rfl,
    by norm_num, ?_, one_pos, rfl, rfl, ?_, rfl⟩
  · intro nu h
    simp only [List.mem_cons, List.not_mem_nil, or_false] at h
    rcases h with rfl | rfl <;> norm_num
  · have p := physical_init
    have hlt : cdist (Const.init 3) (redshift 710) < cdist (Const.init 3) (redshift 400) :=
      C78_monotone _ p (by norm_num [redshift]) (by norm_num [redshift])
    simp only [show (2 : ℕ) - 1 = 1 from rfl, show (2 : ℕ) - 2 = 0 from rfl, List.getD_cons_zero, List.getD_cons_succ]
    refine lt_of_le_of_lt (b := 1) ?_ (by norm_num)
    rw [div_le_one (lt_max_of_lt_left (by linarith))]
    exact le_max_left _ _

/-- Resampling that leaves slices alone which have the right number of cells. -/
def Faithful (resample : Resample) : Prop :=
  ∀ s : Mat ℝ, s.cols = s.rows → ∀ x y, x < s.rows → y < s.rows → (resample s s.rows).val x y = s.val x y

/-- Taking the nearest cell, for samples from the first to the last cell. -/
def nearest : Resample := fun s n => ⟨n, n, fun x y =>
  s.val ((2 * x * (s.rows - 1) + (n - 1)) / (2 * (n - 1))) ((2 * y * (s.cols - 1) + (n - 1)) / (2 * (n - 1)))⟩

theorem nearest_faithful : Faithful nearest := by
  intro s hs x y hx hy
  have key : ∀ t < s.rows, (2 * t * (s.rows - 1) + (s.rows - 1)) / (2 * (s.rows - 1)) = t := by
    intro t ht
    rcases Nat.eq_zero_or_pos (s.rows - 1) with h | h
    · rw [h]
      simp
      omega
    · rw [show 2 * t * (s.rows - 1) + (s.rows - 1) = (s.rows - 1) + 2 * (s.rows - 1) * t by ring,
        Nat.add_mul_div_left _ _ (by omega), Nat.div_eq_of_lt (by omega)]
      omega
  show s.val _ _ = _
  rw [hs, key x hx, key y hy]

/-- **C138 is false** of slices with an even number of cells: one that has the right cells already is resampled to one
more cell, which is then cut off. -/
theorem C138_even_false : ¬ ∀ (k : Const) (resample : Resample) (s b : Mat ℝ) (z deg : ℝ), Physical k → Flat k →
    Square resample → Faithful resample → s.cols = s.rows → 0 < s.rows → 0 < z → 0 < deg →
    sliceToPhysical k resample s z deg (across deg (cdist k z) / s.rows) (across deg (cdist k z)) = .ok b →
    ∀ x y, x < s.rows → y < s.rows → b.val x y = s.val x y := by
  intro h
  have p := physical_init
  have f := flat_init
  have hsq : Square nearest := fun _ _ => ⟨rfl, rfl⟩
  set s : Mat ℝ := ⟨4, 4, fun x _ => x⟩ with hs
  have hD := cdist_pos p (z := 1) one_pos
  have hA : 0 < across 1 (cdist (Const.init 3) 1) := by unfold across; positivity
  have hc : 0 < across 1 (cdist (Const.init 3) 1) / s.rows := by
    rw [hs]
    positivity
  have hq : across 1 (cdist (Const.init 3) 1) / (across 1 (cdist (Const.init 3) 1) / s.rows) = 4 := by
    rw [hs]
    push_cast
    field_simp
  obtain ⟨n, b, h1, h2, -, -, h3⟩ := C138_slice _ p f nearest hsq s (z := 1) (deg := 1) one_pos hc hA.le le_rfl
    (by rw [hq, hs]; norm_num)
  rw [hq] at h1
  obtain ⟨g1, g2, g3⟩ := h1
  have hn : n = 5 := by
    have g4 : 3 < n := by
      have : (3 : ℝ) < n := by linarith
      exact_mod_cast this
    have g5 : n ≤ 5 := by
      have : (n : ℝ) ≤ 5 := by linarith
      exact_mod_cast this
    omega
  have := h _ nearest s b 1 1 p f hsq nearest_faithful rfl (by simp [hs]) one_pos one_pos h2 3 0 (by simp [hs])
    (by simp [hs])
  rw [h3, hn] at this
  simp only [hs, nearest] at this
  norm_num at this

/-- **C138, errors.** Frequencies that do not end below the first, and slices that are not square, raise. -/
theorem C138_raises (k : Const) (toZ : List ℝ → Except String (List ℝ)) (resample : Resample) (lc : Cone)
    (freqs : List ℝ) (dtheta : ℝ) (h : freqs.getD 0 0 ≤ freqs.getD (freqs.length - 1) 0 ∨ lc.n0 ≠ lc.n1)
    (hne : freqs ≠ []) : coneToPhysical k toZ resample lc freqs dtheta = .error "AssertionError" := by
  unfold coneToPhysical
  rw [head_getD _ hne, last_getD _ hne]
  simp only []
  by_cases h1 : freqs.getD (freqs.length - 1) 0 < freqs.getD 0 0
  · rw [if_neg (by simpa using h1)]
    rcases h with h | h
    · exact absurd h1 (not_lt.mpr h)
    · rw [if_pos h]
  · rw [if_pos h1]

example (toZ : List ℝ → Except String (List ℝ)) :
    coneToPhysical (Const.init 3) toZ nearest ⟨8, 8, 2, fun _ _ _ => 0⟩ [400, 710] 1 = .error "AssertionError" :=
  C138_raises _ _ _ _ _ _ (Or.inl (by norm_num)) (by simp)

end Verif.PhysicalCone
