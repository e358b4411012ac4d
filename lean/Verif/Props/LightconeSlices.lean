import Verif.Props.Lightcone
/-!
# Slice interpolation and sub-volumes of `lightcone.py` (C09, C13)
-/

set_option linter.unusedSectionVars false

namespace Verif.Lightcone

variable {K : Type} [Field K] [LinearOrder K] [IsStrictOrderedRing K] {D : Type}

/-! ## C09: interpolation -/

/-- The cell of a cube at line-of-sight index `k` and transverse position `(i, j)`. -/
def Cube.at (d : Cube K) (axis : Fin 3) (k i j : ℕ) : K :=
  match axis with
  | 0 => d.val k i j
  | 1 => d.val i k j
  | 2 => d.val i j k

/-- The side of a cube along an axis. -/
def Cube.side (d : Cube K) (axis : Fin 3) : ℕ :=
  match axis with
  | 0 => d.n0
  | 1 => d.n1
  | 2 => d.n2

/-- C09, geometry, proved part: for cubes whose line-of-sight side is that of axis 1 (every cubic box),
the slice at position `pos` is computed cell by cell from the two snapshots at the same transverse
position and line-of-sight index `pos mod side`.  Missing: boxes with different sides, for which the
claim is false (`C09_false_axis`). -/
theorem C09_slice_partial (exp : K → K) (s : Scheme K) (axis : Fin 3) (u : Used K (Cube K))
    (hpos : 0 < u.dataLow.side axis) (hlow : u.dataLow.n1 = u.dataLow.side axis)
    (hhigh : u.dataHigh.side axis = u.dataLow.side axis) :
    ∃ f, interpSlice exp s axis u = .ok f ∧ ∀ i j,
      f i j = interpCell exp s (u.dataHigh.at axis (u.pos % u.dataLow.side axis) i j)
        (u.dataLow.at axis (u.pos % u.dataLow.side axis) i j) u.zHigh u.zLow u.z i j := by
  have hlt := Nat.mod_lt u.pos hpos
  unfold interpSlice
  rw [hlow]
  match axis with
  | 0 | 1 | 2 =>
    simp only [Cube.side] at hlt hhigh
    simp only [getSlice, Cube.side, Cube.at, Fin.isValue, Fin.val_zero, Fin.val_one, Fin.val_two,
      bind, Except.bind, hhigh, hlt, if_true, one_ne_zero, if_false, OfNat.ofNat_ne_zero,
      OfNat.ofNat_ne_one]
    exact ⟨_, rfl, fun i j => rfl⟩

/-- C09 fails for a box that is not a cube: sides 2, 2, 3 and line of sight along axis 2; position 2
takes slice 0 instead of slice 2. -/
theorem C09_false_axis : ∃ (d : Cube ℚ) (u : Used ℚ (Cube ℚ)) (f : ℕ → ℕ → ℚ),
    u.dataLow = d ∧ u.dataHigh = d ∧ u.pos < d.side 2 ∧
    interpSlice id .linear 2 u = .ok f ∧ f 0 0 ≠ d.at 2 u.pos 0 0 := by
  refine ⟨⟨2, 2, 3, fun _ _ k => k⟩, ⟨⟨2, 2, 3, fun _ _ k => k⟩, ⟨2, 2, 3, fun _ _ k => k⟩, 7, 6,
    13/2, 2⟩, _, rfl, rfl, by decide, rfl, ?_⟩
  simp only [interpCell, Cube.at]
  norm_num

/-- C09, linear interpolation: the cell lies between the two snapshots, equals the lower one at its
redshift, reaches the upper one at its redshift, and changes at a constant rate. -/
theorem linear_spec (exp : K → K) (hi lo zh zl z : K) (i j : ℕ) (hz : zl < zh) :
    (zl ≤ z → z ≤ zh → min lo hi ≤ interpCell exp .linear hi lo zh zl z i j ∧
      interpCell exp .linear hi lo zh zl z i j ≤ max lo hi) ∧
    interpCell exp .linear hi lo zh zl zl i j = lo ∧
    interpCell exp .linear hi lo zh zl zh i j = hi ∧
    (interpCell exp .linear hi lo zh zl z i j - lo) * (zh - zl) = (hi - lo) * (z - zl) := by
  have hd : 0 < zh - zl := sub_pos.2 hz
  simp only [interpCell]
  refine ⟨fun h1 h2 => ⟨?_, ?_⟩, ?_, ?_, ?_⟩
  · rw [le_div_iff₀ hd]
    nlinarith [min_le_left lo hi, min_le_right lo hi, mul_nonneg (sub_nonneg.2 h1)
      (sub_nonneg.2 (min_le_right lo hi)), mul_nonneg (sub_nonneg.2 h2)
      (sub_nonneg.2 (min_le_left lo hi))]
  · rw [div_le_iff₀ hd]
    nlinarith [mul_nonneg (sub_nonneg.2 h1) (sub_nonneg.2 (le_max_right lo hi)),
      mul_nonneg (sub_nonneg.2 h2) (sub_nonneg.2 (le_max_left lo hi))]
  · field_simp; ring
  · field_simp; ring
  · field_simp; ring

example : interpCell (K := ℚ) id .linear 1 0 8 6 (13/2) 0 0 = 1/4 := by
  norm_num [interpCell]

/-- The documented behaviour of `interpolation='step'`: the lower snapshot in the first half of the
interval, the upper one in the second half. -/
def StepHalfway (f : K → K → K → K → K → K) : Prop :=
  ∀ hi lo zh zl z, zl ≤ z → z < zh →
    (z < (zl + zh) / 2 → f hi lo zh zl z = lo) ∧ ((zl + zh) / 2 < z → f hi lo zh zl z = hi)

/-- C09 fails for `interpolation='step'`: at redshift 6.1 between snapshots 6 and 7 the upper snapshot
is used. -/
theorem C09_false_step : ¬ StepHalfway (K := ℚ) fun hi lo zh zl z =>
    interpCell id .step hi lo zh zl z 0 0 := by
  intro h
  have := (h 1 0 7 6 (61/10) (by norm_num) (by norm_num)).1 (by norm_num)
  norm_num [interpCell] at this

/-- What `interpolation='step'` does: the switch is at half the *width* of the bracket, so whenever the
upper redshift is at most three times the lower one, the lower snapshot is never used. -/
theorem C09_step_partial (exp : K → K) (hi lo zh zl z : K) (i j : ℕ) (h : zh ≤ 3 * zl) (hz : zl ≤ z) :
    interpCell exp .step hi lo zh zl z i j = hi := by
  simp only [interpCell]
  rw [if_neg (not_lt.2 (by linarith))]

example : (7 : ℚ) ≤ 3 * 6 ∧ interpCell (K := ℚ) id .step 1 0 7 6 (61/10) 0 0 = 1 := by
  norm_num [interpCell]

/-- Every cell of the `step` and `step_cell` schemes is the cell of one of the two snapshots. -/
theorem step_cases (exp : K → K) (t : ℕ → ℕ → K) (hi lo zh zl z : K) (i j : ℕ) :
    (interpCell exp .step hi lo zh zl z i j = lo ∨ interpCell exp .step hi lo zh zl z i j = hi) ∧
    (interpCell exp (.stepCell t) hi lo zh zl z i j = lo ∨
      interpCell exp (.stepCell t) hi lo zh zl z i j = hi) := by
  simp only [interpCell]
  constructor <;> split <;> simp

/-- In the `step_cell` scheme a cell never switches back: once the upper snapshot is used it stays. -/
theorem stepCell_monotone (exp : K → K) (t : ℕ → ℕ → K) (hi lo zh zl z z' : K) (i j : ℕ) (hz : z ≤ z')
    (hne : lo ≠ hi) (h : interpCell exp (.stepCell t) hi lo zh zl z i j = hi) :
    interpCell exp (.stepCell t) hi lo zh zl z' i j = hi := by
  simp only [interpCell] at h ⊢
  split at h
  · exact absurd h hne
  · next c => rw [if_neg (not_lt.2 ((not_lt.1 c).trans hz))]

example : interpCell (K := ℚ) id (.stepCell fun _ _ => 1/4) 1 0 8 6 7 0 0 = 1 ∧
    interpCell (K := ℚ) id (.stepCell fun _ _ => 3/4) 1 0 8 6 7 0 0 = 0 := by
  norm_num [interpCell]

/-- C09, sigmoid interpolation: strictly between the two snapshots when they differ (here the lower cell
is smaller), the mean of the two at the middle of the interval, and increasing with redshift. -/
theorem sigmoid_spec (hi lo zh zl z z' : ℝ) (i j : ℕ) (hz : zl < zh) (hlt : lo < hi) :
    (lo < interpCell Real.exp .sigmoid hi lo zh zl z i j ∧
      interpCell Real.exp .sigmoid hi lo zh zl z i j < hi) ∧
    interpCell Real.exp .sigmoid hi lo zh zl ((zl + zh) / 2) i j = (lo + hi) / 2 ∧
    (z < z' → interpCell Real.exp .sigmoid hi lo zh zl z i j <
      interpCell Real.exp .sigmoid hi lo zh zl z' i j) := by
  have hd : 0 < zh - zl := sub_pos.2 hz
  simp only [interpCell]
  have g01 : ∀ x : ℝ, 0 < 1 / (1 + Real.exp x) ∧ 1 / (1 + Real.exp x) < 1 := by
    intro x
    have := Real.exp_pos x
    constructor
    · positivity
    · rw [div_lt_one (by positivity)]; linarith
  refine ⟨⟨?_, ?_⟩, ?_, ?_⟩
  · have := g01 (-2 * (-10 + 20 * (z - zl) / (zh - zl)))
    nlinarith [this.1]
  · have := g01 (-2 * (-10 + 20 * (z - zl) / (zh - zl)))
    nlinarith [this.2]
  · have : -2 * (-10 + 20 * ((zl + zh) / 2 - zl) / (zh - zl)) = 0 := by field_simp; ring
    rw [this, Real.exp_zero]; ring
  · intro hzz
    have h1 : -2 * (-10 + 20 * (z' - zl) / (zh - zl)) < -2 * (-10 + 20 * (z - zl) / (zh - zl)) := by
      have : 20 * (z - zl) / (zh - zl) < 20 * (z' - zl) / (zh - zl) :=
        div_lt_div_of_pos_right (by linarith) hd
      linarith
    have h2 := Real.exp_lt_exp.2 h1
    have h3 : 1 / (1 + Real.exp (-2 * (-10 + 20 * (z - zl) / (zh - zl)))) <
        1 / (1 + Real.exp (-2 * (-10 + 20 * (z' - zl) / (zh - zl)))) := by
      apply one_div_lt_one_div_of_lt
      · have := Real.exp_pos (-2 * (-10 + 20 * (z' - zl) / (zh - zl))); linarith
      · linarith
    nlinarith

example : (6 : ℝ) < 7 ∧ (0 : ℝ) < 1 := by norm_num

/-! ## C13: sub-volumes -/

/-- Slice `i` is (one of) the slices whose redshift is closest to `z`. -/
def IsNearest (zs : List K) (z : K) (i : ℕ) : Prop :=
  ∃ a, zs[i]? = some a ∧ ∀ x ∈ zs, |a - z| ≤ |x - z|

/-- C13, range check: a requested range that leaves the lightcone raises. -/
theorem subvolume_out_of_range (zs : List K) (lowZ highZ : K) (odd verbose : Bool)
    (h : (∀ x ∈ zs, lowZ < x) ∨ (∀ x ∈ zs, x < highZ)) :
    ∃ e, subvolume zs lowZ highZ odd verbose = .error e := by
  unfold subvolume
  cases hmn : zs.min? with
  | none => exact ⟨_, rfl⟩
  | some mn =>
    cases hmx : zs.max? with
    | none => exact ⟨_, rfl⟩
    | some mx =>
      have m1 := List.min?_eq_some_iff.1 hmn
      have m2 := List.max?_eq_some_iff.1 hmx
      dsimp only
      by_cases c1 : lowZ < mn
      · rw [if_pos c1]; exact ⟨_, rfl⟩
      · rw [if_neg c1]
        rcases h with h | h
        · exact absurd (h mn m1.1) c1
        · rw [if_pos (h mx m2.1)]; exact ⟨_, rfl⟩

example : subvolume [(6 : ℚ), 7, 8] 5 7 true false = .error "Lowest z is outside range" ∧
    subvolume [(6 : ℚ), 7, 8] 7 9 true false = .error "Highest z is outside range" := by
  decide +kernel

/-- The nearest slice moves up with the requested redshift. -/
theorem nearest_mono (zs : List K) (hsort : zs.Pairwise (· < ·)) (hne : zs ≠ []) {z z' : K}
    (h : z ≤ z') : nearest zs z ≤ nearest zs z' := by
  obtain ⟨a, ha, ha'⟩ := nearest_spec hne z
  obtain ⟨b, hb, hb'⟩ := nearest_spec hne z'
  by_contra hlt
  push Not at hlt
  obtain ⟨h1, e1⟩ := List.getElem?_eq_some_iff.1 ha
  obtain ⟨h2, e2⟩ := List.getElem?_eq_some_iff.1 hb
  have hba : b < a := by rw [← e1, ← e2]; exact List.pairwise_iff_getElem.1 hsort _ _ h2 h1 hlt
  have hA := ha' b (List.mem_of_getElem? hb)
  have hB := hb' a (List.mem_of_getElem? ha)
  have q1 : a + b ≤ 2 * z := by
    by_contra hc
    push Not at hc
    have := sq_le_sq' (by linarith [abs_nonneg (a - z), abs_nonneg (b - z)]) hA
    rw [sq_abs, sq_abs] at this
    nlinarith
  have q2 : 2 * z' ≤ a + b := by
    by_contra hc
    push Not at hc
    have := sq_le_sq' (by linarith [abs_nonneg (a - z'), abs_nonneg (b - z')]) hB
    rw [sq_abs, sq_abs] at this
    nlinarith
  have : z = z' := by linarith
  subst this
  exact lt_irrefl _ hlt

/-- C13, proved part.  On an ascending grid a successful call cuts out the slices `lo, …, hi - 1`
where `lo` is the slice closest to the lower bound; up to the slice `h` closest to the upper bound
nothing is left out before `h`, nothing after `h` is taken, `h` itself is taken exactly when
`odd_num_cells` is set and `h - lo` is even, and with `odd_num_cells` the number of slices is odd.
Missing: `h` is left out otherwise (`C13_false_upper`). -/
theorem C13_partial (zs : List K) (lowZ highZ : K) (odd verbose : Bool) (lo hi : ℕ)
    (hsort : zs.Pairwise (· < ·)) (hz : lowZ ≤ highZ)
    (h : subvolume zs lowZ highZ odd verbose = .ok (lo, hi)) :
    ∃ m, IsNearest zs lowZ lo ∧ IsNearest zs highZ m ∧ lo ≤ m ∧ m < zs.length ∧
      m ≤ hi ∧ hi ≤ m + 1 ∧ (hi = m + 1 ↔ odd = true ∧ (m - lo) % 2 = 0) ∧
      (odd = true → (hi - lo) % 2 = 1) ∧ (∃ x ∈ zs, x ≤ lowZ) ∧ ∃ x ∈ zs, highZ ≤ x := by
  unfold subvolume at h
  cases hmn : zs.min? with
  | none => rw [hmn] at h; cases h
  | some mn =>
    cases hmx : zs.max? with
    | none => rw [hmn, hmx] at h; cases h
    | some mx =>
      rw [hmn, hmx] at h
      dsimp only at h
      have m1 := List.min?_eq_some_iff.1 hmn
      have m2 := List.max?_eq_some_iff.1 hmx
      have hne : zs ≠ [] := List.ne_nil_of_mem m1.1
      split at h
      · cases h
      next c1 =>
      split at h
      · cases h
      next c2 =>
      generalize hN : (if ((nearest zs highZ : Int) - nearest zs lowZ) % 2 = 0 ∧ odd = true then
        nearest zs highZ + 1 else nearest zs highZ) = N at h
      split at h
      · cases h
      next c3 =>
      have e := Except.ok.inj h
      have hlo : nearest zs lowZ = lo := congrArg Prod.fst e
      have hhi : N = hi := congrArg Prod.snd e
      rw [← hN] at hhi
      have mono := nearest_mono zs hsort hne hz
      obtain ⟨a, ha, ha'⟩ := nearest_spec hne lowZ
      obtain ⟨b, hb, hb'⟩ := nearest_spec hne highZ
      have hlt : nearest zs highZ < zs.length := (List.getElem?_eq_some_iff.1 hb).1
      rw [hlo] at ha mono hhi
      refine ⟨nearest zs highZ, ⟨a, ha, ha'⟩, ⟨b, hb, hb'⟩, mono, hlt, ?_, ?_, ?_, ?_,
        ⟨mn, m1.1, not_lt.1 c1⟩, ⟨mx, m2.1, not_lt.1 c2⟩⟩
      · split at hhi <;> omega
      · split at hhi <;> omega
      · split at hhi
        · next c => exact ⟨fun _ => ⟨c.2, by omega⟩, fun _ => hhi.symm⟩
        · next c =>
          constructor
          · intro h'; omega
          · rintro ⟨h1, h2⟩; exact absurd ⟨by omega, h1⟩ c
      · intro ho
        split at hhi
        · next c => omega
        · next c =>
          have : ¬ ((nearest zs highZ : Int) - lo) % 2 = 0 := fun h' => c ⟨h', ho⟩
          omega

example : subvolume [(6 : ℚ), 7, 8, 9, 10] 6 8 true true = .ok (0, 3) ∧
    [(6 : ℚ), 7, 8, 9, 10].Pairwise (· < ·) := by
  decide +kernel

/-- Without the verbose message, every requested range inside the lightcone succeeds. -/
theorem subvolume_ok (zs : List K) (lowZ highZ : K) (odd : Bool) (h1 : ∃ x ∈ zs, x ≤ lowZ)
    (h2 : ∃ x ∈ zs, highZ ≤ x) : ∃ r, subvolume zs lowZ highZ odd false = .ok r := by
  obtain ⟨x, hx, hxl⟩ := h1
  obtain ⟨y, hy, hyl⟩ := h2
  unfold subvolume
  cases hmn : zs.min? with
  | none => rw [List.min?_eq_none_iff.1 hmn] at hx; cases hx
  | some mn =>
    cases hmx : zs.max? with
    | none => rw [List.max?_eq_none_iff.1 hmx] at hx; cases hx
    | some mx =>
      have m1 := List.min?_eq_some_iff.1 hmn
      have m2 := List.max?_eq_some_iff.1 hmx
      dsimp only
      rw [if_neg (not_lt.2 ((m1.2 x hx).trans hxl)), if_neg (not_lt.2 (hyl.trans (m2.2 y hy))),
        if_neg (by simp)]
      exact ⟨_, rfl⟩

/-- C13 fails at the upper end: from 6 to 7 on the grid 6, 7, 8, 9 only the slice at 6 is returned. -/
theorem C13_false_upper : ∃ (zs : List ℚ) (lowZ highZ : ℚ) (lo hi m : ℕ),
    zs.Pairwise (· < ·) ∧ lowZ ≤ highZ ∧ subvolume zs lowZ highZ true true = .ok (lo, hi) ∧
    IsNearest zs highZ m ∧ (∀ i, IsNearest zs highZ i → i = m) ∧ ¬ m < hi := by
  refine ⟨[6, 7, 8, 9], 6, 7, 0, 1, 1, by decide +kernel, by norm_num, by decide +kernel, ?_, ?_,
    by decide⟩
  · refine ⟨7, rfl, ?_⟩
    simp
  · rintro i ⟨a, ha, hle⟩
    have h0 := hle 7 (by simp)
    rw [sub_self, abs_zero] at h0
    have : a = 7 := sub_eq_zero.1 (abs_eq_zero.1 (le_antisymm h0 (abs_nonneg _)))
    subst this
    match i, ha with
    | 0, ha => norm_num at ha
    | 1, _ => rfl
    | 2, ha => norm_num at ha
    | 3, ha => norm_num at ha
    | i + 4, ha => simp at ha

/-- C13 fails at the end of the lightcone: a range inside the lightcone whose upper bound is the last
slice raises `IndexError` from the (default) verbose message when the count has to be made odd. -/
theorem C13_false_verbose (zs : List K) (lowZ highZ : K) (hne : zs ≠ [])
    (h1 : ∃ x ∈ zs, x ≤ lowZ) (h2 : ∃ x ∈ zs, highZ ≤ x)
    (hlast : nearest zs highZ + 1 = zs.length)
    (heven : ((nearest zs highZ : Int) - nearest zs lowZ) % 2 = 0) :
    subvolume zs lowZ highZ true true = .error "IndexError" := by
  obtain ⟨x, hx, hxl⟩ := h1
  obtain ⟨y, hy, hyl⟩ := h2
  unfold subvolume
  cases hmn : zs.min? with
  | none => exact absurd (List.min?_eq_none_iff.1 hmn) hne
  | some mn =>
    cases hmx : zs.max? with
    | none => exact absurd (List.max?_eq_none_iff.1 hmx) hne
    | some mx =>
      have m1 := List.min?_eq_some_iff.1 hmn
      have m2 := List.max?_eq_some_iff.1 hmx
      dsimp only
      rw [if_neg (not_lt.2 ((m1.2 x hx).trans hxl)), if_neg (not_lt.2 (hyl.trans (m2.2 y hy))),
        if_pos]
      rw [if_pos ⟨heven, rfl⟩]
      exact ⟨rfl, by omega⟩

example : subvolume [(6 : ℚ), 7, 8] 6 8 true true = .error "IndexError" ∧
    nearest [(6 : ℚ), 7, 8] 8 + 1 = 3 := by decide +kernel

/-- The limits for a depth in MHz: they bracket the central redshift and their frequencies are `depth`
apart, symmetric around the central frequency. -/
theorem mhzLimits_spec (nu0 z depth : K) (hnu : 0 < nu0) (hz : -1 < z) (hd : 0 < depth)
    (hfit : depth / 2 < nu0 / (1 + z)) :
    (mhzLimits nu0 z depth).1 < z ∧ z < (mhzLimits nu0 z depth).2 ∧
    nu0 / (1 + (mhzLimits nu0 z depth).1) = nu0 / (1 + z) + depth / 2 ∧
    nu0 / (1 + (mhzLimits nu0 z depth).2) = nu0 / (1 + z) - depth / 2 := by
  have hz1 : 0 < 1 + z := by linarith
  have hnuz : 0 < nu0 / (1 + z) := by positivity
  have ha : 0 < nu0 / (1 + z) + depth / 2 := by positivity
  have hb : 0 < nu0 / (1 + z) - depth / 2 := by linarith
  have e : nu0 / (nu0 / (1 + z)) = 1 + z := by field_simp
  simp only [mhzLimits]
  refine ⟨?_, ?_, ?_, ?_⟩
  · have := div_lt_div_of_pos_left hnu hnuz (show nu0 / (1 + z) < nu0 / (1 + z) + depth / 2 by linarith)
    linarith
  · have := div_lt_div_of_pos_left hnu hb (show nu0 / (1 + z) - depth / 2 < nu0 / (1 + z) by linarith)
    linarith
  · rw [show 1 + (nu0 / (nu0 / (1 + z) + depth / 2) - 1) = nu0 / (nu0 / (1 + z) + depth / 2) by ring]
    rw [div_div_cancel₀ hnu.ne']
  · rw [show 1 + (nu0 / (nu0 / (1 + z) - depth / 2) - 1) = nu0 / (nu0 / (1 + z) - depth / 2) by ring]
    rw [div_div_cancel₀ hnu.ne']

example : mhzLimits (1420 : ℚ) 7 10 = (1420 / 182.5 - 1, 1420 / 172.5 - 1) := by
  norm_num [mhzLimits]

end Verif.Lightcone
