import Verif.Lemmas.Binning
import Mathlib.Topology.Order.IntermediateValue
import Mathlib.Logic.Function.Basic
/-!
# Binning lightcones along the line of sight (C108, C109)

C108: `bin_lightcone_in_frequency` averages the slices of each frequency channel.  C109:
`bin_lightcone_in_mpc` averages the slices of each comoving cell and returns their redshifts.
-/

namespace Verif.Binning

open Verif.Conversions Verif.Constants Verif.Helpers

/-! ## C108 -/

/-- Specification: the redshifted 21 cm frequency in MHz. -/
noncomputable def line (z : ℝ) : ℝ := 1420 / (1 + z)

/-- Specification: `cdist_to_z` returns the redshift of every comoving distance. -/
def Exact (k : Const) (toZ : List ℝ → Except String (List ℝ)) : Prop :=
  ∀ zs : List ℝ, (∀ z ∈ zs, 0 ≤ z) → toZ (zs.map (cdist k)) = .ok zs

theorem line_lt {a b : ℝ} (ha : -1 < a) (hab : a < b) : line b < line a := by
  unfold line
  exact div_lt_div_of_pos_left (by norm_num) (by linarith) (by linarith)

theorem head_getD (l : List ℝ) (h : l ≠ []) : l.head? = some (l.getD 0 0) := by
  cases l with
  | nil => exact absurd rfl h
  | cons a l => simp

theorem last_getD (l : List ℝ) (h : l ≠ []) : l.getLast? = some (l.getD (l.length - 1) 0) := by
  have hl : l.length - 1 < l.length := by
    have := List.length_pos_of_ne_nil h
    omega
  rw [List.getLast?_eq_getElem?, List.getElem?_eq_getElem hl, List.getD_eq_getElem _ _ hl]

theorem map_getD (f : ℝ → ℝ) (l : List ℝ) (i : ℕ) (hi : i < l.length) :
    (l.map f).getD i 0 = f (l.getD i 0) := by
  rw [List.getD_eq_getElem _ _ (by simpa using hi), List.getD_eq_getElem _ _ hi, List.getElem_map]

/-- Channel `i` of the output is the last input slice whose frequency is not below the
channel's, smoothed with the slices *before* it: there are `w` of them, but those in front of the
lightcone count as zero.  Channels start at the first slice and are `dnu` apart. -/
theorem C108_partial (k : Const) (toZ : List ℝ → Except String (List ℝ)) (lc : Cone)
    (zLow box dnu : ℝ) (zs : List ℝ) (hn0 : 0 < lc.n0)
    (hz : toZ (distances k zLow (box / lc.n0) lc.n2) = .ok zs) (hl : zs.length = lc.n2)
    (hmono : zs.Pairwise (· < ·)) (hpos : ∀ z ∈ zs, -1 < z) (hd : 0 < dnu)
    (hm : dnu < line (zs.getD 0 0) - line (zs.getD (lc.n2 - 1) 0)) :
    ∃ (out : Cone) (nus : List ℝ) (w : ℕ), binFrequency k toZ lc zLow box dnu = .ok (out, nus) ∧
      out.n0 = lc.n0 ∧ out.n1 = lc.n1 ∧ out.n2 = nus.length ∧ 2 ≤ nus.length ∧
      nus.length = ⌈(line (zs.getD 0 0) - line (zs.getD (lc.n2 - 1) 0)) / dnu⌉₊ ∧
      (∀ i < nus.length, nus.getD i 0 = line (zs.getD 0 0) - i * dnu ∧
        line (zs.getD (lc.n2 - 1) 0) < nus.getD i 0) ∧
      1 ≤ w ∧
      (|(w : ℝ) - (cdist k (1420 / nus.getD (nus.length - 1) 0 - 1) -
            cdist k (1420 / nus.getD (nus.length - 2) 0 - 1)) / (box / lc.n0)| ≤ 1 / 2 ∨
        w = 1 ∧ (cdist k (1420 / nus.getD (nus.length - 1) 0 - 1) -
            cdist k (1420 / nus.getD (nus.length - 2) 0 - 1)) / (box / lc.n0) ≤ 1 / 2) ∧
      ∀ i < nus.length, ∃ j < lc.n2, nus.getD i 0 ≤ line (zs.getD j 0) ∧
        (∀ j', j < j' → j' < lc.n2 → line (zs.getD j' 0) < nus.getD i 0) ∧
        ∀ x y, out.val x y i = (∑ t ∈ Finset.range (min w (j + 1)), lc.val x y (j - t)) / w := by
  have hne : zs ≠ [] := by
    rintro rfl
    simp at hm
    linarith
  have hlen : 2 ≤ zs.length := by
    have h1 := List.length_pos_of_ne_nil hne
    by_contra hc
    rw [← hl, show zs.length - 1 = 0 by omega] at hm
    linarith
  set fs := zs.map z_to_nu with hfs
  have hfl : fs.length = lc.n2 := by rw [hfs, List.length_map, hl]
  have hf : ∀ i, i < lc.n2 → fs.getD i 0 = line (zs.getD i 0) := fun i hi => by
    rw [hfs, map_getD _ _ _ (by omega)]; rfl
  have hfne : fs ≠ [] := by rw [hfs]; simpa using hne
  have hdesc : fs.Pairwise (· > ·) := by
    rw [hfs, List.pairwise_map]
    exact hmono.imp_of_mem fun ha _ hab => line_lt (hpos _ ha) hab
  set a := line (zs.getD 0 0) with ha
  set b := line (zs.getD (lc.n2 - 1) 0) with hb
  have h0 : fs.getD 0 0 = a := hf 0 (by omega)
  have h1 : fs.getD (fs.length - 1) 0 = b := by rw [hfl]; exact hf _ (by omega)
  set nus := arange a b (-dnu) with hnus
  have hq : (b - a) / -dnu = (a - b) / dnu := by
    rw [div_neg, ← neg_div]; ring
  have hnl : nus.length = ⌈(a - b) / dnu⌉₊ := by rw [hnus, arange_length, hq]
  have hm2 : 2 ≤ nus.length := by
    rw [hnl]
    have : (1 : ℝ) < (a - b) / dnu := by rw [lt_div_iff₀ hd]; linarith
    have : 1 < ⌈(a - b) / dnu⌉₊ := Nat.lt_ceil.2 (by exact_mod_cast this)
    omega
  have hnu : ∀ i < nus.length, nus.getD i 0 = a - i * dnu ∧ b < nus.getD i 0 := by
    intro i hi
    have e := arange_getD a b (-dnu) i hi
    have l := arange_lt a b (-dnu) i hi
    rw [hq, lt_div_iff₀ hd] at l
    rw [← hnus] at e
    rw [e]
    exact ⟨by ring, by linarith⟩
  have hpick : ∀ v ∈ nus, ∃ j, pick fs v = .ok j ∧ (j < lc.n2 ∧ v ≤ line (zs.getD j 0) ∧
      ∀ j', j < j' → j' < lc.n2 → line (zs.getD j' 0) < v) := by
    intro v hv
    obtain ⟨i, hi, rfl⟩ := List.getElem_of_mem hv
    have h2 := hnu i hi
    rw [List.getD_eq_getElem _ _ hi] at h2
    have hi0 : (0 : ℝ) ≤ i * dnu := by positivity
    obtain ⟨j, e1, e2, e3, e4⟩ := pick_desc fs hdesc (by omega) (nus[i])
      (by rw [h0]; linarith) (by rw [h1]; linarith)
    rw [hfl] at e2 e4
    refine ⟨j, e1, e2, by rwa [← hf j e2], fun j' hj hj' => by rw [← hf j' hj']; exact e4 j' hj hj'⟩
  obtain ⟨idx, hidx, hil, hall, hget⟩ := pick_getD fs nus _ hpick
  set w := smoothScale (nu_to_cdist k (nus.getD (nus.length - 1) 0) -
    nu_to_cdist k (nus.getD (nus.length - 2) 0)) (box / lc.n0) with hw
  have hw1 : 1 ≤ w := smoothScale_pos _ _
  refine ⟨⟨lc.n0, lc.n1, nus.length, fun x y i => full w lc.n2 (lc.val x y) (idx.getD i 0)⟩, nus, w, ?_,
    rfl, rfl, rfl, hm2, hnl, hnu, hw1, ?_, ?_⟩
  · unfold binFrequency
    rw [if_neg (by omega)]
    simp only [hz, ← hfs]
    rw [head_getD fs hfne, last_getD fs hfne, h0, h1]
    simp only [← hnus]
    rw [if_neg (by omega)]
    simp only [hidx, ← hw]
    rw [if_pos]
    rw [List.all_eq_true]
    intro j hj
    obtain ⟨v, -, hv⟩ := hall j hj
    have := hv.1
    simp only [decide_eq_true_eq]
    omega
  · exact smoothScale_near _ _
  · intro i hi
    obtain ⟨g1, g2, g3⟩ := hget i hi
    exact ⟨idx.getD i 0, g1, g2, g3, fun x y => full_eq w lc.n2 _ _ g1⟩

/-- Fewer than two channels raise: the channel width must be positive and below the bandwidth. -/
theorem C108_raises (k : Const) (toZ : List ℝ → Except String (List ℝ)) (lc : Cone)
    (zLow box dnu : ℝ) (zs : List ℝ)
    (hz : toZ (distances k zLow (box / lc.n0) lc.n2) = .ok zs)
    (hm : dnu ≤ 0 ∧ line (zs.getD (zs.length - 1) 0) ≤ line (zs.getD 0 0) ∨
      0 < dnu ∧ line (zs.getD 0 0) - line (zs.getD (zs.length - 1) 0) ≤ dnu) :
    ∃ e, binFrequency k toZ lc zLow box dnu = .error e := by
  unfold binFrequency
  split_ifs
  · exact ⟨_, rfl⟩
  simp only [hz]
  by_cases hne : zs = []
  · subst hne
    exact ⟨_, rfl⟩
  have hl : zs.length - 1 < zs.length := by
    have := List.length_pos_of_ne_nil hne
    omega
  rw [head_getD _ (by simpa using hne), last_getD _ (by simpa using hne), List.length_map,
    map_getD _ _ _ (by omega), map_getD _ _ _ hl]
  simp only []
  rw [if_pos]
  · exact ⟨_, rfl⟩
  · rw [arange_length]
    show ⌈(line (zs.getD (zs.length - 1) 0) - line (zs.getD 0 0)) / -dnu⌉₊ < 2
    rw [Nat.lt_succ_iff, Nat.ceil_le]
    rcases hm with ⟨h1, h2⟩ | ⟨h1, h2⟩
    · have : (line (zs.getD (zs.length - 1) 0) - line (zs.getD 0 0)) / -dnu ≤ 0 :=
        div_nonpos_of_nonpos_of_nonneg (by linarith) (by linarith)
      simp only [Nat.cast_one]
      linarith
    · rw [div_neg, ← neg_div, div_le_iff₀ h1]
      simp only [Nat.cast_one]
      linarith

/-- Distances of five equally spaced slices below redshift one have redshifts. -/
theorem five_slices (k : Const) (p : Physical k) :
    ∃ zs : List ℝ, zs.length = 5 ∧ zs.Pairwise (· < ·) ∧ (∀ z ∈ zs, 0 ≤ z) ∧
      zs.map (cdist k) = distances k 0 (cdist k 1 / 4) 5 := by
  have h0 := (C78_distance k p).1
  have h1 := cdist_pos p (z := 1) one_pos
  have hc : ContinuousOn (cdist k) (Set.Icc 0 1) := fun z hz =>
    ((C78_distance k p).2 z (by linarith [hz.1])).continuousAt.continuousWithinAt
  have hex : ∀ i : ℕ, i < 5 → ∃ z, 0 ≤ z ∧ cdist k z = i * (cdist k 1 / 4) := by
    intro i hi
    have hi' : (i : ℝ) ≤ 4 := by exact_mod_cast Nat.lt_succ_iff.1 hi
    have hi0 : (0 : ℝ) ≤ i := Nat.cast_nonneg i
    obtain ⟨z, hz, e⟩ := intermediate_value_Icc (zero_le_one' ℝ) hc
      (show (i : ℝ) * (cdist k 1 / 4) ∈ Set.Icc (cdist k 0) (cdist k 1) by
        rw [h0]; constructor
        · positivity
        · nlinarith)
    exact ⟨z, hz.1, e⟩
  choose! g hg using hex
  have hmono : ∀ a b : ℝ, 0 ≤ a → 0 ≤ b → cdist k a < cdist k b → a < b := by
    intro a b ha hb hab
    by_contra hc
    rcases (not_lt.1 hc).eq_or_lt with h | h
    · rw [h] at hab; exact lt_irrefl _ hab
    · exact absurd (C78_monotone k p (by linarith) h) (by linarith)
  refine ⟨(List.range 5).map g, by simp, ?_, ?_, ?_⟩
  · rw [List.pairwise_map]
    refine List.pairwise_lt_range.imp_of_mem fun {a b} ha hb hab => ?_
    rw [List.mem_range] at ha hb
    refine hmono _ _ (hg a ha).1 (hg b hb).1 ?_
    rw [(hg a ha).2, (hg b hb).2]
    have : (a : ℝ) < b := by exact_mod_cast hab
    nlinarith
  · intro z hz
    obtain ⟨i, hi, rfl⟩ := List.mem_map.1 hz
    exact (hg i (List.mem_range.1 hi)).1
  · unfold distances
    rw [List.map_map]
    refine List.map_congr_left fun i hi => ?_
    rw [List.mem_range] at hi
    show cdist k (g i) = _
    rw [(hg i hi).2, h0]
    ring

theorem exact_exists (k : Const) (p : Physical k) : ∃ toZ, Exact k toZ := by
  refine ⟨fun ds => .ok (ds.map (Function.invFunOn (cdist k) (Set.Ici 0))), fun zs hz => ?_⟩
  simp only []
  rw [List.map_map]
  congr 1
  conv_rhs => rw [← List.map_id zs]
  refine List.map_congr_left fun z h => ?_
  have hinj : Set.InjOn (cdist k) (Set.Ici 0) := by
    intro a ha b hb hab
    rw [Set.mem_Ici] at ha hb
    rcases lt_trichotomy a b with h | h | h
    · exact absurd (C78_monotone k p (by linarith) h) (by linarith)
    · exact h
    · exact absurd (C78_monotone k p (by linarith) h) (by linarith)
  exact hinj (Function.invFunOn_mem ⟨z, hz z h, rfl⟩) (hz z h)
    (Function.invFunOn_eq ⟨z, hz z h, rfl⟩)

/-- The hypotheses of `C108_partial` can be met: five slices below redshift one. -/
example : ∃ (toZ : List ℝ → Except String (List ℝ)) (lc : Cone) (box dnu : ℝ) (zs : List ℝ), 0 < lc.n0 ∧
    toZ (distances (Const.init 3) 0 (box / lc.n0) lc.n2) = .ok zs ∧ zs.length = lc.n2 ∧
    zs.Pairwise (· < ·) ∧ (∀ z ∈ zs, -1 < z) ∧ 0 < dnu ∧
    dnu < line (zs.getD 0 0) - line (zs.getD (lc.n2 - 1) 0) := by
  obtain ⟨toZ, hex⟩ := exact_exists _ physical_init
  obtain ⟨zs, hl, hmono, hpos, he⟩ := five_slices _ physical_init
  have hlt : line (zs.getD 4 0) < line (zs.getD 0 0) := by
    rw [List.getD_eq_getElem _ _ (by omega), List.getD_eq_getElem _ _ (by omega)]
    exact line_lt (by linarith [hpos _ (List.getElem_mem (h := (by omega : 0 < zs.length)))])
      (List.pairwise_iff_getElem.1 hmono 0 4 _ _ (by norm_num))
  refine ⟨toZ, ⟨2, 3, 5, fun x y i => x + y + i⟩, 2 * (cdist (Const.init 3) 1 / 4),
    (line (zs.getD 0 0) - line (zs.getD 4 0)) / 2, zs, by norm_num, ?_, hl, hmono,
    fun z h => by linarith [hpos z h], by linarith, ?_⟩
  · rw [← hex zs hpos, he]
    norm_num
  · show _ < line (zs.getD 0 0) - line (zs.getD 4 0)
    linarith

/-- and those of `C108_raises`. -/
example : (5 : ℝ) ≤ 0 ∧ line 9 ≤ line 8 ∨ (0 : ℝ) < 5 ∧ line 9 - line (91 / 10) ≤ 5 := by
  right; norm_num [line]

/-- Claim of C108: channels are averages, so a uniform lightcone stays uniform.  False even with
exact distances: whenever a channel is wider than one and a half cells, the first channel is too
faint. -/
theorem C108_false : ¬ ∀ (k : Const) (toZ : List ℝ → Except String (List ℝ)) (lc : Cone)
    (zLow box dnu v : ℝ) (out : Cone) (nus : List ℝ), Physical k → Exact k toZ → 0 < box → 0 < dnu →
    (∀ x y i, lc.val x y i = v) → binFrequency k toZ lc zLow box dnu = .ok (out, nus) →
    ∀ x y i, i < out.n2 → out.val x y i = v := by
  intro h
  obtain ⟨toZ, hex⟩ := exact_exists _ physical_init
  obtain ⟨zs, hl, hmono, hpos, he⟩ := five_slices _ physical_init
  set k := Const.init 3 with hk
  have h1 := cdist_pos physical_init (z := 1) one_pos
  rw [← hk] at h1
  set lc : Cone := ⟨1, 1, 5, fun _ _ _ => 1⟩ with hlc
  have hcell : cdist k 1 / 4 / (lc.n0 : ℝ) = cdist k 1 / 4 := by simp [hlc]
  have hz : toZ (distances k 0 (cdist k 1 / 4 / (lc.n0 : ℝ)) lc.n2) = .ok zs := by
    rw [hcell, ← hex zs hpos, he]
  have hlt : ∀ i j, i < j → j < 5 → line (zs.getD j 0) < line (zs.getD i 0) := by
    intro i j hij hj
    rw [List.getD_eq_getElem _ _ (by omega), List.getD_eq_getElem _ _ (by omega)]
    exact line_lt (by linarith [hpos _ (List.getElem_mem (h := (by omega : i < zs.length)))])
      (List.pairwise_iff_getElem.1 hmono i j _ _ hij)
  have hdist : ∀ i < 5, cdist k (zs.getD i 0) = i * (cdist k 1 / 4) := by
    intro i hi
    have : (zs.map (cdist k)).getD i 0 = (distances k 0 (cdist k 1 / 4) 5).getD i 0 := by rw [he]
    rw [map_getD _ _ _ (by omega)] at this
    rw [this, List.getD_eq_getElem _ _ (by simpa [distances] using hi)]
    simp [distances, (C78_distance k physical_init).1]
  set f : ℕ → ℝ := fun i => line (zs.getD i 0) with hf
  have g01 : f 1 < f 0 := hlt 0 1 (by norm_num) (by norm_num)
  have g12 : f 2 < f 1 := hlt 1 2 (by norm_num) (by norm_num)
  have g23 : f 3 < f 2 := hlt 2 3 (by norm_num) (by norm_num)
  have g34 : f 4 < f 3 := hlt 3 4 (by norm_num) (by norm_num)
  have f4 : 0 < f 4 := by
    have : 0 ≤ zs.getD 4 0 := by
      rw [List.getD_eq_getElem _ _ (by omega)]
      exact hpos _ (List.getElem_mem _)
    simp only [hf, line]
    positivity
  set dnu := max (f 0 - f 3) (f 1 - f 4) with hdnu
  have hd1 : f 0 - f 3 ≤ dnu := le_max_left _ _
  have hd2 : f 1 - f 4 ≤ dnu := le_max_right _ _
  have hd3 : dnu < f 0 - f 4 := max_lt (by linarith) (by linarith)
  have hd0 : 0 < dnu := by linarith
  obtain ⟨out, nus, w, hok, -, -, hn2, hm2, -, hnu, hw1, hw, hval⟩ := C108_partial k toZ lc 0 (cdist k 1 / 4)
    dnu zs (by simp [hlc]) hz (by simp [hl, hlc]) hmono (fun z h => by linarith [hpos z h]) hd0
    (by simpa [hf, hlc] using hd3)
  have hc := h k toZ lc 0 (cdist k 1 / 4) dnu 1 out nus physical_init hex (by linarith) hd0
    (fun _ _ _ => rfl) hok 0 0 0 (by omega)
  obtain ⟨j, hj, hj1, hj2, hv⟩ := hval 0 (by omega)
  have hj0 : j = 0 := by
    by_contra hne
    have h2 : f j < f 0 := hlt 0 j (by omega) hj
    have h3 := (hnu 0 (by omega)).1
    simp only [Nat.cast_zero, zero_mul, sub_zero] at h3
    rw [h3] at hj1
    exact absurd hj1 (not_le.2 h2)
  subst hj0
  rw [hv] at hc
  have hw2 : 2 ≤ w := by
    obtain ⟨ea, la⟩ := hnu (nus.length - 2) (by omega)
    obtain ⟨eb, lb⟩ := hnu (nus.length - 1) (by omega)
    set a := nus.getD (nus.length - 2) 0 with ha
    set b := nus.getD (nus.length - 1) 0 with hb
    have hab : b = a - dnu := by
      rw [ea, eb]
      have : ((nus.length - 1 : ℕ) : ℝ) = ((nus.length - 2 : ℕ) : ℝ) + 1 := by
        have : nus.length - 1 = nus.length - 2 + 1 := by omega
        rw [this]; push_cast; ring
      rw [this]; ring
    have lb' : f 4 < b := lb
    have ha1 : f 1 < a := by
      by_contra hc
      linarith [not_lt.1 hc]
    have ha0 : a ≤ f 0 := by
      rw [ea]
      have : (0 : ℝ) ≤ ((nus.length - 2 : ℕ) : ℝ) * dnu := by positivity
      show f 0 - _ ≤ _
      linarith
    have hb3 : b ≤ f 3 := by linarith
    have hD : ∀ x y : ℝ, 0 < y → y ≤ x → cdist k (1420 / x - 1) ≤ cdist k (1420 / y - 1) := by
      intro x y hy hxy
      rcases hxy.eq_or_lt with rfl | hlt
      · exact le_refl _
      · have h2 : 1420 / x < 1420 / y := div_lt_div_of_pos_left (by norm_num) hy hlt
        have h3 : 0 < 1420 / x := div_pos (by norm_num) (hy.trans hlt)
        exact (C78_monotone k physical_init (by linarith) (by linarith)).le
    have hback : ∀ i, i < 5 → cdist k (1420 / f i - 1) = i * (cdist k 1 / 4) := by
      intro i hi
      rw [← hdist i hi]
      congr 1
      have : 0 ≤ zs.getD i 0 := by
        rw [List.getD_eq_getElem _ _ (by omega)]
        exact hpos _ (List.getElem_mem _)
      simp only [hf, line]
      field_simp
      ring
    have hb' : 3 * (cdist k 1 / 4) ≤ cdist k (1420 / b - 1) := by
      have := hD _ _ (by linarith) hb3
      rw [hback 3 (by norm_num)] at this
      exact_mod_cast this
    have ha' : cdist k (1420 / a - 1) ≤ 1 * (cdist k 1 / 4) := by
      have := hD _ _ (by linarith) ha1.le
      rw [hback 1 (by norm_num)] at this
      exact_mod_cast this
    have hr : 2 ≤ (cdist k (1420 / b - 1) - cdist k (1420 / a - 1)) / (cdist k 1 / 4 / (lc.n0 : ℝ)) := by
      rw [hcell, le_div_iff₀ (by linarith)]
      linarith
    rcases hw with hw | ⟨-, hw⟩
    · rw [abs_le] at hw
      have : (1 : ℝ) < w := by linarith [hw.1]
      exact_mod_cast this
    · linarith
  have hmin : min w (0 + 1) = 1 := by omega
  rw [hmin] at hc
  simp only [Finset.sum_range_one, hlc] at hc
  have : (2 : ℝ) ≤ w := by exact_mod_cast hw2
  rw [div_eq_one_iff_eq (by linarith)] at hc
  linarith

/-! ## C109 -/

/-- The entries of a tophat of width `w` around `j` that exist. -/
def around (w n j : ℕ) : Finset ℕ :=
  (Finset.range n).filter fun i => i ≤ j + (w - 1) / 2 ∧ j + (w - 1) / 2 < i + w

theorem same_eq (w n : ℕ) (f : ℕ → ℝ) (j : ℕ) : same w n f j = (∑ i ∈ around w n j, f i) / w := by
  unfold same full
  rw [Finset.sum_div, ← Finset.sum_filter]
  set c := j + (w - 1) / 2 with hc
  refine Finset.sum_bij' (fun t _ => c - t) (fun i _ => c - i) ?_ ?_ ?_ ?_ ?_
  · intro t ht
    simp only [Finset.mem_filter, Finset.mem_range, around, ← hc] at ht ⊢
    omega
  · intro i hi
    simp only [Finset.mem_filter, Finset.mem_range, around, ← hc] at hi ⊢
    have : c - (c - i) = i := by omega
    rw [this]
    omega
  · intro t ht
    simp only [Finset.mem_filter, Finset.mem_range] at ht
    omega
  · intro i hi
    simp only [Finset.mem_filter, Finset.mem_range, around, ← hc] at hi
    omega
  · intro t ht
    ring

/-- Slice `i` of the output is taken at the last input slice that is not farther than the slice,
averaged with its neighbours on both sides, those outside the lightcone counting as zero.  There
are as many slices as whole cells fit in. -/
theorem C109_partial (k : Const) (p : Physical k) (toZ : List ℝ → Except String (List ℝ)) (lc : Cone)
    (freqs : List ℝ) (cell n : ℝ) (zs : List ℝ) (hl : freqs.length = lc.n2) (h2 : 2 ≤ lc.n2)
    (hdesc : freqs.Pairwise (· > ·)) (hpos : ∀ nu ∈ freqs, 0 < nu) (hc : 0 < cell)
    (hn : n = (cdist k (1420 / freqs.getD (lc.n2 - 1) 0 - 1) - cdist k (1420 / freqs.getD 0 0 - 1)) / cell)
    (hw : n < 2 * lc.n2)
    (hz : toZ ((List.range ⌈n⌉₊).map fun (i : ℕ) => cdist k (1420 / freqs.getD 0 0 - 1) + i * cell) = .ok zs) :
    ∃ (out : Cone) (w : ℕ), binMpc k toZ lc freqs cell = .ok (out, zs) ∧
      out.n0 = lc.n0 ∧ out.n1 = lc.n1 ∧ out.n2 = ⌊n⌋₊ ∧ 1 ≤ w ∧ |(w : ℝ) - lc.n2 / n| ≤ 1 / 2 ∧
      ∀ i < out.n2, ∃ j < lc.n2,
        cdist k (1420 / freqs.getD j 0 - 1) ≤ cdist k (1420 / freqs.getD 0 0 - 1) + i * cell ∧
        (∀ j', j < j' → j' < lc.n2 →
          cdist k (1420 / freqs.getD 0 0 - 1) + i * cell < cdist k (1420 / freqs.getD j' 0 - 1)) ∧
        ∀ x y, out.val x y i = (∑ s ∈ around w lc.n2 j, lc.val x y s) / w := by
  have hne : freqs ≠ [] := List.ne_nil_of_length_pos (by omega)
  set ds := freqs.map (nu_to_cdist k) with hds
  have hdl : ds.length = lc.n2 := by rw [hds, List.length_map, hl]
  have hD : ∀ i, i < lc.n2 → ds.getD i 0 = cdist k (1420 / freqs.getD i 0 - 1) := fun i hi => by
    rw [hds, map_getD _ _ _ (by omega)]; rfl
  have hdne : ds ≠ [] := by rw [hds]; simpa using hne
  have hasc : ds.Pairwise (· < ·) := by
    rw [hds, List.pairwise_map]
    refine hdesc.imp_of_mem fun {a b} ha hb hab => ?_
    have h3 := hpos b hb
    have h4 : 1420 / a < 1420 / b := div_lt_div_of_pos_left (by norm_num) h3 hab
    have h5 : 0 < 1420 / a := div_pos (by norm_num) (h3.trans hab)
    exact C78_monotone k p (a := 1420 / a - 1) (b := 1420 / b - 1) (by linarith) (by linarith)
  have h0 := hD 0 (by omega)
  have h1 := hD (lc.n2 - 1) (by omega)
  set d0 := cdist k (1420 / freqs.getD 0 0 - 1) with hd0
  set d1 := cdist k (1420 / freqs.getD (lc.n2 - 1) 0 - 1) with hd1
  have hlt : d0 < d1 := by
    rw [← h0, ← h1, List.getD_eq_getElem _ _ (by omega), List.getD_eq_getElem _ _ (by omega)]
    exact List.pairwise_iff_getElem.1 hasc 0 _ _ _ (by omega)
  have hnpos : 0 < n := by rw [hn]; exact div_pos (by linarith) hc
  have hou : arange d0 d1 cell = (List.range ⌈n⌉₊).map fun (i : ℕ) => d0 + i * cell := by
    unfold arange
    rw [← hn]
  have hol : (arange d0 d1 cell).length = ⌈n⌉₊ := by rw [hou]; simp
  have hmt : ((arange d0 d1 cell).take ⌊n⌋₊).length = ⌊n⌋₊ := by
    rw [List.length_take, hol]
    exact min_eq_left (Nat.floor_le_ceil n)
  have htk : ∀ i, i < ⌊n⌋₊ → ((arange d0 d1 cell).take ⌊n⌋₊).getD i 0 = d0 + i * cell := by
    intro i hi
    rw [List.getD_eq_getElem _ _ (by omega), List.getElem_take]
    simp [arange]
  have hpick : ∀ v ∈ (arange d0 d1 cell).take ⌊n⌋₊, ∃ j, pick ds v = .ok j ∧ (j < lc.n2 ∧
      cdist k (1420 / freqs.getD j 0 - 1) ≤ v ∧
      ∀ j', j < j' → j' < lc.n2 → v < cdist k (1420 / freqs.getD j' 0 - 1)) := by
    intro v hv
    obtain ⟨i, hi, rfl⟩ := List.getElem_of_mem hv
    rw [hmt] at hi
    have e := htk i hi
    rw [List.getD_eq_getElem _ _ (by omega)] at e
    have hi0 : (0 : ℝ) ≤ i * cell := by positivity
    have hi1 : (i : ℝ) * cell ≤ d1 - d0 := by
      have h3 : (i : ℝ) + 1 ≤ ⌊n⌋₊ := by exact_mod_cast hi
      have h4 := Nat.floor_le hnpos.le
      have h5 : n * cell = d1 - d0 := by rw [hn]; field_simp
      nlinarith
    obtain ⟨j, e1, e2, e3, e4⟩ := pick_asc ds hasc (by omega) (((arange d0 d1 cell).take ⌊n⌋₊)[i])
      (by rw [h0, e]; linarith) (by rw [hdl, h1, e]; linarith)
    rw [hdl] at e2 e4
    exact ⟨j, e1, e2, by rwa [← hD j e2], fun j' hj hj' => by rw [← hD j' hj']; exact e4 j' hj hj'⟩
  obtain ⟨idx, hidx, hil, hall, hget⟩ := pick_getD ds _ _ hpick
  have hnear := roundEven_near ((freqs.length : ℝ) / n)
  have hw1 : 1 ≤ roundEven ((freqs.length : ℝ) / n) := by
    have h3 : (1 : ℝ) / 2 < (freqs.length : ℝ) / n := by
      rw [lt_div_iff₀ hnpos, hl]; linarith
    rw [abs_le] at hnear
    have : (0 : ℝ) < (roundEven ((freqs.length : ℝ) / n) : ℝ) := by linarith [hnear.1]
    have : 0 < roundEven ((freqs.length : ℝ) / n) := by exact_mod_cast this
    omega
  obtain ⟨w, hwe⟩ := Int.eq_ofNat_of_zero_le (show 0 ≤ roundEven ((freqs.length : ℝ) / n) by omega)
  rw [hwe] at hw1 hnear
  refine ⟨⟨lc.n0, lc.n1, ⌊n⌋₊, fun x y i => same w lc.n2 (lc.val x y) (idx.getD i 0)⟩, w, ?_, rfl, rfl, rfl,
    by omega, ?_, ?_⟩
  · unfold binMpc
    simp only [← hds]
    rw [head_getD ds hdne, last_getD ds hdne, h0, hdl, h1]
    simp only [← hn]
    rw [if_neg hc.ne', if_neg hnpos.ne', if_neg (by linarith), hwe, if_neg (by omega),
      if_neg (by omega)]
    simp only [hidx]
    rw [if_pos, hou]
    · simp only [hz]
      rfl
    · rw [List.all_eq_true]
      intro j hj
      obtain ⟨v, -, hv⟩ := hall j hj
      simpa using hv.1
  · rw [hl] at hnear
    simpa using hnear
  · intro i hi
    obtain ⟨g1, g2, g3⟩ := hget i (by rw [hmt]; exact hi)
    rw [htk i hi] at g2 g3
    exact ⟨idx.getD i 0, g1, g2, g3, fun x y => same_eq w lc.n2 _ _⟩

/-- Claim of C109: the redshifts returned belong to the slices, one for each.  False even with
exact distances, unless the cells fit exactly: the last redshift has no slice. -/
theorem C109_false : ¬ ∀ (k : Const) (toZ : List ℝ → Except String (List ℝ)) (lc : Cone)
    (freqs : List ℝ) (cell : ℝ) (out : Cone) (zs : List ℝ), Physical k →
    (∀ ds r, toZ ds = .ok r → r.length = ds.length) → 0 < cell → freqs.length = lc.n2 →
    freqs.Pairwise (· > ·) → (∀ nu ∈ freqs, 0 < nu) →
    binMpc k toZ lc freqs cell = .ok (out, zs) → zs.length = out.n2 := by
  intro h
  set k := Const.init 3 with hk
  have p : Physical k := physical_init
  set D := cdist k (1420 / 100 - 1) - cdist k (1420 / 142 - 1) with hD
  have hDpos : 0 < D := by
    have := C78_monotone k p (a := 1420 / 142 - 1) (b := 1420 / 100 - 1) (by norm_num) (by norm_num)
    linarith
  have hn : (3 / 2 : ℝ) = (cdist k (1420 / ([142, 100] : List ℝ).getD (2 - 1) 0 - 1) -
      cdist k (1420 / ([142, 100] : List ℝ).getD 0 0 - 1)) / (D * (2 / 3)) := by
    show (3 / 2 : ℝ) = D / (D * (2 / 3))
    field_simp
  obtain ⟨out, w, hok, -, -, hn2, -⟩ := C109_partial k p (fun ds => .ok ds) ⟨1, 1, 2, fun _ _ i => i⟩ [142, 100]
    (D * (2 / 3)) (3 / 2) _ rfl le_rfl (by norm_num) (by norm_num) (by positivity) hn (by norm_num) rfl
  have := h k _ _ _ _ _ _ p (fun ds r e => by cases e; rfl) (by positivity) rfl (by norm_num) (by norm_num) hok
  rw [hn2] at this
  have c1 : ⌈(3 / 2 : ℝ)⌉₊ = 2 := by rw [Nat.ceil_eq_iff (by norm_num)]; norm_num
  have c2 : ⌊(3 / 2 : ℝ)⌋₊ = 1 := by rw [Nat.floor_eq_iff (by norm_num)]; norm_num
  rw [c1, c2] at this
  simp at this

/-- Claim of C109: slices are averages, so a uniform lightcone stays uniform.  False at the ends:
three slices binned into a single cell lose a third of the signal. -/
theorem C109_false_edge : ¬ ∀ (k : Const) (toZ : List ℝ → Except String (List ℝ)) (lc : Cone)
    (freqs : List ℝ) (cell v : ℝ) (out : Cone) (zs : List ℝ), Physical k → 0 < cell → freqs.length = lc.n2 →
    freqs.Pairwise (· > ·) → (∀ nu ∈ freqs, 0 < nu) → (∀ x y i, lc.val x y i = v) →
    binMpc k toZ lc freqs cell = .ok (out, zs) → ∀ x y i, i < out.n2 → out.val x y i = v := by
  intro h
  set k := Const.init 3 with hk
  have p : Physical k := physical_init
  set D := cdist k (1420 / 100 - 1) - cdist k (1420 / 142 - 1) with hD
  have hDpos : 0 < D := by
    have := C78_monotone k p (a := 1420 / 142 - 1) (b := 1420 / 100 - 1) (by norm_num) (by norm_num)
    linarith
  have hn : (1 : ℝ) = (cdist k (1420 / ([142, 120, 100] : List ℝ).getD (3 - 1) 0 - 1) -
      cdist k (1420 / ([142, 120, 100] : List ℝ).getD 0 0 - 1)) / D := by
    show (1 : ℝ) = D / D
    field_simp
  obtain ⟨out, w, hok, -, -, hn2, -, hw, hval⟩ := C109_partial k p (fun ds => .ok ds) ⟨1, 1, 3, fun _ _ _ => 1⟩
    [142, 120, 100] D 1 _ rfl (by norm_num) (by norm_num) (by norm_num) hDpos hn (by norm_num) rfl
  have hn2' : out.n2 = 1 := by rw [hn2]; simp
  have hw3 : w = 3 := by
    rw [abs_le] at hw
    norm_num at hw
    have h1 : (2 : ℝ) < w := by linarith
    have h2 : (w : ℝ) < 4 := by linarith
    have h1' : 2 < w := by exact_mod_cast h1
    have h2' : w < 4 := by exact_mod_cast h2
    omega
  have hc := h k _ _ _ _ 1 _ _ p hDpos rfl (by norm_num) (by norm_num) (fun _ _ _ => rfl) hok 0 0 0 (by omega)
  obtain ⟨j, hj, hj1, -, hv⟩ := hval 0 (by omega)
  have hj0 : j = 0 := by
    by_contra hne
    simp only [Nat.cast_zero, zero_mul, add_zero] at hj1
    have : cdist k (1420 / ([142, 120, 100] : List ℝ).getD 0 0 - 1) <
        cdist k (1420 / ([142, 120, 100] : List ℝ).getD j 0 - 1) := by
      have hj' : j = 1 ∨ j = 2 := by
        simp only at hj
        omega
      rcases hj' with rfl | rfl
      · exact C78_monotone k p (a := 1420 / 142 - 1) (b := 1420 / 120 - 1) (by norm_num) (by norm_num)
      · exact C78_monotone k p (a := 1420 / 142 - 1) (b := 1420 / 100 - 1) (by norm_num) (by norm_num)
    linarith
  rw [hv, hj0, hw3] at hc
  have he : around 3 3 0 = {0, 1} := by decide
  simp only [he] at hc
  norm_num at hc

/-- Cells thinner than half the mean spacing of the slices raise. -/
theorem C109_raises (k : Const) (toZ : List ℝ → Except String (List ℝ)) (lc : Cone)
    (freqs : List ℝ) (cell : ℝ) (hne : freqs ≠ []) (hc : 0 < cell)
    (hw : 2 * (freqs.length : ℝ) < (cdist k (1420 / freqs.getD (freqs.length - 1) 0 - 1) -
      cdist k (1420 / freqs.getD 0 0 - 1)) / cell) :
    ∃ e, binMpc k toZ lc freqs cell = .error e := by
  have hlen := List.length_pos_of_ne_nil hne
  have hlen' : (1 : ℝ) ≤ freqs.length := by exact_mod_cast hlen
  unfold binMpc
  simp only []
  rw [head_getD _ (by simpa using hne), last_getD _ (by simpa using hne), List.length_map,
    map_getD _ _ _ hlen, map_getD _ _ _ (by omega)]
  simp only []
  set n := (nu_to_cdist k (freqs.getD (freqs.length - 1) 0) - nu_to_cdist k (freqs.getD 0 0)) / cell with hn
  have hw' : 2 * (freqs.length : ℝ) < n := hw
  have hnpos : 0 < n := by linarith
  rw [if_neg hc.ne', if_neg hnpos.ne', if_neg (by linarith)]
  have hq : (freqs.length : ℝ) / n < 1 / 2 := by rw [div_lt_iff₀ hnpos]; linarith
  have hq0 : 0 < (freqs.length : ℝ) / n := by positivity
  have hfl : ⌊(freqs.length : ℝ) / n⌋ = 0 := by rw [Int.floor_eq_iff]; constructor <;> norm_num <;> linarith
  have hr : roundEven ((freqs.length : ℝ) / n) = 0 := by
    unfold roundEven
    rw [hfl, if_pos (by norm_num; linarith)]
  rw [hr, if_neg (by norm_num), if_pos ⟨rfl, Nat.floor_pos.2 (by linarith)⟩]
  exact ⟨_, rfl⟩

/-- Such cells exist for any two different frequencies. -/
example : 2 * (([142, 100] : List ℝ).length : ℝ) <
    (cdist (Const.init 3) (1420 / ([142, 100] : List ℝ).getD (2 - 1) 0 - 1) -
      cdist (Const.init 3) (1420 / ([142, 100] : List ℝ).getD 0 0 - 1)) /
      ((cdist (Const.init 3) (1420 / 100 - 1) - cdist (Const.init 3) (1420 / 142 - 1)) / 5) := by
  have := C78_monotone (Const.init 3) physical_init (a := 1420 / 142 - 1) (b := 1420 / 100 - 1) (by norm_num)
    (by norm_num)
  rw [lt_div_iff₀ (by linarith)]
  show 2 * (2 : ℝ) * _ < _ - _
  simp only [List.getD_cons_zero, List.getD_cons_succ, Nat.add_one_sub_one]
  linarith

end Verif.Binning
