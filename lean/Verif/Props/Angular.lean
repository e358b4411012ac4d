import Verif.Model.Angular
import Verif.Props.Binning
import Verif.Props.Padding
/-!
# Lightcones in angle and frequency (C110)

`physical_lightcone_to_observational` gives every channel the same number of angular cells, and
continues the box periodically where it is smaller than the field of view.
-/

namespace Verif.Angular

open Verif.Conversions Verif.Constants Verif.Padding Verif.Binning

/-- Specification: the number of cells of `dtheta` arc minutes that a length of `l` Mpc fills at the
distance `d`, not rounded. -/
noncomputable def cellsAt (l d dtheta : ℝ) : ℝ := l / d * (180 / (31415 / 10000)) * 60 / dtheta

/-- Specification: `n` is the largest odd number not above `r`. -/
def OddBelow (n : ℕ) (r : ℝ) : Prop := n % 2 = 1 ∧ (n : ℝ) ≤ r ∧ r < n + 2

/-- Specification: resampled slices have the number of cells asked for. -/
def Square (resample : Resample) : Prop := ∀ s n, (resample s n).rows = n ∧ (resample s n).cols = n

theorem trunc_nonneg {x : ℝ} (h : 0 ≤ x) : trunc x = ((⌊x⌋₊ : ℕ) : ℤ) := by
  unfold trunc
  rw [if_pos h, Int.natCast_floor_eq_floor h]

theorem fov_eq {k : Const} (p : Physical k) (f : Flat k) {l z dtheta : ℝ} (hz : 0 < z) :
    angular_size_comoving k l z * 60 / dtheta = cellsAt l (cdist k z) dtheta := by
  rw [(C79_angular k p f l z hz).1]
  rfl

/-- The number of cells of a slice at redshift `z` is the number of angular cells that the box
fills there, lowered to an odd one. -/
theorem resampled {k : Const} (p : Physical k) (f : Flat k) {l z zLow dtheta : ℝ} (hl : 0 < l) (h0 : 0 < zLow)
    (hz : 0 < z) (hd : 0 < dtheta) (hr : 1 ≤ cellsAt l (cdist k z) dtheta) :
    ∃ n : ℕ, resampledN k z l (angular_size_comoving k l zLow) dtheta = n ∧ OddBelow n (cellsAt l (cdist k z) dtheta) := by
  have hD := cdist_pos p h0
  have hD' := cdist_pos p hz
  have e : l / (deg_to_cdist k (angular_size_comoving k l zLow) z /
      (angular_size_comoving k l zLow * 60 / dtheta)) = cellsAt l (cdist k z) dtheta := by
    unfold deg_to_cdist
    rw [(C79_angular k p f l zLow h0).1, (C79_angular k p f 1 z hz).1]
    unfold cellsAt
    field_simp
  unfold resampledN
  simp only [e]
  rw [trunc_nonneg (by linarith)]
  set r := cellsAt l (cdist k z) dtheta with hr'
  have h1 := Nat.floor_le (show (0 : ℝ) ≤ r by linarith)
  have h2 := Nat.lt_floor_add_one r
  have h3 : 1 ≤ ⌊r⌋₊ := Nat.le_floor (by exact_mod_cast hr)
  unfold OddBelow
  split_ifs with h
  · refine ⟨⌊r⌋₊ - 1, by omega, by omega, ?_, ?_⟩ <;> rw [Nat.cast_sub h3] <;> push_cast <;> linarith
  · exact ⟨⌊r⌋₊, rfl, by omega, h1, by linarith⟩

/-- A slice is continued periodically to the field of view if the box fills more than half of it. -/
theorem C110_slice (k : Const) (p : Physical k) (f : Flat k) (resample : Resample) (hsq : Square resample)
    (s : Mat ℝ) {l z zLow dtheta : ℝ} (hl : 0 < l) (h0 : 0 < zLow) (hz : zLow ≤ z) (hd : 0 < dtheta)
    (hr : 1 ≤ cellsAt l (cdist k z) dtheta)
    (hfit : (⌊cellsAt l (cdist k zLow) dtheta⌋₊ : ℝ) + 4 ≤ 2 * cellsAt l (cdist k z) dtheta) :
    ∃ n b, OddBelow n (cellsAt l (cdist k z) dtheta) ∧ n ≤ ⌊cellsAt l (cdist k zLow) dtheta⌋₊ ∧
      sliceToAngular k resample s z l (angular_size_comoving k l zLow) dtheta = .ok b ∧
      Continues n (resample s n) ⌊cellsAt l (cdist k zLow) dtheta⌋₊ b := by
  obtain ⟨n, hn, ho⟩ := resampled p f hl h0 (h0.trans_le hz) hd hr
  have hD := cdist_pos p h0
  have hle : cellsAt l (cdist k z) dtheta ≤ cellsAt l (cdist k zLow) dtheta := by
    have hDz : cdist k zLow ≤ cdist k z := by
      rcases hz.eq_or_lt with rfl | h
      · exact le_refl _
      · exact (C78_monotone k p (by linarith) h).le
    unfold cellsAt
    gcongr
  have hnN : n ≤ ⌊cellsAt l (cdist k zLow) dtheta⌋₊ := Nat.le_floor (ho.2.1.trans hle)
  have hN : ⌊cellsAt l (cdist k zLow) dtheta⌋₊ ≤ 2 * n := by
    have : (⌊cellsAt l (cdist k zLow) dtheta⌋₊ : ℝ) < 2 * n := by linarith [ho.2.2]
    have : ⌊cellsAt l (cdist k zLow) dtheta⌋₊ < 2 * n := by exact_mod_cast this
    omega
  obtain ⟨b, hb, hc⟩ := C42_partial (resample s n) n _ (hsq s n).1 (hsq s n).2 hnN hN
  refine ⟨n, b, ho, hnN, ?_, hc⟩
  unfold sliceToAngular
  rw [if_neg hd.ne']
  simp only [hn]
  rw [if_neg (by omega), Int.toNat_natCast, (hsq s n).1, fov_eq p f h0,
    trunc_nonneg ((zero_le_one.trans hr).trans hle), Int.toNat_natCast, (C42_size n _).2 hnN]
  exact hb

/-- A slice raises where the box fills less than half of the field of view. -/
theorem C110_raises (k : Const) (p : Physical k) (f : Flat k) (resample : Resample) (hsq : Square resample)
    (s : Mat ℝ) {l z zLow dtheta : ℝ} (hl : 0 < l) (h0 : 0 < zLow) (hz : zLow ≤ z) (hd : 0 < dtheta)
    (hr : 3 ≤ cellsAt l (cdist k z) dtheta)
    (hfit : 2 * cellsAt l (cdist k z) dtheta < ⌊cellsAt l (cdist k zLow) dtheta⌋₊) :
    ∃ e, sliceToAngular k resample s z l (angular_size_comoving k l zLow) dtheta = .error e := by
  obtain ⟨n, hn, ho⟩ := resampled p f hl h0 (h0.trans_le hz) hd (by linarith)
  have hnonneg : 0 ≤ cellsAt l (cdist k zLow) dtheta := by
    have hD := cdist_pos p h0
    unfold cellsAt
    positivity
  have h2 : 2 * n < ⌊cellsAt l (cdist k zLow) dtheta⌋₊ := by
    have : (2 * n : ℝ) < ⌊cellsAt l (cdist k zLow) dtheta⌋₊ := by linarith [ho.2.1]
    exact_mod_cast this
  have hn2 : 2 ≤ n := by
    have : (1 : ℝ) < n := by linarith [ho.2.2]
    exact_mod_cast this
  obtain ⟨e, he⟩ := C42_raises (resample s n) n ⌊cellsAt l (cdist k zLow) dtheta⌋₊ (hsq s n).1 (hsq s n).2 hn2
    (Or.inr h2)
  refine ⟨e, ?_⟩
  unfold sliceToAngular
  rw [if_neg hd.ne']
  simp only [hn]
  rw [if_neg (by omega), Int.toNat_natCast, (hsq s n).1, fov_eq p f h0, trunc_nonneg hnonneg, Int.toNat_natCast,
    (C42_size n _).2 (by omega)]
  exact he

theorem crop_size (N h : ℕ) (hh : h ≤ N) (m : ℕ) (v : ℕ → ℕ → ℕ → ℝ) :
    crop N h ⟨N, N, m, v⟩ = ⟨h, h, m, fun x y i => v (x + (N - h) / 2) (y + (N - h) / 2) i⟩ := by
  unfold crop
  have e1 : ((N : ℤ) - h) / 2 = (((N - h) / 2 : ℕ) : ℤ) := by omega
  have e2 : ((N : ℤ) + h) / 2 = (((N + h) / 2 : ℕ) : ℤ) := by omega
  simp only [e1, e2, stopOf_nonneg]
  have e3 : min N ((N - h) / 2) = (N - h) / 2 := by omega
  have e4 : min N ((N + h) / 2) = (N + h) / 2 := by omega
  rw [e3, e4]
  have e5 : (N + h) / 2 - (N - h) / 2 = h := by omega
  rw [e5]

/-- Every channel of the padded lightcone has the cells of the field of view at the lowest
redshift, each of `dtheta`; a channel repeats the binned slice with the period of the box.
Cropped, it has the cells of the field of view at the highest redshift, from the middle. -/
theorem C110_partial (k : Const) (p : Physical k) (f : Flat k) (toZ : List ℝ → Except String (List ℝ))
    (resample : Resample) (hsq : Square resample) (lc cone : Cone) (zLow zHigh dnu dtheta box : ℝ) (mode : String)
    (zs nus : List ℝ) (hn0 : 0 < lc.n0) (hbox : 0 < box) (h0 : 0 < zLow) (hd : 0 < dtheta)
    (hz : toZ (distances k zLow (box / lc.n0) lc.n2) = .ok zs) (hmax : zs.max? = some zHigh) (hhigh : zLow ≤ zHigh)
    (hbin : binFrequency k toZ lc zLow box dnu = .ok (cone, nus))
    (hfit : ∀ nu ∈ nus, zLow ≤ 1420 / nu - 1 ∧ 1 ≤ cellsAt box (cdist k (1420 / nu - 1)) dtheta ∧
      (⌊cellsAt box (cdist k zLow) dtheta⌋₊ : ℝ) + 4 ≤ 2 * cellsAt box (cdist k (1420 / nu - 1)) dtheta)
    (hmode : mode.toLower ∈ ["pad", "full", "extend", "crop", "valid"]) :
    ∃ out, toObservational k toZ resample lc zLow dnu dtheta box mode = .ok (out, nus) ∧ out.n2 = nus.length ∧
      (mode.toLower ∈ ["pad", "full", "extend"] →
        out.n0 = ⌊cellsAt box (cdist k zLow) dtheta⌋₊ ∧ out.n1 = ⌊cellsAt box (cdist k zLow) dtheta⌋₊ ∧
        ∀ i < nus.length, ∃ n, OddBelow n (cellsAt box (cdist k (1420 / nus.getD i 0 - 1)) dtheta) ∧
          ∀ x < out.n0, ∀ y < out.n1, out.val x y i = (resample ⟨cone.n0, cone.n1, fun x y => cone.val x y i⟩ n).val (x % n) (y % n)) ∧
      (mode.toLower ∈ ["crop", "valid"] →
        out.n0 = ⌊cellsAt box (cdist k zHigh) dtheta⌋₊ ∧ out.n1 = ⌊cellsAt box (cdist k zHigh) dtheta⌋₊ ∧
        ∀ i < nus.length, ∃ n, OddBelow n (cellsAt box (cdist k (1420 / nus.getD i 0 - 1)) dtheta) ∧
          ∀ x < out.n0, ∀ y < out.n1, out.val x y i = (resample ⟨cone.n0, cone.n1, fun x y => cone.val x y i⟩ n).val
            ((x + (⌊cellsAt box (cdist k zLow) dtheta⌋₊ - ⌊cellsAt box (cdist k zHigh) dtheta⌋₊) / 2) % n)
            ((y + (⌊cellsAt box (cdist k zLow) dtheta⌋₊ - ⌊cellsAt box (cdist k zHigh) dtheta⌋₊) / 2) % n)) := by
  set N := ⌊cellsAt box (cdist k zLow) dtheta⌋₊ with hN
  set H := ⌊cellsAt box (cdist k zHigh) dtheta⌋₊ with hH
  have hDl := cdist_pos p h0
  have hDh := cdist_pos p (h0.trans_le hhigh)
  have hHN : H ≤ N := by
    have hDz : cdist k zLow ≤ cdist k zHigh := by
      rcases hhigh.eq_or_lt with h | h
      · rw [h]
      · exact (C78_monotone k p (by linarith) h).le
    apply Nat.floor_le_floor
    unfold cellsAt
    gcongr
  have hlow0 : 0 ≤ cellsAt box (cdist k zLow) dtheta := by unfold cellsAt; positivity
  have hhigh0 : 0 ≤ cellsAt box (cdist k zHigh) dtheta := by unfold cellsAt; positivity
  have hpl : ∀ i, i < nus.length → ∃ g n, plane k resample cone nus box (angular_size_comoving k box zLow) dtheta N i
      = .ok g ∧ OddBelow n (cellsAt box (cdist k (1420 / nus.getD i 0 - 1)) dtheta) ∧
      ∀ x < N, ∀ y < N, g x y = (resample (Cone.slice cone i) n).val (x % n) (y % n) := by
    intro i hi
    obtain ⟨f1, f2, f3⟩ := hfit (nus.getD i 0) (by
      rw [List.getD_eq_getElem _ _ hi]; exact List.getElem_mem _)
    obtain ⟨n, b, c1, c2, c3, c4, c5, c6⟩ := C110_slice k p f resample hsq (Cone.slice cone i) hbox h0 f1 hd f2 f3
    refine ⟨b.val, n, ?_, c1, c6⟩
    unfold plane nu_to_z nu0
    rw [c3]
    simp only []
    unfold assign
    rw [c4, c5, if_pos ⟨Or.inl rfl, Or.inl rfl⟩]
    have hsp : ∀ x, (spread N N x).getD 0 = x := fun x => by simp [spread]
    simp only [← hN, hsp]
  choose! g n hg ho hv using hpl
  have hmap : (List.range nus.length).mapM (plane k resample cone nus box (angular_size_comoving k box zLow) dtheta N) =
      .ok ((List.range nus.length).map g) :=
    Smoothing.mapM_ok _ g _ fun i hi => hg i (List.mem_range.1 hi)
  have hget : ∀ i, i < nus.length → (((List.range nus.length).map g).getD i fun _ _ => 0) = g i := by
    intro i hi
    rw [List.getD_eq_getElem _ _ (by simpa using hi)]
    simp
  have key : toObservational k toZ resample lc zLow dnu dtheta box mode =
      if mode.toLower = "crop" ∨ mode.toLower = "valid" then
        .ok (crop N H ⟨N, N, nus.length, fun x y i => (((List.range nus.length).map g).getD i fun _ _ => 0) x y⟩, nus)
      else .ok (⟨N, N, nus.length, fun x y i => (((List.range nus.length).map g).getD i fun _ _ => 0) x y⟩, nus) := by
    unfold toObservational
    simp only []
    rw [if_neg (not_not.2 hmode), if_neg (by omega)]
    simp only [hz, hmax, hbin]
    rw [if_neg hd.ne', fov_eq p f h0, fov_eq p f (h0.trans_le hhigh), trunc_nonneg hlow0, trunc_nonneg hhigh0,
      if_neg (by omega), Int.toNat_natCast]
    simp only [← hN, ← hH, hmap]
  by_cases hc : mode.toLower = "crop" ∨ mode.toLower = "valid"
  · rw [if_pos hc, crop_size N H hHN] at key
    refine ⟨_, key, rfl, fun hm => ?_, fun _ => ⟨rfl, rfl, fun i hi => ⟨n i, ho i hi, fun x hx y hy => ?_⟩⟩⟩
    · exfalso
      rcases hc with hc | hc <;> rw [hc] at hm <;> simp at hm
    · simp only at hx hy ⊢
      rw [hget i hi]
      exact hv i hi _ (by omega) _ (by omega)
  · rw [if_neg hc] at key
    refine ⟨_, key, rfl, fun _ => ⟨rfl, rfl, fun i hi => ⟨n i, ho i hi, fun x hx y hy => ?_⟩⟩, fun hm => ?_⟩
    · simp only at hx hy ⊢
      rw [hget i hi]
      exact hv i hi _ hx _ hy
    · exact absurd (by simpa using hm) hc

/-- An angular resolution of zero raises. -/
theorem C110_zero (k : Const) (toZ : List ℝ → Except String (List ℝ)) (resample : Resample) (lc : Cone)
    (zLow dnu box : ℝ) (mode : String) (s : Mat ℝ) (z l fov : ℝ) :
    (∃ e, toObservational k toZ resample lc zLow dnu 0 box mode = .error e) ∧
    ∃ e, sliceToAngular k resample s z l fov 0 = .error e := by
  constructor
  · unfold toObservational
    simp only [if_true]
    repeat' split
    all_goals exact ⟨_, rfl⟩
  · unfold sliceToAngular
    rw [if_pos rfl]
    exact ⟨_, rfl⟩

/-- Slices at equal distances between two redshifts have redshifts. -/
theorem slices (k : Const) (p : Physical k) (a b : ℝ) (ha : 0 ≤ a) (hab : a < b) :
    ∃ zs : List ℝ, zs.length = 3 ∧ zs.Pairwise (· < ·) ∧ (∀ z ∈ zs, 0 ≤ z) ∧ zs.getD 0 0 = a ∧ zs.getD 2 0 = b ∧
      zs.map (cdist k) = distances k a ((cdist k b - cdist k a) / 2) 3 := by
  have hc : ContinuousOn (cdist k) (Set.Icc a b) := fun z hz =>
    ((C78_distance k p).2 z (by linarith [hz.1])).continuousAt.continuousWithinAt
  have hlt := C78_monotone k p (by linarith) hab
  obtain ⟨c, hc1, hc2⟩ := intermediate_value_Icc hab.le hc
    (show (cdist k a + cdist k b) / 2 ∈ Set.Icc (cdist k a) (cdist k b) by constructor <;> linarith)
  have hac : a < c := by
    rcases hc1.1.eq_or_lt with h | h
    · rw [← h] at hc2; linarith
    · exact h
  have hcb : c < b := by
    rcases hc1.2.eq_or_lt with h | h
    · rw [h] at hc2; linarith
    · exact h
  refine ⟨[a, c, b], rfl, ?_, ?_, rfl, rfl, ?_⟩
  · simp [hac, hcb, hac.trans hcb]
  · intro z hz
    simp only [List.mem_cons, List.not_mem_nil, or_false] at hz
    rcases hz with rfl | rfl | rfl <;> linarith
  · simp only [distances, List.map_cons, List.map_nil, List.range_succ, List.range_zero, List.nil_append,
      List.cons_append]
    rw [hc2]
    norm_num
    constructor <;> ring

/-- A resampling: repeat the first cell. -/
def flatten : Resample := fun s n => ⟨n, n, fun _ _ => s.val 0 0⟩

theorem flatten_square : Square flatten := fun _ _ => ⟨rfl, rfl⟩

theorem flat_init : Flat (Const.init 3) := by simpa using C79_flat 3 [] (by simp)

theorem cells_forty (k : Const) (l d : ℝ) (hl : 0 < l) (hd : 0 < d) :
    cellsAt l d (l / d * (180 / (31415 / 10000)) * 60 / 40) = 40 := by
  unfold cellsAt
  field_simp

/-- The hypotheses of `C110_partial` can be met: three slices from redshift one on, forty cells wide. -/
example : ∃ (toZ : List ℝ → Except String (List ℝ)) (lc cone : Cone) (zHigh dnu dtheta box : ℝ) (zs nus : List ℝ),
    0 < lc.n0 ∧ 0 < box ∧ 0 < dtheta ∧ toZ (distances (Const.init 3) 1 (box / lc.n0) lc.n2) = .ok zs ∧
    zs.max? = some zHigh ∧ 1 ≤ zHigh ∧ binFrequency (Const.init 3) toZ lc 1 box dnu = .ok (cone, nus) ∧
    ∀ nu ∈ nus, 1 ≤ 1420 / nu - 1 ∧ 1 ≤ cellsAt box (cdist (Const.init 3) (1420 / nu - 1)) dtheta ∧
      (⌊cellsAt box (cdist (Const.init 3) 1) dtheta⌋₊ : ℝ) + 4 ≤
        2 * cellsAt box (cdist (Const.init 3) (1420 / nu - 1)) dtheta := by
  obtain ⟨toZ, hex⟩ := exact_exists _ physical_init
  have p := physical_init
  set k := Const.init 3 with hk
  have hD1 := cdist_pos p (z := 1) one_pos
  have hD2 := C78_monotone k p (a := 1) (b := 2) (by norm_num) (by norm_num)
  set d := min (cdist k 1 * (5 / 4)) (cdist k 2) with hd
  have hd1 : cdist k 1 < d := lt_min (by linarith) hD2
  have hd2 : d ≤ cdist k 1 * (5 / 4) := min_le_left _ _
  obtain ⟨b, hb, hb'⟩ := intermediate_value_Icc (show (1 : ℝ) ≤ 2 by norm_num)
    (show ContinuousOn (cdist k) (Set.Icc 1 2) from fun z hz =>
      ((C78_distance k p).2 z (by linarith [hz.1])).continuousAt.continuousWithinAt)
    (show d ∈ Set.Icc (cdist k 1) (cdist k 2) from ⟨hd1.le, min_le_right _ _⟩)
  have hb1 : 1 < b := by
    rcases hb.1.eq_or_lt with h | h
    · rw [← h] at hb'; linarith
    · exact h
  obtain ⟨zs, hl, hmono, hpos, hz0, hz2, hmap⟩ := slices k p 1 b zero_le_one hb1
  set cell := (cdist k b - cdist k 1) / 2 with hcell
  have hcpos : 0 < cell := by rw [hcell, hb']; linarith
  set lc : Cone := ⟨1, 1, 3, fun _ _ i => i⟩ with hlc
  have htoZ : toZ (distances k 1 (cell / (lc.n0 : ℝ)) lc.n2) = .ok zs := by
    rw [show cell / (lc.n0 : ℝ) = cell by simp [hlc], ← hex zs hpos, hmap]
  have hll := line_lt (a := 1) (by norm_num) hb1
  obtain ⟨cone, nus, w, hbin, -, -, -, -, -, hnu, -⟩ := C108_partial k toZ lc 1 cell ((line 1 - line b) / 2) zs
    (by simp [hlc]) htoZ (by simp [hl, hlc]) hmono (fun z h => by linarith [hpos z h]) (by linarith)
    (by rw [hz0, show lc.n2 - 1 = 2 from rfl, hz2]; linarith)
  have hmem : (1 : ℝ) ∈ zs := by
    rw [← hz0, List.getD_eq_getElem _ _ (by omega)]
    exact List.getElem_mem _
  obtain ⟨zm, hzm⟩ : ∃ m, zs.max? = some m := by
    cases hmx : zs.max? with
    | none =>
      rw [List.max?_eq_none_iff] at hmx
      rw [hmx] at hl
      simp at hl
    | some m => exact ⟨m, rfl⟩
  refine ⟨toZ, lc, cone, zm, _, cell / cdist k 1 * (180 / (31415 / 10000)) * 60 / 40, cell, zs, nus, by simp [hlc],
    hcpos, by positivity, htoZ, hzm, (List.max?_eq_some_iff.1 hzm).2 1 hmem, hbin, ?_⟩
  intro nu hmem
  obtain ⟨i, hi, rfl⟩ := List.getElem_of_mem hmem
  obtain ⟨e1, e2⟩ := hnu i hi
  rw [List.getD_eq_getElem _ _ hi] at e1 e2
  rw [hz0] at e1
  rw [show lc.n2 - 1 = 2 from rfl, hz2] at e2
  have hlb : 0 < line b := by unfold line; positivity
  have hnupos : 0 < nus[i] := by linarith
  have hle : nus[i] ≤ 710 := by
    have hl1 : line 1 = 710 := by norm_num [line]
    rw [e1, hl1]
    have : (0 : ℝ) ≤ i * ((line 1 - line b) / 2) := by
      have : 0 < (line 1 - line b) / 2 := by linarith
      positivity
    rw [hl1] at this
    linarith
  have hz1 : (1 : ℝ) ≤ 1420 / nus[i] - 1 := by
    have : (2 : ℝ) ≤ 1420 / nus[i] := by rw [le_div_iff₀ hnupos]; linarith
    linarith
  have hzb : 1420 / nus[i] - 1 < b := by
    have : 1420 / nus[i] < 1 + b := by
      rw [div_lt_iff₀ hnupos]
      unfold line at e2
      rw [div_lt_iff₀ (by linarith)] at e2
      linarith
    linarith
  have hDb := C78_monotone k p (by linarith) hzb
  have hDz := cdist_pos p (lt_of_lt_of_le one_pos hz1)
  have h40 := cells_forty k cell (cdist k 1) hcpos hD1
  have hr : 32 ≤ cellsAt cell (cdist k (1420 / nus[i] - 1)) (cell / cdist k 1 * (180 / (31415 / 10000)) * 60 / 40) := by
    have : cellsAt cell (cdist k (1420 / nus[i] - 1)) (cell / cdist k 1 * (180 / (31415 / 10000)) * 60 / 40) =
        40 * (cdist k 1 / cdist k (1420 / nus[i] - 1)) := by
      unfold cellsAt; field_simp
    rw [this, ← mul_div_assoc, le_div_iff₀ hDz]
    linarith
  refine ⟨hz1, by linarith, ?_⟩
  rw [h40]
  norm_num
  linarith

/-- Claim of C110: any lightcone can be converted.  False even with exact distances: a box that reaches
to more than twice its lowest distance is less than half as wide there and raises. -/
theorem C110_false : ¬ ∀ (k : Const) (toZ : List ℝ → Except String (List ℝ)) (resample : Resample) (lc : Cone)
    (zLow dnu dtheta box : ℝ) (zs : List ℝ), Physical k → Flat k → Exact k toZ → Square resample → 0 < lc.n0 →
    lc.n1 = lc.n0 → 0 < zLow → 0 < box → 0 < dtheta → 0 < dnu →
    zs.map (cdist k) = distances k zLow (box / lc.n0) lc.n2 → (∀ z ∈ zs, 0 ≤ z) →
    dnu < line (zs.getD 0 0) - line (zs.getD (zs.length - 1) 0) →
    ∃ r, toObservational k toZ resample lc zLow dnu dtheta box "pad" = .ok r := by
  intro h
  obtain ⟨toZ, hex⟩ := exact_exists _ physical_init
  have p := physical_init
  have f := flat_init
  set k := Const.init 3 with hk
  have hD10 := cdist_pos p (z := 1 / 10) (by norm_num)
  have hD0 := (C78_distance k p).1
  -- a lowest redshift with a quarter of the distance of z = 0.1
  obtain ⟨a, ha, ha'⟩ := intermediate_value_Icc (show (0 : ℝ) ≤ 1 / 10 by norm_num)
    (show ContinuousOn (cdist k) (Set.Icc 0 (1 / 10)) from fun z hz =>
      ((C78_distance k p).2 z (by linarith [hz.1])).continuousAt.continuousWithinAt)
    (show cdist k (1 / 10) / 4 ∈ Set.Icc (cdist k 0) (cdist k (1 / 10)) by rw [hD0]; constructor <;> linarith)
  have ha0 : 0 < a := by
    rcases ha.1.eq_or_lt with h | h
    · rw [← h, hD0] at ha'; linarith
    · exact h
  have ha1 : a ≤ 1 / 10 := ha.2
  obtain ⟨zs, hl, hmono, hpos, hz0, hz2, hmap⟩ := slices k p a 1 ha0.le (by linarith)
  have hD1 : cdist k a < cdist k 1 := C78_monotone k p (by linarith) (by linarith)
  set cell := (cdist k 1 - cdist k a) / 2 with hcell
  have hcpos : 0 < cell := by rw [hcell]; linarith
  set lc : Cone := ⟨1, 1, 3, fun _ _ _ => 1⟩ with hlc
  have hbox : cell / (lc.n0 : ℝ) = cell := by simp [hlc]
  have hmap' : zs.map (cdist k) = distances k a (cell / (lc.n0 : ℝ)) lc.n2 := by rw [hbox, hmap]
  have hla : line a ≤ 1420 := by
    unfold line
    rw [div_le_iff₀ (by linarith)]
    linarith
  have hla' : line (1 / 10) ≤ line a := by
    rcases ha1.eq_or_lt with h | h
    · rw [h]
    · exact (line_lt (by linarith) h).le
  have hl1 : line 1 = 710 := by norm_num [line]
  have hl10 : (1290 : ℝ) ≤ line (1 / 10) := by norm_num [line]
  set dnu := (line a - 710) / 2 with hdnu
  have hdpos : 0 < dnu := by rw [hdnu]; linarith
  have hm : dnu < line (zs.getD 0 0) - line (zs.getD (zs.length - 1) 0) := by
    rw [hz0, hl, hz2, hl1]
    linarith
  have htoZ : toZ (distances k a (cell / (lc.n0 : ℝ)) lc.n2) = .ok zs := by
    rw [← hmap']; exact hex zs hpos
  -- an angular resolution with many cells
  have hDa := cdist_pos p ha0
  set q : ℝ := cell / cdist k a * (180 / (31415 / 10000)) * 60 with hq
  have hqpos : 0 < q := by rw [hq]; positivity
  set R : ℝ := 12 * cdist k 1 / cdist k a with hR
  have hRpos : 12 < R := by
    rw [hR, lt_div_iff₀ hDa]; linarith
  set dtheta := q / R with hdt
  have hdtpos : 0 < dtheta := by rw [hdt]; positivity
  have hlow : cellsAt cell (cdist k a) dtheta = R := by
    unfold cellsAt
    rw [← hq, hdt]
    field_simp
  have hat : ∀ z, 0 < cdist k z → cellsAt cell (cdist k z) dtheta = 12 * cdist k 1 / cdist k z := by
    intro z hz
    have : cellsAt cell (cdist k z) dtheta = cellsAt cell (cdist k a) dtheta * (cdist k a / cdist k z) := by
      unfold cellsAt; field_simp
    rw [this, hlow, hR]
    field_simp
  obtain ⟨r, hr⟩ := h k toZ flatten lc a dnu dtheta cell zs p f hex flatten_square (by simp [hlc]) rfl ha0 hcpos hdtpos
    hdpos hmap' hpos hm
  obtain ⟨cone, nus, w, hbin, -, -, hn2, hm2, -, hnu, -⟩ := C108_partial k toZ lc a cell dnu zs (by simp [hlc]) htoZ
    (by simp [hl, hlc]) hmono (fun z h => by linarith [hpos z h]) hdpos (by simpa [hl, hlc] using hm)
  have hmaxne : ∃ m, zs.max? = some m := by
    cases hmx : zs.max? with
    | none =>
      rw [List.max?_eq_none_iff] at hmx
      rw [hmx] at hl
      simp at hl
    | some m => exact ⟨m, rfl⟩
  obtain ⟨zm, hzm⟩ := hmaxne
  -- the second channel
  obtain ⟨e1, e2⟩ := hnu 1 (by omega)
  rw [hz0] at e1
  simp only [Nat.cast_one, one_mul] at e1
  have ev : nus.getD 1 0 = (line a + 710) / 2 := by rw [e1, hdnu]; ring
  set nu := nus.getD 1 0 with hnudef
  have hz1 : (1 : ℝ) / 10 < 1420 / nu - 1 := by
    have : (1 : ℝ) / 10 + 1 < 1420 / nu := by rw [lt_div_iff₀ (by linarith)]; linarith
    linarith
  have hz1' : 1420 / nu - 1 < 1 := by
    have : 1420 / nu < 2 := by rw [div_lt_iff₀ (by linarith)]; linarith
    linarith
  have hDz := C78_monotone k p (by norm_num) hz1
  have hDz' := C78_monotone k p (by linarith) hz1'
  have hDzpos : 0 < cdist k (1420 / nu - 1) := by linarith
  obtain ⟨e, he⟩ := C110_raises k p f flatten flatten_square (Cone.slice cone 1) (l := cell) (z := 1420 / nu - 1)
    (zLow := a) (dtheta := dtheta) hcpos ha0 (by linarith) hdtpos
    (by rw [hat _ hDzpos, le_div_iff₀ hDzpos]; linarith)
    (by
      rw [hat _ hDzpos, hlow]
      have h1 : 12 * cdist k 1 / cdist k (1420 / nu - 1) ≤ R / 4 := by
        rw [hR, div_div, div_le_div_iff_of_pos_left (by linarith) hDzpos (by linarith)]
        linarith
      have h2 := Nat.lt_floor_add_one R
      linarith)
  have hplane : plane k flatten cone nus cell (angular_size_comoving k cell a) dtheta
      (trunc (angular_size_comoving k cell a * 60 / dtheta)).toNat 1 = .error e := by
    unfold plane
    have hznu : nu_to_z (nus.getD 1 0) = 1420 / nu - 1 := rfl
    rw [hznu, he]
  have hfail : ∃ e', (List.range nus.length).mapM (plane k flatten cone nus cell (angular_size_comoving k cell a) dtheta
      (trunc (angular_size_comoving k cell a * 60 / dtheta)).toNat) = .error e' := by
    cases hM : (List.range nus.length).mapM (plane k flatten cone nus cell (angular_size_comoving k cell a) dtheta
      (trunc (angular_size_comoving k cell a * 60 / dtheta)).toNat) with
    | error e' => exact ⟨e', rfl⟩
    | ok l =>
      exfalso
      have hmem : ∀ (xs : List ℕ) (ys : List (ℕ → ℕ → ℝ)),
          xs.mapM (plane k flatten cone nus cell (angular_size_comoving k cell a) dtheta
            (trunc (angular_size_comoving k cell a * 60 / dtheta)).toNat) = .ok ys → 1 ∉ xs := by
        intro xs
        induction xs with
        | nil => intro ys _; simp
        | cons x xs ih =>
          intro ys hy
          rw [List.mapM_cons] at hy
          cases hx : plane k flatten cone nus cell (angular_size_comoving k cell a) dtheta
            (trunc (angular_size_comoving k cell a * 60 / dtheta)).toNat x with
          | error e' => rw [hx] at hy; exact absurd hy (by simp [bind, Except.bind])
          | ok g =>
            rw [hx] at hy
            cases hxs : xs.mapM (plane k flatten cone nus cell (angular_size_comoving k cell a) dtheta
              (trunc (angular_size_comoving k cell a * 60 / dtheta)).toNat) with
            | error e' => rw [hxs] at hy; exact absurd hy (by simp [bind, Except.bind])
            | ok gs =>
              rw [List.mem_cons, not_or]
              refine ⟨?_, ih _ hxs⟩
              rintro rfl
              rw [hplane] at hx
              exact absurd hx (by simp)
      exact hmem _ _ hM (List.mem_range.2 (by omega))
  obtain ⟨e', he'⟩ := hfail
  unfold toObservational at hr
  simp only [htoZ, hzm, hbin, he'] at hr
  split_ifs at hr

end Verif.Angular
