import Verif.Model.Subvolume
import Verif.Props.LightconeSlices
import Mathlib.Tactic.FieldSimp
import Mathlib.Tactic.Positivity
import Mathlib.Tactic.Linarith
import Mathlib.Tactic.Ring
import Mathlib.Tactic.NormNum
import Mathlib.Algebra.BigOperators.Group.Finset.Basic
import Mathlib.Algebra.BigOperators.Group.List.Basic
import Mathlib.Algebra.BigOperators.Field
import Mathlib.Algebra.Order.Field.Rat

/-!
# C238: sub-volumes of lightcones, as a whole
-/

namespace Verif.Subvolume

open Verif.Lightcone

variable {K : Type} [Field K] [LinearOrder K] [IsStrictOrderedRing K]

/-- How deep the sub-volume is to be: in Mpc or in MHz. -/
inductive Depth (K : Type) where
  | mpc (d : K)
  | mhz (f : K)

/-- The keyword arguments for a depth: in MHz and in Mpc. -/
def Depth.args : Depth K → Option K × Option K
  | .mpc d => (none, some d)
  | .mhz f => (some f, none)

/-- The redshifts `lowZ` and `highZ` bound the volume of the given depth around `z`: half of the depth on either side,
in comoving distance or in observed frequency. -/
def Bounds (w : World K) (z : K) : Depth K → K → K → Prop
  | .mpc d, lowZ, highZ => w.cdist lowZ = w.cdist z - d / 2 ∧ w.cdist highZ = w.cdist z + d / 2
  | .mhz f, lowZ, highZ => w.nu0 / (1 + lowZ) = w.nu0 / (1 + z) + f / 2 ∧ w.nu0 / (1 + highZ) = w.nu0 / (1 + z) - f / 2

/-- The depth is positive, and the volume does not reach frequency zero. -/
def Sound (w : World K) (z : K) : Depth K → Prop
  | .mpc d => 0 < d
  | .mhz f => 0 < f ∧ f / 2 < w.nu0 / (1 + z)

/-- Distances grow with redshift and `toZ` is the inverse of `cdist`. -/
structure Cosmology (w : World K) : Prop where
  pos : 0 < w.nu0
  mono : ∀ a b, a < b → w.cdist a < w.cdist b
  inv : ∀ x, w.cdist (w.toZ x) = x

theorem limits_ok {w : World K} (hw : Cosmology w) {z : K} (hz : -1 < z) {d : Depth K} (hd : Sound w z d) :
    ∃ lo hi, limits w z d.args.1 d.args.2 = .ok (lo, hi, w.cdist lo, w.cdist hi) ∧ Bounds w z d lo hi ∧ lo < hi := by
  have h1 : 0 < 1 + z := by linarith
  have hn := hw.pos
  have hlt : ∀ a b, w.cdist a < w.cdist b → a < b := by
    intro a b h
    by_contra hc
    rcases lt_or_eq_of_le (not_lt.mp hc) with h' | h'
    · exact absurd (hw.mono _ _ h') (not_lt.mpr h.le)
    · subst h'; exact lt_irrefl _ h
  cases d with
  | mpc d =>
    have e : nuToZ w (zToNu w z) = z := by unfold nuToZ zToNu; field_simp; ring
    refine ⟨w.toZ (w.cdist z - d / 2), w.toZ (w.cdist z + d / 2), ?_, ⟨hw.inv _, hw.inv _⟩, ?_⟩
    · simp only [limits, Depth.args, e, hw.inv]
    · apply hlt
      rw [hw.inv, hw.inv]
      have : 0 < d := hd
      linarith
  | mhz f =>
    obtain ⟨h2, h3⟩ := hd
    have hnu : 0 < w.nu0 / (1 + z) := by positivity
    refine ⟨nuToZ w (zToNu w z + f / 2), nuToZ w (zToNu w z - f / 2), rfl, ⟨?_, ?_⟩, ?_⟩
    · have : w.nu0 / (1 + z) + f / 2 ≠ 0 := by positivity
      unfold nuToZ zToNu
      rw [show 1 + (w.nu0 / (w.nu0 / (1 + z) + f / 2) - 1) = w.nu0 / (w.nu0 / (1 + z) + f / 2) by ring, div_div_cancel₀ hn.ne']
    · unfold nuToZ zToNu
      rw [show 1 + (w.nu0 / (w.nu0 / (1 + z) - f / 2) - 1) = w.nu0 / (w.nu0 / (1 + z) - f / 2) by ring, div_div_cancel₀ hn.ne']
    · unfold nuToZ zToNu
      have := div_lt_div_of_pos_left hn (show 0 < w.nu0 / (1 + z) - f / 2 by linarith) (show w.nu0 / (1 + z) - f / 2 < w.nu0 / (1 + z) + f / 2 by linarith)
      linarith

theorem sum_flat (f : ℕ → ℕ → K) (n m : ℕ) : ((List.range n).flatMap fun a => (List.range m).map fun b => f a b).sum =
    ∑ a ∈ Finset.range n, ∑ b ∈ Finset.range m, f a b := by
  induction n with
  | zero => rfl
  | succ n ih =>
    rw [List.range_succ, List.flatMap_append, List.sum_append, ih, Finset.sum_range_succ]
    congr 1
    simp only [List.flatMap_cons, List.flatMap_nil, List.append_nil]
    rfl

theorem centred_sum (c : Cone K) (k : ℕ) : ∑ a ∈ Finset.range c.nx, ∑ b ∈ Finset.range c.ny, (centred c).val a b k = 0 := by
  unfold centred
  simp only [sum_flat, Finset.sum_sub_distrib, Finset.sum_const, Finset.card_range, nsmul_eq_mul]
  rcases Nat.eq_zero_or_pos c.nx with h | h
  · simp [h]
  rcases Nat.eq_zero_or_pos c.ny with h' | h'
  · simp [h']
  have h1 : (c.nx : K) ≠ 0 := by exact_mod_cast h.ne'
  have h2 : (c.ny : K) ≠ 0 := by exact_mod_cast h'.ne'
  push_cast
  field_simp
  ring

/-- **C238** for redshifts in increasing order: the slices returned are those from the one nearest to the lower limit up
to (and, to make their number odd, possibly including) the one nearest to the upper limit; the redshifts are those of
the slices; the cells are those of the lightcone, or differ from them by one number per slice that makes the mean of
the slice zero; and the dimensions are the field of view, twice, and the comoving distance between the limits. -/
theorem C238_partial (w : World K) (hw : Cosmology w) (c : Cone K) (zs : List K) (hs : zs.Pairwise (· < ·)) (hc : c.nz = zs.length)
    (z : K) (hz : -1 < z) (d : Depth K) (hd : Sound w z d) (odd subtract : Bool) (fov : Option K) (verbose : Bool) (r : Result K)
    (h : volume w c zs z d.args.1 d.args.2 odd subtract fov verbose = .ok r) :
    ∃ lo hi p m q, Bounds w z d lo hi ∧ IsNearest zs lo p ∧ IsNearest zs hi m ∧ p ≤ m ∧ (q = m ∨ odd = true ∧ q = m + 1) ∧
      q ≤ zs.length ∧ (odd = true → (q - p) % 2 = 1) ∧
      r.cone.nx = c.nx ∧ r.cone.ny = c.ny ∧ r.cone.nz = q - p ∧ r.zs.length = q - p ∧ (∀ k < q - p, r.zs[k]? = zs[p + k]?) ∧
      (subtract = false → ∀ i j k, k < q - p → r.cone.val i j k = c.val i j (p + k)) ∧
      (subtract = true → ∀ k < q - p, ∑ i ∈ Finset.range c.nx, ∑ j ∈ Finset.range c.ny, r.cone.val i j k = 0) ∧
      (∀ i j i' j' k, k < q - p → r.cone.val i j k - r.cone.val i' j' k = c.val i j (p + k) - c.val i' j' (p + k)) ∧
      r.dims = (fov.getD w.side, fov.getD w.side, w.cdist hi - w.cdist lo) := by
  obtain ⟨lo, hi, h1, h2, h3⟩ := limits_ok hw hz hd
  unfold volume at h
  rw [h1] at h
  dsimp only at h
  cases hv : Lightcone.subvolume zs lo hi odd verbose with
  | error e => rw [hv] at h; cases h
  | ok pq =>
    obtain ⟨p, q⟩ := pq
    rw [hv] at h
    obtain ⟨m, n1, n2, n3, n4, n5, n6, n7, n8, -, -⟩ := C13_partial zs lo hi odd verbose p q hs h3.le hv
    cases h
    have hnz : min q c.nz - min p c.nz = q - p := by omega
    refine ⟨lo, hi, p, m, q, h2, n1, n2, n3, ?_, by omega, n8, ?_, ?_, ?_, ?_, ?_, ?_, ?_, ?_, rfl⟩
    · rcases Nat.lt_or_ge m q with hq | hq
      · have : q = m + 1 := by omega
        exact .inr ⟨(n7.mp this).1, this⟩
      · exact .inl (by omega)
    · cases subtract <;> rfl
    · cases subtract <;> rfl
    · cases subtract <;> exact hnz
    · simp only [List.length_take, List.length_drop]; omega
    · intro k hk
      simp only [List.getElem?_take, List.getElem?_drop, if_pos hk]
    · rintro rfl i j k -; rfl
    · rintro rfl k -
      exact centred_sum (cut c p q) k
    · intro i j i' j' k _
      cases subtract
      · rfl
      · show (c.val i j (p + k) - _) - (c.val i' j' (p + k) - _) = _
        ring

/-- **C238**, depth: for a depth in Mpc the third dimension is that depth. -/
theorem C238_depth (w : World K) (c : Cone K) (zs : List K) (z d : K) (mhz : Option K) (odd subtract : Bool) (fov : Option K) (verbose : Bool)
    (r : Result K) (h : volume w c zs z mhz (some d) odd subtract fov verbose = .ok r) : r.dims.2.2 = d := by
  unfold volume limits at h
  dsimp only at h
  split at h
  · cases h
  · cases h
    show _ + _ - (_ - _) = _
    ring

theorem bounds_unique {w : World K} (hw : Cosmology w) {z : K} (hz : -1 < z) {d : Depth K} (hd : Sound w z d) {a b a' b' : K}
    (h : Bounds w z d a b) (h' : Bounds w z d a' b') : a = a' ∧ b = b' := by
  cases d with
  | mpc d =>
    have inj : ∀ x y, w.cdist x = w.cdist y → x = y := by
      intro x y e
      rcases lt_trichotomy x y with h | h | h
      · exact absurd e (hw.mono _ _ h).ne
      · exact h
      · exact absurd e (hw.mono _ _ h).ne'
    exact ⟨inj _ _ (h.1.trans h'.1.symm), inj _ _ (h.2.trans h'.2.symm)⟩
  | mhz f =>
    have hn := hw.pos
    have h1 : 0 < 1 + z := by linarith
    have hnu : 0 < w.nu0 / (1 + z) := by positivity
    obtain ⟨h2, h3⟩ := hd
    have key : ∀ x y g, 0 < g → w.nu0 / (1 + x) = g → w.nu0 / (1 + y) = g → x = y := by
      intro x y g hg hx hy
      have e1 : 1 + x ≠ 0 := by rintro e; rw [e, div_zero] at hx; exact hg.ne hx
      have e2 : 1 + y ≠ 0 := by rintro e; rw [e, div_zero] at hy; exact hg.ne hy
      rw [div_eq_iff e1] at hx
      rw [div_eq_iff e2] at hy
      have := mul_left_cancel₀ hg.ne' (hx.symm.trans hy)
      linarith
    exact ⟨key _ _ _ (by linarith) h.1 h'.1, key _ _ _ (by linarith) h.2 h'.2⟩

/-- **C238**, errors: the call raises if no depth is given; the quiet call with a depth returns exactly if the limits lie
between the least and the greatest redshift. -/
theorem C238_error (w : World K) (hw : Cosmology w) (c : Cone K) (zs : List K) (z : K) (hz : -1 < z) (odd subtract : Bool) (fov : Option K) :
    (∀ verbose, volume w c zs z none none odd subtract fov verbose = .error "TypeError") ∧
    ∀ d : Depth K, Sound w z d → ((∃ r, volume w c zs z d.args.1 d.args.2 odd subtract fov false = .ok r) ↔
      ∃ lo hi, Bounds w z d lo hi ∧ (∃ x ∈ zs, x ≤ lo) ∧ ∃ x ∈ zs, hi ≤ x) := by
  refine ⟨fun _ => rfl, fun d hd => ?_⟩
  obtain ⟨lo, hi, h1, h2, h3⟩ := limits_ok hw hz hd
  constructor
  · rintro ⟨r, h⟩
    refine ⟨lo, hi, h2, ?_⟩
    by_contra hc
    obtain ⟨e, he⟩ := subvolume_out_of_range zs lo hi odd false (by
      by_cases hl : ∃ x ∈ zs, x ≤ lo
      · right
        intro x hx
        by_contra hh
        exact hc ⟨hl, x, hx, not_lt.mp hh⟩
      · left
        intro x hx
        by_contra hh
        exact hl ⟨x, hx, not_lt.mp hh⟩)
    unfold volume at h
    rw [h1] at h
    dsimp only at h
    rw [he] at h
    cases h
  · rintro ⟨lo', hi', hb, hl, hh⟩
    obtain ⟨rfl, rfl⟩ := bounds_unique hw hz hd h2 hb
    obtain ⟨⟨p, q⟩, he⟩ := subvolume_ok zs lo hi odd hl hh
    unfold volume
    rw [h1]
    dsimp only
    rw [he]
    exact ⟨_, rfl⟩

/-- A toy cosmology in which the distance is a hundred times the redshift. -/
def toy : World ℚ := ⟨1420, 50, fun z => 100 * z, fun d => d / 100⟩

theorem toy_ok : Cosmology toy := ⟨by norm_num [toy], fun a b h => by simp only [toy]; linarith, fun x => by simp only [toy]; ring⟩

/-- The call returns and what it returns passes the test. -/
def passes (x : Except String (Result ℚ)) (t : Result ℚ → Bool) : Bool :=
  match x with
  | .ok r => t r
  | .error _ => false

theorem passes_ok {x : Except String (Result ℚ)} {t : Result ℚ → Bool} (h : passes x t = true) : ∃ r, x = .ok r ∧ t r = true := by
  cases x with
  | error e => cases h
  | ok r => exact ⟨r, rfl, h⟩

/-- **C238** fails for two depths: both can be given, although the documentation asks for exactly one, and the one in MHz
is then without effect. -/
theorem C238_false_both : (∀ (w : World K) (c : Cone K) (zs : List K) (z d : K) (mhz : Option K) (odd subtract : Bool) (fov : Option K) (verbose : Bool),
      volume w c zs z mhz (some d) odd subtract fov verbose = volume w c zs z none (some d) odd subtract fov verbose) ∧
    ∃ r, volume toy ⟨1, 1, 4, fun _ _ k => k⟩ [6, 7, 8, 9] 7 (some 10) (some 200) true true none true = .ok r :=
  ⟨fun _ _ _ _ _ _ _ _ _ _ => rfl, (passes_ok (t := fun _ => true) (by decide +kernel)).imp fun _ h => h.1⟩

/-- **C238** fails for redshifts in decreasing order: the limits are inside the lightcone and the sub-volume is empty. -/
theorem C238_false_order : ∃ r, volume toy ⟨1, 1, 4, fun _ _ k => k⟩ [9, 8, 7, 6] 7 none (some 200) true true none true = .ok r ∧
    Bounds toy 7 (.mpc 200) 6 8 ∧ r.cone.nz = 0 ∧ r.zs = [] := by
  obtain ⟨r, h, ht⟩ := passes_ok (x := volume toy ⟨1, 1, 4, fun _ _ k => k⟩ [9, 8, 7, 6] 7 none (some 200) true true none true)
    (t := fun r => decide (r.cone.nz = 0 ∧ r.zs = [])) (by decide +kernel)
  exact ⟨r, h, by norm_num [Bounds, toy], of_decide_eq_true ht⟩

/-- **C238** fails for the dimensions: they are those asked for, not those of the sub-volume.  Slices that are 100 Mpc deep
each: three of them, 300 Mpc, are returned for a depth of 200 Mpc and the third dimension is 200. -/
theorem C238_false_depth : ∃ r, volume toy ⟨1, 1, 4, fun _ _ k => k⟩ [6, 7, 8, 9] 7 none (some 200) true true none true = .ok r ∧
    (∀ k < 3, toy.cdist (6 + (k + 1 : ℕ)) - toy.cdist (6 + (k : ℕ)) = 100) ∧ r.cone.nz = 3 ∧ r.dims.2.2 = 200 ∧
    r.dims.2.2 ≠ r.cone.nz * 100 := by
  obtain ⟨r, h, ht⟩ := passes_ok (x := volume toy ⟨1, 1, 4, fun _ _ k => k⟩ [6, 7, 8, 9] 7 none (some 200) true true none true)
    (t := fun r => decide (r.cone.nz = 3 ∧ r.dims.2.2 = 200)) (by decide +kernel)
  obtain ⟨h1, h2⟩ := of_decide_eq_true ht
  exact ⟨r, h, fun k _ => by simp only [toy]; push_cast; ring, h1, h2, by rw [h1, h2]; norm_num⟩

example : Sound toy 7 (.mpc 200) ∧ Sound toy 7 (.mhz 10) ∧ ∃ r, volume toy ⟨2, 1, 4, fun i _ k => i + k⟩ [6, 7, 8, 9] 7 none (some 200) false true none true = .ok r ∧
    r.zs = [6, 7] ∧ r.cone.val 0 0 0 = -1 / 2 ∧ r.cone.val 1 0 1 = 1 / 2 ∧ r.dims = (50, 50, 200) := by
  obtain ⟨r, h, ht⟩ := passes_ok (x := volume toy ⟨2, 1, 4, fun i _ k => i + k⟩ [6, 7, 8, 9] 7 none (some 200) false true none true)
    (t := fun r => decide (r.zs = [6, 7] ∧ r.cone.val 0 0 0 = -1 / 2 ∧ r.cone.val 1 0 1 = 1 / 2 ∧ r.dims = (50, 50, 200))) (by decide +kernel)
  exact ⟨by norm_num [Sound], by norm_num [Sound, toy], r, h, of_decide_eq_true ht⟩

end Verif.Subvolume
