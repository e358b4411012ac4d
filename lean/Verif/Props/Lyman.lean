import Verif.Model.Lyman
import Verif.Lemmas.Convolve
import Mathlib.Analysis.Convex.SpecificFunctions.Basic
import Mathlib.Analysis.Convex.Jensen
import Mathlib.Data.List.GetD
import Mathlib.Tactic.Linarith
import Mathlib.Tactic.Ring
import Mathlib.Tactic.NormNum
import Mathlib.Tactic.Positivity
import Mathlib.Tactic.FieldSimp
/-!
# Optical depth of the Lyman-alpha line (C143, C144)

Specification: the Gunn-Peterson depth of a cell as a formula, and the effective depth of a stretch of cells of a periodic line as minus
the logarithm of the mean transmission.
-/

namespace Verif.Lyman
open Verif.Convolve

/-- Density of neutral hydrogen, in cells with overdensity `d`, and the depth it gives at redshift `z`. -/
noncomputable def gunnPeterson (C : Cosmo) (z f lamAngstrom k XH x d : ℝ) : ℝ :=
  1.344 / 10 ^ 7 * k * (f / 0.416) * (lamAngstrom / 1216) * (1 + z) ^ 3 / C.H z *
    (x * ((1 + d) * XH * C.omegaB * C.critical / (C.mp + C.me)))

/-- A wavelength in Angstrom, as a number or as a Quantity of any unit (metres per unit). -/
inductive Wave : Quant → ℝ → Prop where
  | plain (x : ℝ) : Wave (.plain x) x
  | unit (x u l : ℝ) (h : x * u = l / 10 ^ 10) : Wave (.unit x u) l

theorem wave_metres {q : Quant} {l : ℝ} (h : Wave q l) : metres q / (1.216 / 10 ^ 7) = l / 1216 := by
  cases h with
  | plain => unfold metres; ring
  | unit x u l h => simp only [metres]; rw [h]; ring

/-- **C144.** Every cell has the Gunn-Peterson depth of its neutral fraction and its overdensity. -/
theorem C144 (C : Cosmo) (z : ℝ) (xHI dn : Arr (Fin 3) ℝ) (f l : ℝ) (lam : Quant) (hl : Wave lam l) (k XH : ℝ) (hs : xHI.shape = dn.shape)
    (hd : ∃ x ∈ box dn.shape, dn.val x ≤ 1) :
    ∃ out, fgpa C z xHI dn f lam k XH = .ok out ∧ out.shape = xHI.shape ∧
      ∀ x, out.val x = gunnPeterson C z f l k XH (xHI.val x) (dn.val x) := by
  have h1 : box dn.shape ≠ ∅ := by
    obtain ⟨x, hx, _⟩ := hd
    exact Finset.ne_empty_of_mem hx
  have h2 : overdensity dn = dn := by
    unfold overdensity
    rw [if_neg]
    obtain ⟨x, hx, hx'⟩ := hd
    exact fun h => absurd (h x hx) (not_lt.2 hx')
  unfold fgpa
  rw [if_neg h1, if_neg (not_not.2 hs), h2]
  refine ⟨_, rfl, rfl, fun x => ?_⟩
  simp only [wave_metres hl]
  unfold gunnPeterson
  ring

example (C : Cosmo) := C144 C 3 ⟨![2, 2, 2], fun _ => 1 / 1000⟩ ⟨![2, 2, 2], fun x => x 0 - 1 / 2⟩ 1 1216 (.plain 1216) (.plain _) 1 0.76 rfl
  ⟨fun _ => 0, by simp [box, Fin.forall_fin_succ], by norm_num⟩

/-- **C144, densities**: an array all of whose values exceed one is taken as a density, of any unit. -/
theorem C144_density (C : Cosmo) (z : ℝ) (xHI dn : Arr (Fin 3) ℝ) (f l : ℝ) (lam : Quant) (hl : Wave lam l) (k XH : ℝ) (hs : xHI.shape = dn.shape)
    (hne : (box dn.shape).Nonempty) (hd : ∀ x ∈ box dn.shape, 1 < dn.val x) (m : ℝ) (hm : m * (box dn.shape).card = ∑ x ∈ box dn.shape, dn.val x) :
    ∃ out, fgpa C z xHI dn f lam k XH = .ok out ∧ out.shape = xHI.shape ∧
      ∀ x, out.val x = gunnPeterson C z f l k XH (xHI.val x) (dn.val x / m - 1) := by
  have h1 : box dn.shape ≠ ∅ := hne.ne_empty
  have hc : ((box dn.shape).card : ℝ) ≠ 0 := by exact_mod_cast hne.card_pos.ne'
  unfold fgpa overdensity
  rw [if_neg h1, if_neg (not_not.2 hs), if_pos hd]
  refine ⟨_, rfl, rfl, fun x => ?_⟩
  simp only [wave_metres hl]
  rw [← hm, mul_div_cancel_right₀ _ hc]
  unfold gunnPeterson
  ring

/-- **C144, errors**: empty arrays and different shapes are refused. -/
theorem C144_raises (C : Cosmo) (z : ℝ) (xHI dn : Arr (Fin 3) ℝ) (f : ℝ) (lam : Quant) (k XH : ℝ)
    (h : (∃ i, dn.shape i = 0) ∨ xHI.shape ≠ dn.shape) : fgpa C z xHI dn f lam k XH = .error "ValueError" := by
  unfold fgpa
  by_cases h1 : box dn.shape = ∅
  · rw [if_pos h1]
  · rw [if_neg h1, if_pos]
    refine h.resolve_left fun ⟨i, hi⟩ => h1 ?_
    refine Finset.eq_empty_of_forall_notMem fun x hx => ?_
    have := (mem_box _ _).1 hx i
    rw [hi] at this
    omega

/-! ### Windows of a periodic line -/

theorem window_sum (l : List ℝ) (i m : ℕ) (h : i + m ≤ l.length) (f : ℝ → ℝ) :
    (((l.drop i).take m).map f).sum = ∑ j ∈ Finset.range m, f (l.getD (i + j) 0) := by
  have : ((l.drop i).take m).map f = (List.range m).map fun j => f (l.getD (i + j) 0) := by
    apply List.ext_getElem
    · simp
      omega
    · intro j h1 h2
      simp only [List.length_map, List.length_range] at h2
      rw [List.getElem_map, List.getElem_map, List.getElem_take, List.getElem_drop, List.getElem_range, List.getD_eq_getElem _ _ (by omega)]
  rw [this]
  rfl

/-- Position `p` of the padded line. -/
theorem padded_get (n : ℕ) (t : ℕ → ℝ) (m : ℕ) (hm : 2 ≤ m) (hn : m ≤ 2 * n + 1) (p : ℕ) (hp : p < n + m) (hp' : p < 3 * n) :
    (padded ((List.range n).map t) m).getD p 0 = t ((p + n - m / 2) % n) := by
  have h0 : ¬ m / 2 = 0 := by omega
  have hh : m / 2 ≤ n := by omega
  unfold padded
  rw [if_neg h0, List.length_map, List.length_range]
  set A := ((List.range n).map t).drop (n - m / 2) with hA
  have lA : A.length = m / 2 := by rw [hA]; simp; omega
  set B := (List.range n).map t with hB
  have lB : B.length = n := by rw [hB]; simp
  set c := (if m % 2 = 0 then m / 2 else m / 2 + 1) with hc
  have hc1 : m ≤ m / 2 + c := by rw [hc]; split <;> omega
  by_cases h1 : p < m / 2
  · rw [List.append_assoc, List.getD_append _ _ _ _ (by omega), List.getD_eq_getElem _ _ (by omega)]
    simp only [hA, hB, List.getElem_drop, List.getElem_map, List.getElem_range]
    congr 1
    rw [Nat.mod_eq_of_lt (by omega)]
    omega
  · by_cases h2 : p < m / 2 + n
    · rw [List.append_assoc, List.getD_append_right _ _ _ _ (by omega), lA, List.getD_append _ _ _ _ (by omega),
        List.getD_eq_getElem _ _ (by omega)]
      simp only [hB, List.getElem_map, List.getElem_range]
      congr 1
      rw [show p + n - m / 2 = (p - m / 2) + n by omega, Nat.add_mod_right, Nat.mod_eq_of_lt (by omega)]
    · have l2 : (A ++ B).length = m / 2 + n := by rw [List.length_append, lA, lB]
      rw [List.getD_append_right _ _ _ _ (by omega), l2, List.getD_eq_getElem _ _ (by rw [List.length_take, lB]; omega)]
      simp only [hB, List.getElem_take, List.getElem_map, List.getElem_range]
      congr 1
      rw [show p + n - m / 2 = (p - (m / 2 + n)) + n + n by omega, Nat.add_mod_right, Nat.add_mod_right, Nat.mod_eq_of_lt (by omega)]

theorem padded_length (n : ℕ) (t : ℕ → ℝ) (m : ℕ) (hm : 1 ≤ m) (hn : m ≤ 2 * n + 1) :
    n + m ≤ (padded ((List.range n).map t) m).length + 1 := by
  unfold padded
  split <;> split <;> simp only [List.length_append, List.length_take, List.length_drop, List.length_map, List.length_range] <;> omega

theorem losLine_get (n : ℕ) (t : ℕ → ℝ) (m : ℕ) (hm : 1 ≤ m) (hn : m ≤ 2 * n + 1) (i : ℕ) (hi : i < n) :
    (losLine ((List.range n).map t) m).getD i 0 =
      -Real.log ((∑ j ∈ Finset.range m, Real.exp (-t ((i + j + n - m / 2) % n))) / m) := by
  have hl := padded_length n t m hm hn
  unfold losLine
  rw [List.getD_eq_getElem _ _ (by simp; omega)]
  simp only [List.getElem_map, List.getElem_range]
  rw [window_sum _ _ _ (by omega)]
  congr 3
  refine Finset.sum_congr rfl fun j hj => ?_
  rw [Finset.mem_range] at hj
  by_cases h1 : m = 1
  · subst h1
    have : j = 0 := by omega
    subst this
    unfold padded
    rw [if_pos (by norm_num), List.append_assoc, List.getD_append _ _ _ _ (by simp; omega), List.getD_eq_getElem _ _ (by simp; omega)]
    simp only [List.getElem_map, List.getElem_range]
    congr 3
    rw [show i + 0 + n - 1 / 2 = i + n by omega, Nat.add_mod_right, Nat.mod_eq_of_lt hi]
    rfl
  · rw [padded_get n t m (by omega) hn _ (by omega) (by omega)]

/-! ### The effective depth -/

/-- Effective depth of `m` cells around cell `x`, along axis 2 of a periodic box with `n` cells. -/
noncomputable def effective (tau : (Fin 3 → ℤ) → ℝ) (n m : ℕ) (x : Fin 3 → ℤ) : ℝ :=
  -Real.log ((∑ j ∈ Finset.range m, Real.exp (-tau fun i => if i = 2 then (x 2 - (m / 2 : ℕ) + j) % n else x i)) / m)

/-- The two spellings of the name that matter are any with these letters. -/
def Named (s : String) (l : List Char) : Prop := s.toList.map Char.toLower = l

/-- `los_len` is `m` cells. -/
def IsCells (C : Cosmo) (n0 : ℕ) (b : Option Quant) : Along → ℕ → Prop
  | .cells k, m => k = m
  | .length x u, m =>  -- in the unit of the box
    ∃ L, ((b = none ∧ u = 3.0856775814913674 * 10 ^ 22 ∧ L = 200 / C.h) ∨ (u ≠ 0 ∧ b = some (.unit L u))) ∧ |x * (n0 / L) - m| < 1 / 2

theorem round_of_near {x : ℝ} {m : ℕ} (h : |x - m| < 1 / 2) : Binning.roundEven x = m := by
  rw [abs_lt] at h
  unfold Binning.roundEven
  by_cases hx : (m : ℝ) ≤ x
  · have : ⌊x⌋ = (m : ℤ) := Int.floor_eq_iff.2 ⟨by exact_mod_cast hx, by push_cast; linarith⟩
    rw [this, if_pos (by push_cast; linarith)]
  · have : ⌊x⌋ = (m : ℤ) - 1 := Int.floor_eq_iff.2 ⟨by push_cast; linarith, by push_cast; linarith⟩
    rw [this, if_neg (by push_cast; linarith), if_pos (by push_cast; linarith)]
    ring

theorem losCells_of (C : Cosmo) {n0 : ℕ} {b : Option Quant} {a : Along} {m : ℕ} (h : IsCells C n0 b a m) : losCells C n0 a b = .ok m := by
  unfold losCells
  cases a with
  | cells k => rw [show k = m from h]
  | length x u =>
    obtain ⟨L, hb, hx⟩ := h
    have key : ∀ w : ℝ, w ≠ 0 → (trunc ((Binning.roundEven (x * (n0 / L)) : ℝ) * (w / w))).toNat = m := by
      intro w hw
      rw [div_self hw, mul_one, round_of_near hx]
      unfold trunc
      rw [if_pos (by push_cast; positivity)]
      push_cast
      rw [show ⌊((m : ℕ) : ℝ)⌋ = (m : ℤ) from Int.floor_natCast m]
      rfl
    rcases hb with ⟨rfl, hu, hL⟩ | ⟨hu, rfl⟩
    · simp only [Option.getD_none]
      rw [← hL, hu, key _ (by positivity)]
    · simp only [Option.getD_some]
      rw [key u hu]

/-- **C143 (part).** Along the last axis, for windows of up to twice the box, every cell has the effective depth of the window around it, with
the Gunn-Peterson depth of each cell. -/
theorem C143_partial (C : Cosmo) (z : ℝ) (xHI dn : Arr (Fin 3) ℝ) (los : Along) (b : Option Quant) (method : String) (hmeth : Named method "fgpa".toList)
    (XH : ℝ) (o : Opts) (l : ℝ) (hl : Wave o.lam l) (hs : xHI.shape = dn.shape) (hd : ∃ x ∈ box dn.shape, dn.val x ≤ 1)
    (m : ℕ) (hm : IsCells C (xHI.shape 0) b los m) (h1 : 1 ≤ m) (h2 : m ≤ 2 * xHI.shape 2 + 1) :
    ∃ out, tauLos C z xHI dn los b 2 method XH o = .ok out ∧ out.shape = xHI.shape ∧
      ∀ x ∈ box xHI.shape, out.val x =
        effective (fun y => gunnPeterson C z o.f l o.kRes XH (xHI.val y) (dn.val y)) (xHI.shape 2) m x := by
  have e1 : box dn.shape ≠ ∅ := by
    obtain ⟨x, hx, _⟩ := hd
    exact Finset.ne_empty_of_mem hx
  have e2 : overdensity dn = dn := by
    unfold overdensity
    rw [if_neg]
    obtain ⟨x, hx, hx'⟩ := hd
    exact fun h => absurd (h x hx) (not_lt.2 hx')
  obtain ⟨tau, ht, hts, htv⟩ := C144 C z xHI dn o.f l o.lam hl o.kRes XH hs hd
  unfold tauLos
  simp only [ne_eq, not_true_eq_false, if_false]
  rw [losCells_of C hm]
  simp only []
  rw [if_neg e1, if_neg (by rw [hmeth]; decide), if_pos (show method.toList.map Char.toLower = _ from hmeth), e2, ht]
  simp only []
  rw [if_neg (by omega)]
  refine ⟨_, rfl, hts, fun x hx => ?_⟩
  have hx2 := (mem_box _ _).1 hx 2
  simp only []
  obtain ⟨i, hi⟩ : ∃ i : ℕ, x 2 = i := ⟨(x 2).toNat, by omega⟩
  have hin : i < xHI.shape 2 := by omega
  unfold sight
  rw [hts, hi, Int.toNat_natCast, losLine_get _ _ m h1 h2 i hin]
  unfold effective
  congr 3
  refine Finset.sum_congr rfl fun j hj => ?_
  rw [Finset.mem_range] at hj
  rw [htv]
  have : ((((i + j + xHI.shape 2 - m / 2) % xHI.shape 2 : ℕ)) : ℤ) = (x 2 - (m / 2 : ℕ) + j) % (xHI.shape 2 : ℤ) := by
    rw [hi, Int.natCast_mod, Nat.cast_sub (by omega)]
    push_cast
    rw [show (i : ℤ) + j + (xHI.shape 2 : ℤ) - (m / 2 : ℤ) = ((i : ℤ) - (m / 2 : ℤ) + j) + (xHI.shape 2 : ℤ) by ring, Int.add_emod_right]
  simp only [this]

/-! ### What the effective depth is -/

/-- The effective depth lies between the smallest and the largest depth of the window and is not more than the mean depth. -/
theorem C143_bounds (tau : (Fin 3 → ℤ) → ℝ) (n m : ℕ) (hm : 1 ≤ m) (x : Fin 3 → ℤ) (lo hi : ℝ)
    (hb : ∀ t : ℤ, lo ≤ tau (fun i => if i = 2 then t % n else x i) ∧ tau (fun i => if i = 2 then t % n else x i) ≤ hi) :
    lo ≤ effective tau n m x ∧ effective tau n m x ≤ hi ∧
    effective tau n m x ≤ (∑ j ∈ Finset.range m, tau fun i => if i = 2 then (x 2 - (m / 2 : ℕ) + j) % n else x i) / m := by
  have hm0 : (0 : ℝ) < m := by exact_mod_cast hm
  set T : ℕ → ℝ := fun j => tau fun i => if i = 2 then (x 2 - (m / 2 : ℕ) + j) % n else x i with hT
  have hTb : ∀ j, lo ≤ T j ∧ T j ≤ hi := fun j => hb _
  have e : effective tau n m x = -Real.log ((∑ j ∈ Finset.range m, Real.exp (-T j)) / m) := rfl
  have hpos : 0 < (∑ j ∈ Finset.range m, Real.exp (-T j)) / m :=
    div_pos (Finset.sum_pos (fun j _ => Real.exp_pos _) ⟨0, Finset.mem_range.2 hm⟩) hm0
  have jensen : Real.exp (-((∑ j ∈ Finset.range m, T j) / m)) ≤ (∑ j ∈ Finset.range m, Real.exp (-T j)) / m := by
    have := convexOn_exp.map_sum_le (t := Finset.range m) (w := fun _ => 1 / (m : ℝ)) (p := fun j => -T j)
      (fun _ _ => by positivity) (by simp [hm0.ne']) (fun _ _ => Set.mem_univ _)
    simp only [smul_eq_mul] at this
    rw [← Finset.mul_sum, ← Finset.mul_sum, Finset.sum_neg_distrib] at this
    calc Real.exp (-((∑ j ∈ Finset.range m, T j) / m)) = Real.exp (1 / m * -∑ j ∈ Finset.range m, T j) := by congr 1; ring
      _ ≤ 1 / m * ∑ j ∈ Finset.range m, Real.exp (-T j) := this
      _ = _ := by ring
  have hmean : effective tau n m x ≤ (∑ j ∈ Finset.range m, T j) / m := by
    rw [e, neg_le, Real.le_log_iff_exp_le hpos]
    exact jensen
  refine ⟨?_, hmean.trans ?_, hmean⟩
  · rw [e, le_neg, Real.log_le_iff_le_exp hpos, div_le_iff₀ hm0]
    calc ∑ j ∈ Finset.range m, Real.exp (-T j) ≤ ∑ _j ∈ Finset.range m, Real.exp (-lo) :=
          Finset.sum_le_sum fun j _ => Real.exp_le_exp.2 (neg_le_neg (hTb j).1)
      _ = _ := by rw [Finset.sum_const, Finset.card_range, nsmul_eq_mul, mul_comm]
  · rw [div_le_iff₀ hm0]
    calc ∑ j ∈ Finset.range m, T j ≤ ∑ _j ∈ Finset.range m, hi := Finset.sum_le_sum fun j _ => (hTb j).2
      _ = _ := by rw [Finset.sum_const, Finset.card_range, nsmul_eq_mul, mul_comm]

/-! ### Failures -/

/-- **C143, errors**: the documented second method and all other names raise, and so does a length without a box with a unit. -/
theorem C143_raises (C : Cosmo) (z : ℝ) (xHI dn : Arr (Fin 3) ℝ) (los : Along) (b : Option Quant) (ax : Fin 3) (method : String) (XH : ℝ) (o : Opts) :
    (Named method "smith2015".toList ∨ ¬ Named method "fgpa".toList → ∃ e, tauLos C z xHI dn los b ax method XH o = .error e) ∧
    (∀ x u B, los = .length x u → b = some (.plain B) → tauLos C z xHI dn los b ax method XH o = .error "TypeError") ∧
    (los = .cells 0 → ∃ e, tauLos C z xHI dn los b ax method XH o = .error e) := by
  refine ⟨fun h => ?_, fun x u B hl hb => ?_, fun h => ?_⟩
  · unfold tauLos
    simp only []
    split
    · exact ⟨_, rfl⟩
    · split
      · exact ⟨_, rfl⟩
      · by_cases h1 : method.toList.map Char.toLower = "smith2015".toList
        · rw [if_pos h1]
          exact ⟨_, rfl⟩
        · rw [if_neg h1, if_neg (show ¬ method.toList.map Char.toLower = _ from h.resolve_left h1)]
          exact ⟨_, rfl⟩
  · unfold tauLos losCells
    subst hl hb
    rfl
  · unfold tauLos losCells
    subst h
    simp only []
    split
    · exact ⟨_, rfl⟩
    · split
      · exact ⟨_, rfl⟩
      · split
        · split
          · exact ⟨_, rfl⟩
          · exact ⟨_, rfl⟩
        · exact ⟨_, rfl⟩

theorem losLine_long (n m : ℕ) (hn : 1 ≤ n) (hm : 2 * n + 2 ≤ m) (t : ℝ) :
    (losLine (List.replicate n t) m).getD (n - 1) 0 = t + Real.log (m / (2 * n + 1)) ∧
    t < (losLine (List.replicate n t) m).getD (n - 1) 0 := by
  have hp : padded (List.replicate n t) m = List.replicate (3 * n) t := by
    unfold padded
    rw [if_neg (by omega), List.length_replicate, show n - m / 2 = 0 by omega, List.drop_zero, List.take_replicate,
      show min (if m % 2 = 0 then m / 2 else m / 2 + 1) n = n by split <;> omega, List.replicate_append_replicate,
      List.replicate_append_replicate]
    congr 1
    omega
  have hm0 : (0 : ℝ) < m := by exact_mod_cast (by omega : 0 < m)
  have hq : (0 : ℝ) < 2 * n + 1 := by positivity
  have key : (losLine (List.replicate n t) m).getD (n - 1) 0 = t + Real.log (m / (2 * n + 1)) := by
    unfold losLine
    rw [List.getD_eq_getElem _ _ (by simp; omega)]
    simp only [List.getElem_map, List.getElem_range]
    rw [hp, List.drop_replicate, List.take_replicate, List.map_replicate, List.sum_replicate, nsmul_eq_mul,
      show min m (3 * n - (n - 1)) = 2 * n + 1 by omega]
    push_cast
    rw [Real.log_div (by positivity) hm0.ne', Real.log_mul hq.ne' (Real.exp_pos _).ne', Real.log_exp, Real.log_div hm0.ne' hq.ne']
    ring
  refine ⟨key, ?_⟩
  rw [key]
  have : 0 < Real.log (m / (2 * n + 1)) := by
    refine Real.log_pos ?_
    rw [lt_div_iff₀ hq, one_mul]
    exact_mod_cast (by omega : 2 * n + 1 < m)
  linarith

/-- **C143 is false for long windows**: uniform gas comes out deeper than it is in the last cell if the window is longer than twice the
box and one cell. -/
theorem C143_false_long (C : Cosmo) (z XH : ℝ) (o : Opts) (l : ℝ) (hl : Wave o.lam l) (n m : ℕ) (hn : 1 ≤ n) (hm : 2 * n + 2 ≤ m) (x d : ℝ)
    (hd : d ≤ 1) :
    ∃ out, tauLos C z ⟨fun _ => n, fun _ => x⟩ ⟨fun _ => n, fun _ => d⟩ (.cells m) none 2 "FGPA" XH o = .ok out ∧
      out.val ![0, 0, n - 1] = gunnPeterson C z o.f l o.kRes XH x d + Real.log (m / (2 * n + 1)) ∧
      gunnPeterson C z o.f l o.kRes XH x d < out.val ![0, 0, n - 1] := by
  have h0 : (fun _ => 0) ∈ box (fun _ : Fin 3 => n) := (mem_box _ _).2 fun _ => ⟨le_rfl, by exact_mod_cast hn⟩
  have e1 : box (fun _ : Fin 3 => n) ≠ ∅ := Finset.ne_empty_of_mem h0
  have e2 : overdensity ⟨fun _ => n, fun _ => d⟩ = ⟨fun _ => n, fun _ => d⟩ := by
    unfold overdensity
    rw [if_neg]
    exact fun h => absurd (h _ h0) (not_lt.2 hd)
  obtain ⟨tau, ht, hts, htv⟩ := C144 C z ⟨fun _ => n, fun _ => x⟩ ⟨fun _ => n, fun _ => d⟩ o.f l o.lam hl o.kRes XH rfl ⟨_, h0, hd⟩
  set g := gunnPeterson C z o.f l o.kRes XH x d with hg
  have hline : ∀ y, sight tau y = List.replicate n g := by
    intro y
    unfold sight
    rw [hts]
    simp only [htv]
    rw [List.map_const', List.length_range]
  have hi : ((![0, 0, (n : ℤ) - 1] : Fin 3 → ℤ) 2).toNat = n - 1 := by
    show ((n : ℤ) - 1).toNat = n - 1
    omega
  obtain ⟨k1, k2⟩ := losLine_long n m hn hm g
  unfold tauLos losCells
  simp only [ne_eq, not_true_eq_false, if_false]
  rw [if_neg e1, if_neg (by decide), if_pos (by decide), e2, ht]
  simp only []
  rw [if_neg (by omega)]
  refine ⟨_, rfl, ?_, ?_⟩
  · simp only []
    rw [hline, hi, k1]
  · simp only []
    rw [hline, hi]
    exact k2

/-- Neutral where the first coordinate is one. -/
noncomputable def wall : Arr (Fin 3) ℝ := ⟨fun _ => 2, fun x => if x 0 = 1 then 1 else 0⟩
/-- No density contrast. -/
noncomputable def flat : Arr (Fin 3) ℝ := ⟨fun _ => 2, fun _ => 0⟩

theorem box_two : (fun _ => 0) ∈ box (fun _ : Fin 3 => 2) := (mem_box _ _).2 fun _ => by norm_num

/-- **C143 is false along other axes**: the axes stay exchanged in the result. With windows of one cell the depth of each cell should
come back; for a wall of neutral cells and `los_axis=0` a neutral cell has depth zero and an ionised cell the depth of the wall. -/
theorem C143_false_axis (C : Cosmo) (z XH : ℝ) (o : Opts) (l : ℝ) (hl : Wave o.lam l) :
    ∃ out, tauLos C z wall flat (.cells 1) none 0 "FGPA" XH o = .ok out ∧
      out.val ![1, 0, 0] = 0 ∧ out.val ![0, 0, 1] = gunnPeterson C z o.f l o.kRes XH 1 0 := by
  have hs : swapped 0 wall = ⟨fun _ => 2, fun x => if x 2 = 1 then 1 else 0⟩ := rfl
  obtain ⟨out, ho, _, hv⟩ := C143_partial C z (swapped 0 wall) flat (.cells 1) none "FGPA" (by unfold Named; decide) XH o l hl rfl
    ⟨_, box_two, by show (0 : ℝ) ≤ 1; norm_num⟩ 1 rfl le_rfl (by show 1 ≤ 2 * 2 + 1; norm_num)
  have e : tauLos C z wall flat (.cells 1) none 0 "FGPA" XH o = tauLos C z (swapped 0 wall) flat (.cells 1) none 2 "FGPA" XH o := rfl
  refine ⟨out, e.trans ho, ?_, ?_⟩
  · rw [hv _ ((mem_box _ _).2 fun i => by rw [hs]; match i with | 0 | 1 | 2 => exact ⟨by decide, by decide⟩), hs]
    unfold effective gunnPeterson
    simp
  · rw [hv _ ((mem_box _ _).2 fun i => by rw [hs]; match i with | 0 | 1 | 2 => exact ⟨by decide, by decide⟩), hs]
    unfold effective
    simp [flat]

/-- **C143 is false for lengths in another unit than the box**: 30000 kpc in a box of 350 Mpc with 100 cells are 8.57 cells; the result is 8,
while 30 Mpc give 9. -/
theorem C143_false_unit (C : Cosmo) : losCells C 100 (.length 30000 (1 / 1000)) (some (.unit 350 1)) = .ok 8 ∧
    losCells C 100 (.length 30 1) (some (.unit 350 1)) = .ok 9 := by
  constructor
  · unfold losCells
    simp only [Option.getD_some]
    rw [round_of_near (m := 8571) (by rw [abs_lt]; constructor <;> norm_num)]
    unfold trunc
    rw [if_pos (by norm_num)]
    rw [show ⌊(((8571 : ℕ) : ℤ) : ℝ) * (1 / 1000 / 1)⌋ = 8 by rw [Int.floor_eq_iff]; constructor <;> norm_num]
    rfl
  · exact losCells_of C ⟨350, Or.inr ⟨one_ne_zero, rfl⟩, by rw [abs_lt]; constructor <;> norm_num⟩

/-! ### Examples -/

/-- The hypotheses of C143 and C144 hold for a wall and the default options, with a window of 3 of 2 cells. -/
example (C : Cosmo) : wall.shape = flat.shape ∧ (∃ x ∈ box flat.shape, flat.val x ≤ 1) ∧ Wave ({} : Opts).lam 1216 ∧
    Named "FGPA" "fgpa".toList ∧ IsCells C (wall.shape 0) none (.cells 3) 3 ∧ 3 ≤ 2 * wall.shape 2 + 1 :=
  ⟨rfl, ⟨_, box_two, by show (0 : ℝ) ≤ 1; norm_num⟩, .unit _ _ _ (by norm_num), by unfold Named; decide, rfl, by show 3 ≤ 2 * 2 + 1; norm_num⟩

/-- 30 Mpc in a box of 350 Mpc with 100 cells. -/
example (C : Cosmo) : IsCells C 100 (some (.unit 350 1)) (.length 30 1) 9 :=
  ⟨350, Or.inr ⟨one_ne_zero, rfl⟩, by rw [abs_lt]; constructor <;> norm_num⟩

/-- A density. -/
example : ∀ x ∈ box (fun _ : Fin 3 => 2), 1 < (fun _ => (5 : ℝ)) x := fun _ _ => by norm_num

/-- Depths between 1 and 3. -/
example : ∀ t : ℤ, (1 : ℝ) ≤ (fun x : Fin 3 → ℤ => if x 2 = 0 then 1 else 3) (fun i => if i = 2 then t % (4 : ℕ) else 0) ∧
    (fun x : Fin 3 → ℤ => if x 2 = 0 then (1 : ℝ) else 3) (fun i => if i = 2 then t % (4 : ℕ) else 0) ≤ 3 := by
  intro t
  simp
  split <;> norm_num

end Verif.Lyman
