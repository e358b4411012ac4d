import Verif.Model.SimReaders
import Verif.Props.NameRedshifts
import Verif.Lemmas.Binning
import Mathlib.Analysis.Complex.ExponentialBounds
import Mathlib.Tactic.FieldSimp
import Mathlib.Tactic.Ring
import Mathlib.Algebra.BigOperators.Field
import Mathlib.Algebra.BigOperators.Ring.Finset
import Mathlib.Data.List.GetD
/-!
# Specification and theorems for C195, C196 and C197: velocities in km/s, cubes of 21cmFAST and coeval 21-cm cubes
-/

namespace Verif.SimReaders

open Verif.NameRedshifts (Str)

/-! ## Specification -/

/-- The constants are positive. -/
structure Positive (c : Consts) : Prop where
  lb : 0 < c.lb
  nbox : 0 < c.nboxFine
  mpc : 0 < c.mpc
  omega0 : 0 < c.omega0
  h0 : 0 < c.h0

/-- The proper peculiar velocity, in km/s, of one fine cell per unit of time: the unit of time of the simulation is
`2/(3 sqrt(Omega0) H0)` times the square of the scale factor. -/
noncomputable def unitKms (c : Consts) (z : ℝ) : ℝ := 3 / 2 * Real.sqrt c.omega0 * c.h0 * (c.lb / c.nboxFine) * (1 + z)

/-- The raw densities of any form of the density. -/
def Dens.raw {ι : Type} : Dens ι → ι → ℝ
  | .file r => r
  | .object r => r
  | .array v => v

/-! ## C195 -/

theorem velconvert_eq (c : Consts) (h : Positive c) (z : ℝ) : velconvert c z = unitKms c z := by
  have h1 := h.lb
  have h2 := h.nbox
  have h3 := h.mpc
  have h4 := Real.sqrt_pos.2 h.omega0
  have h5 := h.h0
  unfold velconvert lscale tscale unitKms
  field_simp

theorem before_v (r t : Str) (h : ¬ ['v', '_'] <:+: r) : NameRedshifts.before ['v', '_'] (r ++ 'v' :: '_' :: t) = r := by
  induction r with
  | nil => simp [NameRedshifts.before]
  | cons c r ih =>
    rw [List.cons_append, NameRedshifts.before, if_neg, ih]
    · intro hi
      exact h (hi.trans (List.infix_cons List.infix_rfl))
    · intro hp
      apply h
      cases r with
      | nil => simp [List.isPrefixOf] at hp
      | cons d r =>
        simp only [List.cons_append, List.isPrefixOf, Bool.and_eq_true, beq_iff_eq] at hp
        obtain ⟨h1, h2, -⟩ := hp
        subst h1 h2
        exact ⟨[], r, by simp⟩

theorem velRedshift_eq (float : Str → Option ℝ) (dir r t : Str) (z : ℝ) (hz : float r = some z) (hr : ¬ ['v', '_'] <:+: r)
    (hs : '/' ∉ r ++ 'v' :: '_' :: t) : velRedshift float (dir ++ '/' :: (r ++ 'v' :: '_' :: t)) = z := by
  unfold velRedshift
  rw [NameRedshifts.afterLast_append _ _ _ hs, before_v r t hr, hz]

/-- A file `<z>v_....dat` of the momenta `v rho/8` of the velocities `v`, in fine cells per unit of time, gives the velocities
in km/s at the redshift `z`, from the densities in any of the three forms, where the density is not zero; where it is zero, the
result is not a number. -/
theorem C195_partial {ι : Type} (c : Consts) (hc : Positive c) (float : Str → Option ℝ) (dir r t : Str) (z : ℝ)
    (hz : float r = some z) (hr : ¬ "v_".toList <:+: r) (hs : '/' ∉ r ++ "v_".toList ++ t) (v : Fin 3 → ι → ℝ)
    (raw : Fin 3 → ι → ℝ) (d : Dens ι) (hraw : ∀ a x, raw a x = v a x * d.raw x / 8) (a : Fin 3) (x : ι) :
    getKms c float (dir ++ '/' :: (r ++ "v_".toList ++ t)) raw d a x =
      if d.raw x = 0 then none else some (v a x * unitKms c z) := by
  have hs' : '/' ∉ r ++ 'v' :: '_' :: t := by
    have e : r ++ "v_".toList ++ t = r ++ 'v' :: '_' :: t := by
      rw [List.append_assoc]; rfl
    rwa [e] at hs
  have e : dir ++ '/' :: (r ++ "v_".toList ++ t) = dir ++ '/' :: (r ++ 'v' :: '_' :: t) := by
    rw [List.append_assoc]; rfl
  have key : ∀ ρ : ι → ℝ, ρ = d.raw → (if ρ x = 0 then (none : Option ℝ) else some
      (kmsrho8 c float (dir ++ '/' :: (r ++ 'v' :: '_' :: t)) raw a x / (ρ x / 8))) =
      if d.raw x = 0 then none else some (v a x * unitKms c z) := by
    rintro ρ rfl
    by_cases h0 : d.raw x = 0
    · rw [if_pos h0, if_pos h0]
    · rw [if_neg h0, if_neg h0]
      unfold kmsrho8
      rw [velRedshift_eq float dir r t z hz hr hs', velconvert_eq c hc, hraw]
      congr 1
      field_simp
  rw [e]
  unfold getKms
  cases d with
  | file ρ => exact key _ rfl
  | object ρ => exact key _ rfl
  | array ρ => exact key _ rfl

/-- If the name of the file does not begin with a redshift, all velocities are zero, without an error. -/
theorem C195_false {ι : Type} (c : Consts) (float : Str → Option ℝ) (dir r t : Str) (hz : float r = none)
    (hr : ¬ "v_".toList <:+: r) (hs : '/' ∉ r ++ "v_".toList ++ t) (raw : Fin 3 → ι → ℝ) (d : Dens ι) (a : Fin 3) (x : ι)
    (hx : d.raw x ≠ 0) : getKms c float (dir ++ '/' :: (r ++ "v_".toList ++ t)) raw d a x = some 0 := by
  have e : r ++ "v_".toList ++ t = r ++ 'v' :: '_' :: t := by
    rw [List.append_assoc]; rfl
  have hv : velRedshift float (dir ++ '/' :: (r ++ "v_".toList ++ t)) = -1 := by
    unfold velRedshift
    rw [NameRedshifts.afterLast_append _ _ _ hs, e, before_v r t hr, hz]
  have hk : kmsrho8 c float (dir ++ '/' :: (r ++ "v_".toList ++ t)) raw a x = 0 := by
    unfold kmsrho8 velconvert
    rw [hv]; simp
  unfold getKms
  cases d <;> simp only [Dens.raw] at hx <;> simp only [hk, if_neg hx, zero_div]

/-- `read_c2ray_files` does not read velocities: it raises, whatever the files are.  Other kinds are read or refused. -/
theorem C195_false_reader {β : Type} (t : String) (df : Option String) (xi dens : β) :
    (t = "vel" → ∃ e, readC2ray t df xi dens = .error e) ∧ (t = "xfrac" → readC2ray t df xi dens = .ok xi) ∧
      (t = "dens" → readC2ray t df xi dens = .ok dens) ∧
      (t ∉ ["xfrac", "dens", "vel"] → readC2ray t df xi dens = .error .assertion) := by
  refine ⟨?_, ?_, ?_, ?_⟩
  · rintro rfl
    cases df
    · exact ⟨.assertion, rfl⟩
    · exact ⟨.attribute, rfl⟩
  · rintro rfl; rfl
  · rintro rfl; rfl
  · intro h
    simp only [List.mem_cons, List.not_mem_nil, or_false, not_or] at h
    unfold readC2ray
    rw [if_neg h.1, if_neg h.2.1, if_neg h.2.2]

/-! ## C196 -/

theorem cube_pow (d : ℕ) (hd0 : (0 : ℝ) < d) :
    ((d * d * d : ℕ) : ℝ) ^ (333333 / 1000000 : ℝ) = d * (d : ℝ) ^ (-(1 / 1000000) : ℝ) := by
  have h3 : ((d * d * d : ℕ) : ℝ) = (d : ℝ) ^ (3 : ℝ) := by
    have : ((3 : ℕ) : ℝ) = 3 := by norm_num
    rw [← this, Real.rpow_natCast]; push_cast; ring
  rw [h3, ← Real.rpow_mul hd0.le]
  have : (3 * (333333 / 1000000) : ℝ) = 1 + -(1 / 1000000) := by norm_num
  rw [this, Real.rpow_add hd0, Real.rpow_one]

theorem pow_near (d : ℕ) (h : d ≤ 45000) : |((d * d * d : ℕ) : ℝ) ^ (333333 / 1000000 : ℝ) - d| < 1 / 2 := by
  rcases Nat.eq_zero_or_pos d with rfl | hd
  · norm_num
  have hd0 : (0 : ℝ) < d := by exact_mod_cast hd
  have hd1 : (1 : ℝ) ≤ d := by exact_mod_cast hd
  have e := cube_pow d hd0
  have hlog : Real.log d ≤ 11 := by
    rw [Real.log_le_iff_le_exp hd0]
    have h1 : (2.7 : ℝ) ≤ Real.exp 1 := by have := Real.exp_one_gt_d9; linarith
    have h2 : Real.exp 11 = Real.exp 1 ^ 11 := by
      rw [← Real.exp_nat_mul]; norm_num
    have h3 : (2.7 : ℝ) ^ 11 ≤ Real.exp 1 ^ 11 := pow_le_pow_left₀ (by norm_num) h1 11
    have h4 : (45000 : ℝ) ≤ 2.7 ^ 11 := by norm_num
    have h5 : (d : ℝ) ≤ 45000 := by exact_mod_cast h
    rw [h2]; linarith
  have hlow : 1 - 11 / 1000000 ≤ (d : ℝ) ^ (-(1 / 1000000) : ℝ) := by
    rw [Real.rpow_def_of_pos hd0]
    have := Real.add_one_le_exp (Real.log d * -(1 / 1000000))
    linarith
  have hup : (d : ℝ) ^ (-(1 / 1000000) : ℝ) ≤ 1 := Real.rpow_le_one_of_one_le_of_nonpos hd1 (by norm_num)
  have h5 : (d : ℝ) ≤ 45000 := by exact_mod_cast h
  rw [e, abs_lt]
  constructor
  · nlinarith
  · nlinarith

theorem dim21_cube (d : ℕ) (h : d ≤ 45000) : dim21 (d * d * d) = d := by
  have h1 := abs_lt.1 (pow_near d h)
  have h2 := abs_le.1 (Verif.Binning.roundEven_near (((d * d * d : ℕ) : ℝ) ^ (333333 / 1000000 : ℝ)))
  unfold dim21
  generalize Verif.Binning.roundEven _ = r at h2 ⊢
  have h3 : (r : ℝ) < ((d + 1 : ℤ) : ℝ) := by push_cast; linarith [h1.2, h2.2]
  have h4 : ((d - 1 : ℤ) : ℝ) < r := by push_cast; linarith [h1.1, h2.1]
  have h5 := Int.cast_lt.1 h3
  have h6 := Int.cast_lt.1 h4
  omega

/-- A file of `d^3` numbers is read as the cube whose last index runs fastest, up to a length of 45000 of the axes. -/
theorem C196_partial (d : ℕ) (hd : d ≤ 45000) (x : ℕ → ℕ → ℕ → ℝ) (xs : List ℝ) (hl : xs.length = d ^ 3)
    (hx : ∀ i j k, i < d → j < d → k < d → xs[d ^ 2 * i + d * j + k]? = some (x i j k)) :
    ∃ c, read21 xs = .ok (d, c) ∧ ∀ i j k, i < d → j < d → k < d → c i j k = x i j k := by
  have hl' : xs.length = d * d * d := by rw [hl]; ring
  have hdim : (dim21 xs.length).toNat = d := by rw [hl', dim21_cube d hd]; rfl
  refine ⟨fun i j k => xs.getD ((i * d + j) * d + k) 0, ?_, fun i j k hi hj hk => ?_⟩
  · unfold read21
    simp only [hdim]
    rw [if_pos hl'.symm]
  · have e : (i * d + j) * d + k = d ^ 2 * i + d * j + k := by ring
    show xs.getD ((i * d + j) * d + k) 0 = _
    rw [e, List.getD_eq_getElem?_getD, hx i j k hi hj hk, Option.getD_some]

/-- A file whose number of values is not a cube is refused. -/
theorem C196_raises (xs : List ℝ) (h : ∀ d, xs.length ≠ d ^ 3) : read21 xs = .error .value := by
  unfold read21
  simp only
  rw [if_neg]
  intro he
  exact h _ (by rw [← he]; ring)

/-- So are cubes with axes of 100000 cells and more: the exponent is not a third. -/
theorem C196_false (d : ℕ) (hd : 100000 ≤ d) (xs : List ℝ) (hl : xs.length = d ^ 3) : read21 xs = .error .value := by
  have hl' : xs.length = d * d * d := by rw [hl]; ring
  have hd5 : (100000 : ℝ) ≤ d := by exact_mod_cast hd
  have hd0 : (0 : ℝ) < d := by linarith
  have hlog : 11 ≤ Real.log d := by
    rw [Real.le_log_iff_exp_le hd0]
    have h1 : Real.exp 1 ≤ 2.72 := by have := Real.exp_one_lt_d9; linarith
    have h2 : Real.exp 11 = Real.exp 1 ^ 11 := by
      rw [← Real.exp_nat_mul]; norm_num
    have h3 : Real.exp 1 ^ 11 ≤ (2.72 : ℝ) ^ 11 := pow_le_pow_left₀ (Real.exp_pos _).le h1 11
    have h4 : (2.72 : ℝ) ^ 11 ≤ 100000 := by norm_num
    rw [h2]; linarith
  have hup : (d : ℝ) ^ (-(1 / 1000000) : ℝ) * (1 + 11 / 1000000) ≤ 1 := by
    rw [Real.rpow_def_of_pos hd0]
    have h1 := Real.add_one_le_exp (Real.log d * (1 / 1000000))
    have h2 : Real.exp (Real.log d * -(1 / 1000000)) * Real.exp (Real.log d * (1 / 1000000)) = 1 := by
      rw [← Real.exp_add, ← Real.exp_zero]; congr 1; ring
    have h3 := Real.exp_pos (Real.log d * -(1 / 1000000))
    have h4 : 1 + 11 / 1000000 ≤ Real.exp (Real.log d * (1 / 1000000)) := by linarith
    calc _ ≤ Real.exp (Real.log d * -(1 / 1000000)) * Real.exp (Real.log d * (1 / 1000000)) :=
          mul_le_mul_of_nonneg_left h4 h3.le
      _ = 1 := h2
  have hx : ((d * d * d : ℕ) : ℝ) ^ (333333 / 1000000 : ℝ) < d - 1 / 2 := by
    rw [cube_pow d hd0]
    have : (d : ℝ) ^ (-(1 / 1000000) : ℝ) ≤ 1000000 / 1000011 := by
      rw [le_div_iff₀ (by norm_num)]; linarith
    calc (d : ℝ) * (d : ℝ) ^ (-(1 / 1000000) : ℝ) ≤ d * (1000000 / 1000011) := mul_le_mul_of_nonneg_left this hd0.le
      _ < d - 1 / 2 := by linarith
  have h2 := abs_le.1 (Verif.Binning.roundEven_near (((d * d * d : ℕ) : ℝ) ^ (333333 / 1000000 : ℝ)))
  have h3 : dim21 xs.length < d := by
    rw [hl']
    unfold dim21
    have : ((Verif.Binning.roundEven (((d * d * d : ℕ) : ℝ) ^ (333333 / 1000000 : ℝ)) : ℤ) : ℝ) < ((d : ℤ) : ℝ) := by
      rw [Int.cast_natCast]; linarith [h2.2]
    exact Int.cast_lt.1 this
  have h4 : (dim21 (d * d * d)).toNat < d := by rw [hl'] at h3; omega
  unfold read21
  simp only
  rw [if_neg]
  rw [hl']
  generalize (dim21 (d * d * d)).toNat = e at h4 ⊢
  intro he
  have h5 : e ^ 3 = d ^ 3 := by
    calc e ^ 3 = e * e * e := by ring
      _ = d * d * d := he
      _ = d ^ 3 := by ring
  exact absurd (Nat.pow_left_injective (by norm_num : 3 ≠ 0) h5) h4.ne

/-! ## C197 -/

variable {a b c : ℕ}

/-- The sum over all cells. -/
def total (x : Cell a b c → ℚ) : ℚ := ∑ p, x p

/-- The sum over a slice perpendicular to the last axis. -/
def sliceTotal (x : Cell a b c → ℚ) (k : Fin c) : ℚ := ∑ q : Fin a × Fin b, x (q.1, q.2, k)

theorem mean_eq (x : Cell a b c → ℚ) : mean x = total x / (a * b * c) := by
  unfold mean total
  simp only [Fintype.sum_prod_type]

theorem sliceMean_eq (x : Cell a b c → ℚ) (k : Fin c) : sliceMean x k = sliceTotal x k / (a * b) := by
  unfold sliceMean sliceTotal
  simp only [Fintype.sum_prod_type]

/-- `coeval_21cm` with `mean_subtract` gives the same cube but for a constant, and the sum of all cells is zero. -/
theorem C197_partial (dt : (Cell a b c → ℚ) → (Cell a b c → ℚ) → Cell a b c → ℚ) (xfrac dens : List (ℚ × (Cell a b c → ℚ)))
    (z : ℚ) (t : Cell a b c → ℚ) (h : coeval21 dt xfrac dens z false = .ok t) (ha : 0 < a) (hb : 0 < b) (hc : 0 < c) :
    ∃ r, coeval21 dt xfrac dens z true = .ok r ∧ total r = 0 ∧ ∀ p q, r p - r q = t p - t q := by
  have ha' : (a : ℚ) ≠ 0 := by exact_mod_cast ha.ne'
  have hb' : (b : ℚ) ≠ 0 := by exact_mod_cast hb.ne'
  have hc' : (c : ℚ) ≠ 0 := by exact_mod_cast hc.ne'
  unfold coeval21 at h ⊢
  cases hx : Coeval.coeval xfrac z with
  | error e => rw [hx] at h; exact absurd h (by simp)
  | ok x =>
    cases hd : Coeval.coeval dens z with
    | error e => rw [hx, hd] at h; exact absurd h (by simp)
    | ok d =>
      rw [hx, hd] at h
      simp only [Bool.false_eq_true, if_false, Except.ok.injEq] at h
      subst h
      refine ⟨fun p => dt x d p - mean (dt x d), by simp, ?_, fun p q => by ring⟩
      rw [mean_eq]
      unfold total
      rw [Finset.sum_sub_distrib, Finset.sum_const, Finset.card_univ]
      simp only [Fintype.card_prod, Fintype.card_fin, nsmul_eq_mul]
      push_cast
      field_simp
      ring

/-- `coeval_21cm_c2ray` with `mean_subtract` gives slices of the sum zero, that differ from those without by a constant. -/
theorem C197_slices (dt : (Cell a b c → ℚ) → (Cell a b c → ℚ) → Cell a b c → ℚ) (xfrac dens : List (ℚ × (Cell a b c → ℚ)))
    (z : ℚ) (t : Cell a b c → ℚ) (h : coeval21C2ray dt xfrac dens z false = .ok t) (ha : 0 < a) (hb : 0 < b) :
    ∃ r, coeval21C2ray dt xfrac dens z true = .ok r ∧ (∀ k, sliceTotal r k = 0) ∧
      ∀ i j i' j' k, r (i, j, k) - r (i', j', k) = t (i, j, k) - t (i', j', k) := by
  have ha' : (a : ℚ) ≠ 0 := by exact_mod_cast ha.ne'
  have hb' : (b : ℚ) ≠ 0 := by exact_mod_cast hb.ne'
  unfold coeval21C2ray at h ⊢
  cases hx : Coeval.coeval xfrac z with
  | error e => rw [hx] at h; exact absurd h (by simp)
  | ok x =>
    cases hd : Coeval.coevalDens dens z with
    | error e => rw [hx, hd] at h; exact absurd h (by simp)
    | ok d =>
      rw [hx, hd] at h
      simp only [Bool.false_eq_true, if_false, Except.ok.injEq] at h
      subst h
      refine ⟨fun p => dt x d p - sliceMean (dt x d) p.2.2, by simp, fun k => ?_, fun i j i' j' k => by ring⟩
      unfold sliceTotal
      simp only [sliceMean_eq]
      rw [Finset.sum_sub_distrib, Finset.sum_const, Finset.card_univ]
      simp only [Fintype.card_prod, Fintype.card_fin, nsmul_eq_mul, sliceTotal]
      push_cast
      field_simp
      ring

/-- `coeval_overdens` is the contrast of the density: its sum is zero, it is at least -1 where the density is not negative, and
`1 + contrast` is proportional to the density that `coeval_dens` returns. -/
theorem C197_contrast (dens : List (ℚ × (Cell a b c → ℚ))) (z : ℚ) (d : Cell a b c → ℚ) (h : Coeval.coeval dens z = .ok d)
    (ht : 0 < total d) (ha : 0 < a) (hb : 0 < b) (hc : 0 < c) :
    ∃ r, coevalOverdens dens z = .ok r ∧ total r = 0 ∧ (∀ p, 0 ≤ d p → -1 ≤ r p) ∧
      ∀ p q, (1 + r p) * d q = (1 + r q) * d p := by
  have ha' : (0 : ℚ) < a := by exact_mod_cast ha
  have hb' : (0 : ℚ) < b := by exact_mod_cast hb
  have hc' : (0 : ℚ) < c := by exact_mod_cast hc
  have hm : 0 < mean d := by rw [mean_eq]; positivity
  refine ⟨fun p => d p / mean d - 1, by unfold coevalOverdens; rw [h], ?_, fun p hp => ?_, fun p q => by ring⟩
  · have hd : ∑ p, d p = mean d * (a * b * c) := by
      rw [mean_eq]; unfold total; field_simp
    unfold total
    rw [Finset.sum_sub_distrib, ← Finset.sum_div, hd, Finset.sum_const, Finset.card_univ]
    simp only [Fintype.card_prod, Fintype.card_fin, nsmul_eq_mul]
    push_cast
    field_simp
    ring
  · have : 0 ≤ d p / mean d := div_nonneg hp hm.le
    show -1 ≤ d p / mean d - 1
    linarith

/-- The two functions do different things with `mean_subtract`: a signal that depends on the place along the last axis alone is
gone from the cube of `coeval_21cm_c2ray`, but not from that of `coeval_21cm`. -/
theorem C197_false : ∃ (dt : (Cell 1 1 2 → ℚ) → (Cell 1 1 2 → ℚ) → Cell 1 1 2 → ℚ) (xfrac dens : List (ℚ × (Cell 1 1 2 → ℚ)))
    (r s : Cell 1 1 2 → ℚ), coeval21 dt xfrac dens 7 true = .ok r ∧ coeval21C2ray dt xfrac dens 7 true = .ok s ∧
      r (0, 0, 1) - r (0, 0, 0) = 1 ∧ ∀ p, s p = 0 := by
  refine ⟨fun _ _ p => p.2.2.val, [(6, fun _ => 0), (8, fun _ => 0)], [(6, fun _ => 1), (8, fun _ => 1)], ?_⟩
  have e1 : ∀ v : ℚ, ∃ x, Coeval.coeval [((6 : ℚ), fun _ : Cell 1 1 2 => v), (8, fun _ => v)] 7 = .ok x := by
    intro v
    exact ⟨_, rfl⟩
  have e2 : ∃ x, Coeval.coevalDens [((6 : ℚ), fun _ : Cell 1 1 2 => (1 : ℚ)), (8, fun _ => 1)] 7 = .ok x := ⟨_, rfl⟩
  obtain ⟨x0, h0⟩ := e1 0
  obtain ⟨x1, h1⟩ := e1 1
  obtain ⟨x2, h2⟩ := e2
  refine ⟨_, _, by unfold coeval21; rw [h0, h1], by unfold coeval21C2ray; rw [h0, h2], ?_, ?_⟩
  · norm_num
  · rintro ⟨i, j, k⟩
    norm_num [sliceMean]

/-- A redshift of which there is a snapshot raises. -/
theorem C197_raises (dt : (Cell a b c → ℚ) → (Cell a b c → ℚ) → Cell a b c → ℚ) (xfrac dens : List (ℚ × (Cell a b c → ℚ)))
    (z : ℚ) (h : ∃ f ∈ xfrac, f.1 = z) (s : Bool) :
    coeval21 dt xfrac dens z s = .error .type ∧ coeval21C2ray dt xfrac dens z s = .error .type := by
  have : Coeval.coeval xfrac z = .error .type := by
    unfold Coeval.coeval
    simp only
    rw [if_pos]
    obtain ⟨f, hf, rfl⟩ := h
    exact List.mem_map_of_mem hf
  unfold coeval21 coeval21C2ray
  rw [this]
  exact ⟨rfl, rfl⟩

/-! ## Examples -/

/-- Constants near those of the box of 244 Mpc/h. -/
noncomputable def exConsts : Consts := ⟨350, 8000, 3, 1 / 4, 70⟩

theorem exPositive : Positive exConsts := ⟨by norm_num [exConsts], by norm_num [exConsts], by norm_num [exConsts],
  by norm_num [exConsts], by norm_num [exConsts]⟩

example : getKms exConsts (fun s => if s = ['8'] then some 8 else none) ("d".toList ++ '/' :: (['8'] ++ "v_".toList ++ "all.dat".toList))
    (fun _ (_ : Unit) => 2 * 4 / 8) (.array fun _ => 4) 0 () = some (2 * unitKms exConsts 8) := by
  rw [C195_partial exConsts exPositive _ _ _ _ 8 (by simp) (fun h => absurd h.length_le (by decide)) (by decide)
    (fun _ _ => 2) _ _ (fun _ _ => by norm_num [Dens.raw])]
  norm_num [Dens.raw]

example : getKms exConsts (fun s => if s = ['8'] then some 8 else none) ("d".toList ++ '/' :: ("z8".toList ++ "v_".toList ++ "all.dat".toList))
    (fun _ (_ : Unit) => 2 * 4 / 8) (.array fun _ => 4) 0 () = some 0 :=
  C195_false _ _ _ _ _ (by rw [if_neg (by decide)]) (fun h => by
    have : "v_".toList = "z8".toList := h.eq_of_length (by decide)
    exact absurd this (by decide)) (by decide) _ _ _ _ (by norm_num [Dens.raw])

example : ∃ c, read21 [1, 2, 3, 4, 5, 6, 7, 8] = .ok (2, c) ∧ ∀ i j k, i < 2 → j < 2 → k < 2 → c i j k = 4 * i + 2 * j + k + 1 := by
  refine C196_partial 2 (by norm_num) (fun i j k => 4 * i + 2 * j + k + 1) _ (by norm_num) ?_
  intro i j k hi hj hk
  have hi' : i = 0 ∨ i = 1 := by omega
  have hj' : j = 0 ∨ j = 1 := by omega
  have hk' : k = 0 ∨ k = 1 := by omega
  rcases hi' with rfl | rfl <;> rcases hj' with rfl | rfl <;> rcases hk' with rfl | rfl <;> norm_num

example : read21 [1, 2] = .error .value := by
  refine C196_raises _ fun d hd => ?_
  have h2 : d ^ 3 = 2 := hd.symm
  rcases Nat.lt_or_ge d 2 with h | h
  · have : d = 0 ∨ d = 1 := by omega
    rcases this with rfl | rfl <;> norm_num at h2
  · have := Nat.pow_le_pow_left h 3
    omega

example : ∃ xs : List ℝ, xs.length = 100000 ^ 3 := ⟨List.replicate (100000 ^ 3) 0, List.length_replicate⟩

/-- Two snapshots of a cube of two cells. -/
def exFiles : List (ℚ × (Cell 1 1 2 → ℚ)) := [(6, fun p => 1 + p.2.2.val), (8, fun p => 1 + p.2.2.val)]

example : ∃ t, coeval21 (fun x _ => x) exFiles exFiles 7 false = .ok t ∧ ∃ t, coeval21C2ray (fun x _ => x) exFiles exFiles 7 false = .ok t :=
  ⟨_, rfl, _, rfl⟩

example : ∃ d, Coeval.coeval exFiles 7 = .ok d ∧ 0 < total d := by
  refine ⟨_, rfl, ?_⟩
  rw [total, Fintype.sum_prod_type]
  simp only [Fintype.sum_prod_type, Finset.univ_unique, Finset.sum_singleton, Fin.sum_univ_two]
  decide +kernel

example : ∃ f ∈ exFiles, f.1 = 8 := ⟨_, List.mem_cons_of_mem _ (List.mem_singleton.2 rfl), rfl⟩

end Verif.SimReaders
