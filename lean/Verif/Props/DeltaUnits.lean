import Verif.Props.LengthUnits
import Verif.Props.Multipoles
/-!
# C254: the dimensionless spectrum is free of units

`dimensionless_ps` returns `k³ P(k) / (2 π²)`: a number for a box in three dimensions, whatever the unit of length of
the box.
-/

namespace Verif.DeltaUnits
open Verif.Convolve Verif.PowerSpectrum Verif.CrossSpectrum Verif.Multipoles Verif.LengthUnits

/-! ## Specification -/

/-- The same wave numbers in a unit of length `l` times smaller, with values `f` times larger; or the same error. -/
def SameDelta (l f : ℝ) : Except Err (List (Option ℝ) × List ℝ) → Except Err (List (Option ℝ) × List ℝ) → Prop
  | .ok r, .ok r' => r'.1 = r.1.map (Option.map (f * ·)) ∧ r'.2 = r.2.map (· / l)
  | .error e, .error e' => e = e'
  | _, _ => False

/-- The same wave numbers with the same values. -/
def Free (l : ℝ) : Except Err (List (Option ℝ) × List ℝ) → Except Err (List (Option ℝ) × List ℝ) → Prop
  | .ok r, .ok r' => r'.1 = r.1 ∧ r'.2 = r.2.map (· / l)
  | .error e, .error e' => e = e'
  | _, _ => False

/-! ## Proofs -/

section
variable {l : ℝ}

theorem join_map (ys : List (Option ℝ)) (g : ℝ → ℝ) (j : ℕ) :
    ((ys.map (Option.map g))[j]?).join = ((ys[j]?).join).map g := by
  rw [List.getElem?_map]
  rcases ys[j]? with _ | _ | y <;> rfl

theorem last_map (ys : List (Option ℝ)) (g : ℝ → ℝ) :
    ((ys.map (Option.map g)).getLast?).join = ((ys.getLast?).join).map g := by
  rw [List.getLast?_map]
  rcases ys.getLast? with _ | _ | y <;> rfl

theorem interp_finer (hl : 0 < l) (f : ℝ) (ks : List ℝ) (ys : List (Option ℝ)) (x : ℝ) :
    interp (ks.map (· / l)) (ys.map (Option.map (f * ·))) (x / l) = (interp ks ys x).map (f * ·) := by
  unfold interp
  rw [List.length_map]
  have e : (fun j : ℕ => (ks.map (· / l)).getD j 0 ≤ x / l ∧ x / l < (ks.map (· / l)).getD (j + 1) 0) =
      fun j : ℕ => ks.getD j 0 ≤ x ∧ x < ks.getD (j + 1) 0 := by
    funext j
    rw [getD_div, getD_div, div_le_div_iff_of_pos_right hl, div_lt_div_iff_of_pos_right hl]
  have e' : ∀ j : ℕ, ((ks.map (· / l)).getD j 0 ≤ x / l ∧ x / l < (ks.map (· / l)).getD (j + 1) 0) =
      (ks.getD j 0 ≤ x ∧ x < ks.getD (j + 1) 0) := fun j => congrFun e j
  simp only [e']
  rcases List.find? _ _ with _ | j
  · exact last_map ys _
  · simp only [getD_div, div_left_inj' hl.ne', join_map]
    by_cases h : ks.getD j 0 = x
    · simp only [if_pos h]
    · simp only [if_neg h]
      rcases (ys[j]?).join with _ | y0 <;> rcases (ys[j + 1]?).join with _ | y1
      · rfl
      · rfl
      · rfl
      · simp only [Option.map_some]
        congr 1
        rw [← sub_div, ← sub_div]
        by_cases h0 : ks.getD (j + 1) 0 - ks.getD j 0 = 0
        · rw [h0]
          simp
        · have := hl.ne'
          field_simp

theorem dimensionless_finer (hl : 0 < l) (f : ℝ) {r r' : Radial} (h : Same l f (.ok r) (.ok r')) (n : ℕ) (bi : Binning)
    (hp : bi = .log → ∀ x ∈ r.bins, 0 < x) :
    SameDelta l (f / l ^ 3) (dimensionless r n bi) (dimensionless r' n bi) := by
  obtain ⟨h1, h2, -⟩ := h
  unfold dimensionless
  have hlen : r'.bins.length = r.bins.length := by rw [h2, List.length_map]
  have hy : ((List.range r'.bins.length).map fun (b : ℕ) =>
      ((r'.data[b]?).join).map fun P => P * r'.bins.getD b 0 ^ 3 / 2 / Real.pi ^ 2) =
      ((List.range r.bins.length).map fun (b : ℕ) =>
      ((r.data[b]?).join).map fun P => P * r.bins.getD b 0 ^ 3 / 2 / Real.pi ^ 2).map (Option.map (f / l ^ 3 * ·)) := by
    rw [hlen, List.map_map]
    refine List.map_congr_left fun b _ => ?_
    simp only [Function.comp]
    rw [h1, join_map, h2, getD_div]
    rcases (r.data[b]?).join with _ | P
    · rfl
    · simp only [Option.map_some]
      congr 1
      ring
  simp only [hy]
  rw [hlen]
  by_cases h0 : r.bins.length < 2
  · simp only [if_pos h0]
    rfl
  · simp only [if_neg h0]
    have hlo : r'.bins.getD 1 0 = r.bins.getD 1 0 / l := by rw [h2, getD_div]
    have hhi : r'.bins.getLast?.getD 0 = r.bins.getLast?.getD 0 / l := by
      rw [h2, List.getLast?_map]
      rcases r.bins.getLast? with _ | y
      · simp
      · rfl
    have hk : (if bi = .log then logspace (r'.bins.getD 1 0) (r'.bins.getLast?.getD 0) (n - 1)
        else linspace (r'.bins.getD 1 0) (r'.bins.getLast?.getD 0) (n - 1)) =
        (if bi = .log then logspace (r.bins.getD 1 0) (r.bins.getLast?.getD 0) (n - 1)
        else linspace (r.bins.getD 1 0) (r.bins.getLast?.getD 0) (n - 1)).map (· / l) := by
      rw [hlo, hhi]
      by_cases hb : bi = .log
      · rw [if_pos hb, if_pos hb]
        refine logspace_finer hl ?_ ?_ _
        · rw [List.getD_eq_getElem _ _ (by omega)]
          exact hp hb _ (List.getElem_mem _)
        · rw [List.getLast?_eq_getElem?, List.getElem?_eq_getElem (by omega)]
          exact hp hb _ (List.getElem_mem _)
      · rw [if_neg hb, if_neg hb]
        exact linspace_finer _ _ _
    rw [hk]
    refine ⟨?_, rfl⟩
    generalize ((List.range r.bins.length).map fun (b : ℕ) =>
      ((r.data[b]?).join).map fun P => P * r.bins.getD b 0 ^ 3 / 2 / Real.pi ^ 2) = ys
    simp only []
    rw [List.map_map, List.map_map]
    refine List.map_congr_left fun x _ => ?_
    simp only [Function.comp]
    rw [h2, interp_finer hl]

theorem centres_pos {e : List ℝ} (h : ∀ x ∈ e, 0 < x) : ∀ x ∈ centres e, 0 < x := by
  intro x hx
  unfold centres at hx
  obtain ⟨b, hb, rfl⟩ := List.mem_map.1 hx
  rw [List.mem_range] at hb
  have h1 : 0 < e.getD b 0 := by
    rw [List.getD_eq_getElem _ _ (by omega)]
    exact h _ (List.getElem_mem _)
  have h2 : 0 < e.getD (b + 1) 0 := by
    rw [List.getD_eq_getElem _ _ (by omega)]
    exact h _ (List.getElem_mem _)
  linarith

theorem logspace_pos (a b : ℝ) (n : ℕ) : ∀ x ∈ logspace a b n, 0 < x := by
  intro x hx
  obtain ⟨y, -, rfl⟩ := List.mem_map.1 hx
  positivity

theorem bins_pos {LB : ℝ} {d : ℕ} {a : Arr (Fin d) ℝ} {dims : Dims} {n : ℕ} {bp : ℝ} {r : Radial}
    (h : power1d LB a dims (.int n) .log bp = .ok r) : ∀ x ∈ r.bins, 0 < x := by
  unfold power1d at h
  split at h
  · cases h
  · unfold radialAverage getKbins at h
    split at h
    · cases h
    · split at h
      · cases h
      · rename_i he
        split at h
        · cases h
          simp only at he
          split at he
          · cases he
            exact centres_pos (logspace_pos _ _ _)
          · cases he
        · cases h

end

/-! ## Theorems -/

/-- What happens to the values in any number of dimensions, for linear and logarithmic bins. -/
theorem C254_factor {l : ℝ} (hl : 0 < l) (LB : ℝ) {d : ℕ} (a : Arr (Fin d) ℝ) (ha : Extended a.shape) (dims : Dims)
    (hd : Sides LB d dims) (n factor : ℕ) (bi : Binning) (hb : bi ≠ .other) :
    SameDelta l (l ^ d / l ^ 3) (dimensionlessPs LB a n dims bi factor)
      (dimensionlessPs (l * LB) a n (longer l dims) bi factor) := by
  have h := C247_partial hl LB a ha dims hd (.int (n * factor)) bi (1 / 10)
  have e : power1d (l * LB) a (longer l dims) (finer l (.int (n * factor))) bi (1 / 10 / l) =
      power1d (l * LB) a (longer l dims) (.int (n * factor)) bi (1 / 10) := by
    cases bi with
    | linear => rfl
    | log => rfl
    | other => exact absurd rfl hb
  rw [e] at h
  have hp : ∀ r, power1d LB a dims (.int (n * factor)) bi (1 / 10) = .ok r → bi = .log → ∀ x ∈ r.bins, 0 < x := by
    rintro r hr rfl
    exact bins_pos hr
  unfold dimensionlessPs
  revert h hp
  rcases power1d LB a dims (.int (n * factor)) bi (1 / 10) with e | r <;>
    rcases power1d (l * LB) a (longer l dims) (.int (n * factor)) bi (1 / 10) with e' | r' <;> intro h hp
  · exact h
  · exact h.elim
  · exact h.elim
  · exact dimensionless_finer hl _ h n bi (hp r rfl)

/-- C254 for boxes with three dimensions, with linear or logarithmic bins. -/
theorem C254_partial {l : ℝ} (hl : 0 < l) (LB : ℝ) (a : Arr (Fin 3) ℝ) (ha : Extended a.shape) (dims : Dims)
    (hd : Sides LB 3 dims) (n factor : ℕ) (bi : Binning) (hb : bi ≠ .other) :
    Free l (dimensionlessPs LB a n dims bi factor) (dimensionlessPs (l * LB) a n (longer l dims) bi factor) := by
  have h := C254_factor hl LB a ha dims hd n factor bi hb
  rw [div_self (pow_pos hl 3).ne'] at h
  revert h
  rcases dimensionlessPs LB a n dims bi factor with e | r <;>
    rcases dimensionlessPs (l * LB) a n (longer l dims) bi factor with e' | r' <;> intro h
  · exact h
  · exact h.elim
  · exact h.elim
  · refine ⟨?_, h.2⟩
    rw [h.1]
    have : (Option.map (fun x : ℝ => 1 * x)) = id := by
      funext o
      cases o <;> simp
    rw [this, List.map_id]

/-- A cube of 4×4×4 cells with sides of 100. -/
example : Extended (fun _ : Fin 3 => 4) ∧ Sides 1 3 (.number 100) ∧ Binning.log ≠ .other :=
  ⟨⟨fun _ => by norm_num, 0, by norm_num⟩, by norm_num [Sides], by decide⟩

/-! ### A map -/

/-- One bright cell of nine. -/
def spot : Arr (Fin 2) ℝ := ⟨fun _ => 3, fun x => if x = 0 then 1 else 0⟩

theorem fft_spot (k : Fin 2 → ℤ) : fftn spot.shape (fun x => (spot.val x : ℂ)) k = 1 := by
  unfold fftn
  rw [Finset.sum_eq_single (0 : Fin 2 → ℤ)]
  · simp [spot]
  · intro x _ hx
    simp [spot, hx]
  · intro h
    exact absurd ((mem_box _ _).2 fun j => by simp [spot]) h

theorem power_spot (i : Fin 2 → ℤ) : (powerNd [1, 1] spot).val i = 1 / 81 := by
  simp only [powerNd, shift, fft_spot, scale]
  simp [spot]
  norm_num

theorem kComp_spot (j : Fin 2) (i : Fin 2 → ℤ) :
    kComp spot.shape [1, 1] j i = 2 * Real.pi * ((i j : ℝ) - 1) := by
  unfold kComp
  have h : ([1, 1] : List ℝ).getD j 0 = 1 := by fin_cases j <;> rfl
  rw [h, div_one]
  norm_num [center, spot]

theorem kMag_corner : kMag spot.shape [1, 1] 0 = 2 * Real.pi * Real.sqrt 2 := by
  have hpi := Real.pi_pos
  unfold kMag
  rw [if_neg (by norm_num)]
  simp only [kComp_spot, Fin.sum_univ_two]
  rw [Real.sqrt_eq_iff_mul_self_eq (by positivity) (by positivity)]
  have := Real.mul_self_sqrt (show (0 : ℝ) ≤ 2 by norm_num)
  simp only [Pi.zero_apply, Int.cast_zero]
  nlinarith

theorem kMag_le_corner (i : Fin 2 → ℤ) (hi : i ∈ box spot.shape) : kMag spot.shape [1, 1] i ≤ 2 * Real.pi * Real.sqrt 2 := by
  have hpi := Real.pi_pos
  rw [← kMag_corner]
  unfold kMag
  rw [if_neg (by norm_num), if_neg (by norm_num)]
  refine Real.sqrt_le_sqrt (Finset.sum_le_sum fun j _ => ?_)
  rw [kComp_spot, kComp_spot]
  have h := (mem_box _ _).1 hi j
  have h3 : (spot.shape j : ℤ) = 3 := rfl
  have : i j = 0 ∨ i j = 1 ∨ i j = 2 := by omega
  simp only [Pi.zero_apply, Int.cast_zero]
  rcases this with e | e | e <;> rw [e] <;> push_cast <;> nlinarith [sq_nonneg Real.pi]

theorem kMax_spot : kMax spot.shape [1, 1] = .ok (2 * Real.pi * Real.sqrt 2) := by
  have h0 : (0 : Fin 2 → ℤ) ∈ box spot.shape := (mem_box _ _).2 fun j => by simp [spot]
  have h : ((box spot.shape).image (kMag spot.shape [1, 1])).max = ((2 * Real.pi * Real.sqrt 2 : ℝ) : WithBot ℝ) := by
    refine le_antisymm (Finset.max_le fun x hx => ?_) (Finset.le_max ?_)
    · obtain ⟨i, hi, rfl⟩ := Finset.mem_image.1 hx
      exact WithBot.coe_le_coe.2 (kMag_le_corner i hi)
    · exact Finset.mem_image.2 ⟨0, h0, kMag_corner⟩
  unfold kMax
  rw [h]

/-- The power of the last bin. -/
theorem spot_value : ∃ r, dimensionlessPs 1 spot 2 (.number 1) .linear 1 = .ok r ∧ ∃ v, some v ∈ r.1 ∧ 0 < v := by
  classical
  have hpi := Real.pi_pos
  have h2 : (1 : ℝ) < Real.sqrt 2 := by
    rw [Real.lt_sqrt (by norm_num)]
    norm_num
  have hm : ([1, 1] : List ℝ).min?.getD 0 = 1 := by norm_num [List.min?_cons']
  have he : edges (2 * Real.pi / 1) (2 * Real.pi * Real.sqrt 2) 2 .linear (1 / 10) =
      [2 * Real.pi, Real.pi * (1 + Real.sqrt 2), 2 * Real.pi * Real.sqrt 2] := by
    simp only [edges, linspace, List.range_succ, List.range_zero, List.nil_append, List.cons_append, List.map_cons, List.map_nil]
    norm_num
    constructor <;> ring
  have hpw : ([2 * Real.pi, Real.pi * (1 + Real.sqrt 2), 2 * Real.pi * Real.sqrt 2] : List ℝ).Pairwise (· ≤ ·) := by
    simp only [List.pairwise_cons, List.mem_cons, List.not_mem_nil, or_false, forall_eq_or_imp, forall_eq]
    refine ⟨⟨?_, ?_⟩, ?_, ?_⟩ <;> first | nlinarith | simp
  generalize hE : ([2 * Real.pi, Real.pi * (1 + Real.sqrt 2), 2 * Real.pi * Real.sqrt 2] : List ℝ) = E at he hpw
  have hlen : E.length = 3 := by rw [← hE]; rfl
  have hr : power1d 1 spot (.number 1) (.int (2 * 1)) .linear (1 / 10) = .ok
      { data := (List.range 2).map (average spot.shape (kMag spot.shape [1, 1]) (powerNd [1, 1] spot).val E)
        bins := centres E
        modes := (List.range 2).map (nModes spot.shape (kMag spot.shape [1, 1]) E) } := by
    have hk : getKbins spot.shape [1, 1] (.int (2 * 1)) .linear (1 / 10) = .ok E := by
      unfold getKbins
      simp only [kMax_spot, hm, mul_one, he]
    have hd : getDims 1 2 (.number 1) = .ok [1, 1] := rfl
    have hK : getK 2 (.list [1, 1]) = .ok [1, 1] := by simp [getK, boxOf]
    have hs : (powerNd [1, 1] spot).shape = spot.shape := rfl
    unfold power1d
    rw [hd]
    simp only []
    unfold radialAverage
    rw [hK, hs]
    simp only []
    rw [hk]
    simp only []
    rw [if_pos hpw, hlen]
  have hv : ∃ P, average spot.shape (kMag spot.shape [1, 1]) (powerNd [1, 1] spot).val E 1 = some P ∧ 0 < P := by
    have hin : (0 : Fin 2 → ℤ) ∈ (box spot.shape).filter fun i => inBin E 1 (kMag spot.shape [1, 1] i) := by
      refine Finset.mem_filter.2 ⟨(mem_box _ _).2 fun j => by simp [spot], ?_⟩
      rw [kMag_corner, ← hE]
      unfold inBin
      simp only [List.getD_cons_succ, List.getD_cons_zero, List.length_cons, List.length_nil]
      exact ⟨by nlinarith, Or.inr (by simp)⟩
    have hn : 0 < nModes spot.shape (kMag spot.shape [1, 1]) E 1 := Finset.card_pos.2 ⟨0, hin⟩
    refine ⟨_, if_neg hn.ne', div_pos (Finset.sum_pos (fun i _ => ?_) ⟨0, hin⟩) (by exact_mod_cast hn)⟩
    rw [power_spot]
    norm_num
  obtain ⟨P, hP, hP0⟩ := hv
  have hc : centres E = [E.getD 0 0 + (E.getD 1 0 - E.getD 0 0) / 2, E.getD 1 0 + (E.getD 2 0 - E.getD 1 0) / 2] := by
    unfold centres
    rw [hlen]
    rfl
  have hpos : 0 < E.getD 1 0 + (E.getD 2 0 - E.getD 1 0) / 2 := by
    rw [← hE]
    simp only [List.getD_cons_succ, List.getD_cons_zero]
    nlinarith
  generalize E.getD 0 0 + (E.getD 1 0 - E.getD 0 0) / 2 = c at hc
  generalize E.getD 1 0 + (E.getD 2 0 - E.getD 1 0) / 2 = c' at hc hpos
  unfold dimensionlessPs
  rw [hr]
  simp only []
  unfold dimensionless
  rw [hc, if_neg (by simp)]
  refine ⟨_, rfl, P * c' ^ 3 / 2 / Real.pi ^ 2, ?_, by positivity⟩
  refine List.mem_map.2 ⟨c', ?_, ?_⟩
  · rw [if_neg (by decide)]
    simp [linspace, List.range_succ]
  · have hx : ¬ (c ≤ c' ∧ c' < c') := fun h => lt_irrefl _ h.2
    simp [interp, List.range_succ, hP]

/-- C254 fails for maps: `k³ P` carries the inverse of a length. -/
theorem C254_false : ¬ ∀ (l : ℝ), 0 < l → ∀ (LB : ℝ) (d : ℕ) (a : Arr (Fin d) ℝ), Extended a.shape → ∀ dims, Sides LB d dims →
    ∀ n factor : ℕ, Free l (dimensionlessPs LB a n dims .linear factor)
      (dimensionlessPs (l * LB) a n (longer l dims) .linear factor) := by
  intro h
  have hE : Extended spot.shape := ⟨fun _ => by norm_num [spot], 0, by norm_num [spot]⟩
  obtain ⟨r, hr, v, hv, hv0⟩ := spot_value
  have h1 := h 2 two_pos 1 2 spot hE (.number 1) one_pos 2 1
  have h2 := C254_factor two_pos 1 spot hE (.number 1) one_pos 2 1 .linear (by decide)
  rw [hr] at h1 h2
  revert h1 h2
  rcases dimensionlessPs (2 * 1) spot 2 (longer 2 (.number 1)) .linear 1 with e' | r' <;> intro h1 h2
  · exact h1
  · have h3 := h2.1.symm.trans h1.1
    obtain ⟨j, hj, ej⟩ := List.getElem_of_mem hv
    have h4 : (r.1.map (Option.map (fun x : ℝ => 2 ^ 2 / 2 ^ 3 * x)))[j]? = r.1[j]? := by rw [h3]
    rw [List.getElem?_map, List.getElem?_eq_getElem hj, ej] at h4
    simp only [Option.map_some, Option.some.injEq] at h4
    norm_num at h4
    linarith

/-! ### Mixed bins -/

/-- A cube of eight cells. -/
def cube : Arr (Fin 3) ℝ := ⟨fun _ => 2, fun _ => 0⟩

theorem kMag_cube : kMag cube.shape [1, 1, 1] 0 = 2 * Real.pi * Real.sqrt 3 := by
  have hpi := Real.pi_pos
  unfold kMag
  rw [if_neg (by norm_num)]
  change Real.sqrt (∑ j, kComp (fun _ => 2) [1, 1, 1] j 0 ^ 2) = _
  simp only [kComp_two, Fin.sum_univ_three]
  rw [Real.sqrt_eq_iff_mul_self_eq (by positivity) (by positivity)]
  have := Real.mul_self_sqrt (show (0 : ℝ) ≤ 3 by norm_num)
  simp only [Pi.zero_apply, Int.cast_zero]
  nlinarith

theorem kMag_le_cube (i : Fin 3 → ℤ) (hi : i ∈ box cube.shape) : kMag cube.shape [1, 1, 1] i ≤ 2 * Real.pi * Real.sqrt 3 := by
  have hpi := Real.pi_pos
  rw [← kMag_cube]
  unfold kMag
  rw [if_neg (by norm_num), if_neg (by norm_num)]
  refine Real.sqrt_le_sqrt (Finset.sum_le_sum fun j _ => ?_)
  change kComp (fun _ => 2) [1, 1, 1] j i ^ 2 ≤ kComp (fun _ => 2) [1, 1, 1] j 0 ^ 2
  rw [kComp_two, kComp_two]
  have h := (mem_box _ _).1 hi j
  have h3 : (cube.shape j : ℤ) = 2 := rfl
  have : i j = 0 ∨ i j = 1 := by omega
  simp only [Pi.zero_apply, Int.cast_zero]
  rcases this with e | e <;> rw [e] <;> push_cast <;> nlinarith [sq_nonneg Real.pi]

theorem kMax_cube : kMax cube.shape [1, 1, 1] = .ok (2 * Real.pi * Real.sqrt 3) := by
  have h0 : (0 : Fin 3 → ℤ) ∈ box cube.shape := (mem_box _ _).2 fun j => by simp [cube]
  have h : ((box cube.shape).image (kMag cube.shape [1, 1, 1])).max = ((2 * Real.pi * Real.sqrt 3 : ℝ) : WithBot ℝ) := by
    refine le_antisymm (Finset.max_le fun x hx => ?_) (Finset.le_max ?_)
    · obtain ⟨i, hi, rfl⟩ := Finset.mem_image.1 hx
      exact WithBot.coe_le_coe.2 (kMag_le_cube i hi)
    · exact Finset.mem_image.2 ⟨0, h0, kMag_cube⟩
  unfold kMax
  rw [h]

theorem linspace_two (a b : ℝ) : linspace a b 2 = [a, (a + b) / 2, b] := by
  simp only [linspace, List.range_succ, List.range_zero, List.nil_append, List.cons_append, List.map_cons, List.map_nil]
  norm_num
  constructor <;> ring

theorem logspace_two {a b : ℝ} (ha : 0 < a) (hb : 0 < b) : logspace a b 2 = [a, Real.sqrt (a * b), b] := by
  unfold logspace
  rw [linspace_two]
  simp only [List.map_cons, List.map_nil]
  rw [Real.rpow_logb (by norm_num) (by norm_num) ha, Real.rpow_logb (by norm_num) (by norm_num) hb,
    ← Real.logb_mul ha.ne' hb.ne', Real.sqrt_eq_rpow, div_eq_mul_one_div (Real.logb 10 (a * b)) 2, Real.rpow_mul (by norm_num),
    Real.rpow_logb (by norm_num) (by norm_num) (mul_pos ha hb)]

/-- The first wave number returned with two mixed bins. -/
theorem first_wave {LB : ℝ} {dims : Dims} {L : List ℝ} {e₀ e₁ e₂ : ℝ} (hd : getDims LB 3 dims = .ok L) (hL : L.length = 3)
    (hk : getKbins cube.shape L (.int (2 * 1)) .other (1 / 10) = .ok [e₀, e₁, e₂]) (h1 : e₀ ≤ e₁) (h2 : e₁ ≤ e₂) :
    ∃ r, dimensionlessPs LB cube 2 dims .other 1 = .ok r ∧ r.2[0]? = some (e₁ + (e₂ - e₁) / 2) := by
  have hK : getK 3 (.list L) = .ok L := by simp [getK, boxOf, hL]
  have hs : (powerNd L cube).shape = cube.shape := rfl
  have hpw : [e₀, e₁, e₂].Pairwise (· ≤ ·) := by
    simp only [List.pairwise_cons, List.mem_cons, List.not_mem_nil, or_false, forall_eq_or_imp, forall_eq]
    exact ⟨⟨h1, h1.trans h2⟩, h2, by simp, List.Pairwise.nil⟩
  have hc : centres [e₀, e₁, e₂] = [e₀ + (e₁ - e₀) / 2, e₁ + (e₂ - e₁) / 2] := rfl
  unfold dimensionlessPs power1d
  rw [hd]
  simp only []
  unfold radialAverage
  rw [hK, hs]
  simp only []
  rw [hk]
  simp only []
  rw [if_pos hpw, hc]
  simp only []
  unfold dimensionless
  rw [if_neg (by simp)]
  refine ⟨_, rfl, ?_⟩
  rw [if_neg (by decide)]
  simp [linspace, List.range_succ]

/-- C254 fails for the mixed bins of `binning='mixed'`: the wave number between the linear and the logarithmic ones is 0.1, in
whatever unit. -/
theorem C254_mixed_false : ¬ ∀ (l : ℝ), 0 < l → ∀ (LB : ℝ) (a : Arr (Fin 3) ℝ), Extended a.shape → ∀ dims, Sides LB 3 dims →
    ∀ n factor : ℕ, Free l (dimensionlessPs LB a n dims .other factor)
      (dimensionlessPs (l * LB) a n (longer l dims) .other factor) := by
  classical
  intro h
  have hpi := Real.pi_gt_three
  have hpi4 := Real.pi_lt_four
  have hr1 : (1 : ℝ) < Real.sqrt 3 := by
    rw [Real.lt_sqrt (by norm_num)]
    norm_num
  have hr2 : Real.sqrt 3 < 2 := by
    rw [Real.sqrt_lt' (by norm_num)]
    norm_num
  have hE : Extended cube.shape := ⟨fun _ => by norm_num [cube], 0, by norm_num [cube]⟩
  have hm : ([1, 1, 1] : List ℝ).min?.getD 0 = 1 := by norm_num [List.min?_cons']
  obtain ⟨a, ha⟩ : ∃ a, a = 2 * Real.pi := ⟨_, rfl⟩
  obtain ⟨b, hb⟩ : ∃ b, b = 2 * Real.pi * Real.sqrt 3 := ⟨_, rfl⟩
  have hab : a < b := by rw [ha, hb]; nlinarith
  have ha6 : 6 < a := by rw [ha]; linarith
  have hb16 : b < 16 := by rw [hb]; nlinarith
  have hs1 : a < Real.sqrt (a * b) := by
    rw [Real.lt_sqrt (by linarith)]
    nlinarith
  have hs2 : Real.sqrt (a * b) < b := by
    rw [Real.sqrt_lt' (by linarith)]
    nlinarith
  have hk1 : getKbins cube.shape [1, 1, 1] (.int (2 * 1)) .other (1 / 10) = .ok [a, Real.sqrt (a * b), b] := by
    unfold getKbins
    simp only [kMax_cube, hm, mul_one, div_one]
    rw [← hb, ← ha]
    unfold edges
    rw [linspace_two, logspace_two (by linarith) (by linarith)]
    rw [List.filter_eq_nil_iff.2, List.filter_eq_self.2, List.nil_append]
    · intro x hx
      simp only [List.mem_cons, List.not_mem_nil, or_false] at hx
      rcases hx with rfl | rfl | rfl <;> simp <;> linarith
    · intro x hx
      simp only [List.mem_cons, List.not_mem_nil, or_false] at hx
      rcases hx with rfl | rfl | rfl <;> simp <;> linarith
  have hk2 : getKbins cube.shape ([1, 1, 1].map ((1000 : ℝ) * ·)) (.int (2 * 1)) .other (1 / 10) =
      .ok [a / 1000, (a / 1000 + b / 1000) / 2, b / 1000] := by
    rcases kMax_longer (l := 1000) (by norm_num) cube.shape [1, 1, 1] with ⟨m, e1, e2, -⟩ | ⟨e1, -⟩
    · rw [kMax_cube] at e1
      cases e1
      unfold getKbins
      simp only [e2, min_longer (l := 1000) (by norm_num), hm, mul_one]
      rw [← hb, ← ha]
      have hlog : logspace (a / 1000) (b / 1000) 2 = (logspace a b 2).map (· / 1000) :=
        logspace_finer (by norm_num) (by linarith) (by linarith) 2
      unfold edges
      rw [linspace_two, hlog, logspace_two (by linarith) (by linarith)]
      rw [List.filter_eq_self.2, List.filter_eq_nil_iff.2, List.append_nil]
      · intro x hx
        simp only [List.map_cons, List.map_nil, List.mem_cons, List.not_mem_nil, or_false] at hx
        rcases hx with rfl | rfl | rfl <;> simp <;> linarith
      · intro x hx
        simp only [List.mem_cons, List.not_mem_nil, or_false] at hx
        rcases hx with rfl | rfl | rfl <;> simp <;> linarith
    · rw [kMax_cube] at e1
      cases e1
  obtain ⟨r, h1, w1⟩ := first_wave (LB := 1) (dims := .list [1, 1, 1]) rfl rfl hk1 hs1.le hs2.le
  obtain ⟨r', h2, w2⟩ := first_wave (LB := 1000 * 1) (dims := .list ([1, 1, 1].map ((1000 : ℝ) * ·))) rfl rfl hk2 (by linarith)
    (by linarith)
  have hF := h 1000 (by norm_num) 1 cube hE (.list [1, 1, 1]) ⟨rfl, by norm_num⟩ 2 1
  rw [h1] at hF
  change Free 1000 _ (dimensionlessPs (1000 * 1) cube 2 (.list ([1, 1, 1].map ((1000 : ℝ) * ·))) .other 1) at hF
  rw [h2] at hF
  have := hF.2
  rw [this, List.getElem?_map, w1] at w2
  simp only [Option.map_some, Option.some.injEq] at w2
  have hsq := Real.mul_self_sqrt (show 0 ≤ a * b by nlinarith)
  have e : Real.sqrt (a * b) = (a + b) / 2 := by linarith
  rw [e] at hsq
  nlinarith [sq_nonneg (a - b), mul_pos (sub_pos.2 hab) (sub_pos.2 hab)]

end Verif.DeltaUnits
