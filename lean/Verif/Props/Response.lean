import Verif.Model.Response
import Verif.Props.SubBoxes
import Verif.Props.SlideBoxes
import Mathlib.Data.Fintype.Basic
import Mathlib.Tactic.FinCases
import Mathlib.Tactic.FieldSimp
import Mathlib.Tactic.Ring
import Mathlib.Tactic.Linarith
/-!
# The response of the power spectrum to large-scale fluctuations (C218)
-/

namespace Verif.Response
open Verif.SubBoxes
open Verif.SlideBoxes (OnCells)

/-! ## Specification -/

/-- The cell `c` lies in sub-box `s`, if every axis is cut into `N` parts. -/
def InSub (shape : Fin 3 → ℕ) (N : ℕ) (s c : Fin 3 → ℕ) : Prop := ∀ d, s d * (shape d / N) ≤ c d ∧ c d < (s d + 1) * (shape d / N)

instance (shape : Fin 3 → ℕ) (N : ℕ) (s c : Fin 3 → ℕ) : Decidable (InSub shape N s c) := by unfold InSub; infer_instance

/-- The cube with zeros outside of sub-box `s`. -/
def part (cube : Cube) (N : ℕ) (s : Fin 3 → ℕ) : Cube := ⟨cube.shape, fun c => if InSub cube.shape N s c then cube.val c else 0⟩

/-- The mean over sub-box `s`. -/
def subMean (cube : Cube) (N : ℕ) (s : Fin 3 → ℕ) : ℚ :=
  (∑ c ∈ (cells cube.shape).filter (InSub cube.shape N s), cube.val c) / ((cells cube.shape).filter (InSub cube.shape N s)).card

/-- The mean over the cube. -/
def cubeMean (cube : Cube) : ℚ := (∑ c ∈ cells cube.shape, cube.val c) / (cells cube.shape).card

/-- The sub-boxes. -/
def subs (N : ℕ) : Finset (Fin 3 → ℕ) := Fintype.piFinset fun _ => Finset.range N

/-- The average over the sub-boxes. -/
noncomputable def average (N : ℕ) (f : (Fin 3 → ℕ) → ℚ) : ℚ := (∑ s ∈ subs N, f s) / (subs N).card

/-! ## Lemmas -/

theorem card_cells (shape : Fin 3 → ℕ) : (cells shape).card = shape 0 * shape 1 * shape 2 := by
  simp [cells, Fintype.card_piFinset, Fin.prod_univ_three]

theorem card_subs (N : ℕ) : (subs N).card = N ^ 3 := by
  simp [subs, Fintype.card_piFinset]

theorem mem_subs {N : ℕ} {s : Fin 3 → ℕ} : s ∈ subs N ↔ ∀ d, s d < N := by simp [subs]

theorem sum_subs (N : ℕ) (f : (Fin 3 → ℕ) → ℚ) :
    ∑ s ∈ subs N, f s = ∑ i ∈ Finset.range N, ∑ j ∈ Finset.range N, ∑ k ∈ Finset.range N, f ![i, j, k] := by
  rw [← Finset.sum_product', ← Finset.sum_product']
  refine Finset.sum_nbij' (fun s => ((s 0, s 1), s 2)) (fun p => ![p.1.1, p.1.2, p.2]) ?_ ?_ ?_ ?_ ?_
  · intro s hs
    have := mem_subs.1 hs
    simp [this]
  · rintro ⟨⟨i, j⟩, k⟩ h
    simp only [Finset.mem_product, Finset.mem_range] at h
    rw [mem_subs]
    intro d
    fin_cases d
    · exact h.1.1
    · exact h.1.2
    · exact h.2
  · intro s _
    funext d
    fin_cases d <;> rfl
  · rintro ⟨⟨i, j⟩, k⟩ _
    rfl
  · intro s _
    congr 1
    funext d
    fin_cases d <;> rfl

theorem inSub_iff {shape : Fin 3 → ℕ} {N i j k : ℕ} (hd : ∀ d, shape d % N = 0) {c : Fin 3 → ℕ} (hc : ∀ d, c d < shape d) :
    InSub shape N ![i, j, k] c ↔ c 0 / edge shape N 0 = i ∧ c 1 / edge shape N 1 = j ∧ c 2 / edge shape N 2 = k := by
  have hp : ∀ d, 0 < shape d / N := fun d => by
    have := Nat.div_mul_cancel (Nat.dvd_of_mod_eq_zero (hd d))
    rcases Nat.eq_zero_or_pos (shape d / N) with h | h
    · rw [h] at this
      have := hc d
      omega
    · exact h
  have key : ∀ (d : Fin 3) (n : ℕ), (n * (shape d / N) ≤ c d ∧ c d < (n + 1) * (shape d / N)) ↔ c d / edge shape N d = n := by
    intro d n
    unfold edge
    rw [Nat.div_eq_iff (hp d)]
    have := hp d
    constructor
    · rintro ⟨h1, h2⟩
      refine ⟨h1, ?_⟩
      rw [Nat.add_mul] at h2
      omega
    · rintro ⟨h1, h2⟩
      refine ⟨h1, ?_⟩
      rw [Nat.add_mul]
      omega
  unfold InSub
  rw [Fin.forall_fin_succ, Fin.forall_fin_succ, Fin.forall_fin_succ]
  simp only [Fin.forall_fin_zero, and_true]
  exact and_congr (key 0 i) (and_congr (key 1 j) (key 2 k))

theorem window_part {shape : Fin 3 → ℕ} {N i j k : ℕ} (hN : 0 < N) (hd : ∀ d, shape d % N = 0) (hi : i < N) (hj : j < N) (hk : k < N) {c : Fin 3 → ℕ}
    (hc : c ∈ cells shape) :
    window shape ![side shape N 0 / 2 + i * side shape N 0, side shape N 1 / 2 + j * side shape N 1, side shape N 2 / 2 + k * side shape N 2] (side shape N) c =
      if InSub shape N ![i, j, k] c then 1 else 0 := by
  have hc' := mem_cells.1 hc
  rw [window_eq hN hd hi hj hk hc']
  exact if_congr (inSub_iff hd hc').symm rfl rfl

theorem dMean_eq (cube : Cube) {N i j k : ℕ} (hN : 0 < N) (hd : ∀ d, cube.shape d % N = 0) (hi : i < N) (hj : j < N) (hk : k < N) :
    dMean cube N ![side cube.shape N 0 / 2 + i * side cube.shape N 0, side cube.shape N 1 / 2 + j * side cube.shape N 1,
      side cube.shape N 2 / 2 + k * side cube.shape N 2] = subMean cube N ![i, j, k] := by
  have hmem : ![side cube.shape N 0 / 2 + i * side cube.shape N 0, side cube.shape N 1 / 2 + j * side cube.shape N 1,
      side cube.shape N 2 / 2 + k * side cube.shape N 2] ∈ centres cube.shape N := by
    simp only [centres, List.mem_flatMap, List.mem_map, List.mem_range]
    exact ⟨i, hi, j, hj, k, hk, rfl⟩
  have hv := (C43_volume cube.shape N hN hd _ hmem).1
  unfold dMean subMean
  rw [← hv]
  congr 1
  · rw [Finset.sum_filter]
    refine Finset.sum_congr rfl fun c hc => ?_
    rw [window_part hN hd hi hj hk hc, mul_ite, mul_one, mul_zero]
  · rw [Finset.sum_congr rfl fun c hc => window_part hN hd hi hj hk hc, Finset.sum_boole]

theorem masked_eq {κ : Type*} {pk : Cube → κ → ℚ} (hp : OnCells pk) (cube : Cube) {N i j k : ℕ} (hN : 0 < N) (hd : ∀ d, cube.shape d % N = 0) (hi : i < N)
    (hj : j < N) (hk : k < N) :
    pk (masked cube N ![side cube.shape N 0 / 2 + i * side cube.shape N 0, side cube.shape N 1 / 2 + j * side cube.shape N 1,
      side cube.shape N 2 / 2 + k * side cube.shape N 2]) = pk (part cube N ![i, j, k]) := by
  refine hp _ _ _ fun c hc => ?_
  show cube.val c * window cube.shape _ _ c = _
  rw [window_part hN hd hi hj hk hc, mul_ite, mul_one, mul_zero]

theorem sum_eq {shape : Fin 3 → ℕ} {N : ℕ} (f : (Fin 3 → ℚ) → ℚ) (g : (Fin 3 → ℕ) → ℚ)
    (h : ∀ i j k, i < N → j < N → k < N → f ![side shape N 0 / 2 + i * side shape N 0, side shape N 1 / 2 + j * side shape N 1,
      side shape N 2 / 2 + k * side shape N 2] = g ![i, j, k]) :
    ((centres shape N).map f).sum / (N : ℚ) ^ 3 = average N g := by
  unfold average
  rw [sum_centres, sum_subs, card_subs]
  push_cast
  congr 1
  refine Finset.sum_congr rfl fun i hi => Finset.sum_congr rfl fun j hj => Finset.sum_congr rfl fun k hk => ?_
  exact h i j k (Finset.mem_range.1 hi) (Finset.mem_range.1 hj) (Finset.mem_range.1 hk)

theorem cross_ok {κ : Type*} {pk : Cube → κ → ℚ} (hp : OnCells pk) (cube1 cube2 : Cube) (h12 : cube1.shape = cube2.shape) {N : ℕ} (hN : 0 < N)
    (hd : ∀ d, cube1.shape d % N = 0) (normalize : Bool) :
    integratedBispectrumCross pk cube1 cube2 N normalize = .ok (if normalize then
        fun q => (average N fun s => pk (part cube1 N s) q * subMean cube2 N s) / (average N fun s => pk (part cube1 N s) q) /
          (average N fun s => subMean cube2 N s ^ 2)
      else fun q => average N fun s => pk (part cube1 N s) q * subMean cube2 N s) := by
  have hd2 : ∀ d, cube2.shape d % N = 0 := fun d => h12 ▸ hd d
  unfold integratedBispectrumCross
  rw [if_neg (not_not.2 h12), if_neg hN.ne', if_neg (not_not.2 hd)]
  dsimp only
  have hm : ∀ i j k, i < N → j < N → k < N → dMean cube2 N ![side cube1.shape N 0 / 2 + (i : ℚ) * side cube1.shape N 0,
      side cube1.shape N 1 / 2 + (j : ℚ) * side cube1.shape N 1, side cube1.shape N 2 / 2 + (k : ℚ) * side cube1.shape N 2] = subMean cube2 N ![i, j, k] := by
    intro i j k hi hj hk
    rw [h12]
    exact dMean_eq cube2 hN hd2 hi hj hk
  have e1 : ∀ q, ((centres cube1.shape N).map fun r => pk (masked cube1 N r) q * dMean cube2 N r).sum / (N : ℚ) ^ 3 =
      average N fun s => pk (part cube1 N s) q * subMean cube2 N s := fun q =>
    sum_eq _ _ fun i j k hi hj hk => by rw [masked_eq hp cube1 hN hd hi hj hk, hm i j k hi hj hk]
  have e2 : ∀ q, ((centres cube1.shape N).map fun r => pk (masked cube1 N r) q).sum / (N : ℚ) ^ 3 = average N fun s => pk (part cube1 N s) q := fun q =>
    sum_eq _ _ fun i j k hi hj hk => by rw [masked_eq hp cube1 hN hd hi hj hk]
  have e3 : ((centres cube1.shape N).map fun r => dMean cube2 N r ^ 2).sum / (N : ℚ) ^ 3 = average N fun s => subMean cube2 N s ^ 2 :=
    sum_eq _ _ fun i j k hi hj hk => by rw [hm i j k hi hj hk]
  simp only [e1, e2, e3]

theorem average_subMean (cube : Cube) {N : ℕ} (hN : 0 < N) (hd : ∀ d, cube.shape d % N = 0) : average N (subMean cube N) = cubeMean cube := by
  have h := C43_mean cube N hN hd
  rw [sum_eq (dMean cube N) (subMean cube N) fun i j k hi hj hk => dMean_eq cube hN hd hi hj hk] at h
  rw [h, cubeMean, card_cells]
  push_cast
  rfl

theorem average_add (N : ℕ) (f g : (Fin 3 → ℕ) → ℚ) : (average N fun s => f s + g s) = average N f + average N g := by
  unfold average
  rw [Finset.sum_add_distrib, add_div]

theorem average_mul (N : ℕ) (a : ℚ) (f : (Fin 3 → ℕ) → ℚ) : (average N fun s => a * f s) = a * average N f := by
  unfold average
  rw [← Finset.mul_sum, mul_div_assoc]

theorem average_const {N : ℕ} (hN : 0 < N) (a : ℚ) : (average N fun _ => a) = a := by
  unfold average
  have : ((subs N).card : ℚ) ≠ 0 := by
    rw [card_subs]
    positivity
  rw [Finset.sum_const, nsmul_eq_mul]
  field_simp

theorem average_sq_ne {N : ℕ} {f : (Fin 3 → ℕ) → ℚ} {s : Fin 3 → ℕ} (hs : s ∈ subs N) (hf : f s ≠ 0) : (average N fun s => f s ^ 2) ≠ 0 := by
  have h : 0 < ∑ s ∈ subs N, f s ^ 2 := Finset.sum_pos' (fun i _ => sq_nonneg _) ⟨s, hs, by positivity⟩
  have hc : 0 < (subs N).card := Finset.card_pos.2 ⟨s, hs⟩
  unfold average
  have : (0 : ℚ) < (subs N).card := by exact_mod_cast hc
  positivity

theorem average_congr {N : ℕ} {f g : (Fin 3 → ℕ) → ℚ} (h : ∀ s ∈ subs N, f s = g s) : average N f = average N g := by
  unfold average
  rw [Finset.sum_congr rfl h]

theorem subMean_const {cube : Cube} {N : ℕ} (hN : 0 < N) (hd : ∀ d, cube.shape d % N = 0) (hpos : ∀ d, 0 < cube.shape d) {a : ℚ}
    (ha : ∀ c ∈ cells cube.shape, cube.val c = a) {s : Fin 3 → ℕ} (hs : s ∈ subs N) : subMean cube N s = a := by
  have hs' := mem_subs.1 hs
  have hne : ((cells cube.shape).filter (InSub cube.shape N s)).Nonempty := by
    refine ⟨fun d => s d * (cube.shape d / N), Finset.mem_filter.2 ⟨mem_cells.2 fun d => ?_, fun d => ?_⟩⟩ <;>
    · have e := Nat.div_mul_cancel (Nat.dvd_of_mod_eq_zero (hd d))
      have hp : 0 < cube.shape d / N := Nat.pos_of_ne_zero fun h => by
        rw [h] at e
        have := hpos d
        omega
      have := hs' d
      first
        | (calc s d * (cube.shape d / N) < N * (cube.shape d / N) := Nat.mul_lt_mul_of_pos_right this hp
            _ = cube.shape d := by rw [Nat.mul_comm, e])
        | (constructor
           · exact le_rfl
           · show s d * (cube.shape d / N) < (s d + 1) * (cube.shape d / N); rw [Nat.add_mul]; omega)
  have hc : (((cells cube.shape).filter (InSub cube.shape N s)).card : ℚ) ≠ 0 := by exact_mod_cast (Finset.card_pos.2 hne).ne'
  unfold subMean
  rw [Finset.sum_congr rfl fun c h => ha c (Finset.mem_filter.1 h).1, Finset.sum_const, nsmul_eq_mul]
  field_simp

/-! ## C218 -/

/-- The integrated bispectrum is the average, over the sub-boxes, of the power spectrum of the first cube in the sub-box times the mean of the second over it; the
response divides it by the average power spectrum and the mean square of the means.  Without a second cube the first is used. -/
theorem C218_average {κ : Type*} {pk : Cube → κ → ℚ} (hp : OnCells pk) (cube : Cube) {N : ℕ} (hN : 0 < N) (hd : ∀ d, cube.shape d % N = 0) :
    integratedBispectrum pk cube N false = .ok (fun q => average N fun s => pk (part cube N s) q * subMean cube N s) ∧
    powerSpectrumResponse pk cube none N = powerSpectrumResponse pk cube (some cube) N ∧
    powerSpectrumResponse pk cube none N = integratedBispectrum pk cube N true :=
  ⟨cross_ok hp cube cube rfl hN hd false, rfl, rfl⟩

/-- **C218** (partial).  If the second cube has mean zero and the power spectrum in every sub-box is `P (1 + R δ)`, where `δ` is the mean of the second cube over the sub-box, the response
is `R`.  Missing: cubes with another mean (`C218_false`). -/
theorem C218_partial {κ : Type*} {pk : Cube → κ → ℚ} (hp : OnCells pk) (cube1 cube2 : Cube) (h12 : cube1.shape = cube2.shape) {N : ℕ} (hN : 0 < N)
    (hd : ∀ d, cube1.shape d % N = 0) (hmean : cubeMean cube2 = 0) (P R : κ → ℚ) (hP : ∀ q, P q ≠ 0)
    (hR : ∀ s ∈ subs N, ∀ q, pk (part cube1 N s) q = P q * (1 + R q * subMean cube2 N s)) {s : Fin 3 → ℕ} (hs : s ∈ subs N) (hne : subMean cube2 N s ≠ 0) :
    powerSpectrumResponse pk cube1 (some cube2) N = .ok R := by
  have hd2 : ∀ d, cube2.shape d % N = 0 := fun d => h12 ▸ hd d
  have h0 := average_subMean cube2 hN hd2
  rw [hmean] at h0
  have hs2 := average_sq_ne hs hne
  show integratedBispectrumCross pk cube1 cube2 N true = _
  rw [cross_ok hp cube1 cube2 h12 hN hd true, if_pos rfl]
  congr 1
  funext q
  have hB : (average N fun s => pk (part cube1 N s) q * subMean cube2 N s) = P q * R q * average N fun s => subMean cube2 N s ^ 2 := by
    rw [average_congr (g := fun s => P q * subMean cube2 N s + P q * R q * subMean cube2 N s ^ 2) fun s hs => by rw [hR s hs q]; ring, average_add,
      average_mul, average_mul]
    show P q * average N (subMean cube2 N) + _ = _
    rw [h0]
    ring
  have hPk : (average N fun s => pk (part cube1 N s) q) = P q := by
    rw [average_congr (g := fun s => P q + P q * R q * subMean cube2 N s) fun s hs => by rw [hR s hs q]; ring, average_add, average_mul, average_const hN]
    show P q + P q * R q * average N (subMean cube2 N) = _
    rw [h0]
    ring
  rw [hB, hPk]
  have := hP q
  field_simp

/-- Sums of squares, in place of the power spectrum. -/
def energy (c : Cube) (_ : Unit) : ℚ := ∑ i ∈ cells c.shape, c.val i ^ 2

/-- A cube with `7/5` and `1/5`, whose squares are `1 + δ` with `δ = ±24/25`. -/
def field1 : Cube := ⟨fun _ => 2, fun c => if c 0 = 0 then 7 / 5 else 1 / 5⟩

/-- The large-scale fluctuations. -/
def field2 : Cube := ⟨fun _ => 2, fun c => if c 0 = 0 then 24 / 25 else -24 / 25⟩

example : OnCells energy ∧ field1.shape = field2.shape ∧ (∀ d, field1.shape d % 2 = 0) ∧ cubeMean field2 = 0 ∧
    (∀ s ∈ subs 2, energy (part field1 2 s) () = 1 * (1 + 1 * subMean field2 2 s)) ∧ (fun _ => 0) ∈ subs 2 ∧ subMean field2 2 (fun _ => 0) ≠ 0 := by
  refine ⟨fun s f g h => funext fun _ => Finset.sum_congr rfl fun c hc => ?_, rfl, by decide, by decide +kernel, by decide +kernel, by decide +kernel,
    by decide +kernel⟩
  show f c ^ 2 = g c ^ 2
  rw [h c hc]

/-- The response is one over a constant, if that is the second cube: it is not undefined, and there is nothing to respond to.  And where all sub-boxes have the same
power spectrum, the response is not zero unless the mean of the second cube is. -/
theorem C218_false {κ : Type*} {pk : Cube → κ → ℚ} (hp : OnCells pk) (cube1 cube2 : Cube) (h12 : cube1.shape = cube2.shape) {N : ℕ} (hN : 0 < N)
    (hd : ∀ d, cube1.shape d % N = 0) :
    (∀ a, a ≠ 0 → (∀ d, 0 < cube2.shape d) → (∀ c ∈ cells cube2.shape, cube2.val c = a) → (∀ q, (average N fun s => pk (part cube1 N s) q) ≠ 0) →
      powerSpectrumResponse pk cube1 (some cube2) N = .ok fun _ => 1 / a) ∧
    ∀ P : κ → ℚ, (∀ q, P q ≠ 0) → (∀ s ∈ subs N, ∀ q, pk (part cube1 N s) q = P q) →
      ∃ r, powerSpectrumResponse pk cube1 (some cube2) N = .ok r ∧ ∀ q, r q = 0 ↔ cubeMean cube2 = 0 := by
  have hd2 : ∀ d, cube2.shape d % N = 0 := fun d => h12 ▸ hd d
  constructor
  · intro a ha hpos hc hq
    show integratedBispectrumCross pk cube1 cube2 N true = _
    rw [cross_ok hp cube1 cube2 h12 hN hd true, if_pos rfl]
    congr 1
    funext q
    rw [average_congr (f := fun s => subMean cube2 N s ^ 2) (g := fun _ => a ^ 2) fun s hs => by rw [subMean_const hN hd2 hpos hc hs], average_const hN,
      average_congr (f := fun s => pk (part cube1 N s) q * subMean cube2 N s) (g := fun s => a * pk (part cube1 N s) q)
        fun s hs => by rw [subMean_const hN hd2 hpos hc hs]; ring, average_mul]
    have := hq q
    field_simp
  · intro P hP hc
    refine ⟨_, cross_ok hp cube1 cube2 h12 hN hd true, fun q => ?_⟩
    rw [if_pos rfl]
    have hm := average_subMean cube2 hN hd2
    rw [average_congr (f := fun s => pk (part cube1 N s) q * subMean cube2 N s) (g := fun s => P q * subMean cube2 N s)
        fun s hs => by rw [hc s hs q], average_mul,
      average_congr (f := fun s => pk (part cube1 N s) q) (g := fun _ => P q) fun s hs => hc s hs q, average_const hN]
    have hm' : (average N fun s => subMean cube2 N s) = cubeMean cube2 := hm
    rw [hm', mul_div_cancel_left₀ _ (hP q), div_eq_zero_iff]
    refine or_iff_left_of_imp fun h => ?_
    rw [← hm]
    have hall : ∀ s ∈ subs N, subMean cube2 N s = 0 := fun s hs => by
      by_contra hne
      exact average_sq_ne hs hne h
    rw [average_congr (g := fun _ => (0 : ℚ)) hall, average_const hN]

example : let cube2 : Cube := ⟨fun _ => 2, fun _ => 3⟩
    (∀ d, 0 < cube2.shape d) ∧ (∀ c ∈ cells cube2.shape, cube2.val c = 3) ∧ (∑ s ∈ subs 2, energy (part field1 2 s) ()) ≠ 0 := by
  decide +kernel

end Verif.Response
