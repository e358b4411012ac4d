import Verif.Model.UVSmooth
import Verif.Lemmas.UVResponse
import Verif.Props.UVResponse
import Verif.Props.SmoothMaps
import Mathlib.Tactic.FieldSimp
import Mathlib.Tactic.NormNum
import Mathlib.Tactic.Positivity
import Mathlib.Tactic.Linarith
/-!
# C154: lightcones without noisy UV cells; C155: images seen with a UV map; C156: the same for cubes
-/

namespace Verif.UVSmooth
open Verif.Convolve Verif.PowerSpectrum Verif.RandomField Verif.Smoothing Complex
open Verif.UVResponse (slice mode mode_eq mode_zero modes_injective filtered vec2 mapM_ok' mapM_err)

/-! ## C154 -/

/-- Specification: the value of the UV box for the wave making `m j` periods along axis `j` of slice `k`. -/
def uvAt (s : Fin 3 → ℕ) (k : ℤ) (m : Fin 2 → ℤ) : UVBox → ℝ
  | .cube uv => uv.val ![m 0 % s 0, m 1 % s 1, k]
  | .plane uv => uv.val ![m 0 % s 0, m 1 % s 1]

/-- Specification: the amplitude of a wave in slice `k` of a lightcone. -/
noncomputable def amplitude (a : Arr (Fin 3) ℝ) (k : ℤ) (m : Fin 2 → ℤ) : ℂ :=
  mode ![a.shape 0, a.shape 1] (fun x => a.val ![x 0, x 1, k]) m

theorem cell_md (s : Fin 3 → ℕ) (k : ℤ) (m : Fin 2 → ℤ) (uv : UVBox) :
    cell k (md ![s 0, s 1] m) uv = uvAt s k m uv := by
  cases uv with
  | cube uv => rfl
  | plane uv => exact congrArg uv.val (vec2 _).symm

/-- The amplitudes of a filtered image. -/
theorem mode_filtered {ι : Type} [Fintype ι] [DecidableEq ι] (s : ι → ℕ) (hs : ∀ j, 0 < s j) (a g : (ι → ℤ) → ℝ) (m : ι → ℤ) :
    mode s (fun x => (ifftn s (fun i => (g i : ℂ) * fftn s (fun y => (a y : ℂ)) i) x).re) m =
      mode s a m * (((g (md s m) + g (md s (-m))) / 2 : ℝ) : ℂ) := by
  rw [mode_eq, mode_eq]
  exact filtered s hs a g m

/-- A smaller amplitude for every wave means a smaller sum of squares. -/
theorem squares_le {ι : Type} [Fintype ι] [DecidableEq ι] (s : ι → ℕ) (hs : ∀ j, 0 < s j) (a r : (ι → ℤ) → ℝ)
    (h : ∀ m, ‖mode s r m‖ ≤ ‖mode s a m‖) : ∑ x ∈ box s, r x ^ 2 ≤ ∑ x ∈ box s, a x ^ 2 := by
  have key : ∀ f : (ι → ℤ) → ℝ, ∑ m ∈ box s, ‖mode s f m‖ ^ 2 = (∏ i, (s i : ℝ)) * ∑ x ∈ box s, f x ^ 2 := by
    intro f
    have hp := parseval s hs (fun x => (f x : ℂ)) (fun x => (f x : ℂ))
    have e1 : ∀ m, fftn s (fun x => (f x : ℂ)) m * (starRingEnd ℂ) (fftn s (fun x => (f x : ℂ)) m) =
        ((‖mode s f m‖ ^ 2 : ℝ) : ℂ) := fun m => by
      rw [mul_conj, normSq_eq_norm_sq]
      rfl
    have e2 : ∀ x, (f x : ℂ) * (starRingEnd ℂ) (f x : ℂ) = ((f x ^ 2 : ℝ) : ℂ) := fun x => by
      rw [conj_ofReal]
      push_cast
      ring
    simp only [e1, e2] at hp
    exact_mod_cast hp
  have h1 := key r
  have h2 := key a
  have hpos : (0 : ℝ) < ∏ i, (s i : ℝ) := Finset.prod_pos fun i _ => by exact_mod_cast hs i
  have h3 : ∑ m ∈ box s, ‖mode s r m‖ ^ 2 ≤ ∑ m ∈ box s, ‖mode s a m‖ ^ 2 :=
    Finset.sum_le_sum fun m _ => pow_le_pow_left₀ (norm_nonneg _) (h m) 2
  rw [h1, h2] at h3
  exact le_of_mul_le_mul_left h3 hpos

theorem sum_box2 {R : Type} [AddCommMonoid R] (n n' : ℕ) (f : (Fin 2 → ℤ) → R) :
    ∑ i ∈ box ![n, n'], f i = ∑ x ∈ Finset.range n, ∑ y ∈ Finset.range n', f ![(x : ℤ), (y : ℤ)] := by
  rw [← Finset.sum_product']
  refine Finset.sum_nbij' (fun i => ((i 0).toNat, (i 1).toNat)) (fun q => ![(q.1 : ℤ), (q.2 : ℤ)]) ?_ ?_ ?_ ?_ ?_
  · intro i hi
    have h0 := (mem_box _ _).1 hi 0
    have h1 := (mem_box _ _).1 hi 1
    simp only [Matrix.cons_val_zero, Matrix.cons_val_one] at h0 h1
    exact Finset.mem_product.2 ⟨Finset.mem_range.2 (by omega), Finset.mem_range.2 (by omega)⟩
  · intro q hq
    obtain ⟨h1, h2⟩ := Finset.mem_product.1 hq
    have h1 := Finset.mem_range.1 h1
    have h2 := Finset.mem_range.1 h2
    refine (mem_box _ _).2 fun j => ?_
    match j with
    | 0 => exact ⟨Int.natCast_nonneg _, Int.ofNat_lt.2 h1⟩
    | 1 => exact ⟨Int.natCast_nonneg _, Int.ofNat_lt.2 h2⟩
  · intro i hi
    have h0 := (mem_box _ _).1 hi 0
    have h1 := (mem_box _ _).1 hi 1
    funext j
    match j with
    | 0 => exact Int.toNat_of_nonneg h0.1
    | 1 => exact Int.toNat_of_nonneg h1.1
  · intro q _
    rfl
  · intro i hi
    have h0 := (mem_box _ _).1 hi 0
    have h1 := (mem_box _ _).1 hi 1
    show f i = f ![((i 0).toNat : ℤ), ((i 1).toNat : ℤ)]
    rw [Int.toNat_of_nonneg h0.1, Int.toNat_of_nonneg h1.1, vec2]

/-- Specification: `r` is the lightcone `a` without the UV cells below `t`; of a wave with only one of its two cells below `t`
the half is left. -/
structure Denoised (a : Arr (Fin 3) ℝ) (uv : UVBox) (t : ℝ) (r : Arr (Fin 3) ℝ) : Prop where
  shape : r.shape = a.shape
  both : ∀ k m, t ≤ uvAt a.shape k m uv → t ≤ uvAt a.shape k (-m) uv → amplitude r k m = amplitude a k m
  neither : ∀ k m, uvAt a.shape k m uv < t → uvAt a.shape k (-m) uv < t → amplitude r k m = 0
  one : ∀ k m, ¬ (t ≤ uvAt a.shape k m uv ↔ t ≤ uvAt a.shape k (-m) uv) → amplitude r k m = amplitude a k m / 2

theorem pos2 (s : Fin 3 → ℕ) (h0 : 0 < s 0) (h1 : 0 < s 1) : ∀ j, 0 < (![s 0, s 1] : Fin 2 → ℕ) j := fun j => match j with
  | 0 => h0
  | 1 => h1

/-- The UV box has the shape of the lightcone, or of its slices. -/
def FitsBox (s : Fin 3 → ℕ) : UVBox → Prop
  | .cube uv => uv.shape = s
  | .plane uv => uv.shape = ![s 0, s 1]

theorem fits_iff (s : Fin 3 → ℕ) (uv : UVBox) : fits s uv ↔ FitsBox s uv := by cases uv <;> rfl

/-- **C154.** -/
theorem C154_partial (a : Arr (Fin 3) ℝ) (uv : UVBox) (t : ℝ) (ht : 0 ≤ t) (h0 : 0 < a.shape 0) (h1 : 0 < a.shape 1)
    (hf : FitsBox a.shape uv) : ∃ r, uvThreshold a uv (.float t) = .ok (.cone r) ∧ Denoised a uv t r := by
  classical
  have hval : uvThreshold a uv (.float t) = .ok (.cone ⟨a.shape, fun x => (ifftn ![a.shape 0, a.shape 1]
      (fun i => if cell (x 2) i uv < t then 0 else
        fftn ![a.shape 0, a.shape 1] (fun y => (a.val ![y 0, y 1, x 2] : ℂ)) i) ![x 0, x 1]).re⟩) := by
    unfold uvThreshold
    simp only []
    rw [if_neg (not_lt.2 ht), if_neg (by omega), if_pos ((fits_iff _ _).2 hf)]
  have e : ∀ k, (fun i => if cell k i uv < t then 0 else
      fftn ![a.shape 0, a.shape 1] (fun y => (a.val ![y 0, y 1, k] : ℂ)) i) = fun i =>
      (((if cell k i uv < t then 0 else 1 : ℝ)) : ℂ) *
        fftn ![a.shape 0, a.shape 1] (fun y => (a.val ![y 0, y 1, k] : ℂ)) i := by
    intro k
    funext i
    split_ifs <;> simp
  have key : ∀ k m, amplitude ⟨a.shape, fun x => (ifftn ![a.shape 0, a.shape 1]
      (fun i => if cell (x 2) i uv < t then 0 else
        fftn ![a.shape 0, a.shape 1] (fun y => (a.val ![y 0, y 1, x 2] : ℂ)) i) ![x 0, x 1]).re⟩ k m =
      amplitude a k m * ((((if uvAt a.shape k m uv < t then 0 else 1) +
        (if uvAt a.shape k (-m) uv < t then 0 else 1)) / 2 : ℝ) : ℂ) := by
    intro k m
    rw [← cell_md, ← cell_md]
    have := mode_filtered ![a.shape 0, a.shape 1] (pos2 _ h0 h1) (fun x => a.val ![x 0, x 1, k])
      (fun i => if cell k i uv < t then 0 else 1) m
    rw [← e k] at this
    refine Eq.trans ?_ this
    unfold amplitude
    refine congrArg (fun f => mode ![a.shape 0, a.shape 1] f m) (funext fun x => ?_)
    show (ifftn ![a.shape 0, a.shape 1] _ ![x 0, x 1]).re = _
    rw [vec2]
    rfl
  refine ⟨_, hval, rfl, fun k m hp hq => ?_, fun k m hp hq => ?_, fun k m h => ?_⟩
  · rw [key, if_neg (not_lt.2 hp), if_neg (not_lt.2 hq)]
    norm_num
  · rw [key, if_pos hp, if_pos hq]
    norm_num
  · rw [key]
    rcases lt_or_ge (uvAt a.shape k m uv) t with hp | hp <;> rcases lt_or_ge (uvAt a.shape k (-m) uv) t with hq | hq
    · exact absurd (iff_of_false (not_le.2 hp) (not_le.2 hq)) h
    · rw [if_pos hp, if_neg (not_lt.2 hq)]; norm_num; ring
    · rw [if_neg (not_lt.2 hp), if_pos hq]; norm_num; ring
    · exact absurd (iff_of_true hp hq) h

/-- **C154, mirrored boxes.** If opposite waves are on the same side of the threshold, all cells below are removed and all
others kept. -/
theorem C154_mirrored (a : Arr (Fin 3) ℝ) (uv : UVBox) (t : ℝ) (ht : 0 ≤ t) (h0 : 0 < a.shape 0) (h1 : 0 < a.shape 1)
    (hf : FitsBox a.shape uv) (hm : ∀ k m, t ≤ uvAt a.shape k m uv ↔ t ≤ uvAt a.shape k (-m) uv) :
    ∃ r, uvThreshold a uv (.float t) = .ok (.cone r) ∧ r.shape = a.shape ∧ ∀ k m,
      (t ≤ uvAt a.shape k m uv → amplitude r k m = amplitude a k m) ∧
      (uvAt a.shape k m uv < t → amplitude r k m = 0) := by
  obtain ⟨r, hr, h⟩ := C154_partial a uv t ht h0 h1 hf
  exact ⟨r, hr, h.shape, fun k m => ⟨fun hk => h.both k m hk ((hm k m).1 hk), fun hk => h.neither k m hk
    (not_le.1 fun h' => not_le.2 hk ((hm k m).2 h'))⟩⟩

/-- **C154, power.** The smoothed slices have no larger sum of squares. -/
theorem C154_power (a : Arr (Fin 3) ℝ) (uv : UVBox) (t : ℝ) (ht : 0 ≤ t) (h0 : 0 < a.shape 0) (h1 : 0 < a.shape 1)
    (hf : FitsBox a.shape uv) : ∃ r, uvThreshold a uv (.float t) = .ok (.cone r) ∧ ∀ k : ℤ,
      ∑ x ∈ Finset.range (a.shape 0), ∑ y ∈ Finset.range (a.shape 1), r.val ![x, y, k] ^ 2 ≤
        ∑ x ∈ Finset.range (a.shape 0), ∑ y ∈ Finset.range (a.shape 1), a.val ![x, y, k] ^ 2 := by
  obtain ⟨r, hr, h⟩ := C154_partial a uv t ht h0 h1 hf
  refine ⟨r, hr, fun k => ?_⟩
  have := squares_le ![a.shape 0, a.shape 1] (pos2 _ h0 h1) (fun x => a.val ![x 0, x 1, k])
    (fun x => r.val ![x 0, x 1, k]) (fun m => by
      have e : ∀ m, mode ![a.shape 0, a.shape 1] (fun x => r.val ![x 0, x 1, k]) m = amplitude r k m := fun m => by
        unfold amplitude
        rw [h.shape]
      rw [e]
      show _ ≤ ‖amplitude a k m‖
      by_cases hi : t ≤ uvAt a.shape k m uv ↔ t ≤ uvAt a.shape k (-m) uv
      · by_cases hp : t ≤ uvAt a.shape k m uv
        · rw [h.both k m hp (hi.1 hp)]
        · rw [h.neither k m (not_le.1 hp) (not_le.1 fun h' => hp (hi.2 h')), norm_zero]
          exact norm_nonneg _
      · rw [h.one k m hi, norm_div, norm_ofNat]
        linarith [norm_nonneg (amplitude a k m)])
  rw [sum_box2, sum_box2] at this
  exact this

/-- **C154, threshold zero.** Without negative UV cells nothing is changed. -/
theorem C154_zero (a : Arr (Fin 3) ℝ) (uv : UVBox) (h0 : 0 < a.shape 0) (h1 : 0 < a.shape 1)
    (hf : FitsBox a.shape uv) (hu : ∀ k m, 0 ≤ uvAt a.shape k m uv) :
    ∃ r, uvThreshold a uv (.float 0) = .ok (.cone r) ∧ r.shape = a.shape ∧ ∀ x y k : ℤ, 0 ≤ x → x < a.shape 0 → 0 ≤ y →
      y < a.shape 1 → r.val ![x, y, k] = a.val ![x, y, k] := by
  obtain ⟨r, hr, h⟩ := C154_partial a uv 0 le_rfl h0 h1 hf
  refine ⟨r, hr, h.shape, fun x y k hx hx' hy hy' => ?_⟩
  have := modes_injective ![a.shape 0, a.shape 1] (pos2 _ h0 h1) (fun x => (r.val ![x 0, x 1, k] : ℂ))
    (fun x => (a.val ![x 0, x 1, k] : ℂ)) (fun m => by
      have := h.both k m (hu k m) (hu k (-m))
      unfold amplitude at this
      rw [h.shape] at this
      exact this) (x := ![x, y]) (by
      rw [mem_box, Fin.forall_fin_two]
      exact ⟨⟨hx, hx'⟩, hy, hy'⟩)
  exact_mod_cast this

/-- **C154 is false for boxes without mirrored cells**: a wave whose cell is below the threshold, but not the opposite cell,
survives with half its amplitude, and so does the opposite wave. -/
theorem C154_false (a : Arr (Fin 3) ℝ) (uv : UVBox) (t : ℝ) (ht : 0 ≤ t) (h0 : 0 < a.shape 0) (h1 : 0 < a.shape 1)
    (hf : FitsBox a.shape uv) (k : ℤ) (m : Fin 2 → ℤ) (hp : uvAt a.shape k m uv < t) (hq : t ≤ uvAt a.shape k (-m) uv)
    (ha : amplitude a k m ≠ 0) : ∃ r, uvThreshold a uv (.float t) = .ok (.cone r) ∧ amplitude r k m ≠ 0 ∧
      ‖amplitude r k (-m)‖ = ‖amplitude a k (-m)‖ / 2 := by
  obtain ⟨r, hr, h⟩ := C154_partial a uv t ht h0 h1 hf
  refine ⟨r, hr, ?_, ?_⟩
  · rw [h.one k m fun h' => not_le.2 hp (h'.2 hq)]
    exact div_ne_zero ha two_ne_zero
  · rw [h.one k (-m) fun h' => not_le.2 hp (by rw [neg_neg] at h'; exact h'.1 hq), norm_div, norm_ofNat]

/-- **C154 is false for thresholds which are refused**: no error is raised, the caller receives an exception in the place of
the lightcone, whatever the other arguments are, even for the integer zero. -/
theorem C154_refused_false (a : Arr (Fin 3) ℝ) (uv : UVBox) :
    (∀ n, uvThreshold a uv (.int n) = .ok .exception) ∧ ∀ t < 0, uvThreshold a uv (.float t) = .ok .exception :=
  ⟨fun _ => rfl, fun t ht => by
    unfold uvThreshold
    simp only []
    rw [if_pos ht]⟩

/-- **C154, errors.** A UV box of another shape. -/
theorem C154_raises (a : Arr (Fin 3) ℝ) (uv : UVBox) (t : ℝ) (ht : 0 ≤ t) (h0 : 0 < a.shape 0) (h1 : 0 < a.shape 1)
    (hf : ¬ FitsBox a.shape uv) : uvThreshold a uv (.float t) = .error .index := by
  unfold uvThreshold
  simp only []
  rw [if_neg (not_lt.2 ht), if_neg (by omega), if_neg fun h => hf ((fits_iff _ _).1 h)]

/-- A lightcone of 3 × 1 cells and two slices with a point in each, and a box which has the wave `(1, 0)` but not
`(-1, 0)` above the threshold. -/
example : ∃ r, uvThreshold ⟨![3, 1, 2], fun x => if x 0 = 0 then 1 else 0⟩ (.plane ⟨![3, 1], fun i => if i 0 = 1 then 2 else 0⟩)
    (.float 1) = .ok (.cone r) ∧ amplitude r 0 ![-1, 0] ≠ 0 := by
  obtain ⟨r, hr, h, -⟩ := C154_false ⟨![3, 1, 2], fun x => if x 0 = 0 then 1 else 0⟩
    (.plane ⟨![3, 1], fun i => if i 0 = 1 then 2 else 0⟩) 1 zero_le_one (by decide) (by decide) rfl 0 ![-1, 0]
    (by norm_num [uvAt]) (by norm_num [uvAt]) (by
      have : amplitude ⟨![3, 1, 2], fun x => if x 0 = 0 then 1 else 0⟩ 0 ![-1, 0] = 1 := by
        unfold amplitude
        show mode ![3, 1] _ _ = 1
        rw [mode_eq]
        unfold fftn
        rw [sum_box2]
        simp [Finset.sum_range_succ]
      rw [this]
      exact one_ne_zero)
  exact ⟨r, hr, h⟩

/-- A mirrored box: the mean has many baselines, all other waves have one. -/
example (a : Arr (Fin 3) ℝ) (hs : a.shape = ![3, 3, 2]) : ∃ r,
    uvThreshold a (.plane ⟨![3, 3], fun i => if i = 0 then 5 else 1⟩) (.float 2) = .ok (.cone r) ∧
      amplitude r 1 ![0, 0] = amplitude a 1 ![0, 0] ∧ amplitude r 1 ![1, 0] = 0 := by
  have e : ∀ k m, uvAt a.shape k m (.plane ⟨![3, 3], fun i => if i = 0 then 5 else 1⟩) =
      if m 0 % 3 = 0 ∧ m 1 % 3 = 0 then 5 else 1 := by
    intro k m
    unfold uvAt
    rw [hs]
    simp [funext_iff, Fin.forall_fin_two]
  obtain ⟨r, h1, -, h3⟩ := C154_mirrored a (.plane ⟨![3, 3], fun i => if i = 0 then 5 else 1⟩) 2 (by norm_num)
    (by rw [hs]; decide) (by rw [hs]; decide) (by rw [hs]; rfl) (fun k m => by
      rw [e, e]
      have h : ((-m) 0 % 3 = 0 ∧ (-m) 1 % 3 = 0) ↔ (m 0 % 3 = 0 ∧ m 1 % 3 = 0) := by
        simp only [Pi.neg_apply]
        omega
      simp only [h])
  refine ⟨r, h1, (h3 1 ![0, 0]).1 ?_, (h3 1 ![1, 0]).2 ?_⟩
  · rw [e]; norm_num
  · rw [e]; norm_num

/-! ## C155 -/

/-- Specification: the cell of a UV map in which the wave `m` is. -/
def cellOf (s : Fin 2 → ℕ) (m : Fin 2 → ℤ) : Fin 2 → ℤ := ![m 0 % s 0, m 1 % s 1]

theorem md_cellOf (s : Fin 2 → ℕ) (m : Fin 2 → ℤ) : md s m = cellOf s m := (vec2 _).symm

/-- Specification: `M` is the largest value of a UV map. -/
def IsTop (uv : Arr (Fin 2) ℝ) (M : ℝ) : Prop :=
  (∀ i : Fin 2 → ℤ, (∀ j, 0 ≤ i j ∧ i j < uv.shape j) → uv.val i ≤ M) ∧
    ∃ i : Fin 2 → ℤ, (∀ j, 0 ≤ i j ∧ i j < uv.shape j) ∧ uv.val i = M

/-- Specification: `r` is the image `a` seen with the map `uv` whose largest value is `M`. -/
def SeenWith (uv : Arr (Fin 2) ℝ) (M : ℝ) (a r : Arr (Fin 2) ℝ) : Prop :=
  r.shape = a.shape ∧ ∀ m, mode a.shape r.val m = mode a.shape a.val m *
    (((uv.val (cellOf a.shape m) + uv.val (cellOf a.shape (-m))) / (2 * M) : ℝ) : ℂ)

theorem top_unique {uv : Arr (Fin 2) ℝ} {M : ℝ} (h : IsTop uv M) (hn : (box uv.shape).Nonempty) :
    (box uv.shape).sup' hn uv.val = M := by
  obtain ⟨i, hi, rfl⟩ := h.2
  exact le_antisymm (Finset.sup'_le _ _ fun j hj => h.1 j ((mem_box _ _).1 hj)) (Finset.le_sup' uv.val ((mem_box _ _).2 hi))

theorem exists_top (uv : Arr (Fin 2) ℝ) (h : ∀ j, 0 < uv.shape j) : ∃ M, IsTop uv M := by
  have hn : (box uv.shape).Nonempty := ⟨0, (mem_box _ _).2 fun j => ⟨le_rfl, Int.natCast_pos.2 (h j)⟩⟩
  obtain ⟨i, hi, he⟩ := Finset.exists_mem_eq_sup' hn uv.val
  exact ⟨_, fun j hj => Finset.le_sup' uv.val ((mem_box _ _).2 hj), i, (mem_box _ _).1 hi, he.symm⟩

theorem applyMap_ok (a uv : Arr (Fin 2) ℝ) (M : ℝ) (hM : IsTop uv M) (h0 : M ≠ 0) (hs : uv.shape = a.shape) :
    ∃ r, applyMap a uv = .ok r ∧ SeenWith uv M a r := by
  classical
  obtain ⟨i, hi, -⟩ := hM.2
  have hn : (box uv.shape).Nonempty := ⟨i, (mem_box _ _).2 hi⟩
  have hpos : ∀ j, 0 < a.shape j := fun j => by
    have := hi j
    rw [hs] at this
    omega
  have hval : applyMap a uv = .ok ⟨a.shape, fun x => (ifftn a.shape (fun i => ((uv.val i / M : ℝ) : ℂ) *
      fftn a.shape (fun y => (a.val y : ℂ)) i) x).re⟩ := by
    unfold applyMap
    rw [dif_pos hn]
    simp only [top_unique hM hn]
    rw [if_neg (not_not.2 hs), if_neg h0]
  refine ⟨_, hval, rfl, fun m => ?_⟩
  rw [mode_filtered a.shape hpos a.val (fun i => uv.val i / M), md_cellOf, md_cellOf]
  congr 2
  field_simp

theorem applyMap_zero (a uv : Arr (Fin 2) ℝ) (hM : IsTop uv 0) (hs : uv.shape = a.shape) : applyMap a uv = .error .nan := by
  classical
  obtain ⟨i, hi, -⟩ := hM.2
  have hn : (box uv.shape).Nonempty := ⟨i, (mem_box _ _).2 hi⟩
  unfold applyMap
  rw [dif_pos hn]
  simp only [top_unique hM hn]
  rw [if_neg (not_not.2 hs), if_pos trivial]

theorem applyMap_shape (a uv : Arr (Fin 2) ℝ) (hs : uv.shape ≠ a.shape) : applyMap a uv = .error .value := by
  classical
  unfold applyMap
  split_ifs <;> simp [hs]

/-- **C155, no cut.** The image is multiplied by the map in units of its largest value; the map is made real by averaging
opposite waves. -/
theorem C155_partial (getMap : ℕ → Option ℝ → Except Err (Arr (Fin 2) ℝ)) (dist : ℝ → ℝ) (a uv : Arr (Fin 2) ℝ)
    (z : Option ℝ) (L M : ℝ) (hM : IsTop uv M) (h0 : M ≠ 0) (hs : uv.shape = a.shape) :
    ∃ r, convolveUvmap getMap dist a z (some uv) none L = .ok r ∧ SeenWith uv M a r :=
  applyMap_ok a uv M hM h0 hs

/-- **C155, mirrored maps.** The amplitudes are multiplied by the map in units of its largest value. -/
theorem C155_mirrored (getMap : ℕ → Option ℝ → Except Err (Arr (Fin 2) ℝ)) (dist : ℝ → ℝ) (a uv : Arr (Fin 2) ℝ)
    (z : Option ℝ) (L M : ℝ) (hM : IsTop uv M) (h0 : M ≠ 0) (hs : uv.shape = a.shape)
    (hm : ∀ m, uv.val (cellOf a.shape (-m)) = uv.val (cellOf a.shape m)) :
    ∃ r, convolveUvmap getMap dist a z (some uv) none L = .ok r ∧ r.shape = a.shape ∧
      ∀ m, mode a.shape r.val m = mode a.shape a.val m * ((uv.val (cellOf a.shape m) / M : ℝ) : ℂ) := by
  obtain ⟨r, hr, h1, h2⟩ := C155_partial getMap dist a uv z L M hM h0 hs
  refine ⟨r, hr, h1, fun m => ?_⟩
  rw [h2, hm]
  congr 2
  field_simp
  ring

/-- A map with three times as many visibilities at the centre. -/
example (getMap : ℕ → Option ℝ → Except Err (Arr (Fin 2) ℝ)) (a : Arr (Fin 2) ℝ) (hs : a.shape = fun _ => 5) : ∃ r,
    convolveUvmap getMap id a none (some ⟨fun _ => 5, fun i => if i = 0 then 3 else 1⟩) none 100 = .ok r ∧ r.shape = a.shape ∧
      ∀ m, mode a.shape r.val m = mode a.shape a.val m *
        (((if cellOf a.shape m = 0 then 3 else 1) / 3 : ℝ) : ℂ) :=
  C155_mirrored getMap id a ⟨fun _ => 5, fun i => if i = 0 then 3 else 1⟩ none 100 3
    ⟨fun i _ => by show (if i = 0 then (3 : ℝ) else 1) ≤ 3; split_ifs <;> norm_num, 0, fun _ => by simp, by simp⟩
    (by norm_num) hs.symm (fun m => by
      have h : cellOf a.shape (-m) = 0 ↔ cellOf a.shape m = 0 := by
        rw [hs]
        simp only [cellOf, funext_iff, Fin.forall_fin_two, Pi.neg_apply]
        simp
      simp only [h])

/-- **C155, the map of the telescope.** Without a map, that of `get_uv_map` for the first axis is used. -/
theorem C155_default (getMap : ℕ → Option ℝ → Except Err (Arr (Fin 2) ℝ)) (dist : ℝ → ℝ) (a uv : Arr (Fin 2) ℝ)
    (z : Option ℝ) (B : Option ℝ) (L : ℝ) (h : getMap (a.shape 0) z = .ok uv) :
    convolveUvmap getMap dist a z none B L = convolveUvmap getMap dist a z (some uv) B L := by
  unfold convolveUvmap
  rw [h]

/-- Specification: the length (in km) of the baseline which sees the wave making `m j` periods along axis `j` of a box of
length `L`, at redshift `z` and distance `D`: wavelength times number of waves per radian. -/
noncomputable def baseline (z D L : ℝ) (m : Fin 2 → ℤ) : ℝ :=
  (21 / 100000 * (1 + z)) * (Real.sqrt ((m 0 : ℝ) ^ 2 + (m 1 : ℝ) ^ 2) / (L / D))

/-- Specification: a wave which falls into the cell `i` is seen by a baseline of at most `B`. -/
def Short (n : ℕ) (z D L B : ℝ) (i : Fin 2 → ℤ) : Prop :=
  ∃ m : Fin 2 → ℤ, (∀ j, m j % (n : ℤ) = i j % (n : ℤ)) ∧ baseline z D L m ≤ B

theorem baseline_le (z D L B : ℝ) (hz : -1 < z) (hD : 0 < D) (hL : 0 < L) (hB : 0 < B) (m : Fin 2 → ℤ) :
    baseline z D L m ≤ B ↔ ((m 0 ^ 2 + m 1 ^ 2 : ℤ) : ℝ) ≤ (L / resolution z D B) ^ 2 := by
  have hz' : 0 < 1 + z := by linarith
  have hres : 0 < resolution z D B := by
    unfold resolution
    positivity
  have e : L / resolution z D B = B * L / (21 / 100000 * (1 + z) * D) := by
    unfold resolution
    field_simp
  have e2 : baseline z D L m = Real.sqrt ((m 0 : ℝ) ^ 2 + (m 1 : ℝ) ^ 2) * (21 / 100000 * (1 + z) * D) / L := by
    unfold baseline
    field_simp
  rw [e2, div_le_iff₀ hL, ← le_div_iff₀ (by positivity), ← e]
  push_cast
  exact Real.sqrt_le_left (by positivity)

/-- The four distances to the corners give the smallest number of periods. -/
theorem exists_short (n : ℕ) (C : ℝ) (i : Fin 2 → ℤ) (hi : ∀ j, 0 ≤ i j ∧ i j < n) :
    (∃ m : Fin 2 → ℤ, (∀ j, m j % (n : ℤ) = i j % (n : ℤ)) ∧ ((m 0 ^ 2 + m 1 ^ 2 : ℤ) : ℝ) ≤ C) ↔
      (((i 1 ^ 2 + i 0 ^ 2 : ℤ) : ℝ) ≤ C ∨ ((((n : ℤ) - i 1) ^ 2 + i 0 ^ 2 : ℤ) : ℝ) ≤ C ∨
        ((i 1 ^ 2 + ((n : ℤ) - i 0) ^ 2 : ℤ) : ℝ) ≤ C ∨ ((((n : ℤ) - i 1) ^ 2 + ((n : ℤ) - i 0) ^ 2 : ℤ) : ℝ) ≤ C) := by
  constructor
  · rintro ⟨m, hm, hC⟩
    have key : ∀ j, i j ^ 2 ≤ m j ^ 2 ∨ ((n : ℤ) - i j) ^ 2 ≤ m j ^ 2 := by
      intro j
      have h1 := hm j
      rw [Int.emod_eq_of_lt (hi j).1 (hi j).2] at h1
      have h2 := Int.emod_add_mul_ediv (m j) n
      rw [h1] at h2
      rcases le_or_gt 0 (m j / n) with hq | hq
      · left
        have : i j ≤ m j := by
          have : 0 ≤ (n : ℤ) * (m j / n) := mul_nonneg (Int.natCast_nonneg _) hq
          omega
        exact pow_le_pow_left₀ (hi j).1 this 2
      · right
        have : (n : ℤ) * (m j / n) ≤ (n : ℤ) * (-1) :=
          mul_le_mul_of_nonneg_left (by omega) (Int.natCast_nonneg _)
        have h3 : (n : ℤ) - i j ≤ - m j := by omega
        rw [← neg_sq (m j)]
        exact pow_le_pow_left₀ (by have := hi j; omega) h3 2
    rcases key 0 with h0 | h0 <;> rcases key 1 with h1 | h1
    · exact Or.inl (le_trans (by exact_mod_cast (by linarith)) hC)
    · exact Or.inr (Or.inl (le_trans (by exact_mod_cast (by linarith)) hC))
    · exact Or.inr (Or.inr (Or.inl (le_trans (by exact_mod_cast (by linarith)) hC)))
    · exact Or.inr (Or.inr (Or.inr (le_trans (by exact_mod_cast (by linarith)) hC)))
  · have hmod : ∀ j, (i j - n) % (n : ℤ) = i j % (n : ℤ) := fun j => Int.sub_emod_right _ _
    rintro (h | h | h | h)
    · exact ⟨i, fun _ => rfl, by rw [add_comm]; exact h⟩
    · refine ⟨![i 0, i 1 - n], fun j => ?_, ?_⟩
      · match j with
        | 0 => rfl
        | 1 => exact hmod 1
      · simp only [Matrix.cons_val_zero, Matrix.cons_val_one]
        refine le_trans (le_of_eq ?_) h
        push_cast
        ring
    · refine ⟨![i 0 - n, i 1], fun j => ?_, ?_⟩
      · match j with
        | 0 => exact hmod 0
        | 1 => rfl
      · simp only [Matrix.cons_val_zero, Matrix.cons_val_one]
        refine le_trans (le_of_eq ?_) h
        push_cast
        ring
    · refine ⟨![i 0 - n, i 1 - n], fun j => ?_, ?_⟩
      · match j with
        | 0 => exact hmod 0
        | 1 => exact hmod 1
      · simp only [Matrix.cons_val_zero, Matrix.cons_val_one]
        refine le_trans (le_of_eq ?_) h
        push_cast
        ring

open Classical in
/-- **C155, the cut.** The map keeps the cells of baselines up to `max_baseline`, without the zero baseline. -/
theorem C155_cut (uv : Arr (Fin 2) ℝ) (n : ℕ) (hn : 0 < n) (hs : ∀ j, uv.shape j = n) (z B L : ℝ) (dist : ℝ → ℝ)
    (hz : -1 < z) (hD : 0 < dist z) (hL : 0 < L) (hB : 0 < B) :
    ∃ v, removeBaselines uv (some z) dist B L = .ok v ∧ v.shape = uv.shape ∧ ∀ i : Fin 2 → ℤ, (∀ j, 0 ≤ i j ∧ i j < n) →
      v.val i = if i ≠ 0 ∧ Short n z (dist z) L B i then uv.val i else 0 := by
  have hz' : 0 < 1 + z := by linarith
  have hres : resolution z (dist z) B ≠ 0 := by
    unfold resolution
    positivity
  have hval := show removeBaselines uv (some z) dist B L = .ok _ by
    unfold removeBaselines
    simp only []
    rw [if_neg hB.ne', if_neg (by rw [hs, hs]; omega)]
  refine ⟨_, hval, rfl, fun i hi => ?_⟩
  simp only [hres, false_or, hs]
  by_cases h0 : i = 0
  · simp [h0]
  · rw [if_neg h0]
    have := exists_short n ((L / resolution z (dist z) B) ^ 2) i hi
    simp only [← baseline_le z (dist z) L B hz hD hL hB] at this
    change Short n z (dist z) L B i ↔ _ at this
    simp only [this, ne_eq, h0, not_false_eq_true, true_and]

open Classical in
/-- The kept baselines of a map of 8 × 8 cells. -/
example : ∃ v, removeBaselines ⟨fun _ => 8, fun i => i 0 + i 1⟩ (some 8) (fun _ => 9000) 2 500 = .ok v ∧
    ∀ i : Fin 2 → ℤ, (∀ j, 0 ≤ i j ∧ i j < 8) → v.val i = if i ≠ 0 ∧ Short 8 8 9000 500 2 i then (i 0 : ℝ) + i 1 else 0 := by
  obtain ⟨v, h1, -, h2⟩ := C155_cut ⟨fun _ => 8, fun i => i 0 + i 1⟩ 8 (by norm_num) (fun _ => rfl) 8 2 500 (fun _ => 9000)
    (by norm_num) (by norm_num) (by norm_num) (by norm_num)
  exact ⟨v, h1, fun i hi => by
    rw [h2 i hi]⟩

/-- **C155, long baselines.** An image seen with a `max_baseline` has no waves beyond it, and the mean zero. -/
theorem C155_long (getMap : ℕ → Option ℝ → Except Err (Arr (Fin 2) ℝ)) (a uv : Arr (Fin 2) ℝ) (n : ℕ) (hn : 0 < n)
    (hs : ∀ j, uv.shape j = n) (z B L : ℝ) (dist : ℝ → ℝ) (hz : -1 < z) (hD : 0 < dist z) (hL : 0 < L) (hB : 0 < B)
    (r : Arr (Fin 2) ℝ) (hr : convolveUvmap getMap dist a (some z) (some uv) (some B) L = .ok r) :
    (∀ m, ¬ Short n z (dist z) L B m → mode a.shape r.val m = 0) ∧
      ∑ x ∈ Fintype.piFinset (fun i => Finset.Ico 0 (a.shape i : ℤ)), r.val x = 0 := by
  classical
  obtain ⟨v, hv, hvs, hvv⟩ := C155_cut uv n hn hs z B L dist hz hD hL hB
  have happ : applyMap a v = .ok r := by
    change (removeBaselines uv (some z) dist B L >>= applyMap a) = .ok r at hr
    rw [hv] at hr
    exact hr
  have hpos : ∀ j, 0 < v.shape j := fun j => by rw [hvs, hs]; exact hn
  obtain ⟨M, hM⟩ := exists_top v hpos
  have hsh : v.shape = a.shape := by
    by_contra hne
    rw [applyMap_shape a v hne] at happ
    cases happ
  have hM0 : M ≠ 0 := by
    rintro rfl
    rw [applyMap_zero a v hM hsh] at happ
    cases happ
  obtain ⟨r', hr', h1, h2⟩ := applyMap_ok a v M hM hM0 hsh
  have : r' = r := by
    have h : Except.ok r' = Except.ok r := hr'.symm.trans happ
    injection h
  subst this
  have hn' : ∀ j, a.shape j = n := fun j => by rw [← hsh, hvs]; exact hs j
  have hcell : ∀ m j, 0 ≤ cellOf a.shape m j ∧ cellOf a.shape m j < n := fun m j => by
    rw [← md_cellOf]
    show 0 ≤ m j % (a.shape j : ℤ) ∧ m j % (a.shape j : ℤ) < n
    rw [hn']
    exact ⟨Int.emod_nonneg _ (by omega), Int.emod_lt_of_pos _ (by omega)⟩
  have hzero : ∀ m, ¬ Short n z (dist z) L B m → v.val (cellOf a.shape m) = 0 := by
    intro m hm
    rw [hvv _ (hcell m), if_neg]
    rintro ⟨-, q, hq, hq'⟩
    refine hm ⟨q, fun j => (hq j).trans ?_, hq'⟩
    rw [← md_cellOf]
    show m j % (a.shape j : ℤ) % (n : ℤ) = _
    rw [hn', Int.emod_emod]
  have hneg : ∀ m, Short n z (dist z) L B (-m) → Short n z (dist z) L B m := by
    rintro m ⟨q, hq, hq'⟩
    refine ⟨-q, fun j => ?_, ?_⟩
    · have := Int.emod_emod_of_dvd
      have h := (Int.emod_emod_of_dvd (q j) (dvd_refl (n : ℤ)))
      exact (Int.ModEq.neg (show q j ≡ (-m) j [ZMOD n] from hq j)).trans (by rw [Pi.neg_apply, neg_neg])
    · unfold baseline at hq' ⊢
      simpa using hq'
  constructor
  · intro m hm
    rw [h2, hzero m hm, hzero (-m) fun h => hm (hneg m h)]
    simp
  · have h3 := h2 0
    have hc : cellOf a.shape 0 = 0 := by
      rw [← md_cellOf]
      funext j
      exact Int.zero_emod _
    have hv0 : v.val 0 = 0 := by
      rw [hvv 0 fun j => ⟨le_rfl, Int.natCast_pos.2 hn⟩, if_neg fun h => h.1 rfl]
    rw [neg_zero, hc, hv0, mode_zero] at h3
    simp only [add_zero, zero_div, ofReal_zero, mul_zero] at h3
    exact_mod_cast h3

/-- **C155, errors.** A cut needs the redshift and a square map; a map without positive counts leaves no image, and a map of
another shape cannot be applied. -/
theorem C155_raises (getMap : ℕ → Option ℝ → Except Err (Arr (Fin 2) ℝ)) (dist : ℝ → ℝ) (a uv : Arr (Fin 2) ℝ)
    (z : Option ℝ) (B L : ℝ) :
    convolveUvmap getMap dist a none (some uv) (some B) L = .error .type ∧
    (∀ z, B ≠ 0 → uv.shape 0 ≠ uv.shape 1 → convolveUvmap getMap dist a (some z) (some uv) (some B) L = .error .index) ∧
    (IsTop uv 0 → uv.shape = a.shape → convolveUvmap getMap dist a z (some uv) none L = .error .nan) ∧
    (uv.shape ≠ a.shape → convolveUvmap getMap dist a z (some uv) none L = .error .value) := by
  refine ⟨rfl, fun z hB h => ?_, applyMap_zero a uv, applyMap_shape a uv⟩
  change (removeBaselines uv (some z) dist B L >>= applyMap a) = _
  unfold removeBaselines
  simp only []
  rw [if_neg hB, if_pos (Or.inl h)]
  rfl

/-- A map of 4 × 4 cells with twice the counts on a long baseline. -/
noncomputable def longMap : Arr (Fin 2) ℝ := ⟨fun _ => 4, fun i => if i = ![2, 0] then 2 else 1⟩

theorem delta_mode (s : Fin 2 → ℕ) (hs : ∀ j, 0 < s j) (m : Fin 2 → ℤ) :
    mode s (fun x => if x = 0 then 1 else 0) m = 1 := by
  unfold mode
  rw [Finset.sum_eq_single 0]
  · simp
  · intro b _ hb
    simp [hb]
  · intro hb
    refine absurd ?_ hb
    rw [Fintype.mem_piFinset]
    exact fun j => Finset.mem_Ico.2 ⟨le_rfl, Int.natCast_pos.2 (hs j)⟩

/-- **C155 is false for the waves that are left after a cut**: with a smaller `max_baseline` they are seen with another
amplitude, since the largest value of the map was on one of the removed baselines. -/
theorem C155_false (getMap : ℕ → Option ℝ → Except Err (Arr (Fin 2) ℝ)) :
    ∃ (a : Arr (Fin 2) ℝ) (B : ℝ) (r r' : Arr (Fin 2) ℝ) (m : Fin 2 → ℤ), baseline 0 1 1 m ≤ B ∧
      convolveUvmap getMap (fun _ => 1) a (some 0) (some longMap) none 1 = .ok r ∧
      convolveUvmap getMap (fun _ => 1) a (some 0) (some longMap) (some B) 1 = .ok r' ∧
      mode a.shape r'.val m = 2 * mode a.shape r.val m ∧ mode a.shape r.val m ≠ 0 := by
  classical
  have hs4 : ∀ j : Fin 2, longMap.shape j = 4 := fun _ => rfl
  have htop : IsTop longMap 2 := by
    refine ⟨fun i _ => ?_, ![2, 0], by simp [Fin.forall_fin_two, longMap], by simp [longMap]⟩
    show (if i = ![2, 0] then (2 : ℝ) else 1) ≤ 2
    split_ifs <;> norm_num
  obtain ⟨v, hv, hvs, hvv⟩ := C155_cut longMap 4 (by norm_num) hs4 0 (21 / 100000) 1 (fun _ => 1) (by norm_num)
    one_pos one_pos (by norm_num)
  have hb : ∀ m : Fin 2 → ℤ, baseline 0 1 1 m ≤ 21 / 100000 ↔ m 0 ^ 2 + m 1 ^ 2 ≤ 1 := fun m => by
    rw [baseline_le 0 1 1 (21 / 100000) (by norm_num) one_pos one_pos (by norm_num)]
    unfold resolution
    norm_num
    exact_mod_cast Iff.rfl
  have hv1 : v.val ![1, 0] = 1 := by
    rw [hvv ![1, 0] (by simp [Fin.forall_fin_two]), if_pos]
    · simp [longMap]
    · exact ⟨by simp, ![1, 0], fun _ => rfl, (hb _).2 (by simp)⟩
  have hv3 : v.val ![3, 0] = 1 := by
    rw [hvv ![3, 0] (by simp [Fin.forall_fin_two]), if_pos]
    · simp [longMap]
    · exact ⟨by simp, ![-1, 0], by simp [Fin.forall_fin_two], (hb _).2 (by simp)⟩
  have hvtop : IsTop v 1 := by
    refine ⟨fun i hi => ?_, ![1, 0], by rw [hvs]; simp [Fin.forall_fin_two, longMap], hv1⟩
    rw [hvs] at hi
    rw [hvv i hi]
    split_ifs with h
    · show (if i = ![2, 0] then (2 : ℝ) else 1) ≤ 1
      rw [if_neg]
      rintro rfl
      obtain ⟨-, q, hq, hq'⟩ := h
      have h1 := (hb q).1 hq'
      have h2 := hq 0
      simp only [Matrix.cons_val_zero] at h2
      have h3 : q 0 ^ 2 ≤ 1 := by nlinarith [sq_nonneg (q 1)]
      have h4 : q 0 ≤ 1 := by nlinarith
      have h5 : -1 ≤ q 0 := by nlinarith
      omega
    · norm_num
  let a : Arr (Fin 2) ℝ := ⟨fun _ => 4, fun x => if x = 0 then 1 else 0⟩
  have ha : ∀ m, mode a.shape a.val m = 1 := fun m => delta_mode _ (fun _ => by norm_num) m
  obtain ⟨r, hr, -, hrm⟩ := C155_partial getMap (fun _ => 1) a longMap (some 0) 1 2 htop two_ne_zero rfl
  obtain ⟨r', hr', -, hrm'⟩ := applyMap_ok a v 1 hvtop one_ne_zero hvs
  have c1 : cellOf a.shape ![1, 0] = ![1, 0] := by unfold cellOf; simp [a]
  have c3 : cellOf a.shape (-![1, 0]) = ![3, 0] := by unfold cellOf; simp [a]
  refine ⟨a, 21 / 100000, r, r', ![1, 0], (hb _).2 (by simp), hr, ?_, ?_, ?_⟩
  · change (removeBaselines longMap (some 0) (fun _ => 1) (21 / 100000) 1 >>= applyMap a) = _
    rw [hv]
    exact hr'
  · rw [hrm, hrm', c1, c3, hv1, hv3, ha]
    simp [longMap]
    norm_num
  · rw [hrm, c1, c3, ha]
    simp [longMap]

/-! ## C156 -/

theorem stack_ok (a : Arr (Fin 3) ℝ) (uv : Arr (Fin 2) ℝ) (M : ℝ) (hM : IsTop uv M) (h0 : M ≠ 0)
    (hs : uv.shape = ![a.shape 0, a.shape 1]) :
    ∃ o, stack a uv = .ok o ∧ o.shape = ![a.shape 2, a.shape 0, a.shape 1] ∧ ∀ k : ℕ, k < a.shape 2 →
      SeenWith uv M ⟨![a.shape 0, a.shape 1], fun x => a.val ![x 0, x 1, k]⟩
        ⟨![a.shape 0, a.shape 1], fun x => o.val ![(k : ℤ), x 0, x 1]⟩ := by
  choose g hg hseen using fun k => applyMap_ok (slice a k) uv M hM h0 hs
  refine ⟨⟨![a.shape 2, a.shape 0, a.shape 1], fun x =>
      ((((List.range (a.shape 2)).map g)[(x 0).toNat]?).map fun d => d.val ![x 1, x 2]).getD 0⟩, ?_, rfl, fun k hk => ?_⟩
  · unfold stack
    rw [mapM_ok' _ g _ fun k _ => hg k]
  · refine ⟨rfl, fun m => ?_⟩
    have e : (fun x : Fin 2 → ℤ => ((((List.range (a.shape 2)).map g)[((k : ℕ) : ℤ).toNat]?).map
        fun d => d.val ![x 0, x 1]).getD 0) = (g k).val := by
      funext x
      rw [Int.toNat_natCast, vec2]
      simp [hk]
    refine Eq.trans ?_ ((hseen k).2 m)
    exact congrArg (fun f => mode ![a.shape 0, a.shape 1] f m) e

/-- The two filters of a cube: the cut of the map and the average along the frequency axis. -/
structure Prepared (dist : ℚ → ℚ) (cube : Arr (Fin 3) ℝ) (z L B ratio : ℚ) (nu : Fin 3) (uv v : Arr (Fin 2) ℝ)
    (sm : Arr (Fin 3) ℝ) : Prop where
  cut : removeBaselines uv (some z) (fun _ => (dist z : ℝ)) B L = .ok v
  smooth : smoothCoevalTophat cube ((1 + z) * (21 / 100000) / B * dist z * cube.shape 0 / L * ratio) nu = .ok sm

theorem convolve_ok {dist : ℚ → ℚ} {cube : Arr (Fin 3) ℝ} {z L B ratio : ℚ} {nu : Fin 3} {uv v : Arr (Fin 2) ℝ}
    {sm : Arr (Fin 3) ℝ} (h : Prepared dist cube z L B ratio nu uv v sm) {o : Arr (Fin 3) ℝ}
    (ho : stack (if nu = 2 then sm else swap sm nu) v = .ok o) :
    convolveCoeval dist cube z L (some B) ratio nu (some uv) = .ok (if nu = 2 then o else swap o nu) := by
  unfold convolveCoeval
  simp only []
  rw [h.cut]
  show (match smoothCoevalTophat cube (resolution z (dist z) B * cube.shape 0 / L * ratio) nu with
    | .error _ => Except.error Err.value
    | .ok sm => do
      let out ← stack (if nu = 2 then sm else swap sm nu) v
      .ok (if nu = 2 then out else swap out nu)) = _
  rw [show resolution z (dist z) B = (1 + z) * (21 / 100000) / B * dist z from rfl, h.smooth]
  simp only []
  rw [ho]
  rfl

/-- **C156, frequency along the last axis.** Every slice of the averaged cube is seen with the cut map; it is found in the
*first* axis of the result. -/
theorem C156_partial (dist : ℚ → ℚ) (cube : Arr (Fin 3) ℝ) (z L B ratio : ℚ) (uv v : Arr (Fin 2) ℝ) (sm : Arr (Fin 3) ℝ)
    (h : Prepared dist cube z L B ratio 2 uv v sm) (M : ℝ) (hM : IsTop v M) (h0 : M ≠ 0)
    (hs : v.shape = ![sm.shape 0, sm.shape 1]) :
    ∃ o, convolveCoeval dist cube z L (some B) ratio 2 (some uv) = .ok o ∧
      o.shape = ![sm.shape 2, sm.shape 0, sm.shape 1] ∧ ∀ k : ℕ, k < sm.shape 2 →
        SeenWith v M ⟨![sm.shape 0, sm.shape 1], fun x => sm.val ![x 0, x 1, k]⟩
          ⟨![sm.shape 0, sm.shape 1], fun x => o.val ![(k : ℤ), x 0, x 1]⟩ := by
  obtain ⟨o, ho, h1, h2⟩ := stack_ok sm v M hM h0 hs
  exact ⟨o, convolve_ok h ho, h1, h2⟩

theorem swap0 (a : Arr (Fin 3) ℝ) (p q r : ℤ) : (swap a 0).val ![p, q, r] = a.val ![r, q, p] := by
  show a.val _ = _
  congr 1
  funext j
  match j with
  | 0 | 1 | 2 => rfl

theorem swap1 (a : Arr (Fin 3) ℝ) (p q r : ℤ) : (swap a 1).val ![p, q, r] = a.val ![p, r, q] := by
  show a.val _ = _
  congr 1
  funext j
  match j with
  | 0 | 1 | 2 => rfl

/-- **C156, frequency along the first axis.** The slices are found in the *last* axis of the result. -/
theorem C156_first (dist : ℚ → ℚ) (cube : Arr (Fin 3) ℝ) (z L B ratio : ℚ) (uv v : Arr (Fin 2) ℝ) (sm : Arr (Fin 3) ℝ)
    (h : Prepared dist cube z L B ratio 0 uv v sm) (M : ℝ) (hM : IsTop v M) (h0 : M ≠ 0)
    (hs : v.shape = ![sm.shape 2, sm.shape 1]) :
    ∃ o, convolveCoeval dist cube z L (some B) ratio 0 (some uv) = .ok o ∧
      o.shape = ![sm.shape 1, sm.shape 2, sm.shape 0] ∧ ∀ k : ℕ, k < sm.shape 0 →
        SeenWith v M ⟨![sm.shape 2, sm.shape 1], fun x => sm.val ![(k : ℤ), x 1, x 0]⟩
          ⟨![sm.shape 2, sm.shape 1], fun x => o.val ![x 1, x 0, k]⟩ := by
  obtain ⟨o, ho, h1, h2⟩ := stack_ok (swap sm 0) v M hM h0 hs
  refine ⟨swap o 0, convolve_ok h ho, ?_, fun k hk => ?_⟩
  · funext j
    show o.shape _ = _
    rw [h1]
    match j with
    | 0 | 1 | 2 => rfl
  · have := h2 k hk
    simp only [swap0] at this
    simp only [swap0]
    exact this

/-- **C156, frequency along the second axis.** The slices are found in the *first* axis of the result, transposed. -/
theorem C156_second (dist : ℚ → ℚ) (cube : Arr (Fin 3) ℝ) (z L B ratio : ℚ) (uv v : Arr (Fin 2) ℝ) (sm : Arr (Fin 3) ℝ)
    (h : Prepared dist cube z L B ratio 1 uv v sm) (M : ℝ) (hM : IsTop v M) (h0 : M ≠ 0)
    (hs : v.shape = ![sm.shape 0, sm.shape 2]) :
    ∃ o, convolveCoeval dist cube z L (some B) ratio 1 (some uv) = .ok o ∧
      o.shape = ![sm.shape 1, sm.shape 2, sm.shape 0] ∧ ∀ k : ℕ, k < sm.shape 1 →
        SeenWith v M ⟨![sm.shape 0, sm.shape 2], fun x => sm.val ![x 0, k, x 1]⟩
          ⟨![sm.shape 0, sm.shape 2], fun x => o.val ![(k : ℤ), x 1, x 0]⟩ := by
  obtain ⟨o, ho, h1, h2⟩ := stack_ok (swap sm 1) v M hM h0 hs
  refine ⟨swap o 1, convolve_ok h ho, ?_, fun k hk => ?_⟩
  · funext j
    show o.shape _ = _
    rw [h1]
    match j with
    | 0 | 1 | 2 => rfl
  · have := h2 k hk
    simp only [swap1] at this
    simp only [swap1]
    exact this

/-- **C156 is false without a UV map**: the default arguments raise, and so does `max_baseline=None`. -/
theorem C156_default_false (dist : ℚ → ℚ) (cube : Arr (Fin 3) ℝ) (z L ratio : ℚ) (nu : Fin 3) :
    (∀ B, convolveCoeval dist cube z L B ratio nu none = .error .attribute) ∧
      ∀ uv, convolveCoeval dist cube z L none ratio nu (some uv) = .error .type :=
  ⟨fun B => by cases B <;> rfl, fun _ => rfl⟩

/-- Four cells seen in one channel. -/
noncomputable def oneChannel : Arr (Fin 3) ℝ := ⟨![2, 2, 1], fun x => x 0⟩

theorem oneChannel_smooth : ∃ o, smoothCoevalTophat oneChannel 1 2 = .ok ⟨![2, 2, 1], o⟩ := by
  obtain ⟨k, lo, hk1, hk2, -⟩ := tophat_spec (ι := Fin 2) (K := ℝ) 1 1 le_rfl le_rfl
  have hk1' : (tophatKernel (oneChannel.shape 2) (1 : ℚ) : Except String (Arr (Fin 2) ℝ)) = .ok k := by
    have : ((1 : ℕ) : ℚ) = 1 := Nat.cast_one
    rw [this] at hk1
    exact hk1
  have hsh : (fun i => max ((plane oneChannel 0 0).shape i) (k.shape i)) = (0 : Fin 3).removeNth oneChannel.shape := by
    funext i
    rw [hk2]
    match i with
    | 0 | 1 => rfl
  unfold smoothCoevalTophat
  rw [hk1']
  refine ⟨fun x => match smoothWithKernel (plane oneChannel 0 (x 0)) k with
    | .ok o => o.val ((0 : Fin 3).removeNth x)
    | .error _ => 0, ?_⟩
  show (if (fun i => max ((plane oneChannel 0 0).shape i) (k.shape i)) ≠ (0 : Fin 3).removeNth oneChannel.shape then
    Except.error "ValueError" else .ok _) = _
  rw [if_neg (not_not.2 hsh)]
  rfl

/-- **C156 is false: the axes of the result are not those of the cube.** A cube of 2 × 2 pixels and one channel comes back
with two channels of 1 × 2 pixels. -/
theorem C156_false : ∃ (dist : ℚ → ℚ) (z L B ratio : ℚ) (uv : Arr (Fin 2) ℝ) (o : Arr (Fin 3) ℝ),
    convolveCoeval dist oneChannel z L (some B) ratio 2 (some uv) = .ok o ∧ o.shape = ![1, 2, 2] ∧
      o.shape ≠ oneChannel.shape := by
  classical
  obtain ⟨f, hf⟩ := oneChannel_smooth
  let uv : Arr (Fin 2) ℝ := ⟨![2, 2], fun _ => 1⟩
  obtain ⟨v, hv, hvs, hvv⟩ := C155_cut uv 2 (by norm_num) (fun j => match j with | 0 | 1 => rfl) 0 (21 / 100000) 1
    (fun _ => 1) (by norm_num) one_pos one_pos (by norm_num)
  have hb : baseline 0 1 1 ![1, 0] ≤ 21 / 100000 := by
    rw [baseline_le 0 1 1 (21 / 100000) (by norm_num) one_pos one_pos (by norm_num)]
    unfold resolution
    norm_num
  have hvtop : IsTop v 1 := by
    refine ⟨fun i hi => ?_, ![1, 0], by rw [hvs]; simp [Fin.forall_fin_two, uv], ?_⟩
    · have hi' : ∀ j, 0 ≤ i j ∧ i j < (2 : ℕ) := fun j => by
        have := hi j
        rw [hvs] at this
        match j with
        | 0 | 1 => exact this
      rw [hvv i hi']
      split_ifs
      · exact le_rfl
      · exact zero_le_one
    · rw [hvv ![1, 0] (by simp [Fin.forall_fin_two]), if_pos ⟨by simp, ![1, 0], fun _ => rfl, hb⟩]
  have hp : Prepared (fun _ => 1) oneChannel 0 1 (21 / 100000) (1 / 2) 2 uv v ⟨![2, 2, 1], f⟩ := by
    refine ⟨?_, ?_⟩
    · refine Eq.trans ?_ hv
      norm_num
    · refine Eq.trans ?_ hf
      congr 1
      show (1 + 0) * (21 / 100000) / (21 / 100000) * 1 * (((2 : ℕ) : ℚ)) / 1 * (1 / 2) = 1
      norm_num
  obtain ⟨o, ho, h1, -⟩ := C156_partial _ _ _ _ _ _ uv v _ hp 1 hvtop one_ne_zero (by rw [hvs]; rfl)
  refine ⟨_, _, _, _, _, uv, o, ho, h1, ?_⟩
  rw [h1]
  intro h
  exact absurd (show 1 = 2 from congrFun h 0) (by decide)

end Verif.UVSmooth
