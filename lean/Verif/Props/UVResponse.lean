import Verif.Lemmas.UVResponse
import Verif.Props.Distances
import Mathlib.Tactic.FieldSimp
import Mathlib.Tactic.NormNum
import Mathlib.Tactic.Positivity
import Mathlib.Tactic.IntervalCases
/-!
# C117: incomplete UV coverage of images; C118: the cut of long baselines
-/

namespace Verif.UVResponse
open Verif.Convolve Verif.PowerSpectrum Verif.RandomField Verif.Conversions Verif.Constants Complex

/-! ## C117 -/

/-- Specification: the Fourier amplitude of an image (or cube) with `s j` cells along axis `j`, for the wave making
`m j` periods along axis `j`. -/
noncomputable def mode {ι : Type} [Fintype ι] [DecidableEq ι] (s : ι → ℕ) (a : (ι → ℤ) → ℝ) (m : ι → ℤ) : ℂ :=
  ∑ x ∈ Fintype.piFinset fun i => Finset.Ico 0 (s i : ℤ),
    (a x : ℂ) * exp (-(2 * Real.pi * I) * ∑ i, (m i : ℂ) * x i / s i)

theorem mode_eq {ι : Type} [Fintype ι] [DecidableEq ι] (s : ι → ℕ) (a : (ι → ℤ) → ℝ) (m : ι → ℤ) :
    mode s a m = fftn s (fun x => (a x : ℂ)) m := rfl

/-- Specification: the wave `m` is sampled by a UV map. -/
def Sampled (s : Fin 2 → ℕ) (uv : (Fin 2 → ℤ) → ℝ) (m : Fin 2 → ℤ) : Prop := uv (fun j => m j % (s j : ℤ)) ≠ 0

/-- Specification: `r` is the image `a` as seen with the map `uv`, waves of which only one direction is sampled being
seen at half their amplitude. -/
structure Seen (s : Fin 2 → ℕ) (uv a r : (Fin 2 → ℤ) → ℝ) : Prop where
  both : ∀ m, Sampled s uv m → Sampled s uv (-m) → mode s r m = mode s a m
  neither : ∀ m, ¬ Sampled s uv m → ¬ Sampled s uv (-m) → mode s r m = 0
  one : ∀ m, ¬ (Sampled s uv m ↔ Sampled s uv (-m)) → mode s r m = mode s a m / 2

open Classical in
theorem seen_of (s : Fin 2 → ℕ) (hs : ∀ j, 0 < s j) (uv a : (Fin 2 → ℤ) → ℝ) :
    Seen s uv a (fun x => (ifftn s (fun i => if uv i = 0 then 0 else fftn s (fun y => (a y : ℂ)) i) x).re) := by
  have e : (fun i => if uv i = 0 then 0 else fftn s (fun y => (a y : ℂ)) i) =
      fun i => (((if uv i = 0 then 0 else 1 : ℝ)) : ℂ) * fftn s (fun y => (a y : ℂ)) i := by
    funext i
    split_ifs <;> simp
  have key : ∀ m, mode s (fun x => (ifftn s (fun i => if uv i = 0 then 0 else fftn s (fun y => (a y : ℂ)) i) x).re) m =
      mode s a m * ((((if uv (md s m) = 0 then 0 else 1) + (if uv (md s (-m)) = 0 then 0 else 1)) / 2 : ℝ) : ℂ) := by
    intro m
    rw [mode_eq, mode_eq, e]
    exact filtered s hs a (fun i => if uv i = 0 then 0 else 1) m
  refine ⟨fun m h1 h2 => ?_, fun m h1 h2 => ?_, fun m h => ?_⟩
  · rw [key, if_neg (show ¬ uv (md s m) = 0 from h1), if_neg (show ¬ uv (md s (-m)) = 0 from h2)]
    norm_num
  · rw [key, if_pos (show uv (md s m) = 0 from not_not.mp h1), if_pos (show uv (md s (-m)) = 0 from not_not.mp h2)]
    norm_num
  · rw [key]
    by_cases h1 : uv (md s m) = 0 <;> by_cases h2 : uv (md s (-m)) = 0
    · exact absurd (iff_of_false (not_not.mpr h1) (not_not.mpr h2)) h
    · rw [if_pos h1, if_neg h2]; norm_num; ring
    · rw [if_neg h1, if_pos h2]; norm_num; ring
    · exact absurd (iff_of_true h1 h2) h

/-- **C117, one image.** -/
theorem C117_partial (a uv : Arr (Fin 2) ℝ) (h : a.shape = uv.shape) (hs : ∀ j, 0 < a.shape j) :
    ∃ r, applyImage a uv = .ok r ∧ r.shape = a.shape ∧ Seen a.shape uv.val a.val r.val :=
  ⟨_, if_pos h, rfl, seen_of a.shape hs uv.val a.val⟩

example := C117_partial ⟨![4, 4], fun x => x 0 + x 1⟩ ⟨![4, 4], fun x => x 0⟩ rfl (by decide)

theorem mode_zero (s : Fin 2 → ℕ) (a : (Fin 2 → ℤ) → ℝ) : mode s a 0 = ((∑ x ∈ box s, a x : ℝ) : ℂ) := by
  unfold mode
  push_cast
  refine Finset.sum_congr rfl fun x _ => ?_
  simp

/-- **C117, total flux.** The sum of the image is kept if the zero baseline is sampled, and else it becomes zero. -/
theorem C117_flux (a uv : Arr (Fin 2) ℝ) (h : a.shape = uv.shape) (hs : ∀ j, 0 < a.shape j) :
    ∃ r, applyImage a uv = .ok r ∧
      (uv.val 0 ≠ 0 → ∑ x ∈ Fintype.piFinset (fun i => Finset.Ico 0 (a.shape i : ℤ)), r.val x =
        ∑ x ∈ Fintype.piFinset (fun i => Finset.Ico 0 (a.shape i : ℤ)), a.val x) ∧
      (uv.val 0 = 0 → ∑ x ∈ Fintype.piFinset (fun i => Finset.Ico 0 (a.shape i : ℤ)), r.val x = 0) := by
  obtain ⟨r, hr, -, h1⟩ := C117_partial a uv h hs
  have e : Sampled a.shape uv.val 0 ↔ uv.val 0 ≠ 0 := by
    unfold Sampled
    rw [show (fun j => (0 : Fin 2 → ℤ) j % (a.shape j : ℤ)) = 0 from funext fun j => by simp]
  refine ⟨r, hr, fun h0 => ?_, fun h0 => ?_⟩
  · have := h1.both 0 (e.2 h0) (by rw [neg_zero]; exact e.2 h0)
    rw [mode_zero, mode_zero] at this
    exact_mod_cast this
  · have := h1.neither 0 (fun h => e.1 h h0) (by rw [neg_zero]; exact fun h => e.1 h h0)
    rw [mode_zero] at this
    exact_mod_cast this

example := C117_flux ⟨![4, 4], fun x => x 0 + x 1⟩ ⟨![4, 4], fun x => x 0⟩ rfl (by decide)

/-- **C117, maps with mirrored baselines.** If with every wave its opposite is sampled, the sampled waves are kept and
all others removed, and a second pass changes nothing. -/
theorem C117_mirrored (a uv : Arr (Fin 2) ℝ) (h : a.shape = uv.shape) (hs : ∀ j, 0 < a.shape j)
    (hm : ∀ m, Sampled a.shape uv.val m ↔ Sampled a.shape uv.val (-m)) :
    ∃ r r', applyImage a uv = .ok r ∧ applyImage r uv = .ok r' ∧
      (∀ m, (Sampled a.shape uv.val m → mode a.shape r.val m = mode a.shape a.val m) ∧
        (¬ Sampled a.shape uv.val m → mode a.shape r.val m = 0)) ∧
      ∀ x : Fin 2 → ℤ, (∀ j, 0 ≤ x j ∧ x j < a.shape j) → r'.val x = r.val x := by
  obtain ⟨r, hr, hrs, h1⟩ := C117_partial a uv h hs
  obtain ⟨r', hr', hrs', h2⟩ := C117_partial r uv (hrs.trans h) (by rw [hrs]; exact hs)
  rw [hrs] at h2
  have key : ∀ m, (Sampled a.shape uv.val m → mode a.shape r.val m = mode a.shape a.val m) ∧
      (¬ Sampled a.shape uv.val m → mode a.shape r.val m = 0) := fun m =>
    ⟨fun hx => h1.both m hx ((hm m).1 hx), fun hx => h1.neither m hx fun h' => hx ((hm m).2 h')⟩
  refine ⟨r, r', hr, hr', key, fun x hx => ?_⟩
  have := modes_injective a.shape hs (fun y => (r'.val y : ℂ)) (fun y => (r.val y : ℂ)) (fun m => by
    show mode a.shape r'.val m = mode a.shape r.val m
    by_cases hq : Sampled a.shape uv.val m
    · exact h2.both m hq ((hm m).1 hq)
    · rw [h2.neither m hq fun h' => hq ((hm m).2 h'), (key m).2 hq]) ((mem_box _ _).2 hx)
  exact_mod_cast this

/-- **C117, linearity.** -/
theorem C117_linear (a b uv : Arr (Fin 2) ℝ) (c : ℝ) (h : a.shape = uv.shape) (hb : b.shape = uv.shape) :
    ∃ r r' r'', applyImage a uv = .ok r ∧ applyImage b uv = .ok r' ∧
      applyImage ⟨a.shape, fun x => a.val x + c * b.val x⟩ uv = .ok r'' ∧ ∀ x, r''.val x = r.val x + c * r'.val x := by
  refine ⟨_, _, _, if_pos h, if_pos hb, if_pos h, fun x => ?_⟩
  simp only [hb, h]
  rw [← re_ofReal_mul c, ← add_re]
  congr 1
  unfold ifftn
  rw [← mul_div_assoc, ← add_div, Finset.mul_sum, ← Finset.sum_add_distrib]
  congr 1
  refine Finset.sum_congr rfl fun i _ => ?_
  simp only []
  split_ifs
  · ring
  · rw [← mul_assoc, ← add_mul]
    congr 1
    unfold fftn
    rw [Finset.mul_sum, ← Finset.sum_add_distrib]
    refine Finset.sum_congr rfl fun y _ => ?_
    push_cast
    ring

example := C117_linear ⟨![4, 4], fun x => x 0 + x 1⟩ ⟨![4, 4], fun x => x 0 * x 1⟩ ⟨![4, 4], fun x => x 0⟩ 2 rfl rfl

/-- **C117 is false for maps without mirrored baselines**: a wave which is not sampled, but whose opposite is, survives
at half its amplitude. -/
theorem C117_false (a uv : Arr (Fin 2) ℝ) (h : a.shape = uv.shape) (hs : ∀ j, 0 < a.shape j) (m : Fin 2 → ℤ)
    (h1 : ¬ Sampled a.shape uv.val m) (h2 : Sampled a.shape uv.val (-m)) (ha : mode a.shape a.val m ≠ 0) :
    ∃ r, applyImage a uv = .ok r ∧ mode a.shape r.val m ≠ 0 ∧ mode a.shape r.val (-m) ≠ mode a.shape a.val (-m) := by
  obtain ⟨r, hr, -, hx⟩ := C117_partial a uv h hs
  have hn : mode a.shape a.val (-m) ≠ 0 := by
    rw [mode_eq] at ha ⊢
    rw [fftn_neg]
    exact fun h' => ha ((map_eq_zero _).mp h')
  refine ⟨r, hr, ?_, ?_⟩
  · rw [hx.one m fun h' => h1 (h'.2 h2)]
    exact div_ne_zero ha two_ne_zero
  · rw [hx.one (-m) fun h' => h1 (by rw [neg_neg] at h'; exact h'.1 h2)]
    intro h'
    apply hn
    have : mode a.shape a.val (-m) = 2 * (mode a.shape a.val (-m) / 2) := by ring
    rw [h'] at this
    linear_combination -this

/-- **C117, errors.** -/
theorem C117_raises (a uv : Arr (Fin 2) ℝ) (h : a.shape ≠ uv.shape) : applyImage a uv = .error .assertion := if_neg h

theorem vec2 (x : Fin 2 → ℤ) : ![x 0, x 1] = x := by
  funext j
  match j with
  | 0 => rfl
  | 1 => rfl

/-- **C117, cubes.** Every slice of a cube is seen on its own. -/
theorem C117_coeval (getMap : ℕ → Arr (Fin 2) ℝ) (a : Arr (Fin 3) ℝ) (uvMap : Option (Arr (Fin 2) ℝ))
    (uv : Arr (Fin 2) ℝ) (hu : uv = uvMap.getD (getMap (a.shape 2)))
    (h : uv.shape = ![a.shape 0, a.shape 1]) (h0 : 0 < a.shape 0) (h1 : 0 < a.shape 1) :
    ∃ r, applyCoeval getMap a uvMap = .ok r ∧ r.shape = a.shape ∧ ∀ k : ℕ, k < a.shape 2 →
      Seen ![a.shape 0, a.shape 1] uv.val (fun x => a.val ![x 0, x 1, k]) fun x => r.val ![x 0, x 1, k] := by
  have hs : ∀ k j, 0 < (slice a k).shape j := fun k j => match j with
    | 0 => h0
    | 1 => h1
  have hex : ∀ k, ∃ r, applyImage (slice a k) uv = .ok r ∧ Seen ![a.shape 0, a.shape 1] uv.val
      (fun x => a.val ![x 0, x 1, k]) r.val := fun k => by
    obtain ⟨r, hr, -, hx⟩ := C117_partial (slice a k) uv h.symm (hs k)
    exact ⟨r, hr, hx⟩
  choose g hg hseen using hex
  have hval : applyCoeval getMap a uvMap = .ok ⟨a.shape, fun x =>
      ((((List.range (a.shape 2)).map g)[(x 2).toNat]?).map fun d => d.val ![x 0, x 1]).getD 0⟩ := by
    unfold applyCoeval
    simp only []
    rw [← hu, mapM_ok' _ g _ fun k _ => hg k]
  refine ⟨_, hval, rfl, fun k hk => ?_⟩
  have : (fun x : Fin 2 → ℤ => ((((List.range (a.shape 2)).map g)[((![x 0, x 1, (k : ℤ)] : Fin 3 → ℤ) 2).toNat]?).map
      fun d => d.val ![(![x 0, x 1, (k : ℤ)] : Fin 3 → ℤ) 0, (![x 0, x 1, (k : ℤ)] : Fin 3 → ℤ) 1]).getD 0) =
      (g k).val := by
    funext x
    rw [show ((![x 0, x 1, (k : ℤ)] : Fin 3 → ℤ) 2).toNat = k from Int.toNat_natCast k,
      show ![(![x 0, x 1, (k : ℤ)] : Fin 3 → ℤ) 0, (![x 0, x 1, (k : ℤ)] : Fin 3 → ℤ) 1] = x from vec2 x]
    simp [hk]
  show Seen _ _ _ (fun x : Fin 2 → ℤ => ((((List.range (a.shape 2)).map g)[((![x 0, x 1, (k : ℤ)] : Fin 3 → ℤ) 2).toNat]?).map
      fun d => d.val ![(![x 0, x 1, (k : ℤ)] : Fin 3 → ℤ) 0, (![x 0, x 1, (k : ℤ)] : Fin 3 → ℤ) 1]).getD 0)
  rw [this]
  exact hseen k

/-- **C117, cubes without a map.** The map is made for the last axis: an array which is not a cube raises. -/
theorem C117_coeval_raises (getMap : ℕ → Arr (Fin 2) ℝ) (hmap : ∀ n, (getMap n).shape = ![n, n]) (a : Arr (Fin 3) ℝ)
    (h2 : 0 < a.shape 2) (h : a.shape 0 ≠ a.shape 2 ∨ a.shape 1 ≠ a.shape 2) :
    applyCoeval getMap a none = .error .assertion := by
  unfold applyCoeval
  simp only [Option.getD_none]
  rw [mapM_err _ Err.assertion _ (by simp [h2.ne']) fun k _ => C117_raises _ _ ?_]
  rw [hmap]
  intro he
  rcases h with h | h
  · exact h (congrFun he 0)
  · exact h (congrFun he 1)

/-- A point in an image of 3 × 1 cells, seen with a map which samples the wave `(1, 0)` but not `(-1, 0)`. -/
example : ∃ r, applyImage ⟨![3, 1], fun x => if x = 0 then 1 else 0⟩ ⟨![3, 1], fun i => if i 0 = 1 then 2 else 0⟩ =
    .ok r ∧ mode ![3, 1] r.val ![-1, 0] ≠ 0 := by
  have := C117_false ⟨![3, 1], fun x => if x = 0 then 1 else 0⟩ ⟨![3, 1], fun i => if i 0 = 1 then 2 else 0⟩ rfl
    (by decide) ![-1, 0] (by simp [Sampled]) (by simp [Sampled]) (by
      show mode ![3, 1] _ _ ≠ 0
      have : mode ![3, 1] (fun x => if x = 0 then 1 else 0) ![-1, 0] = 1 := by
        unfold mode
        rw [Finset.sum_eq_single 0]
        · simp
        · intro b _ hb
          simp [hb]
        · intro hb
          exact absurd (by simp [Fintype.mem_piFinset, Fin.forall_fin_two]) hb
      rw [this]
      exact one_ne_zero)
  obtain ⟨r, h1, h2, -⟩ := this
  exact ⟨r, h1, h2⟩

/-- A map with mirrored baselines. -/
example : ∀ m, Sampled ![4, 4] (fun i => if i 0 = 0 then 3 else 0) m ↔
    Sampled ![4, 4] (fun i => if i 0 = 0 then 3 else 0) (-m) := by
  intro m
  simp [Sampled]

/-- A cube of 4 × 4 × 4 cells, and a box for which the map would have the wrong shape. -/
example : ∃ r, applyCoeval (fun n => ⟨![n, n], fun _ => 1⟩) ⟨fun _ => 4, fun x => x 0⟩ none = .ok r := by
  obtain ⟨r, h, -⟩ := C117_coeval (fun n => ⟨![n, n], fun _ => 1⟩) ⟨fun _ => 4, fun x => x 0⟩ none _ rfl rfl
    (by simp) (by simp)
  exact ⟨r, h⟩

example : applyCoeval (fun n => ⟨![n, n], fun _ => 1⟩) ⟨![4, 4, 8], fun x => x 0⟩ none = .error .assertion :=
  C117_coeval_raises _ (fun _ => rfl) _ (by simp) (.inl (by simp))

end Verif.UVResponse
