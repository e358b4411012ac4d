import Verif.Lemmas.PadCone
/-!
# C236: padding a lightcone in the field of view

`padding_lightcone` puts a lightcone in the middle of a larger one and fills the border in the way
of the mode.  The specification speaks of the cells of the result and of the lightcone only.
-/

namespace Verif.PadCone

variable {R : Type*} [Field R] [LinearOrder R]

/-- Position `i` of an axis that had `n` cells and was padded by `p` on both sides lies in the border. -/
def Border (p n i : ℕ) : Prop := i < p ∨ n + p ≤ i ∧ i < n + 2 * p

/-- The result for a non-negative padding and a known mode. -/
theorem result {lc r : Cone R} {p : ℕ} {m : Mode} (h : paddingLightcone lc (some (p : ℤ)) (some m) = .ok r) {k : ℕ} (hk : k < lc.nz) :
    (∀ i j, r.val i j k = plane m p lc.nx lc.ny (fun a b => lc.val a b k) i j) ∧
      (0 < p → m ≠ .constant → 0 < lc.nx ∧ 0 < lc.ny) := by
  simp only [paddingLightcone, Option.getD_some] at h
  rw [if_neg (by omega), if_neg (by omega), if_neg (by omega)] at h
  by_cases hc : m ≠ .constant ∧ 0 < (p : ℤ) ∧ (lc.nx = 0 ∨ lc.ny = 0)
  · rw [if_pos hc] at h; exact absurd h (by simp)
  · rw [if_neg hc] at h
    cases h
    refine ⟨fun i j => by simp, fun hp hm => ?_⟩
    have : ¬(lc.nx = 0 ∨ lc.ny = 0) := fun h => hc ⟨hm, by omega, h⟩
    omega

/-- **C236**, size: both axes of the field of view grow by twice the padding, the line of sight keeps its length. -/
theorem C236_shape (lc r : Cone R) (p : ℤ) (m : Option Mode) (h : paddingLightcone lc (some p) m = .ok r) :
    (r.nx : ℤ) = lc.nx + 2 * p ∧ (r.ny : ℤ) = lc.ny + 2 * p ∧ r.nz = lc.nz := by
  simp only [paddingLightcone, Option.getD_some] at h
  split_ifs at h with h1 h2 h3
  · cases h; simp only; omega
  · cases m with
    | none => exact absurd h (by simp)
    | some m =>
      simp only at h
      split_ifs at h
      cases h; simp only [Nat.cast_add, Nat.cast_mul, Nat.cast_ofNat, Int.toNat_of_nonneg (Int.not_lt.mp h3), and_self]

/-- **C236**, default: half the number of cells of the second axis, rounded down, for both axes. -/
theorem C236_default (lc : Cone R) (m : Option Mode) (p : ℕ) (hp : 2 * p ≤ lc.ny) (hp' : lc.ny < 2 * p + 2) :
    paddingLightcone lc none m = paddingLightcone lc (some (p : ℤ)) m := by
  have : lc.ny / 2 = p := by omega
  simp only [paddingLightcone, Option.getD_some, Option.getD_none, this]

example (m : Option Mode) : paddingLightcone (⟨4, 5, 2, fun i j k => i + j * k⟩ : Cone ℚ) none m = paddingLightcone (⟨4, 5, 2, fun i j k => i + j * k⟩ : Cone ℚ) (some 2) m :=
  C236_default (⟨4, 5, 2, fun i j k => i + j * k⟩ : Cone ℚ) m 2 (by norm_num) (by norm_num)

/-- **C236**, middle: the lightcone itself is found unchanged in the middle, whatever the mode. -/
theorem C236_inside (lc r : Cone R) (p : ℕ) (m : Mode) (h : paddingLightcone lc (some (p : ℤ)) (some m) = .ok r)
    (a b k : ℕ) (ha : a < lc.nx) (hb : b < lc.ny) (hk : k < lc.nz) : r.val (a + p) (b + p) k = lc.val a b k := by
  rw [(result h hk).1, plane, line_inside _ _ _ _ _ hb, line_inside _ _ _ _ _ ha]

/-- **C236**, `wrap` (the default mode): the lightcone is continued periodically. -/
theorem C236_wrap (lc r : Cone R) (p : ℕ) (h : paddingLightcone lc (some (p : ℤ)) (some .wrap) = .ok r)
    (i j k a b : ℕ) (ha : a < lc.nx) (hb : b < lc.ny) (hk : k < lc.nz)
    (hi : (lc.nx : ℤ) ∣ (i : ℤ) - p - a) (hj : (lc.ny : ℤ) ∣ (j : ℤ) - p - b) : r.val i j k = lc.val a b k := by
  rw [(result h hk).1, plane, line_rep _ (by simp), line_rep _ (by simp), wrap_of _ a _ ha hi, wrap_of _ b _ hb hj]

/-- **C236**, `edge`: every cell of the result has the value of the nearest cell of its plane. -/
theorem C236_edge (lc r : Cone R) (p : ℕ) (h : paddingLightcone lc (some (p : ℤ)) (some .edge) = .ok r)
    (i j k a b : ℕ) (ha : a < lc.nx) (hb : b < lc.ny) (hk : k < lc.nz)
    (hi : ∀ a' < lc.nx, |(i : ℤ) - p - a| ≤ |(i : ℤ) - p - a'|) (hj : ∀ b' < lc.ny, |(j : ℤ) - p - b| ≤ |(j : ℤ) - p - b'|) :
    r.val i j k = lc.val a b k := by
  rw [(result h hk).1, plane, line_edge p _ _ j b hb hj, line_edge p _ _ i a ha hi]

/-- **C236**, `constant`: the border is zero. -/
theorem C236_constant (lc r : Cone R) (p : ℕ) (h : paddingLightcone lc (some (p : ℤ)) (some .constant) = .ok r)
    (i j k : ℕ) (hk : k < lc.nz) (hij : Border p lc.nx i ∨ Border p lc.ny j) : r.val i j k = 0 := by
  rw [(result h hk).1, plane]
  by_cases hj : j < p ∨ lc.ny + p ≤ j
  · rw [line_out _ _ _ _ _ hj]
  · have hi : i < p ∨ lc.nx + p ≤ i := by
      rcases hij with hi | hj'
      · rcases hi with hi | hi
        · exact Or.inl hi
        · exact Or.inr hi.1
      · exact absurd (by rcases hj' with hj' | hj'; exacts [Or.inl hj', Or.inr hj'.1]) hj
    rw [line.eq_def, if_pos (by omega), line_out _ _ _ _ _ hi]

/-- **C236**, `symmetric`: the result is its own mirror image at the faces of the lightcone, the outermost cells being repeated. -/
theorem C236_symmetric (lc r : Cone R) (p : ℕ) (h : paddingLightcone lc (some (p : ℤ)) (some .symmetric) = .ok r)
    (hx : 0 < lc.nx) (hy : 0 < lc.ny) (k : ℕ) (hk : k < lc.nz) :
    (∀ i i' j, i + i' + 1 = 2 * p ∨ i + i' + 1 = 2 * (p + lc.nx) → r.val i j k = r.val i' j k) ∧
      ∀ i j j', j + j' + 1 = 2 * p ∨ j + j' + 1 = 2 * (p + lc.ny) → r.val i j k = r.val i j' k := by
  have e := (result h hk).1
  have key : ∀ n i i' : ℕ, 0 < n → i + i' + 1 = 2 * p ∨ i + i' + 1 = 2 * (p + n) →
      repeated .symmetric n ((i : ℤ) - p) = repeated .symmetric n ((i' : ℤ) - p) := by
    intro n i i' hn hi
    have hf := symm_flip n hn ((i' : ℤ) - p)
    rcases hi with hi | hi
    · rw [← hf.1]; congr 1; omega
    · rw [← hf.2]; congr 1; omega
  constructor
  · intro i i' j hi
    rw [e, e, plane, plane, line_rep _ (by simp), line_rep _ (by simp), line_rep _ (by simp), line_rep _ (by simp), key _ i i' hx hi]
  · intro i j j' hj
    rw [e, e, plane, plane, line_rep _ (by simp), line_rep .symmetric (by simp) p lc.ny _ j', key _ j j' hy hj]

/-- **C236**, `reflect`: the result is its own mirror image at the outermost cells of the lightcone, which are not repeated. -/
theorem C236_reflect (lc r : Cone R) (p : ℕ) (h : paddingLightcone lc (some (p : ℤ)) (some .reflect) = .ok r)
    (hx : 0 < lc.nx) (hy : 0 < lc.ny) (k : ℕ) (hk : k < lc.nz) :
    (∀ i i' j, i + i' = 2 * p ∨ i + i' + 2 = 2 * (p + lc.nx) → r.val i j k = r.val i' j k) ∧
      ∀ i j j', j + j' = 2 * p ∨ j + j' + 2 = 2 * (p + lc.ny) → r.val i j k = r.val i j' k := by
  have e := (result h hk).1
  have key : ∀ n i i' : ℕ, 0 < n → i + i' = 2 * p ∨ i + i' + 2 = 2 * (p + n) →
      repeated .reflect n ((i : ℤ) - p) = repeated .reflect n ((i' : ℤ) - p) := by
    intro n i i' hn hi
    have hf := refl_flip n hn ((i' : ℤ) - p)
    rcases hi with hi | hi
    · rw [← hf.1]; congr 1; omega
    · rw [← hf.2]; congr 1; omega
  constructor
  · intro i i' j hi
    rw [e, e, plane, plane, line_rep _ (by simp), line_rep _ (by simp), line_rep _ (by simp), line_rep _ (by simp), key _ i i' hx hi]
  · intro i j j' hj
    rw [e, e, plane, plane, line_rep _ (by simp), line_rep .reflect (by simp) p lc.ny _ j', key _ j j' hy hj]

/-- **C236**, `maximum`: the border has the largest value of the row or column it continues, the corners have the largest of the plane. -/
theorem C236_maximum (lc r : Cone R) (p : ℕ) (h : paddingLightcone lc (some (p : ℤ)) (some .maximum) = .ok r)
    (hx : 0 < lc.nx) (hy : 0 < lc.ny) (i j k : ℕ) (hk : k < lc.nz) :
    (Border p lc.nx i → ∀ b < lc.ny, IsGreatest {v | ∃ a < lc.nx, v = lc.val a b k} (r.val i (b + p) k)) ∧
    (Border p lc.ny j → ∀ a < lc.nx, IsGreatest {v | ∃ b < lc.ny, v = lc.val a b k} (r.val (a + p) j k)) ∧
    (Border p lc.nx i → Border p lc.ny j → IsGreatest {v | ∃ a < lc.nx, ∃ b < lc.ny, v = lc.val a b k} (r.val i j k)) := by
  have e := (result h hk).1
  have out : ∀ n i, Border p n i → i < p ∨ n + p ≤ i := fun n i h => h.imp id And.left
  refine ⟨fun hi b hb => ?_, fun hj a ha => ?_, fun hi hj => ?_⟩
  · rw [e, plane, line_inside _ _ _ _ _ hb]
    obtain ⟨h1, a, ha, h2⟩ := line_max p lc.nx hx (fun a => lc.val a b k) i (out _ _ hi)
    exact ⟨⟨a, ha, h2⟩, fun v ⟨a, ha, hv⟩ => hv ▸ h1 a ha⟩
  · have : ∀ b, line Mode.maximum p lc.nx (fun a => lc.val a b k) (a + p) = lc.val a b k := fun b => line_inside _ _ _ _ _ ha
    rw [e, plane, line_congr _ _ _ _ _ this]
    obtain ⟨h1, b, hb, h2⟩ := line_max p lc.ny hy (fun b => lc.val a b k) j (out _ _ hj)
    exact ⟨⟨b, hb, h2⟩, fun v ⟨b, hb, hv⟩ => hv ▸ h1 b hb⟩
  · rw [e, plane]
    obtain ⟨h1, b, hb, h2⟩ := line_max p lc.ny hy (fun b => line Mode.maximum p lc.nx (fun a => lc.val a b k) i) j (out _ _ hj)
    refine ⟨?_, fun v ⟨a, ha, b, hb, hv⟩ => ?_⟩
    · obtain ⟨-, a, ha, h3⟩ := line_max p lc.nx hx (fun a => lc.val a b k) i (out _ _ hi)
      exact ⟨a, ha, b, hb, h2.trans h3⟩
    · rw [hv]
      exact le_trans ((line_max p lc.nx hx (fun a => lc.val a b k) i (out _ _ hi)).1 a ha) (h1 b hb)

/-- **C236**, `minimum`: the border has the least value of the row or column it continues, the corners have the least of the plane. -/
theorem C236_minimum (lc r : Cone R) (p : ℕ) (h : paddingLightcone lc (some (p : ℤ)) (some .minimum) = .ok r)
    (hx : 0 < lc.nx) (hy : 0 < lc.ny) (i j k : ℕ) (hk : k < lc.nz) :
    (Border p lc.nx i → ∀ b < lc.ny, IsLeast {v | ∃ a < lc.nx, v = lc.val a b k} (r.val i (b + p) k)) ∧
    (Border p lc.ny j → ∀ a < lc.nx, IsLeast {v | ∃ b < lc.ny, v = lc.val a b k} (r.val (a + p) j k)) ∧
    (Border p lc.nx i → Border p lc.ny j → IsLeast {v | ∃ a < lc.nx, ∃ b < lc.ny, v = lc.val a b k} (r.val i j k)) := by
  have e := (result h hk).1
  have out : ∀ n i, Border p n i → i < p ∨ n + p ≤ i := fun n i h => h.imp id And.left
  refine ⟨fun hi b hb => ?_, fun hj a ha => ?_, fun hi hj => ?_⟩
  · rw [e, plane, line_inside _ _ _ _ _ hb]
    obtain ⟨h1, a, ha, h2⟩ := line_min p lc.nx hx (fun a => lc.val a b k) i (out _ _ hi)
    exact ⟨⟨a, ha, h2⟩, fun v ⟨a, ha, hv⟩ => hv ▸ h1 a ha⟩
  · have : ∀ b, line Mode.minimum p lc.nx (fun a => lc.val a b k) (a + p) = lc.val a b k := fun b => line_inside _ _ _ _ _ ha
    rw [e, plane, line_congr _ _ _ _ _ this]
    obtain ⟨h1, b, hb, h2⟩ := line_min p lc.ny hy (fun b => lc.val a b k) j (out _ _ hj)
    exact ⟨⟨b, hb, h2⟩, fun v ⟨b, hb, hv⟩ => hv ▸ h1 b hb⟩
  · rw [e, plane]
    obtain ⟨h1, b, hb, h2⟩ := line_min p lc.ny hy (fun b => line Mode.minimum p lc.nx (fun a => lc.val a b k) i) j (out _ _ hj)
    refine ⟨?_, fun v ⟨a, ha, b, hb, hv⟩ => ?_⟩
    · obtain ⟨-, a, ha, h3⟩ := line_min p lc.nx hx (fun a => lc.val a b k) i (out _ _ hi)
      exact ⟨a, ha, b, hb, h2.trans h3⟩
    · rw [hv]
      exact le_trans (h1 b hb) ((line_min p lc.nx hx (fun a => lc.val a b k) i (out _ _ hi)).1 a ha)

/-- **C236**, `mean`: the border has the mean of the row or column it continues, the corners have the mean of the plane. -/
theorem C236_mean [IsStrictOrderedRing R] (lc r : Cone R) (p : ℕ) (h : paddingLightcone lc (some (p : ℤ)) (some .mean) = .ok r)
    (hx : 0 < lc.nx) (hy : 0 < lc.ny) (i j k : ℕ) (hk : k < lc.nz) :
    (Border p lc.nx i → ∀ b < lc.ny, r.val i (b + p) k * lc.nx = ∑ a ∈ Finset.range lc.nx, lc.val a b k) ∧
    (Border p lc.ny j → ∀ a < lc.nx, r.val (a + p) j k * lc.ny = ∑ b ∈ Finset.range lc.ny, lc.val a b k) ∧
    (Border p lc.nx i → Border p lc.ny j →
      r.val i j k * (lc.nx * lc.ny) = ∑ a ∈ Finset.range lc.nx, ∑ b ∈ Finset.range lc.ny, lc.val a b k) := by
  have e := (result h hk).1
  have out : ∀ n i, Border p n i → i < p ∨ n + p ≤ i := fun n i h => h.imp id And.left
  refine ⟨fun hi b hb => ?_, fun hj a ha => ?_, fun hi hj => ?_⟩
  · rw [e, plane, line_inside _ _ _ _ _ hb, line_mean p _ hx _ _ (out _ _ hi)]
  · have : ∀ b, line Mode.mean p lc.nx (fun a => lc.val a b k) (a + p) = lc.val a b k := fun b => line_inside _ _ _ _ _ ha
    rw [e, plane, line_congr _ _ _ _ _ this, line_mean p _ hy _ _ (out _ _ hj)]
  · rw [e, plane, mul_comm (lc.nx : R), ← mul_assoc, line_mean p _ hy _ _ (out _ _ hj), Finset.sum_mul, Finset.sum_comm]
    exact Finset.sum_congr rfl fun b _ => line_mean p _ hx _ _ (out _ _ hi)

/-- **C236**, `linear_ramp`: from the outermost cell of the lightcone to the end of the border the values fall in equal steps, to zero at the end. -/
theorem C236_ramp [IsStrictOrderedRing R] (lc r : Cone R) (p : ℕ) (h : paddingLightcone lc (some (p : ℤ)) (some .linearRamp) = .ok r)
    (hx : 0 < lc.nx) (hy : 0 < lc.ny) (k : ℕ) (hk : k < lc.nz) (d : ℕ) (hd : d < p) :
    (∀ j, r.val d j k * p = r.val p j k * d ∧ r.val (lc.nx + 2 * p - 1 - d) j k * p = r.val (lc.nx - 1 + p) j k * d) ∧
      ∀ i, r.val i d k * p = r.val i p k * d ∧ r.val i (lc.ny + 2 * p - 1 - d) k * p = r.val i (lc.ny - 1 + p) k * d := by
  have e := (result h hk).1
  constructor
  · intro j
    have e1 : ∀ b, line Mode.linearRamp p lc.nx (fun a => lc.val a b k) p = lc.val 0 b k := fun b => by
      simpa using line_inside Mode.linearRamp p lc.nx (fun a => lc.val a b k) 0 hx
    have e2 : ∀ b, line Mode.linearRamp p lc.nx (fun a => lc.val a b k) (lc.nx - 1 + p) = lc.val (lc.nx - 1) b k := fun b =>
      line_inside _ _ _ _ _ (by omega)
    rw [e, e, e, e]
    simp only [plane]
    rw [← ramp_smul, ← ramp_smul, ← ramp_smul, ← ramp_smul]
    constructor
    · refine line_congr _ _ _ _ _ (fun b => ?_) _
      rw [(line_ramp p _ hx _ d hd).1, e1]
    · refine line_congr _ _ _ _ _ (fun b => ?_) _
      rw [(line_ramp p _ hx _ d hd).2, e2]
  · intro i
    rw [e, e, e, e]
    simp only [plane]
    have l0 := line_inside Mode.linearRamp p lc.ny (fun b => line Mode.linearRamp p lc.nx (fun a => lc.val a b k) i) 0 hy
    rw [Nat.zero_add] at l0
    rw [l0, line_inside _ _ _ _ (lc.ny - 1) (by omega)]
    exact line_ramp p _ hy _ d hd

/-- **C236**, errors: the call raises exactly for a padding that is negative beyond the size of the array, and, if the lightcone has planes at all, for a
negative padding, for a mode that is not known, and for an axis without cells that is to be continued with anything but zeros. -/
theorem C236_error (lc : Cone R) (p : ℤ) (m : Option Mode) : (∃ e, paddingLightcone lc (some p) m = .error e) ↔
    (lc.nx + 2 * p < 0 ∨ lc.ny + 2 * p < 0) ∨ (0 < lc.nz ∧ (p < 0 ∨ m = none ∨
      (m ≠ some .constant ∧ 0 < p ∧ (lc.nx = 0 ∨ lc.ny = 0)))) := by
  simp only [paddingLightcone, Option.getD_some]
  split_ifs with h1 h2 h3
  · simp [h1]
  · simp [h2, h1]
  · simp [h1, h3, Nat.pos_of_ne_zero h2]
  · cases m with
    | none => simp [Nat.pos_of_ne_zero h2]
    | some m =>
      simp only
      split_ifs with h4
      · simp only [Option.some.injEq, ne_eq]
        refine ⟨fun _ => Or.inr ⟨Nat.pos_of_ne_zero h2, Or.inr (Or.inr h4)⟩, fun _ => ⟨_, rfl⟩⟩
      · simp only [reduceCtorEq, exists_false, false_iff, not_or, not_and]
        refine ⟨not_or.mp h1, fun _ => ⟨h3, fun h => h.elim, fun a b => ?_⟩⟩
        exact not_or.mp fun c => h4 ⟨fun h => a (congrArg some h), b, c⟩

/-- Two planes of 2 by 3 cells. -/
def sample : Cone ℚ := ⟨2, 3, 2, fun i j k => 10 * i + j + 100 * k⟩

/-- The sizes and the errors: `C236_shape`, `C236_default`, `C236_error`. -/
example : (∃ r, paddingLightcone sample (some 2) (some .wrap) = .ok r ∧ r.nx = 6 ∧ r.ny = 7 ∧ r.nz = 2) ∧
    2 * 1 ≤ sample.ny ∧ sample.ny < 2 * 1 + 2 ∧
    paddingLightcone sample (some (-1)) (some .wrap) = .error "ValueError: index can't contain negative values" := by
  refine ⟨⟨_, rfl, rfl, rfl, rfl⟩, by decide, by decide, rfl⟩

/-- Cells of the border in every mode. -/
example : plane .wrap 2 2 3 (fun a b => sample.val a b 1) 1 6 = 111 ∧ plane .edge 2 2 3 (fun a b => sample.val a b 1) 1 6 = 102 ∧
    plane .constant 2 2 3 (fun a b => sample.val a b 1) 1 6 = 0 ∧ plane .symmetric 2 2 3 (fun a b => sample.val a b 1) 1 6 = 101 ∧
    plane .reflect 2 2 3 (fun a b => sample.val a b 1) 1 6 = 110 ∧ plane .maximum 2 2 3 (fun a b => sample.val a b 1) 1 6 = 112 ∧
    plane .minimum 2 2 3 (fun a b => sample.val a b 1) 1 6 = 100 ∧ plane .mean 2 2 3 (fun a b => sample.val a b 1) 1 6 = 106 ∧
    plane .linearRamp 2 2 3 (fun a b => sample.val a b 1) 1 5 = 51 / 2 := by decide +kernel

/-- The hypotheses of the theorems on the modes. -/
example (m : Mode) : (∃ r, paddingLightcone sample (some 2) (some m) = .ok r) ∧ 0 < sample.nx ∧ 0 < sample.ny ∧ 1 < sample.nz ∧
    Border 2 sample.nx 1 ∧ Border 2 sample.ny 6 ∧ (sample.nx : ℤ) ∣ (1 : ℤ) - 2 - 1 ∧ (sample.ny : ℤ) ∣ (6 : ℤ) - 2 - 1 := by
  refine ⟨?_, by decide, by decide, by decide, Or.inl (by decide), ?_, by decide +kernel, by decide +kernel⟩
  · cases m <;> exact ⟨_, rfl⟩
  · exact Or.inr (by decide)

end Verif.PadCone
