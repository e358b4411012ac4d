import Verif.Model.VelocityCone
import Verif.Props.Lightcone
import Verif.Lemmas.UVResponse
import Mathlib.Tactic.FieldSimp
import Mathlib.Tactic.Linarith
/-!
# C237: light cones of velocities

Every cell of a light cone of velocities is the linear interpolation, component by component, between the velocities of the two snapshots around its redshift, in
the cell of the box that lies at the same place across the line of sight and, along it, at the position of the slice modulo the side of the box.
-/

namespace Verif.VelocityCone

open Verif.Lightcone

variable {K : Type} [Field K] [LinearOrder K] [IsStrictOrderedRing K]

/-! ## Specification -/

/-- The cell of a box at position `s` along the axis, and `i`, `j` across it. -/
def value (d : Field3 K) (axis : ℤ) (c : Fin 3) (s i j : ℕ) : K :=
  if axis = 0 then d.val c s i j else if axis = 1 then d.val c i s j else d.val c i j s

/-- The side of a box along an axis. -/
def side (d : Field3 K) (axis : ℤ) : ℕ := if axis = 0 then d.n0 else if axis = 1 then d.n1 else d.n2

/-! ## Lemmas -/

theorem sliceOf_ok {d : Field3 K} {idx : ℕ} {axis : ℤ} {p : Plane K} (h : sliceOf d idx axis = .ok p) :
    (axis = 0 ∨ axis = 1 ∨ axis = 2) ∧ idx < side d axis ∧ ∀ c i j, p.val c i j = value d axis c idx i j := by
  unfold sliceOf at h
  by_cases h0 : axis = 0
  · subst h0
    simp only [if_true] at h
    split_ifs at h with hi
    cases h
    exact ⟨Or.inl rfl, by simpa [side] using hi, fun c i j => by simp [value]⟩
  · by_cases h1 : axis = 1
    · subst h1
      simp only [if_neg h0, if_true] at h
      split_ifs at h with hi
      cases h
      exact ⟨Or.inr (Or.inl rfl), by simpa [side] using hi, fun c i j => by simp [value]⟩
    · by_cases h2 : axis = 2
      · subst h2
        simp only [if_neg h0, if_neg h1, if_true] at h
        split_ifs at h with hi
        cases h
        exact ⟨Or.inr (Or.inr rfl), by simpa [side] using hi, fun c i j => by simp [value]⟩
      · simp only [if_neg h0, if_neg h1, if_neg h2] at h
        exact absurd h (by simp)

theorem slice_ok {axis : ℤ} {m0 m1 : ℕ} {u : Used K (Field3 K)} {p : Plane K} (h : slice axis m0 m1 u = .ok p) (c : Fin 3) (i j : ℕ) :
    p.val c i j = ((u.z - u.zLow) * value u.dataHigh axis c (u.pos % u.dataLow.n0) i j +
      (u.zHigh - u.z) * value u.dataLow axis c (u.pos % u.dataLow.n0) i j) / (u.zHigh - u.zLow) := by
  unfold slice at h
  simp only at h
  cases hl : sliceOf u.dataLow (u.pos % u.dataLow.n0) axis with
  | error e => rw [hl] at h; exact absurd h (by simp)
  | ok lo =>
    cases hh : sliceOf u.dataHigh (u.pos % u.dataLow.n0) axis with
    | error e => rw [hl, hh] at h; exact absurd h (by simp)
    | ok hi =>
      rw [hl, hh] at h
      simp only at h
      split_ifs at h
      cases h
      simp only
      rw [(sliceOf_ok hl).2.2, (sliceOf_ok hh).2.2]

theorem mapM_get {α β ε : Type} (f : α → Except ε β) : ∀ (l : List α) (r : List β), l.mapM f = .ok r →
    r.length = l.length ∧ ∀ (k : ℕ) a, l[k]? = some a → ∃ b, r[k]? = some b ∧ f a = .ok b := by
  intro l
  induction l with
  | nil => intro r h; cases h; simp
  | cons a l ih =>
    intro r h
    rw [List.mapM_cons] at h
    cases ha : f a with
    | error e => rw [ha] at h; exact absurd h (by rintro ⟨⟩)
    | ok b =>
      rw [ha] at h
      cases hl : l.mapM f with
      | error e => rw [hl] at h; exact absurd h (by rintro ⟨⟩)
      | ok bs =>
        rw [hl] at h
        have hr : r = b :: bs := by cases h; rfl
        subst hr
        obtain ⟨h1, h2⟩ := ih bs hl
        refine ⟨by simp [h1], fun k x hk => ?_⟩
        cases k with
        | zero => simp only [List.getElem?_cons_zero, Option.some.injEq] at hk; subst hk; exact ⟨b, rfl, ha⟩
        | succ k => simp only [List.getElem?_cons_succ] at hk ⊢; exact h2 k x hk

/-! ## The property -/

/-- **C237** for boxes whose side along the line of sight is that of their first axis (cubic boxes, and any box along the first axis): one slice for every output redshift, every cell the linear
interpolation between the two snapshots around the redshift, component by component. -/
theorem C237_partial (read : ℕ → Field3 K) (zs out : List K) (axis : ℤ) (m0 m1 : ℕ) (r : Cone K)
    (h : velocityLightcone read zs out axis m0 m1 = .ok r) (n : ℕ) (hn : ∀ a < zs.length, (read a).n0 = n ∧ side (read a) axis = n) :
    r.n = m0 ∧ r.m = m1 ∧ r.l = out.length ∧ ∀ k z, out[k]? = some z → ∃ (lo hi : K) (a b : ℕ),
      IsLower zs z lo ∧ IsUpper zs z hi ∧ zs[a]? = some lo ∧ zs[b]? = some hi ∧ k % n < n ∧
      ∀ c i j, r.val c i j k = ((z - lo) * value (read b) axis c (k % n) i j + (hi - z) * value (read a) axis c (k % n) i j) / (hi - lo) := by
  unfold velocityLightcone at h
  cases hu : velocitySlices read zs out with
  | error e => rw [hu] at h; exact absurd h (by simp)
  | ok us =>
    rw [hu] at h
    simp only at h
    cases hp : us.mapM (slice axis m0 m1) with
    | error e => rw [hp] at h; exact absurd h (by simp)
    | ok ps =>
      rw [hp] at h
      cases h
      obtain ⟨hlen, hcor⟩ := velocity_slices_correct read zs out us hu
      obtain ⟨_, hget⟩ := mapM_get _ us ps hp
      refine ⟨rfl, rfl, rfl, fun k z hk => ?_⟩
      have hku : k < us.length := by rw [hlen]; exact (List.getElem?_eq_some_iff.mp hk).1
      obtain ⟨u, hu'⟩ : ∃ u, us[k]? = some u := ⟨us[k], List.getElem?_eq_getElem hku⟩
      have co := hcor k z u hk hu'
      obtain ⟨p, hp1, hp2⟩ := hget k u hu'
      obtain ⟨a, ha, hda⟩ := co.dataLower
      obtain ⟨b, hb, hdb⟩ := co.dataUpper
      have hna := hn a (List.getElem?_eq_some_iff.mp ha).1
      refine ⟨u.zLow, u.zHigh, a, b, co.lower, co.upper, ha, hb, ?_, fun c i j => ?_⟩
      · have hs : ∃ q, sliceOf u.dataLow (u.pos % u.dataLow.n0) axis = .ok q := by
          unfold slice at hp2
          simp only at hp2
          cases hq : sliceOf u.dataLow (u.pos % u.dataLow.n0) axis with
          | error e => rw [hq] at hp2; exact absurd hp2 (by simp)
          | ok q => exact ⟨q, rfl⟩
        obtain ⟨q, hq⟩ := hs
        have := (sliceOf_ok hq).2.1
        rwa [hda, hna.1, hna.2, co.pos_eq] at this
      · simp only [hp1]
        rw [slice_ok hp2, co.pos_eq, co.z_eq, hda, hdb, hna.1]

theorem between (lo hi z a b : K) (h1 : lo ≤ z) (h2 : z < hi) : min a b ≤ ((z - lo) * b + (hi - z) * a) / (hi - lo) ∧
    ((z - lo) * b + (hi - z) * a) / (hi - lo) ≤ max a b ∧ (z = lo → ((z - lo) * b + (hi - z) * a) / (hi - lo) = a) := by
  have hd : 0 < hi - lo := by linarith
  refine ⟨?_, ?_, ?_⟩
  · rw [le_div_iff₀ hd]
    have h3 : (z - lo) * min a b ≤ (z - lo) * b := mul_le_mul_of_nonneg_left (min_le_right a b) (by linarith)
    have h4 : (hi - z) * min a b ≤ (hi - z) * a := mul_le_mul_of_nonneg_left (min_le_left a b) (by linarith)
    linarith
  · rw [div_le_iff₀ hd]
    have h3 : (z - lo) * b ≤ (z - lo) * max a b := mul_le_mul_of_nonneg_left (le_max_right a b) (by linarith)
    have h4 : (hi - z) * a ≤ (hi - z) * max a b := mul_le_mul_of_nonneg_left (le_max_left a b) (by linarith)
    linarith
  · rintro rfl
    rw [sub_self, zero_mul, zero_add, mul_div_cancel_left₀ _ hd.ne']

/-- **C237**, range: every component lies between those of the two snapshots, and at the redshift of a snapshot it is that of the snapshot. -/
theorem C237_between (read : ℕ → Field3 K) (zs out : List K) (axis : ℤ) (m0 m1 : ℕ) (r : Cone K)
    (h : velocityLightcone read zs out axis m0 m1 = .ok r) (n : ℕ) (hn : ∀ a < zs.length, (read a).n0 = n ∧ side (read a) axis = n)
    (k : ℕ) (z : K) (hk : out[k]? = some z) : ∃ (lo hi : K) (a b : ℕ), IsLower zs z lo ∧ IsUpper zs z hi ∧ zs[a]? = some lo ∧ zs[b]? = some hi ∧
      ∀ c i j, min (value (read a) axis c (k % n) i j) (value (read b) axis c (k % n) i j) ≤ r.val c i j k ∧
        r.val c i j k ≤ max (value (read a) axis c (k % n) i j) (value (read b) axis c (k % n) i j) ∧
        (z = lo → r.val c i j k = value (read a) axis c (k % n) i j) := by
  obtain ⟨lo, hi, a, b, h1, h2, h3, h4, -, h5⟩ := (C237_partial read zs out axis m0 m1 r h n hn).2.2.2 k z hk
  exact ⟨lo, hi, a, b, h1, h2, h3, h4, fun c i j => by rw [h5]; exact between lo hi z _ _ h1.2.1 h2.2.1⟩

/-- The sides of a box across an axis. -/
def across (n0 n1 n2 : ℕ) (axis : ℤ) : ℕ × ℕ := if axis = 0 then (n1, n2) else if axis = 1 then (n0, n2) else (n0, n1)

theorem slice_iff (axis : ℤ) (ha : axis = 0 ∨ axis = 1 ∨ axis = 2) (n0 n1 n2 m0 m1 : ℕ) (h0 : 0 < n0) (h1 : axis = 1 → n0 ≤ n1)
    (h2 : axis = 2 → n0 ≤ n2) (u : Used K (Field3 K)) (hl : u.dataLow.n0 = n0 ∧ u.dataLow.n1 = n1 ∧ u.dataLow.n2 = n2)
    (hh : u.dataHigh.n0 = n0 ∧ u.dataHigh.n1 = n1 ∧ u.dataHigh.n2 = n2) :
    (∃ p, slice axis m0 m1 u = .ok p) ↔ (m0, m1) = across n0 n1 n2 axis := by
  have hm := Nat.mod_lt u.pos h0
  unfold slice sliceOf across
  simp only [hl, hh]
  rcases ha with rfl | rfl | rfl
  · simp only [if_true, hm, Prod.mk.injEq]
    split_ifs with h <;> simp <;> tauto
  · simp only [if_true, lt_of_lt_of_le hm (h1 rfl), Prod.mk.injEq, one_ne_zero, if_false]
    split_ifs with h <;> simp <;> tauto
  · simp only [if_true, lt_of_lt_of_le hm (h2 rfl), Prod.mk.injEq, OfNat.ofNat_ne_zero, if_false, show ¬(2 : ℤ) = 1 by decide]
    split_ifs with h <;> simp <;> tauto

/-- **C237**, errors: for boxes of one shape that are along the line of sight at least as long as their first side, the call returns a light cone exactly if there are
snapshots on both sides of every output redshift and the mesh of the first file is that of the boxes across the line of sight; this is always so for cubic boxes. -/
theorem C237_error (read : ℕ → Field3 K) (zs out : List K) (axis : ℤ) (ha : axis = 0 ∨ axis = 1 ∨ axis = 2) (n0 n1 n2 m0 m1 : ℕ) (h0 : 0 < n0)
    (h1 : axis = 1 → n0 ≤ n1) (h2 : axis = 2 → n0 ≤ n2) (hc : ∀ a < zs.length, (read a).n0 = n0 ∧ (read a).n1 = n1 ∧ (read a).n2 = n2) :
    (∃ r, velocityLightcone read zs out axis m0 m1 = .ok r) ↔
      (∀ z ∈ out, Bracketed zs z) ∧ (out ≠ [] → (m0, m1) = across n0 n1 n2 axis) := by
  by_cases hb : ∀ z ∈ out, Bracketed zs z
  swap
  · refine ⟨?_, fun h => absurd h.1 hb⟩
    rintro ⟨r, h⟩
    push Not at hb
    have := ((slices_ok_iff read zs out).2 hb).2
    simp only [velocityLightcone, this] at h
    exact absurd h (by simp)
  obtain ⟨us, hu⟩ := ((slices_ok_iff read zs out).1 hb).2
  obtain ⟨hlen, hcor⟩ := velocity_slices_correct read zs out us hu
  have hall : ∀ u ∈ us, (∃ p, slice axis m0 m1 u = .ok p) ↔ (m0, m1) = across n0 n1 n2 axis := by
    intro u hm
    obtain ⟨k, hk⟩ := List.getElem?_of_mem hm
    have hko : k < out.length := by rw [← hlen]; exact (List.getElem?_eq_some_iff.mp hk).1
    have co := hcor k out[k] u (List.getElem?_eq_getElem hko) hk
    obtain ⟨a, ha', hda⟩ := co.dataLower
    obtain ⟨b, hb', hdb⟩ := co.dataUpper
    exact slice_iff axis ha n0 n1 n2 m0 m1 h0 h1 h2 u (by rw [hda]; exact hc a (List.getElem?_eq_some_iff.mp ha').1)
      (by rw [hdb]; exact hc b (List.getElem?_eq_some_iff.mp hb').1)
  have hex : (∃ ps, us.mapM (slice axis m0 m1) = .ok ps) ↔ (us ≠ [] → (m0, m1) = across n0 n1 n2 axis) := by
    clear hu hlen hcor
    induction us with
    | nil => exact ⟨fun _ h => absurd rfl h, fun _ => ⟨[], rfl⟩⟩
    | cons u us ih =>
      have ih := ih fun v hv => hall v (by simp [hv])
      constructor
      · rintro ⟨ps, hps⟩ -
        refine (hall u (by simp)).mp ?_
        rw [List.mapM_cons] at hps
        cases hp : slice axis m0 m1 u with
        | error e => rw [hp] at hps; exact absurd hps (by simp [bind, Except.bind])
        | ok p => exact ⟨p, rfl⟩
      · intro h
        obtain ⟨p, hp⟩ := (hall u (by simp)).mpr (h (by simp))
        obtain ⟨ps, hps⟩ := ih.mpr fun _ => h (by simp)
        exact ⟨p :: ps, by rw [List.mapM_cons, hp, hps]; rfl⟩
  have hne : us ≠ [] ↔ out ≠ [] := by rw [← List.length_pos_iff, ← List.length_pos_iff, hlen]
  constructor
  · rintro ⟨r, h⟩
    refine ⟨hb, fun ho => hex.mp ?_ (hne.mpr ho)⟩
    simp only [velocityLightcone, hu] at h
    cases hp : us.mapM (slice axis m0 m1) with
    | error e => rw [hp] at h; exact absurd h (by simp)
    | ok ps => exact ⟨ps, rfl⟩
  · rintro ⟨-, h⟩
    obtain ⟨ps, hps⟩ := hex.mpr fun hu => h (hne.mp hu)
    exact ⟨_, by simp only [velocityLightcone, hu, hps]; rfl⟩

/-- Boxes of 2 by 2 by 3 cells. -/
def long (a : ℕ) : Field3 ℚ := ⟨2, 2, 3, fun c _ _ k => 100 * a + 10 * k + (c : ℕ)⟩

/-- **C237** is false of the code for other boxes: the third slice along the third axis is that of the first cells of the box, though the box has three. -/
theorem C237_false : ∃ r : Cone ℚ, velocityLightcone long [6, 7] [6, 6, 6] 2 2 2 = .ok r ∧ side (long 0) 2 = 3 ∧
    r.val 0 0 0 2 = value (long 0) 2 0 0 0 0 ∧ r.val 0 0 0 2 ≠ value (long 0) 2 0 2 0 0 := by
  refine ⟨_, rfl, by decide, ?_, ?_⟩ <;> decide +kernel

/-- Cubic boxes of two cells, for `C237_partial` and `C237_error`. -/
def small (a : ℕ) : Field3 ℚ := ⟨2, 2, 2, fun c _ _ k => 100 * a + 10 * k + (c : ℕ)⟩

example : (∃ r, velocityLightcone small [6, 7, 8] [6, 13 / 2, 7] 1 2 2 = .ok r) ∧ (∀ a < 3, (small a).n0 = 2 ∧ side (small a) 1 = 2) ∧
    ¬Bracketed ([6, 7, 8] : List ℚ) 8 := by
  refine ⟨(C237_error small [6, 7, 8] [6, 13 / 2, 7] 1 (by simp) 2 2 2 2 2 (by simp) (by simp) (by simp) fun a _ => ⟨rfl, rfl, rfl⟩).mpr ⟨?_, fun _ => rfl⟩, fun a _ => ⟨rfl, rfl⟩, ?_⟩
  · intro z hz
    simp only [List.mem_cons, List.not_mem_nil, or_false] at hz
    rcases hz with rfl | rfl | rfl
    · exact ⟨⟨6, by simp, by norm_num⟩, 7, by simp, by norm_num⟩
    · exact ⟨⟨6, by simp, by norm_num⟩, 7, by simp, by norm_num⟩
    · exact ⟨⟨6, by simp, by norm_num⟩, 8, by simp, by norm_num⟩
  rintro ⟨-, x, hx, h8⟩
  simp only [List.mem_cons, List.not_mem_nil, or_false] at hx
  rcases hx with rfl | rfl | rfl <;> norm_num at h8

/-- The long boxes along the first axis do not fit into a mesh of 2 by 2 cells. -/
example : ¬∃ r, velocityLightcone long [6, 7] [6] 0 2 2 = .ok r := by
  rw [C237_error long [6, 7] [6] 0 (by simp) 2 2 3 2 2 (by simp) (by simp) (by simp) fun a _ => ⟨rfl, rfl, rfl⟩]
  exact fun h => absurd (h.2 (by simp)) (by decide)

end Verif.VelocityCone
