import Verif.Props.Temperature
import Mathlib.Data.Fintype.BigOperators
import Mathlib.Data.List.GetD
import Mathlib.Algebra.BigOperators.Fin
import Mathlib.Topology.Algebra.Order.Field
/-!
# The brightness temperature of lightcones, with spin temperatures, and of halos

C101, C102 and C103.
-/

namespace Verif.Temperature

open Verif.Constants Verif.Convolve Verif.Conversions

/-! ## C101: lightcones -/

/-- The redshift of the slice that is `j` cells behind one at redshift `lowest`, where a box of the length
`LB` has `n` cells. -/
noncomputable def sliceRedshift (LB : ℝ) (toDist toZ : ℝ → ℝ) (n : ℕ) (lowest : ℝ) (j : ℤ) : ℝ :=
  toZ (toDist lowest + j * (LB / n))

theorem broadcast_last (f : ℝ → ℝ → ℝ) (l : List ℝ) (b : Cube) (h : l.length = b.shape 2) :
    broadcast f (lastAxis l) b =
      .ok ⟨b.shape, fun i => f (l.getD (clip (lastAxis l).shape i 2).toNat 0) (b.val (clip b.shape i))⟩ := by
  have h0 : (lastAxis l).shape 0 = 1 := rfl
  have h1 : (lastAxis l).shape 1 = 1 := rfl
  have h2 : (lastAxis l).shape 2 = b.shape 2 := h
  unfold broadcast
  rw [if_pos]
  · congr 2
    funext j
    match j with
    | 0 => rw [if_pos h0]
    | 1 => rw [if_pos h1]
    | 2 => rw [h2, ite_self]
  · intro j
    match j with
    | 0 => exact .inr (.inl h0)
    | 1 => exact .inr (.inl h1)
    | 2 => exact .inl h2

theorem dt_last (k : Const) (rho xi : Cube) (l : List ℝ) (h : xi.shape = rho.shape)
    (hne : box rho.shape ≠ ∅) (hl : l.length = xi.shape 2) :
    ∃ out, dt k rho xi (lastAxis l) = .ok out ∧ out.shape = xi.shape ∧
      ∀ i ∈ box xi.shape,
        out.val i = l.getD (i 2).toNat 0 * (1 - xi.val i) * rho.val i / rhoMean k rho := by
  unfold dt
  rw [if_neg hne, broadcast_last _ _ _ hl]
  simp only []
  rw [broadcast_same _ _ _ (by exact h)]
  refine ⟨_, rfl, rfl, fun i hi => ?_⟩
  have e : clip (lastAxis l).shape i 2 = i 2 := by
    have := (mem_box _ _).mp hi 2
    unfold clip
    have e2 : (lastAxis l).shape 2 = xi.shape 2 := hl
    rw [e2]
    split
    · next e => rw [e] at this; push_cast at this; omega
    · rfl
  simp only [clip_mem hi, e]

theorem slices_get (LB : ℝ) (toDist toZ : ℝ → ℝ) (n m : ℕ) (lowest : ℝ) (g : ℝ → ℝ) (j : ℤ) (hj : 0 ≤ j)
    (hm : j < m) :
    (((List.range m).map fun (i : ℕ) => toZ ((i : ℝ) * (LB / n) + toDist lowest)).map g).getD j.toNat 0 =
      g (sliceRedshift LB toDist toZ n lowest j) := by
  have h : j.toNat < m := by omega
  rw [List.getD_eq_getElem?_getD, List.getElem?_map, List.getElem?_map, List.getElem?_range h]
  have e : ((j.toNat : ℕ) : ℝ) = (j : ℝ) := by
    have : ((j.toNat : ℕ) : ℤ) = j := Int.toNat_of_nonneg hj
    exact_mod_cast this
  simp only [Option.map_some, Option.getD_some]
  unfold sliceRedshift
  rw [e, add_comm]

theorem lengths_pos {s : Fin 3 → ℕ} (h : (box s).Nonempty) (j : Fin 3) : 0 < s j := by
  obtain ⟨i, hi⟩ := h
  have := (mem_box _ _).mp hi j
  omega

/-- **C101 (part).**  With the line of sight along the last axis, every slice of a lightcone gets the mean
signal at its own redshift, that of the comoving distance at which it lies. -/
theorem C101_partial (meandt : ℝ) (k : Const) (LB : ℝ) (toDist toZ : ℝ → ℝ) (xi rho : Cube) (lowest : ℝ)
    (los : ℤ) (hlos : los = 2 ∨ los = -1)
    (hs : xi.shape = rho.shape) (hne : (box rho.shape).Nonempty) (hr : ∀ i ∈ box rho.shape, 0 ≤ rho.val i) :
    ∃ out, calcDtLightcone meandt k LB toDist toZ xi rho lowest los = .ok out ∧ out.shape = xi.shape ∧
      ∀ i ∈ box xi.shape,
        out.val i = meanDt meandt k (sliceRedshift LB toDist toZ (xi.shape 0) lowest (i 2)) *
          (1 - xi.val i) * rho.val i / (k.rhoCrit0 * k.omegaB) := by
  have hn : xi.shape 0 ≠ 0 := by rw [hs]; exact (lengths_pos hne 0).ne'
  have hz : sliceZ LB toDist toZ xi lowest los =
      .ok ((List.range (xi.shape 2)).map fun (i : ℕ) => toZ ((i : ℝ) * (LB / xi.shape 0) + toDist lowest)) := by
    unfold sliceZ
    rcases hlos with h | h <;> subst h
    · exact if_neg hn
    · exact if_neg hn
  obtain ⟨out, h1, h2, h3⟩ := dt_last k rho xi
    (((List.range (xi.shape 2)).map fun (i : ℕ) => toZ ((i : ℝ) * (LB / xi.shape 0) + toDist lowest)).map
      (meanDt meandt k)) hs hne.ne_empty (by simp)
  refine ⟨out, ?_, h2, fun i hi => ?_⟩
  · unfold calcDtLightcone
    rw [hz]
    exact h1
  · have hi2 := (mem_box _ _).mp hi 2
    rw [h3 i hi, slices_get _ _ _ _ _ _ _ _ hi2.1 hi2.2]
    unfold rhoMean
    rw [if_pos hr]

example : ∃ out, calcDtLightcone 1 (Const.init 3) 10 id id (eight fun _ => 0) (eight fun n => n) 7 2 = .ok out ∧
    out.val ![1, 0, 1] = meanDt 1 (Const.init 3) 12 * 5 / ((Const.init 3).rhoCrit0 * (Const.init 3).omegaB) := by
  obtain ⟨out, h1, -, h3⟩ := C101_partial 1 (Const.init 3) 10 id id (eight fun _ => 0) (eight fun n => n) 7 2
    (.inl rfl) rfl (eight_ne _) (by
      intro i hi
      have h := (mem_box _ i).mp hi
      have h0 := (h 0).1
      have h1 := (h 1).1
      have h2 := (h 2).1
      have : 0 ≤ i 0 + 2 * i 1 + 4 * i 2 := by omega
      show (0 : ℝ) ≤ ((i 0 + 2 * i 1 + 4 * i 2 : ℤ) : ℝ)
      exact_mod_cast this)
  refine ⟨out, h1, ?_⟩
  rw [h3 _ (eight_mem _ 1 0 1 (by decide) (by decide) (by decide))]
  have e : (![1, 0, 1] : Fin 3 → ℤ) 2 = 1 := rfl
  have e' : (eight fun _ => (0 : ℝ)).shape 0 = 2 := rfl
  rw [e, e', eight_val, eight_val]
  norm_num [sliceRedshift]

/-- **C101, growth.**  If redshift grows with distance, neutral gas of a given density gives the more signal the
farther away its slice is. -/
theorem C101_grows (meandt : ℝ) (hm : 0 < meandt) (k : Const) (p : Open k) (hk : 0 < k.rhoCrit0 * k.omegaB)
    (LB : ℝ) (hL : 0 < LB) (toDist toZ : ℝ → ℝ) (hz : StrictMono toZ) (hz1 : ∀ d, -1 < toZ d)
    (xi rho : Cube) (lowest : ℝ)
    (hs : xi.shape = rho.shape) (hne : (box rho.shape).Nonempty) (hr : ∀ i ∈ box rho.shape, 0 ≤ rho.val i)
    {i j : Fin 3 → ℤ} (hi : i ∈ box xi.shape) (hj : j ∈ box xi.shape) (hij : i 2 < j 2)
    (hx : xi.val i = xi.val j) (hx1 : xi.val i < 1) (hd : rho.val i = rho.val j) (hd0 : rho.val i ≠ 0) :
    ∃ out, calcDtLightcone meandt k LB toDist toZ xi rho lowest 2 = .ok out ∧ out.val i < out.val j := by
  obtain ⟨out, h1, -, h3⟩ := C101_partial meandt k LB toDist toZ xi rho lowest 2 (.inl rfl) hs hne hr
  refine ⟨out, h1, ?_⟩
  rw [h3 i hi, h3 j hj, ← hx, ← hd]
  have hk' : (0 : ℝ) < k.rhoCrit0 * k.omegaB := by exact_mod_cast hk
  have hn : (0 : ℝ) < xi.shape 0 := by rw [hs]; exact_mod_cast lengths_pos hne 0
  have hri : 0 < rho.val i := lt_of_le_of_ne (hr i (by rw [← hs]; exact hi)) hd0.symm
  have hxi : 0 < 1 - xi.val i := by linarith
  have hzz : sliceRedshift LB toDist toZ (xi.shape 0) lowest (i 2) <
      sliceRedshift LB toDist toZ (xi.shape 0) lowest (j 2) := by
    unfold sliceRedshift
    refine hz ?_
    have : ((i 2 : ℤ) : ℝ) < (j 2 : ℤ) := by exact_mod_cast hij
    have := mul_lt_mul_of_pos_right this (div_pos hL hn)
    linarith
  have := (C98_grows meandt hm k p).2 (hz1 _) (hz1 _) hzz
  have := mul_lt_mul_of_pos_right (mul_lt_mul_of_pos_right this hxi) hri
  exact div_lt_div_of_pos_right this hk'

example : ∃ out, calcDtLightcone 1 (Const.init 3) 10 id Real.exp (eight fun _ => 0) (eight fun _ => 1) 7 2 = .ok out ∧
    out.val ![1, 1, 0] < out.val ![0, 0, 1] :=
  C101_grows 1 one_pos _ open_init init_density 10 (by norm_num) id Real.exp Real.exp_strictMono
    (fun d => by have := Real.exp_pos d; linarith) (eight fun _ => 0) (eight fun _ => 1) 7 rfl (eight_ne _)
    (fun _ _ => zero_le_one)
    (eight_mem _ 1 1 0 (by decide) (by decide) (by decide)) (eight_mem _ 0 0 1 (by decide) (by decide) (by decide))
    (by decide) rfl zero_lt_one rfl one_ne_zero

/-- A cube has equally many cells along all axes. -/
def Cubic (s : Fin 3 → ℕ) (n : ℕ) : Prop := s 0 = n ∧ s 1 = n ∧ s 2 = n

/-- **C101, the axis is ignored.**  For a cubic lightcone the result is the same whichever line of sight is
given. -/
theorem C101_ignored (meandt : ℝ) (k : Const) (LB : ℝ) (toDist toZ : ℝ → ℝ) (xi rho : Cube) (lowest : ℝ)
    (n : ℕ) (hc : Cubic xi.shape n) (los : ℤ) (h0 : -3 ≤ los) (h3 : los < 3) :
    calcDtLightcone meandt k LB toDist toZ xi rho lowest los =
      calcDtLightcone meandt k LB toDist toZ xi rho lowest 2 := by
  obtain ⟨c0, c1, c2⟩ := hc
  have e : sliceZ LB toDist toZ xi lowest los = sliceZ LB toDist toZ xi lowest 2 := by
    have hl : los = -3 ∨ los = -2 ∨ los = -1 ∨ los = 0 ∨ los = 1 ∨ los = 2 := by omega
    have key : ∀ (a b : Fin 3), xi.shape a = n ∧ xi.shape b = n := by
      intro a b
      refine ⟨?_, ?_⟩
      · match a with
        | 0 => exact c0
        | 1 => exact c1
        | 2 => exact c2
      · match b with
        | 0 => exact c0
        | 1 => exact c1
        | 2 => exact c2
    have gen : ∀ (l : ℤ) (a b : Fin 3), axisOf l = some b →
        (⟨((l + 1) % 3).toNat, by omega⟩ : Fin 3) = a →
        sliceZ LB toDist toZ xi lowest l = if n = 0 then .error .zeroDivision else
          .ok ((List.range n).map fun (i : ℕ) => toZ ((i : ℝ) * (LB / n) + toDist lowest)) := by
      intro l a b hb ha
      unfold sliceZ
      simp only [ha, hb, (key a b).1, (key a b).2]
    rcases hl with h | h | h | h | h | h <;> subst h
    · rw [gen (-3) 1 0 rfl rfl, gen 2 0 2 rfl rfl]
    · rw [gen (-2) 2 1 rfl rfl, gen 2 0 2 rfl rfl]
    · rw [gen (-1) 0 2 rfl rfl, gen 2 0 2 rfl rfl]
    · rw [gen 0 1 0 rfl rfl, gen 2 0 2 rfl rfl]
    · rw [gen 1 2 1 rfl rfl, gen 2 0 2 rfl rfl]
    · rfl
  unfold calcDtLightcone
  rw [e]

example (xi rho : Cube) (h : xi.shape = ![5, 5, 5]) :
    calcDtLightcone 1 (Const.init 3) 10 id id xi rho 7 0 = calcDtLightcone 1 (Const.init 3) 10 id id xi rho 7 2 :=
  C101_ignored 1 _ 10 id id xi rho 7 5 (by rw [h]; exact ⟨rfl, rfl, rfl⟩) 0 (by norm_num) (by norm_num)

/-- **C101, the code disagrees.**  In a cubic lightcone of neutral gas of uniform density with the line of sight
along the first or second axis, there are cells whose signal is not that at the redshift of their slice. -/
theorem C101_false (meandt : ℝ) (hm : 0 < meandt) (k : Const) (p : Open k) (hk : 0 < k.rhoCrit0 * k.omegaB)
    (LB : ℝ) (hL : 0 < LB) (toDist toZ : ℝ → ℝ) (hz : StrictMono toZ) (hz1 : ∀ d, -1 < toZ d)
    (lowest : ℝ) (n : ℕ) (hn : 2 ≤ n) (ax : Fin 3) (hax : ax = 0 ∨ ax = 1) :
    let xi : Cube := ⟨fun _ => n, fun _ => 0⟩
    let rho : Cube := ⟨fun _ => n, fun _ => k.rhoCrit0 * k.omegaB⟩
    ∃ out, calcDtLightcone meandt k LB toDist toZ xi rho lowest (ax : ℕ) = .ok out ∧
      ∃ i ∈ box xi.shape, out.val i ≠ meanDt meandt k (sliceRedshift LB toDist toZ n lowest (i ax)) := by
  intro xi rho
  have hk' : (0 : ℝ) < k.rhoCrit0 * k.omegaB := by exact_mod_cast hk
  let i : Fin 3 → ℤ := fun j => if j = 2 then 1 else 0
  have hi : i ∈ box xi.shape := by
    rw [mem_box]
    intro j
    have : ((xi.shape j : ℕ) : ℤ) = n := rfl
    rw [this]
    simp only [i]
    split <;> omega
  have hne : (box rho.shape).Nonempty := ⟨i, hi⟩
  obtain ⟨out, h1, -, h3⟩ := C101_partial meandt k LB toDist toZ xi rho lowest 2 (.inl rfl) rfl hne
    (fun _ _ => hk'.le)
  have hl : -3 ≤ ((ax : ℕ) : ℤ) ∧ ((ax : ℕ) : ℤ) < 3 := by omega
  rw [C101_ignored meandt k LB toDist toZ xi rho lowest n ⟨rfl, rfl, rfl⟩ _ hl.1 hl.2]
  refine ⟨out, h1, i, hi, ?_⟩
  rw [h3 i hi]
  have e2 : i 2 = 1 := rfl
  have ea : i ax = 0 := by
    rcases hax with h | h <;> subst h <;> rfl
  have e3 : xi.val i = 0 := rfl
  have e4 : rho.val i = k.rhoCrit0 * k.omegaB := rfl
  have e5 : xi.shape 0 = n := rfl
  rw [e2, ea, e3, e4, e5, sub_zero, mul_one, mul_div_assoc, div_self hk'.ne', mul_one]
  refine ne_of_gt ((C98_grows meandt hm k p).2 (hz1 _) (hz1 _) (hz ?_))
  have : (0 : ℝ) < LB / n := div_pos hL (by exact_mod_cast (by omega : 0 < n))
  push_cast
  linarith

example : ∃ out, calcDtLightcone 1 (Const.init 3) 10 id Real.exp ⟨fun _ => 4, fun _ => 0⟩
    ⟨fun _ => 4, fun _ => (Const.init 3).rhoCrit0 * (Const.init 3).omegaB⟩ 7 0 = .ok out ∧
    ∃ i ∈ box (fun _ : Fin 3 => 4), out.val i ≠ meanDt 1 (Const.init 3) (sliceRedshift 10 id Real.exp 4 7 (i 0)) :=
  C101_false 1 one_pos _ open_init init_density 10 (by norm_num) id Real.exp Real.exp_strictMono
    (fun d => by have := Real.exp_pos d; linarith) 7 4 (by norm_num) 0 (.inl rfl)

/-- **C101, other lightcones.**  If the line of sight has another number of cells than the last axis, the call is
refused (unless one of the numbers is one). -/
theorem C101_raises (meandt : ℝ) (k : Const) (LB : ℝ) (toDist toZ : ℝ → ℝ) (xi rho : Cube) (lowest : ℝ)
    (ax : Fin 3) (h : xi.shape ax ≠ xi.shape 2) (h1 : xi.shape ax ≠ 1) (h2 : xi.shape 2 ≠ 1)
    (hp : ∀ j, 0 < xi.shape j) :
    calcDtLightcone meandt k LB toDist toZ xi rho lowest (ax : ℕ) = .error .value := by
  have ha : axisOf ((ax : ℕ) : ℤ) = some ax := by
    unfold axisOf
    rw [dif_pos ⟨by omega, by omega⟩]
    simp
  unfold calcDtLightcone sliceZ
  rw [ha]
  simp only []
  rw [if_neg (hp _).ne']
  simp only [dt]
  by_cases hb : box rho.shape = ∅
  · rw [if_pos hb]
  · rw [if_neg hb]
    unfold broadcast
    rw [if_neg]
    intro hf
    have := hf 2
    simp only [lastAxis, List.map_map, Matrix.cons_val, List.length_map, List.length_range] at this
    rcases this with e | e | e
    · exact h e
    · exact h1 e
    · exact h2 e

example (rho : Cube) :
    calcDtLightcone 1 (Const.init 3) 10 id id ⟨![9, 5, 5], fun _ => 0⟩ rho 7 0 = .error .value :=
  C101_raises 1 _ 10 id id _ rho 7 0 (by decide) (by decide) (by decide) (by
    intro j
    match j with
    | 0 => exact (by decide : 0 < 9)
    | 1 => exact (by decide : 0 < 5)
    | 2 => exact (by decide : 0 < 5))

/-- **C101, no such axis.**  A line of sight that is not an axis is refused with an index error, an empty axis beside it
with a division by zero. -/
theorem C101_raises_axis (meandt : ℝ) (k : Const) (LB : ℝ) (toDist toZ : ℝ → ℝ) (xi rho : Cube) (lowest : ℝ) (los : ℤ) :
    (los < -3 ∨ 2 < los → (∀ j, 0 < xi.shape j) →
      calcDtLightcone meandt k LB toDist toZ xi rho lowest los = .error .index) ∧
    ((∀ j, xi.shape j = 0) → calcDtLightcone meandt k LB toDist toZ xi rho lowest los = .error .zeroDivision) := by
  constructor
  · intro h hp
    have ha : axisOf los = none := by
      unfold axisOf
      rw [dif_neg (by omega), dif_neg (by omega)]
    unfold calcDtLightcone sliceZ
    rw [ha]
    simp only []
    rw [if_neg (hp _).ne']
  · intro h
    unfold calcDtLightcone sliceZ
    simp only []
    rw [if_pos (h _)]

example (rho : Cube) :
    calcDtLightcone 1 (Const.init 3) 10 id id ⟨fun _ => 5, fun _ => 0⟩ rho 7 3 = .error .index ∧
    calcDtLightcone 1 (Const.init 3) 10 id id ⟨fun _ => 0, fun _ => 0⟩ rho 7 2 = .error .zeroDivision :=
  ⟨(C101_raises_axis 1 _ 10 id id _ rho 7 3).1 (.inr (by norm_num)) (fun _ => by norm_num),
    (C101_raises_axis 1 _ 10 id id _ rho 7 2).2 fun _ => rfl⟩

/-! ## C102: with the spin temperature -/

/-- The signal of gas with spin temperature `T` in a cell with the ionised fraction `x` and density `d` relative to
the mean: the signal for high temperatures times `1 - Tcmb/T`. -/
noncomputable def coldSignal (mean z x d T : ℝ) : ℝ := (1 - 2725 / 1000 * (1 + z) / T) * (mean * (1 - x) * d)

theorem cell_plain (meandt : ℝ) (k : Const) (rho xi ts z : ℝ) (h : ts ≠ 0) :
    dtFullCell meandt k rho xi ts z false =
      some (coldSignal (meanDt meandt k z) z xi (rho / (k.rhoCrit0 * k.omegaB)) ts) := by
  unfold dtFullCell
  simp only [Bool.false_eq_true, if_false]
  rw [if_neg h]
  congr 1
  unfold coldSignal tcmb0
  rw [sub_div, div_self h, ← mul_div_assoc]
  ring

/-- **C102, without correction.**  The signal is that for high spin temperatures times `1 - Tcmb/Ts`; it is not
finite for a spin temperature of zero. -/
theorem C102_plain (meandt : ℝ) (k : Const) (srcs : List Source) (rho xi ts : Cube) (z : ℚ) (hz : 0 ≤ z) :
    ∃ out, calcDtFull meandt k srcs rho xi ts z false = .ok out ∧ out.shape = xi.shape ∧ ∀ i,
      (ts.val i ≠ 0 → out.val i = some (coldSignal (meanDt meandt k z) z (xi.val i)
        (rho.val i / (k.rhoCrit0 * k.omegaB)) (ts.val i))) ∧
      (ts.val i = 0 → out.val i = none) := by
  unfold calcDtFull
  rw [chooseZ_given _ z hz]
  refine ⟨_, rfl, rfl, fun i => ⟨fun h => cell_plain _ _ _ _ _ _ h, fun h => ?_⟩⟩
  simp [dtFullCell, h]

example : ∃ out, calcDtFull 1 (Const.init 3) [] (eight fun n => n) (eight fun _ => 0) (eight fun n => n) 8 false = .ok out ∧
    out.val ![0, 0, 0] = none := by
  obtain ⟨out, h1, -, h⟩ := C102_plain 1 (Const.init 3) [] (eight fun n => n) (eight fun _ => 0)
    (eight fun n => n) 8 (by norm_num)
  exact ⟨out, h1, (h _).2 (by norm_num [eight_val])⟩

/-- **C102, sign and limit.**  Gas hotter than the microwave background is seen in emission, colder gas in absorption;
the signal grows with the spin temperature, never exceeds that of `calc_dt` and tends to it. -/
theorem C102_limit (mean z x d : ℝ) (hz : -1 < z) (hm : 0 < mean) (hx : x < 1) (hd : 0 < d) :
    (∀ T, 2725 / 1000 * (1 + z) < T → 0 < coldSignal mean z x d T) ∧
    (∀ T, 0 < T → T < 2725 / 1000 * (1 + z) → coldSignal mean z x d T < 0) ∧
    StrictMonoOn (coldSignal mean z x d) (Set.Ioi 0) ∧
    (∀ T, 0 < T → coldSignal mean z x d T < mean * (1 - x) * d) ∧
    Filter.Tendsto (coldSignal mean z x d) Filter.atTop (nhds (mean * (1 - x) * d)) := by
  have hb : 0 < 2725 / 1000 * (1 + z) := by
    have : 0 < 1 + z := by linarith
    positivity
  have hs : 0 < mean * (1 - x) * d := by
    have : 0 < 1 - x := by linarith
    positivity
  unfold coldSignal
  generalize 2725 / 1000 * (1 + z) = b at *
  generalize mean * (1 - x) * d = s at *
  refine ⟨fun T hT => ?_, fun T h0 hT => ?_, ?_, fun T h0 => ?_, ?_⟩
  · refine mul_pos ?_ hs
    rw [sub_pos, div_lt_one (hb.trans hT)]
    exact hT
  · refine mul_neg_of_neg_of_pos ?_ hs
    rw [sub_neg, one_lt_div h0]
    exact hT
  · intro a ha c hc hac
    have ha : 0 < a := ha
    refine mul_lt_mul_of_pos_right ?_ hs
    exact sub_lt_sub_left (div_lt_div_of_pos_left hb ha hac) 1
  · have : 0 < b / T := by positivity
    nlinarith
  · have h1 : Filter.Tendsto (fun T : ℝ => b / T) Filter.atTop (nhds 0) :=
      Filter.Tendsto.const_div_atTop Filter.tendsto_id b
    have h2 := (tendsto_const_nhds (x := (1 : ℝ))).sub h1
    have h3 := h2.mul_const s
    simpa using h3

example : coldSignal 25 8 0 1 10 < 0 ∧ 0 < coldSignal 25 8 0 1 1000 :=
  ⟨(C102_limit 25 8 0 1 (by norm_num) (by norm_num) (by norm_num) (by norm_num)).2.1 10 (by norm_num) (by norm_num),
    (C102_limit 25 8 0 1 (by norm_num) (by norm_num) (by norm_num) (by norm_num)).1 1000 (by norm_num)⟩

/-- The temperature to which gas cools that is coupled to the microwave background until redshift 200 and cools
adiabatically afterwards. -/
noncomputable def coldest (z : ℝ) : ℝ := 2725 / 1000 * 201 * ((1 + z) / 201) ^ 2

theorem tMin_eq (z : ℝ) : tMin z = coldest z := by
  unfold tMin coldest tcmb0
  ring

theorem coldest_pos {z : ℝ} (hz : -1 < z) : 0 < coldest z := by
  have : 0 < 1 + z := by linarith
  unfold coldest
  positivity

theorem cell_corrected (meandt : ℝ) (k : Const) (rho xi T z : ℝ) (hz : -1 < z) (hx : xi ≠ 1) :
    dtFullCell meandt k rho xi (xi * 20000 + (1 - xi) * T) z true =
      some (coldSignal (meanDt meandt k z) z xi (rho / (k.rhoCrit0 * k.omegaB)) (max T (coldest z))) := by
  have h1 : 1 - xi ≠ 0 := sub_ne_zero.mpr (Ne.symm hx)
  have h2 : tsNew (xi * 20000 + (1 - xi) * T) xi z = some (max T (coldest z)) := by
    unfold tsNew tHII
    rw [if_neg hx]
    have : (xi * 20000 + (1 - xi) * T - xi * 20000) / (1 - xi) = T := by
      field_simp
      ring
    simp only [this, tMin_eq]
    split
    · next h => rw [max_eq_right h.le]
    · next h => rw [max_eq_left (not_lt.mp h)]
  have h3 : max T (coldest z) ≠ 0 := (lt_of_lt_of_le (coldest_pos hz) (le_max_right _ _)).ne'
  have := cell_plain meandt k rho xi (max T (coldest z)) z h3
  unfold dtFullCell at this ⊢
  simp only [Bool.false_eq_true, if_false, if_true] at this ⊢
  rw [h2]
  exact this

/-- **C102 (part).**  With the correction, in a cell of which the fraction `x < 1` is ionised at 20000 K and the rest is
neutral at temperature `T`, the signal is that of gas at `T`, or at the lowest temperature to which gas can have
cooled.  It is not less than `1 - 201/(1+z)` times the signal for high temperatures.  Completely ionised cells below
20000 K give none. -/
theorem C102_partial (meandt : ℝ) (k : Const) (srcs : List Source) (rho xi ts : Cube) (z : ℚ) (hz : 0 ≤ z) :
    ∃ out, calcDtFull meandt k srcs rho xi ts z true = .ok out ∧ out.shape = xi.shape ∧ ∀ i,
      (∀ T, xi.val i ≠ 1 → ts.val i = xi.val i * 20000 + (1 - xi.val i) * T →
        out.val i = some (coldSignal (meanDt meandt k z) z (xi.val i)
          (rho.val i / (k.rhoCrit0 * k.omegaB)) (max T (coldest z)))) ∧
      (xi.val i < 1 → 0 ≤ meanDt meandt k z * (rho.val i / (k.rhoCrit0 * k.omegaB)) →
        ∃ v, out.val i = some v ∧
          (1 - 201 / (1 + z)) * (meanDt meandt k z * (1 - xi.val i) * (rho.val i / (k.rhoCrit0 * k.omegaB))) ≤ v) ∧
      (xi.val i = 1 → ts.val i < 20000 → out.val i = some 0) := by
  have hz' : (0 : ℝ) ≤ z := by exact_mod_cast hz
  have hz1 : (-1 : ℝ) < z := by linarith
  have part : ∀ (x T : ℝ), x ≠ 1 → ∃ T', T = x * 20000 + (1 - x) * T' := by
    intro x T h
    have : 1 - x ≠ 0 := sub_ne_zero.mpr (Ne.symm h)
    exact ⟨(T - x * 20000) / (1 - x), by field_simp; ring⟩
  unfold calcDtFull
  rw [chooseZ_given _ z hz]
  refine ⟨_, rfl, rfl, fun i => ⟨fun T hx hT => ?_, fun hx hm => ?_, fun hx hT => ?_⟩⟩
  · simp only [hT]
    exact cell_corrected _ _ _ _ _ _ hz1 hx
  · obtain ⟨T, hT⟩ := part (xi.val i) (ts.val i) hx.ne
    refine ⟨coldSignal (meanDt meandt k z) z (xi.val i) (rho.val i / (k.rhoCrit0 * k.omegaB)) (max T (coldest z)),
      ?_, ?_⟩
    · simp only [hT]
      exact cell_corrected _ _ _ _ _ _ hz1 hx.ne
    · unfold coldSignal
      refine mul_le_mul_of_nonneg_right ?_ ?_
      · refine sub_le_sub_left ?_ 1
        have h0 := coldest_pos hz1
        have h1 : 0 < 1 + (z : ℝ) := by linarith
        calc 2725 / 1000 * (1 + (z : ℝ)) / max T (coldest z) ≤ 2725 / 1000 * (1 + (z : ℝ)) / coldest z :=
              div_le_div_of_nonneg_left (by positivity) h0 (le_max_right _ _)
          _ = 201 / (1 + z) := by
              unfold coldest
              field_simp
      · have : 0 ≤ 1 - xi.val i := by linarith
        have := mul_nonneg hm this
        calc (0 : ℝ) ≤ _ := this
          _ = _ := by ring
  · have h : tsNew (ts.val i) (xi.val i) z = some (coldest z) := by
      unfold tsNew tHII
      rw [if_pos hx, if_pos hT, tMin_eq]
    unfold dtFullCell
    simp only [if_true]
    rw [h]
    simp only [hx]
    rw [if_neg (coldest_pos hz1).ne']
    simp

example : ∃ out, calcDtFull 1 (Const.init 3) [] (eight fun n => n) (eight fun _ => 1 / 2) (eight fun _ => 10050) 8 true =
    .ok out ∧ out.val ![1, 0, 0] = some (coldSignal (meanDt 1 (Const.init 3) ((8 : ℚ) : ℝ)) ((8 : ℚ) : ℝ) (1 / 2)
      (1 / ((Const.init 3).rhoCrit0 * (Const.init 3).omegaB)) (max 100 (coldest ((8 : ℚ) : ℝ)))) := by
  obtain ⟨out, h1, -, h⟩ := C102_partial 1 (Const.init 3) [] (eight fun n => n) (eight fun _ => 1 / 2)
    (eight fun _ => 10050) 8 (by norm_num)
  refine ⟨out, h1, ?_⟩
  have := (h ![1, 0, 0]).1 100 (by norm_num [eight_val]) (by norm_num [eight_val])
  rw [this]
  norm_num [eight_val]

/-- **C102, the code disagrees.**  A completely ionised cell at 20000 K or more gives not zero but no number, though
without the correction it gives zero. -/
theorem C102_false (meandt : ℝ) (k : Const) (srcs : List Source) (rho xi ts : Cube) (z : ℚ) (hz : 0 ≤ z)
    (i : Fin 3 → ℤ) (hx : xi.val i = 1) (hT : 20000 ≤ ts.val i) :
    (∃ out, calcDtFull meandt k srcs rho xi ts z true = .ok out ∧ out.val i = none) ∧
      ∃ out, calcDtFull meandt k srcs rho xi ts z false = .ok out ∧ out.val i = some 0 := by
  unfold calcDtFull
  rw [chooseZ_given _ z hz]
  refine ⟨⟨_, rfl, ?_⟩, ⟨_, rfl, ?_⟩⟩
  · have h : tsNew (ts.val i) (xi.val i) z = none := by
      unfold tsNew tHII
      rw [if_pos hx, if_neg (not_lt.mpr hT)]
    simp only [dtFullCell, if_true, h]
  · have h0 : ts.val i ≠ 0 := by
      intro h
      rw [h] at hT
      norm_num at hT
    simp only []
    rw [cell_plain _ _ _ _ _ _ h0, hx]
    simp [coldSignal]

example : ∃ out, calcDtFull 1 (Const.init 3) [] (eight fun _ => 1) (eight fun n => if n = 2 then 1 else 0)
    (eight fun _ => 25000) 8 true = .ok out ∧ out.val ![0, 1, 0] = none :=
  (C102_false 1 _ [] _ _ _ 8 (by norm_num) ![0, 1, 0] (by norm_num [eight_val]) (by norm_num [eight_val])).1

/-- **C102, lightcones.**  Each cell of a lightcone has the signal at the average redshift of the slices. -/
theorem C102_lightcone (meandt : ℝ) (k : Const) (LB : ℝ) (toDist toZ : ℝ → ℝ) (rho xi ts : Cube) (lowest : ℝ)
    (hp : 0 < xi.shape 0) :
    ∃ out, calcDtFullLightcone meandt k LB toDist toZ rho xi ts lowest 2 false = .ok out ∧ out.shape = xi.shape ∧
      ∀ i, ts.val i ≠ 0 →
        let zbar := (∑ j ∈ Finset.range (xi.shape 2), sliceRedshift LB toDist toZ (xi.shape 0) lowest j) / xi.shape 2
        out.val i = some (coldSignal (meanDt meandt k zbar) zbar (xi.val i)
          (rho.val i / (k.rhoCrit0 * k.omegaB)) (ts.val i)) := by
  have hz : sliceZ LB toDist toZ xi lowest 2 =
      .ok ((List.range (xi.shape 2)).map fun (i : ℕ) => toZ ((i : ℝ) * (LB / xi.shape 0) + toDist lowest)) := by
    unfold sliceZ
    exact if_neg hp.ne'
  unfold calcDtFullLightcone
  rw [hz]
  refine ⟨_, rfl, rfl, fun i hi => ?_⟩
  intro zbar
  have e : ((List.range (xi.shape 2)).map fun (i : ℕ) => toZ ((i : ℝ) * (LB / xi.shape 0) + toDist lowest)).sum /
      (((List.range (xi.shape 2)).map fun (i : ℕ) => toZ ((i : ℝ) * (LB / xi.shape 0) + toDist lowest)).length : ℝ) =
      zbar := by
    rw [← List.sum_toFinset _ List.nodup_range, List.toFinset_range, List.length_map, List.length_range]
    simp only [zbar]
    congr 1
    refine Finset.sum_congr rfl fun j _ => ?_
    unfold sliceRedshift
    rw [add_comm]
    norm_cast
  simp only [e]
  exact cell_plain _ _ _ _ _ _ hi

example : ∃ out, calcDtFullLightcone 1 (Const.init 3) 10 id id (eight fun _ => 1) (eight fun _ => 0) (eight fun _ => 50)
    7 2 false = .ok out ∧ out.shape = ![2, 2, 2] := by
  obtain ⟨out, h, h', -⟩ := C102_lightcone 1 (Const.init 3) 10 id id (eight fun _ => 1) (eight fun _ => 0)
    (eight fun _ => 50) 7 (by decide)
  exact ⟨out, h, h'⟩

/-- **C102, the code disagrees for lightcones.**  If there are several slices, gas at the temperature that the
background has at the average redshift is given no signal, though in the slices nearer than that it is seen in
emission. -/
theorem C102_lightcone_false (meandt : ℝ) (hm : 0 < meandt) (k : Const) (p : Open k)
    (hk : 0 < k.rhoCrit0 * k.omegaB) (LB : ℝ) (hL : 0 < LB) (toDist toZ : ℝ → ℝ) (hz : StrictMono toZ)
    (hz1 : ∀ d, -1 < toZ d) (lowest : ℝ) (s : Fin 3 → ℕ) (hp : 0 < s 0) (h2 : 2 ≤ s 2) :
    let zbar := (∑ j ∈ Finset.range (s 2), sliceRedshift LB toDist toZ (s 0) lowest j) / s 2
    let T := 2725 / 1000 * (1 + zbar)
    let z0 := sliceRedshift LB toDist toZ (s 0) lowest 0
    ∃ out, calcDtFullLightcone meandt k LB toDist toZ ⟨s, fun _ => k.rhoCrit0 * k.omegaB⟩ ⟨s, fun _ => 0⟩
        ⟨s, fun _ => T⟩ lowest 2 false = .ok out ∧
      out.val (fun _ => 0) = some 0 ∧ 0 < coldSignal (meanDt meandt k z0) z0 0 1 T := by
  intro zbar T z0
  have hn : (0 : ℝ) < s 0 := by exact_mod_cast hp
  have hlt : z0 < zbar := by
    have hs2 : (0 : ℝ) < s 2 := by exact_mod_cast (by omega : 0 < s 2)
    have hle : ∀ j ∈ Finset.range (s 2), z0 ≤ sliceRedshift LB toDist toZ (s 0) lowest j := by
      intro j _
      refine hz.monotone ?_
      have : 0 < LB / s 0 := div_pos hL hn
      have : (0 : ℝ) ≤ (j : ℝ) * (LB / s 0) := by positivity
      push_cast
      linarith
    have h1 : z0 < sliceRedshift LB toDist toZ (s 0) lowest ((1 : ℕ) : ℤ) := by
      refine hz ?_
      have : 0 < LB / s 0 := div_pos hL hn
      push_cast
      linarith
    have := Finset.sum_lt_sum hle ⟨1, Finset.mem_range.mpr h2, h1⟩
    rw [Finset.sum_const, Finset.card_range, nsmul_eq_mul] at this
    simp only [zbar]
    rw [lt_div_iff₀ hs2]
    linarith
  have hz0 : -1 < z0 := hz1 _
  have hT : T ≠ 0 := by
    have : 0 < 1 + zbar := by linarith
    simp only [T]
    positivity
  obtain ⟨out, h1, -, h3⟩ := C102_lightcone meandt k LB toDist toZ ⟨s, fun _ => k.rhoCrit0 * k.omegaB⟩
    ⟨s, fun _ => 0⟩ ⟨s, fun _ => T⟩ lowest hp
  refine ⟨out, h1, ?_, ?_⟩
  · rw [h3 _ hT]
    change some (coldSignal (meanDt meandt k zbar) zbar 0 _ T) = some 0
    have : 2725 / 1000 * (1 + zbar) / T = 1 := div_self hT
    unfold coldSignal
    rw [this]
    simp
  · refine (C102_limit _ z0 0 1 hz0 ((C98_grows meandt hm k p).1 _ hz0) (by norm_num) (by norm_num)).1 T ?_
    simp only [T]
    linarith

example : ∃ out, calcDtFullLightcone 1 (Const.init 3) 10 id Real.exp
    ⟨![4, 4, 9], fun _ => (Const.init 3).rhoCrit0 * (Const.init 3).omegaB⟩ ⟨![4, 4, 9], fun _ => 0⟩
    ⟨![4, 4, 9], fun _ => 2725 / 1000 *
      (1 + (∑ j ∈ Finset.range 9, sliceRedshift 10 id Real.exp 4 2 j) / ((9 : ℕ) : ℝ))⟩ 2 2 false = .ok out ∧
    out.val (fun _ => 0) = some 0 := by
  obtain ⟨out, h1, h2, -⟩ := C102_lightcone_false 1 one_pos _ open_init init_density 10 (by norm_num) id Real.exp
    Real.exp_strictMono (fun d => by have := Real.exp_pos d; linarith) 2 ![4, 4, 9] (by decide) (by decide)
  exact ⟨out, h1, h2⟩

/-! ## C103: the signal from halo masses -/

theorem card_box (s : Fin 3 → ℕ) : (box s).card = s 0 * s 1 * s 2 := by
  unfold box
  rw [Fintype.card_piFinset, Fin.prod_univ_three]
  simp

/-- **C103, what is computed.**  The average signal is the mean signal times the mass in units of that of the box,
times a factor that is one for equally many cells along all axes. -/
theorem C103_average (meandt : ℝ) (k : Const) (rhoB : ℝ) (hB : 0 < rhoB) (m : Cube) (L z : ℝ) (hL : 0 < L)
    (hp : ∀ j, 0 < m.shape j) :
    (∑ i ∈ box m.shape, (calcDtHalo meandt k rhoB m L z).val i) / (box m.shape).card =
      meanDt meandt k z * ((∑ i ∈ box m.shape, m.val i) / (rhoB * L ^ 3)) *
        ((m.shape 0 : ℝ) ^ 2 / (m.shape 1 * m.shape 2)) := by
  have h0 : (0 : ℝ) < m.shape 0 := by exact_mod_cast hp 0
  have h1 : (0 : ℝ) < m.shape 1 := by exact_mod_cast hp 1
  have h2 : (0 : ℝ) < m.shape 2 := by exact_mod_cast hp 2
  rw [card_box]
  simp only [calcDtHalo]
  rw [← Finset.mul_sum, ← Finset.sum_div, ← Finset.sum_div]
  push_cast
  field_simp

/-- **C103 (part).**  On a cubic mesh the average signal is the mean signal times the mass in units of that which the box
has on average. -/
theorem C103_partial (meandt : ℝ) (k : Const) (rhoB : ℝ) (hB : 0 < rhoB) (m : Cube) (L z : ℝ) (hL : 0 < L)
    (n : ℕ) (hn : 0 < n) (hc : Cubic m.shape n) :
    (calcDtHalo meandt k rhoB m L z).shape = m.shape ∧
    (∑ i ∈ box m.shape, (calcDtHalo meandt k rhoB m L z).val i) / (box m.shape).card =
      meanDt meandt k z * ((∑ i ∈ box m.shape, m.val i) / (rhoB * L ^ 3)) ∧
    ∀ i, (m.val i = 0 → (calcDtHalo meandt k rhoB m L z).val i = 0) ∧
      (m.val i = rhoB * (L / n) ^ 3 → (calcDtHalo meandt k rhoB m L z).val i = meanDt meandt k z) := by
  obtain ⟨c0, c1, c2⟩ := hc
  have hn' : (0 : ℝ) < n := by exact_mod_cast hn
  refine ⟨rfl, ?_, fun i => ⟨fun h => ?_, fun h => ?_⟩⟩
  · rw [C103_average meandt k rhoB hB m L z hL, c0, c1, c2]
    · field_simp
    · intro j
      match j with
      | 0 => omega
      | 1 => omega
      | 2 => omega
  · simp [calcDtHalo, h]
  · simp only [calcDtHalo, h, c0]
    field_simp

example : (calcDtHalo 1 (Const.init 3) 6 (eight fun n => n) 10 8).val ![0, 0, 0] = 0 :=
  ((C103_partial 1 (Const.init 3) 6 (by norm_num) (eight fun n => n) 10 8 (by norm_num) 2 (by norm_num)
    ⟨rfl, rfl, rfl⟩).2.2 ![0, 0, 0]).1 (by norm_num [eight_val])

/-- **C103, the code disagrees.**  On a mesh with other numbers of cells along the second and third axes the volume of a
cell is wrong, and so is the average signal. -/
theorem C103_false (meandt : ℝ) (k : Const) (rhoB : ℝ) (hB : 0 < rhoB) (m : Cube) (L z : ℝ) (hL : 0 < L)
    (hp : ∀ j, 0 < m.shape j) (hs : m.shape 0 ^ 2 ≠ m.shape 1 * m.shape 2) (hm : meanDt meandt k z ≠ 0)
    (hM : (∑ i ∈ box m.shape, m.val i) ≠ 0) :
    (∑ i ∈ box m.shape, (calcDtHalo meandt k rhoB m L z).val i) / (box m.shape).card ≠
      meanDt meandt k z * ((∑ i ∈ box m.shape, m.val i) / (rhoB * L ^ 3)) := by
  have h1 : (0 : ℝ) < m.shape 1 := by exact_mod_cast hp 1
  have h2 : (0 : ℝ) < m.shape 2 := by exact_mod_cast hp 2
  rw [C103_average meandt k rhoB hB m L z hL hp]
  intro h
  have hne : meanDt meandt k z * ((∑ i ∈ box m.shape, m.val i) / (rhoB * L ^ 3)) ≠ 0 :=
    mul_ne_zero hm (div_ne_zero hM (by positivity))
  have := mul_left_cancel₀ hne (h.trans (mul_one _).symm)
  rw [div_eq_one_iff_eq (by positivity)] at this
  exact hs (by exact_mod_cast this)

example : (∑ i ∈ box ![2, 2, 3], (calcDtHalo 1 (Const.init 3) 6 ⟨![2, 2, 3], fun _ => 1⟩ 10 8).val i) /
    (box ![2, 2, 3]).card ≠ meanDt 1 (Const.init 3) 8 * ((∑ i ∈ box ![2, 2, 3], (1 : ℝ)) / (6 * 10 ^ 3)) :=
  C103_false 1 (Const.init 3) 6 (by norm_num) ⟨![2, 2, 3], fun _ => 1⟩ 10 8 (by norm_num)
    (by
      intro j
      match j with
      | 0 => exact (by decide : 0 < 2)
      | 1 => exact (by decide : 0 < 2)
      | 2 => exact (by decide : 0 < 3))
    (by decide) ((C98_grows 1 one_pos _ open_init).1 _ (by norm_num)).ne' (by
      rw [Finset.sum_const, card_box]
      show (2 * 2 * 3 : ℕ) • (1 : ℝ) ≠ 0
      norm_num)

end Verif.Temperature
