import Verif.Model.Lightcone
import Mathlib.Algebra.Order.Archimedean.Basic
import Mathlib.Tactic.Linarith
import Mathlib.Tactic.FieldSimp
import Mathlib.Tactic.Ring
/-! Helper lemmas for `lightcone.py`. -/

set_option linter.unusedSectionVars false

namespace Verif.Lightcone

variable {K : Type} [Field K] [LinearOrder K] {D : Type}

theorem argmin_spec {l : List K} (h : l ≠ []) :
    ∃ m, l[argmin l]? = some m ∧ (∀ x ∈ l, m ≤ x) ∧ ∀ j, j < argmin l → l[j]? ≠ some m := by
  unfold argmin
  cases hm : l.min? with
  | none => exact absurd (List.min?_eq_none_iff.1 hm) h
  | some m =>
    obtain ⟨hmem, hle⟩ := List.min?_eq_some_iff.1 hm
    refine ⟨m, ?_, hle, ?_⟩
    · dsimp only
      rw [List.getElem?_eq_getElem (List.idxOf_lt_length_of_mem hmem)]
      simp
    · intro j hj hjm
      dsimp only at hj
      have hlt : j < l.length := by
        by_contra hge
        rw [List.getElem?_eq_none (by omega)] at hjm; cases hjm
      have := List.not_of_lt_findIdx hj
      rw [List.getElem?_eq_getElem hlt] at hjm
      rw [Option.some.inj hjm] at this
      simp at this

theorem nearest_spec {zs : List K} (h : zs ≠ []) (z : K) :
    ∃ a, zs[nearest zs z]? = some a ∧ (∀ x ∈ zs, |a - z| ≤ |x - z|) := by
  obtain ⟨m, h1, h2, _⟩ := argmin_spec (l := zs.map fun x => |x - z|) (by simpa using h)
  rw [List.getElem?_map] at h1
  unfold nearest
  cases ha : zs[argmin (zs.map fun x => |x - z|)]? with
  | none => rw [ha] at h1; cases h1
  | some a =>
    rw [ha] at h1
    refine ⟨a, rfl, fun x hx => ?_⟩
    have : |a - z| = m := Option.some.inj h1
    rw [this]
    exact h2 _ (List.mem_map.2 ⟨x, hx, rfl⟩)

theorem nearest_mem [IsStrictOrderedRing K] {zs : List K} {a : K} (h : a ∈ zs) :
    zs[nearest zs a]? = some a := by
  obtain ⟨b, hb, hle⟩ := nearest_spec (List.ne_nil_of_mem h) a
  have := hle a h
  rw [sub_self, abs_zero] at this
  have : b - a = 0 := abs_eq_zero.1 (le_antisymm this (abs_nonneg _))
  rw [hb, sub_eq_zero.1 this]

theorem bracketLow_iff {zs : List K} {z lo : K} :
    bracketLow zs z = some lo ↔ (lo ∈ zs ∧ lo ≤ z) ∧ ∀ x ∈ zs, x ≤ z → x ≤ lo := by
  unfold bracketLow
  rw [List.max?_eq_some_iff]
  simp only [List.mem_filter, decide_eq_true_eq, and_imp]

theorem bracketHigh_iff {zs : List K} {z hi : K} :
    bracketHigh zs z = some hi ↔ (hi ∈ zs ∧ z < hi) ∧ ∀ x ∈ zs, z < x → hi ≤ x := by
  unfold bracketHigh
  rw [List.min?_eq_some_iff]
  simp only [List.mem_filter, decide_eq_true_eq, and_imp]

theorem bracketLow_none {zs : List K} {z : K} : bracketLow zs z = none ↔ ∀ x ∈ zs, ¬ x ≤ z := by
  unfold bracketLow
  rw [List.max?_eq_none_iff, List.filter_eq_nil_iff]
  simp

theorem bracketHigh_none {zs : List K} {z : K} : bracketHigh zs z = none ↔ ∀ x ∈ zs, ¬ z < x := by
  unfold bracketHigh
  rw [List.min?_eq_none_iff, List.filter_eq_nil_iff]
  simp

/-- `stepVelocity` with the two cache updates separated. -/
theorem stepVelocity_eq (read : ℕ → D) (zs : List K) (v : Vars K D) (z : K) (pos : ℕ) {lo hi : K}
    (hl : bracketLow zs z = some lo) (hh : bracketHigh zs z = some hi) {v' u}
    (hs : stepVelocity read zs v z pos = .ok (v', u)) :
    v' = ⟨some lo, some hi, some u.dataLow, some u.dataHigh⟩ ∧ u.z = z ∧ u.pos = pos ∧
      u.zLow = lo ∧ u.zHigh = hi ∧
      (if some lo ≠ v.zLow then some (read (nearest zs lo)) else v.dataLow) = some u.dataLow ∧
      (if some hi ≠ v.zHigh then some (read (nearest zs hi)) else v.dataHigh) = some u.dataHigh := by
  obtain ⟨vl, vh, dl, dh⟩ := v
  unfold stepVelocity at hs
  rw [hl, hh] at hs
  dsimp only at hs
  by_cases c1 : some lo = vl
  · subst c1
    by_cases c2 : some hi = vh
    · subst c2
      cases dh <;> cases dl <;> simp at hs
      obtain ⟨rfl, rfl⟩ := hs; simp
    · cases dl <;> simp [c2] at hs
      obtain ⟨rfl, rfl⟩ := hs; simp [c2]
  · by_cases c2 : some hi = vh
    · subst c2
      cases dh <;> simp [c1] at hs
      obtain ⟨rfl, rfl⟩ := hs; simp [c1]
    · simp [c1, c2] at hs
      obtain ⟨rfl, rfl⟩ := hs; simp [c1, c2]

/-- `stepScalar` with the two cache updates separated. -/
theorem stepScalar_eq (read : ℕ → D) (zs : List K) (v : Vars K D) (z : K) (pos : ℕ) {lo hi : K}
    (hl : bracketLow zs z = some lo) (hh : bracketHigh zs z = some hi) {v' u}
    (hs : stepScalar read zs v z pos = .ok (v', u)) :
    v' = ⟨some lo, some hi, some u.dataLow, some u.dataHigh⟩ ∧ u.z = z ∧ u.pos = pos ∧
      u.zLow = lo ∧ u.zHigh = hi ∧
      (if some lo ≠ v.zLow then some (v.dataHigh.getD (read (nearest zs lo))) else v.dataLow) =
        some u.dataLow ∧
      (if some hi ≠ v.zHigh then some (read (nearest zs hi)) else v.dataHigh) = some u.dataHigh := by
  obtain ⟨vl, vh, dl, dh⟩ := v
  unfold stepScalar at hs
  rw [hl, hh] at hs
  dsimp only at hs
  by_cases c1 : some lo = vl
  · subst c1
    by_cases c2 : some hi = vh
    · subst c2
      cases dh <;> cases dl <;> simp at hs
      obtain ⟨rfl, rfl⟩ := hs; simp
    · cases dl <;> simp [c2] at hs
      obtain ⟨rfl, rfl⟩ := hs; simp [c2]
  · by_cases c2 : some hi = vh
    · subst c2
      cases dh <;> simp [c1] at hs
      obtain ⟨rfl, rfl⟩ := hs; simp [c1]
    · cases dh <;> simp [c1, c2] at hs <;>
      (obtain ⟨rfl, rfl⟩ := hs; simp [c1, c2])

/-- Both steps fail with the numpy error exactly when the redshift cannot be bracketed. -/
theorem step_unbracketed (read : ℕ → D) (zs : List K) (v : Vars K D) (z : K) (pos : ℕ)
    (h : bracketLow zs z = none ∨ bracketHigh zs z = none) :
    stepScalar read zs v z pos = .error "ValueError" ∧
      stepVelocity read zs v z pos = .error "ValueError" := by
  unfold stepScalar stepVelocity
  rcases h with h | h
  · rw [h]; exact ⟨rfl, rfl⟩
  · rw [h]; cases bracketLow zs z <;> exact ⟨rfl, rfl⟩

/-- The loop keeps an invariant and produces good slices. -/
theorem loop_good (step : Vars K D → K → ℕ → Except String (Vars K D × Used K D))
    (Inv : Option K → Vars K D → Prop) (Ok : K → ℕ → Used K D → Prop) (R : K → K → Prop)
    (hstep : ∀ prev v z pos v' u, Inv prev v → (∀ p, prev = some p → R p z) →
      step v z pos = .ok (v', u) → Inv (some z) v' ∧ Ok z pos u) :
    ∀ (out : List K) (prev : Option K) (v : Vars K D) (pos : ℕ) (us : List (Used K D)),
      Inv prev v → (∀ p, prev = some p → ∀ z, out.head? = some z → R p z) → out.IsChain R →
      loop step v pos out = .ok us →
      us.length = out.length ∧ ∀ i z u, out[i]? = some z → us[i]? = some u → Ok z (pos + i) u := by
  intro out
  induction out with
  | nil =>
    intro prev v pos us _ _ _ h
    simp only [loop, Except.ok.injEq] at h
    subst h; simp
  | cons z rest ih =>
    intro prev v pos us hinv hprev hchain h
    unfold loop at h
    cases hs : step v z pos with
    | error e => rw [hs] at h; cases h
    | ok r =>
      obtain ⟨v', u⟩ := r
      rw [hs] at h
      simp only [bind, Except.bind] at h
      cases hl : loop step v' (pos + 1) rest with
      | error e => rw [hl] at h; cases h
      | ok us' =>
        rw [hl] at h
        simp only [Except.ok.injEq] at h
        subst h
        obtain ⟨hi, hu⟩ := hstep prev v z pos v' u hinv (fun p hp => hprev p hp z rfl) hs
        have hch : ∀ p, some z = some p → ∀ z', rest.head? = some z' → R p z' := by
          intro p hp z' hz'
          cases hp
          cases rest with
          | nil => cases hz'
          | cons a t =>
            simp only [List.head?_cons, Option.some.injEq] at hz'; subst hz'
            exact (List.isChain_cons_cons.1 hchain).1
        have hch2 : rest.IsChain R := by
          cases rest with
          | nil => exact List.IsChain.nil
          | cons a t => exact (List.isChain_cons_cons.1 hchain).2
        obtain ⟨hlen, hok⟩ := ih (some z) v' (pos + 1) us' hi hch hch2 hl
        refine ⟨by simp [hlen], ?_⟩
        intro i z' u' hz hu'
        cases i with
        | zero =>
          simp only [List.getElem?_cons_zero, Option.some.injEq] at hz hu'
          subst hz hu'; exact hu
        | succ i =>
          simp only [List.getElem?_cons_succ] at hz hu'
          have := hok i z' u' hz hu'
          rwa [show pos + (i + 1) = pos + 1 + i by omega]

/-- The cached cubes are present as soon as their redshifts are set. -/
def Ready (v : Vars K D) : Prop :=
  (v.zLow.isSome → v.dataLow.isSome) ∧ (v.zHigh.isSome → v.dataHigh.isSome)

theorem step_ready (read : ℕ → D) (zs : List K) (v : Vars K D) (z : K) (pos : ℕ) {lo hi : K}
    (hl : bracketLow zs z = some lo) (hh : bracketHigh zs z = some hi) (hv : Ready v) :
    (∃ v' u, stepScalar read zs v z pos = .ok (v', u) ∧ Ready v') ∧
      ∃ v' u, stepVelocity read zs v z pos = .ok (v', u) ∧ Ready v' := by
  obtain ⟨vl, vh, dl, dh⟩ := v
  obtain ⟨h1, h2⟩ := hv
  dsimp only at h1 h2
  unfold stepScalar stepVelocity
  rw [hl, hh]
  dsimp only
  have key : ∀ (x : Option D), x.isSome → ∃ d, x = some d := fun x hx => Option.isSome_iff_exists.1 hx
  by_cases c1 : some lo = vl
  · subst c1
    obtain ⟨dl, rfl⟩ := key _ (h1 rfl)
    by_cases c2 : some hi = vh
    · subst c2
      obtain ⟨dh, rfl⟩ := key _ (h2 rfl)
      simp [Ready]
    · simp [c2, Ready]
  · by_cases c2 : some hi = vh
    · subst c2
      obtain ⟨dh, rfl⟩ := key _ (h2 rfl)
      simp [c1, Ready]
    · cases dh <;> simp [c1, c2, Ready]

/-- The loop succeeds when every step does. -/
theorem loop_ok (step : Vars K D → K → ℕ → Except String (Vars K D × Used K D)) (Good : K → Prop)
    (hstep : ∀ v z pos, Ready v → Good z → ∃ v' u, step v z pos = .ok (v', u) ∧ Ready v') :
    ∀ (out : List K) (v : Vars K D) (pos : ℕ), Ready v → (∀ z ∈ out, Good z) →
      ∃ us, loop step v pos out = .ok us := by
  intro out
  induction out with
  | nil => intro v pos _ _; exact ⟨[], rfl⟩
  | cons z rest ih =>
    intro v pos hv h
    obtain ⟨v', u, hr, hv'⟩ := hstep v z pos hv (h z (by simp))
    obtain ⟨us, hus⟩ := ih v' (pos + 1) hv' fun x hx => h x (List.mem_cons_of_mem _ hx)
    exact ⟨u :: us, by unfold loop; rw [hr]; simp only [bind, Except.bind, hus]⟩

/-- The loop fails with the error of the first failing step. -/
theorem loop_error (step : Vars K D → K → ℕ → Except String (Vars K D × Used K D)) (e : String)
    (Bad : K → Prop) (hbad : ∀ v z pos, Bad z → step v z pos = .error e)
    (hstep : ∀ v z pos, Ready v → ¬ Bad z → ∃ v' u, step v z pos = .ok (v', u) ∧ Ready v') :
    ∀ (out : List K) (v : Vars K D) (pos : ℕ), Ready v → (∃ z ∈ out, Bad z) →
      loop step v pos out = .error e := by
  intro out
  induction out with
  | nil => intro v pos _ h; simp at h
  | cons z rest ih =>
    intro v pos hv ⟨b, hb, hB⟩
    unfold loop
    by_cases hz : Bad z
    · rw [hbad v z pos hz]; rfl
    · obtain ⟨v', u, h, hv'⟩ := hstep v z pos hv hz
      rw [h]
      simp only [bind, Except.bind]
      rcases List.mem_cons.1 hb with rfl | hb
      · exact absurd hB hz
      · rw [ih v' (pos + 1) hv' ⟨b, hb, hB⟩]

/-- Closed form of a terminating `while` loop. -/
theorem whileLoop_eq (cond : K → Bool) (next : K → K) (n : ℕ) (f : ℕ → K)
    (hs : ∀ k, k < n → next (f k) = f (k + 1)) (hc : ∀ k, k < n → cond (f k) = true)
    (hn : cond (f n) = false) :
    ∀ fuel, n < fuel → whileLoop cond next fuel (f 0) = some ((List.range n).map f) := by
  induction n generalizing f with
  | zero =>
    intro fuel hf
    obtain ⟨fuel, rfl⟩ : ∃ m, fuel = m + 1 := ⟨fuel - 1, by omega⟩
    simp [whileLoop, hn]
  | succ n ih =>
    intro fuel hf
    obtain ⟨fuel, rfl⟩ : ∃ m, fuel = m + 1 := ⟨fuel - 1, by omega⟩
    unfold whileLoop
    rw [if_pos (hc 0 (by omega)), hs 0 (by omega)]
    have := ih (fun k => f (k + 1)) (fun k hk => hs (k + 1) (by omega))
      (fun k hk => hc (k + 1) (by omega)) hn fuel (by omega)
    simp only [Nat.zero_add] at this ⊢
    rw [this, List.range_succ_eq_map]
    simp [Function.comp_def]

/-- More fuel does not change the result of a loop that has ended. -/
theorem whileLoop_mono (cond : K → Bool) (next : K → K) : ∀ (fuel fuel' : ℕ) (z : K) (l : List K),
    fuel ≤ fuel' → whileLoop cond next fuel z = some l → whileLoop cond next fuel' z = some l := by
  intro fuel
  induction fuel with
  | zero => intro fuel' z l _ h; cases h
  | succ fuel ih =>
    intro fuel' z l hf h
    obtain ⟨f, rfl⟩ : ∃ m, fuel' = m + 1 := ⟨fuel' - 1, by omega⟩
    unfold whileLoop at h ⊢
    split at h
    · next c =>
      rw [if_pos c]
      cases hw : whileLoop cond next fuel (next z) with
      | none => rw [hw] at h; cases h
      | some l' => rw [hw] at h; rw [ih f _ l' (by omega) hw]; exact h
    · next c => rw [if_neg c]; exact h

/-- Every collected element passed the loop condition. -/
theorem whileLoop_cond (cond : K → Bool) (next : K → K) : ∀ (fuel : ℕ) (z : K) (l : List K),
    whileLoop cond next fuel z = some l → ∀ x ∈ l, cond x = true := by
  intro fuel
  induction fuel with
  | zero => intro z l h; cases h
  | succ fuel ih =>
    intro z l h x hx
    unfold whileLoop at h
    split at h
    · next c =>
      cases hw : whileLoop cond next fuel (next z) with
      | none => rw [hw] at h; cases h
      | some l' =>
        rw [hw] at h
        simp only [Option.map_some, Option.some.injEq] at h
        subst h
        rcases List.mem_cons.1 hx with rfl | hx
        · exact c
        · exact ih _ l' hw x hx
    · cases h; cases hx

/-- A loop that leaves its range after finitely many steps has a first exit. -/
theorem first_exit (p : ℕ → Prop) [DecidablePred p] (h : ∃ n, ¬ p n) :
    ∃ n, (∀ k, k < n → p k) ∧ ¬ p n := by
  have : DecidablePred fun n => ¬ p n := fun n => inferInstance
  refine ⟨Nat.find h, fun k hk => ?_, Nat.find_spec h⟩
  have := Nat.find_min h hk
  push Not at this; exact this

theorem freqNext_add_one [IsStrictOrderedRing K] {nu0 dnu z : K} (hnu : 0 < nu0) (hd : 0 < dnu)
    (hz : 0 < 1 + z) : 1 + freqNext nu0 dnu z = nu0 / (nu0 / (1 + z) + dnu) := by
  unfold freqNext
  have h1 : 0 < 1 + dnu / nu0 * (1 + z) := by positivity
  have h2 : 0 < nu0 / (1 + z) + dnu := by positivity
  field_simp
  ring

theorem comovingNext_add_one [IsStrictOrderedRing K] {H : K → K} {nu0 c L n z : K} (hnu : 0 < nu0)
    (hc : 0 < c) (hn : 0 < n) (hz : 0 < 1 + z) (hlt : H z * L < c * n * (1 + z)) :
    1 + comovingNext H nu0 c L n z = (1 + z) / (1 - H z * L / (c * n * (1 + z))) := by
  unfold comovingNext
  have h1 : 0 < c * n * (1 + z) := by positivity
  have h2 : c * n * (1 + z) - H z * L ≠ 0 := by linarith
  have h3 : nu0 / (1 + z) - nu0 * H z * L / (1 + z) ^ 2 / c / n =
      nu0 * (c * n * (1 + z) - H z * L) / ((1 + z) ^ 2 * c * n) := by
    field_simp
  have h4 : 1 - H z * L / (c * n * (1 + z)) = (c * n * (1 + z) - H z * L) / (c * n * (1 + z)) := by
    field_simp
  dsimp only
  rw [h3, h4]
  field_simp
  ring

end Verif.Lightcone
