import Verif.Lemmas.Lightcone
import Mathlib.Analysis.SpecialFunctions.Exp
import Mathlib.Analysis.SpecialFunctions.Pow.Real
import Mathlib.Tactic.NormNum
import Mathlib.Tactic.Positivity
/-!
# Properties of `lightcone.py` (C08 - C13)
-/

set_option linter.unusedSectionVars false

namespace Verif.Lightcone

variable {K : Type} [Field K] [LinearOrder K] [IsStrictOrderedRing K] {D : Type}

/-! ## Specification -/

/-- `lo` is the largest snapshot redshift not above `z`. -/
def IsLower (zs : List K) (z lo : K) : Prop := lo ∈ zs ∧ lo ≤ z ∧ ∀ x ∈ zs, x ≤ z → x ≤ lo

/-- `hi` is the smallest snapshot redshift above `z`. -/
def IsUpper (zs : List K) (z hi : K) : Prop := hi ∈ zs ∧ z < hi ∧ ∀ x ∈ zs, z < x → hi ≤ x

/-- `d` is the content of a snapshot file whose redshift is `a`. -/
def FromSnapshot (read : ℕ → D) (zs : List K) (a : K) (d : D) : Prop :=
  ∃ i, zs[i]? = some a ∧ d = read i

/-- The slice at position `pos` for redshift `z` is made from the two snapshots around `z`. -/
structure Correct (read : ℕ → D) (zs : List K) (z : K) (pos : ℕ) (u : Used K D) : Prop where
  z_eq : u.z = z
  pos_eq : u.pos = pos
  lower : IsLower zs z u.zLow
  upper : IsUpper zs z u.zHigh
  dataLower : FromSnapshot read zs u.zLow u.dataLow
  dataUpper : FromSnapshot read zs u.zHigh u.dataHigh

/-- `z` lies between two snapshots. -/
def Bracketed (zs : List K) (z : K) : Prop := (∃ x ∈ zs, x ≤ z) ∧ ∃ x ∈ zs, z < x

/-- There is at most one snapshot redshift in `(z, z']`. -/
def AtMostOne (zs : List K) (z z' : K) : Prop :=
  ∀ a ∈ zs, ∀ b ∈ zs, z < a → a ≤ z' → z < b → b ≤ z' → a = b

/-! ## C08: the right snapshots -/

theorem lower_of_bracketLow {zs : List K} {z lo : K} (h : bracketLow zs z = some lo) :
    IsLower zs z lo := by
  obtain ⟨⟨a, b⟩, c⟩ := bracketLow_iff.1 h
  exact ⟨a, b, c⟩

theorem upper_of_bracketHigh {zs : List K} {z hi : K} (h : bracketHigh zs z = some hi) :
    IsUpper zs z hi := by
  obtain ⟨⟨a, b⟩, c⟩ := bracketHigh_iff.1 h
  exact ⟨a, b, c⟩

theorem fromSnapshot_nearest (read : ℕ → D) {zs : List K} {a : K} (h : a ∈ zs) :
    FromSnapshot read zs a (read (nearest zs a)) := ⟨_, nearest_mem h, rfl⟩

theorem bracketed_iff {zs : List K} {z : K} :
    Bracketed zs z ↔ ∃ lo hi, bracketLow zs z = some lo ∧ bracketHigh zs z = some hi := by
  constructor
  · rintro ⟨⟨x, hx, hxz⟩, ⟨y, hy, hyz⟩⟩
    cases hl : bracketLow zs z with
    | none => exact absurd hxz (bracketLow_none.1 hl x hx)
    | some lo =>
      cases hh : bracketHigh zs z with
      | none => exact absurd hyz (bracketHigh_none.1 hh y hy)
      | some hi => exact ⟨lo, hi, rfl, rfl⟩
  · rintro ⟨lo, hi, hl, hh⟩
    exact ⟨⟨lo, (lower_of_bracketLow hl).1, (lower_of_bracketLow hl).2.1⟩,
      ⟨hi, (upper_of_bracketHigh hh).1, (upper_of_bracketHigh hh).2.1⟩⟩

/-- C08 for `make_velocity_lightcone`: whatever the snapshots and the output redshifts are (sorted or
not, skipping snapshots or not), every slice is made from the two snapshots around its redshift. -/
theorem velocity_slices_correct (read : ℕ → D) (zs out : List K) (us : List (Used K D))
    (h : velocitySlices read zs out = .ok us) :
    us.length = out.length ∧
      ∀ i z u, out[i]? = some z → us[i]? = some u → Correct read zs z i u := by
  have := loop_good (stepVelocity read zs)
    (fun _ v => (∀ a, v.zLow = some a → ∀ d, v.dataLow = some d → FromSnapshot read zs a d) ∧
      (∀ a, v.zHigh = some a → ∀ d, v.dataHigh = some d → FromSnapshot read zs a d))
    (Correct read zs) (fun _ _ => True) ?_ out none .start 0 us
    ⟨by rintro a ⟨⟩, by rintro a ⟨⟩⟩ (by rintro p ⟨⟩) ?_ h
  · simpa using this
  · rintro - v z pos v' u ⟨hlo, hhi⟩ - hs
    rcases hl : bracketLow zs z with - | lo
    · rw [(step_unbracketed read zs v z pos (.inl hl)).2] at hs; cases hs
    rcases hh : bracketHigh zs z with - | hi
    · rw [(step_unbracketed read zs v z pos (.inr hh)).2] at hs; cases hs
    obtain ⟨rfl, e1, e2, rfl, rfl, e5, e6⟩ := stepVelocity_eq read zs v z pos hl hh hs
    have L := lower_of_bracketLow hl
    have U := upper_of_bracketHigh hh
    have dl : FromSnapshot read zs u.zLow u.dataLow := by
      split at e5
      · exact Option.some.inj e5 ▸ fromSnapshot_nearest read L.1
      · next c => push Not at c; exact hlo _ c.symm _ e5
    have dh : FromSnapshot read zs u.zHigh u.dataHigh := by
      split at e6
      · exact Option.some.inj e6 ▸ fromSnapshot_nearest read U.1
      · next c => push Not at c; exact hhi _ c.symm _ e6
    refine ⟨⟨?_, ?_⟩, ⟨e1, e2, L, U, dl, dh⟩⟩
    · rintro a ⟨⟩ d ⟨⟩; exact dl
    · rintro a ⟨⟩ d ⟨⟩; exact dh
  · exact List.isChain_iff_getElem.2 fun _ _ => trivial

/-- The loops of both functions run to the end exactly when every output redshift lies between two
snapshots; otherwise numpy's reduction over an empty selection raises. -/
theorem slices_ok_iff (read : ℕ → D) (zs out : List K) :
    ((∀ z ∈ out, Bracketed zs z) → (∃ us, scalarSlices read zs out = .ok us) ∧
      ∃ us, velocitySlices read zs out = .ok us) ∧
    ((∃ z ∈ out, ¬ Bracketed zs z) → scalarSlices read zs out = .error "ValueError" ∧
      velocitySlices read zs out = .error "ValueError") := by
  have hr : Ready (Vars.start (K := K) (D := D)) := ⟨by simp [Vars.start], by simp [Vars.start]⟩
  have good : ∀ v z pos, Ready v → Bracketed zs z →
      (∃ v' u, stepScalar read zs v z pos = .ok (v', u) ∧ Ready v') ∧
      ∃ v' u, stepVelocity read zs v z pos = .ok (v', u) ∧ Ready v' := by
    intro v z pos hv hz
    obtain ⟨lo, hi, hl, hh⟩ := bracketed_iff.1 hz
    exact step_ready read zs v z pos hl hh hv
  have bad : ∀ v z pos, ¬ Bracketed zs z → stepScalar read zs v z pos = .error "ValueError" ∧
      stepVelocity read zs v z pos = .error "ValueError" := by
    intro v z pos hz
    apply step_unbracketed
    rcases hl : bracketLow zs z with - | lo
    · exact .inl rfl
    rcases hh : bracketHigh zs z with - | hi
    · exact .inr rfl
    exact absurd (bracketed_iff.2 ⟨lo, hi, hl, hh⟩) hz
  refine ⟨fun h => ⟨?_, ?_⟩, fun h => ⟨?_, ?_⟩⟩
  · exact loop_ok _ (Bracketed zs) (fun v z pos hv hz => (good v z pos hv hz).1) out _ 0 hr h
  · exact loop_ok _ (Bracketed zs) (fun v z pos hv hz => (good v z pos hv hz).2) out _ 0 hr h
  · exact loop_error _ _ (fun z => ¬ Bracketed zs z) (fun v z pos hz => (bad v z pos hz).1)
      (fun v z pos hv hz => (good v z pos hv (not_not.1 hz)).1) out _ 0 hr h
  · exact loop_error _ _ (fun z => ¬ Bracketed zs z) (fun v z pos hz => (bad v z pos hz).2)
      (fun v z pos hv hz => (good v z pos hv (not_not.1 hz)).2) out _ 0 hr h

/-- C08 for `make_lightcone`, proved part: if the output redshifts ascend and no step jumps over more
than one snapshot, every slice is made from the two snapshots around its redshift.  Missing: steps that
jump over several snapshots, for which the claim is false (`C08_false`). -/
theorem C08_partial (read : ℕ → D) (zs out : List K) (us : List (Used K D))
    (hout : out.IsChain fun z z' => z ≤ z' ∧ AtMostOne zs z z')
    (h : scalarSlices read zs out = .ok us) :
    us.length = out.length ∧
      ∀ i z u, out[i]? = some z → us[i]? = some u → Correct read zs z i u := by
  have := loop_good (stepScalar read zs)
    (fun prev v => match prev with
      | none => v = .start
      | some p => ∃ lo hi dl dh, v = ⟨some lo, some hi, some dl, some dh⟩ ∧ IsLower zs p lo ∧
          IsUpper zs p hi ∧ FromSnapshot read zs lo dl ∧ FromSnapshot read zs hi dh)
    (Correct read zs) (fun z z' => z ≤ z' ∧ AtMostOne zs z z') ?_ out none .start 0 us
    rfl (by rintro p ⟨⟩) hout h
  · simpa using this
  · intro prev v z pos v' u hinv hR hs
    rcases hl : bracketLow zs z with - | lo
    · rw [(step_unbracketed read zs v z pos (.inl hl)).1] at hs; cases hs
    rcases hh : bracketHigh zs z with - | hi
    · rw [(step_unbracketed read zs v z pos (.inr hh)).1] at hs; cases hs
    obtain ⟨rfl, e1, e2, rfl, rfl, e5, e6⟩ := stepScalar_eq read zs v z pos hl hh hs
    have L := lower_of_bracketLow hl
    have U := upper_of_bracketHigh hh
    suffices hd : FromSnapshot read zs u.zLow u.dataLow ∧ FromSnapshot read zs u.zHigh u.dataHigh by
      exact ⟨⟨_, _, _, _, rfl, L, U, hd.1, hd.2⟩, ⟨e1, e2, L, U, hd.1, hd.2⟩⟩
    cases prev with
    | none =>
      have hinv : v = .start := hinv
      subst hinv
      simp only [Vars.start, ne_eq, reduceCtorEq, not_false_eq_true, if_true, Option.getD_none] at e5 e6
      exact ⟨Option.some.inj e5 ▸ fromSnapshot_nearest read L.1,
        Option.some.inj e6 ▸ fromSnapshot_nearest read U.1⟩
    | some p =>
      obtain ⟨lo, hi, dl, dh, rfl, Lp, Up, hdl, hdh⟩ := hinv
      obtain ⟨hle, hone⟩ := hR p rfl
      dsimp only at e5 e6
      constructor
      · split at e5
        · next c =>
          have hne : u.zLow ≠ lo := fun e => c (by rw [e])
          have h1 : lo ≤ u.zLow := L.2.2 lo Lp.1 (Lp.2.1.trans hle)
          have h2 : p < u.zLow := by
            by_contra hge
            exact hne (le_antisymm (Lp.2.2 _ L.1 (not_lt.1 hge)) h1)
          have h3 : hi ≤ u.zLow := Up.2.2 _ L.1 h2
          have h4 : hi = u.zLow := hone hi Up.1 _ L.1 Up.2.1 (h3.trans L.2.1) h2 L.2.1
          rw [← h4]
          simp only [Option.getD_some, Option.some.injEq] at e5
          exact e5 ▸ hdh
        · next c =>
          push Not at c
          rw [Option.some.inj c, ← Option.some.inj e5]; exact hdl
      · split at e6
        · exact Option.some.inj e6 ▸ fromSnapshot_nearest read U.1
        · next c =>
          push Not at c
          rw [Option.some.inj c, ← Option.some.inj e6]; exact hdh

/-- The hypotheses of `C08_partial` hold for snapshots 6, 7, 8, 9 and outputs 6.5, 7.5, 7.75, 8.5. -/
example : scalarSlices id [(6 : ℚ), 7, 8, 9] [13/2, 15/2, 31/4, 17/2] =
      .ok [⟨1, 0, 7, 6, 13/2, 0⟩, ⟨2, 1, 8, 7, 15/2, 1⟩, ⟨2, 1, 8, 7, 31/4, 2⟩, ⟨3, 2, 9, 8, 17/2, 3⟩] ∧
    [(13/2 : ℚ), 15/2, 31/4, 17/2].IsChain
      fun z z' => z ≤ z' ∧ AtMostOne [(6 : ℚ), 7, 8, 9] z z' := by
  constructor
  · decide +kernel
  · simp only [List.isChain_cons_cons, AtMostOne, List.mem_cons, List.not_mem_nil, or_false,
      forall_eq_or_imp, forall_eq]
    norm_num

/-- C08 fails: with snapshots at 6, 7, 8, 9 and output redshifts 6.5 and 8.5 (the frequency mode of
`make_lightcone` with channels of `8/285` of the rest frequency produces them), the second slice is
interpolated between the cubes of redshifts 7 and 9 although it is labelled 8 to 9. -/
theorem C08_false :
    ∃ (C : Cosmo ℚ) (zs : List ℚ) (zl zh : Option ℚ) (n L : ℚ) (dnu : Option ℚ) (us : List (Used ℚ ℕ)),
      makeLightcone C id zs zl zh n L dnu 3 = some (.ok us) ∧
      ∃ (i : ℕ) (u : Used ℚ ℕ), us[i]? = some u ∧ ∃ lo, IsLower zs u.z lo ∧ ¬ FromSnapshot id zs lo u.dataLow := by
  refine ⟨⟨fun _ => 1, 1420, 300000⟩, [6, 7, 8, 9], some 6, some (17/2), 100, 100,
    some (1420 * 8 / 285), [⟨1, 0, 7, 6, 13/2, 0⟩, ⟨3, 1, 9, 8, 17/2, 1⟩], ?_, 1, _, rfl, 8, ?_, ?_⟩
  · decide +kernel
  · simp only [IsLower, List.mem_cons, List.not_mem_nil, or_false, forall_eq_or_imp, forall_eq]
    norm_num
  · rintro ⟨i, hi, he⟩
    simp only [id] at he
    subst he
    simp at hi

end Verif.Lightcone
