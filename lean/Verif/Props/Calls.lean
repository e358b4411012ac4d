import Verif.Model.CallsTable
import Verif.Lemmas.Ident
import Mathlib.Data.List.Count
import Mathlib.Data.List.Nodup
import Mathlib.Data.List.Basic
import Mathlib.Tactic.NormNum
/-!
# Calls between the functions of the package (C210)
-/

namespace Verif.Calls

/-! ## Specification -/

/-- How many values a call gives to a parameter. -/
def given (s : Sig) (pos : ℕ) (kws : List Ident) (p : Ident) : ℕ := (if p ∈ s.params.take pos then 1 else 0) + kws.count p

/-- A call that fits: all arguments go somewhere, no parameter gets more than one value, and those without a default get one. -/
structure Fits (s : Sig) (pos : ℕ) (kws : List Ident) : Prop where
  places : pos ≤ s.params.length ∨ s.varargs = true
  known : ∀ k ∈ kws, k ∈ s.params ∨ s.kwargs = true
  once : ∀ p ∈ s.params, given s pos kws p ≤ 1
  filled : ∀ p ∈ s.params.take s.required, given s pos kws p = 1

/-! ## Lemmas -/

theorem mem_take_or_drop {s : List Ident} (n m : ℕ) {p : Ident} (h : p ∈ s.take n) : p ∈ s.take m ∨ p ∈ (s.take n).drop m := by
  have := List.take_append_drop m (s.take n)
  rw [← this] at h
  rcases List.mem_append.1 h with h | h
  · left
    rw [List.take_take] at h
    exact List.take_subset_take_left s (min_le_left _ _) h
  · exact Or.inr h

theorem not_take_of_drop {s : List Ident} (hs : s.Nodup) (n m : ℕ) {p : Ident} (h : p ∈ (s.take n).drop m) : p ∉ s.take m := by
  intro h'
  have h1 : p ∈ s.drop m := by
    rw [List.drop_take] at h
    exact List.mem_of_mem_take h
  have := (List.nodup_append.1 ((List.take_append_drop m s).symm ▸ hs : (s.take m ++ s.drop m).Nodup)).2.2 p h' p h1
  exact this rfl

/-! ## C210 -/

/-- A call is accepted if and only if it fits. -/
theorem C210_bind (s : Sig) (pos : ℕ) (kws : List Ident) (hs : s.params.Nodup) (hk : kws.Nodup) :
    (∃ r, bind s pos kws = .ok r) ↔ Fits s pos kws := by
  have hcount : ∀ k ∈ kws, kws.count k = 1 := fun k h => List.count_eq_one_of_mem hk h
  unfold bind
  constructor
  · rintro ⟨r, hr⟩
    split at hr
    · cases hr
    split at hr
    · cases hr
    split at hr
    · cases hr
    split at hr
    · cases hr
    rename_i h1 h2 h3 h4
    simp only [Bool.and_eq_true, decide_eq_true_eq, Bool.not_eq_true', not_and, Bool.not_eq_false] at h1
    simp only [List.any_eq_true, not_exists, not_and, List.contains_iff_mem] at h2
    simp only [List.any_eq_true, not_exists, not_and, Bool.and_eq_true, Bool.not_eq_true', Bool.not_eq_false] at h3
    simp only [List.any_eq_true, not_exists, not_and, Bool.not_eq_true', Bool.not_eq_false, List.contains_iff_mem] at h4
    refine ⟨?_, fun k hkm => ?_, fun p hp => ?_, fun p hp => ?_⟩
    · by_cases h : pos ≤ s.params.length
      · exact Or.inl h
      · exact Or.inr (h1 (by omega))
    · by_cases h : k ∈ s.params
      · exact Or.inl h
      · right
        refine h3 k hkm ?_
        cases hc : s.params.contains k with
        | false => rfl
        | true => exact absurd (List.contains_iff_mem.1 hc) h
    · unfold given
      by_cases hpk : p ∈ kws
      · rw [if_neg (h2 p hpk), hcount p hpk]
      · rw [List.count_eq_zero.2 hpk]
        split_ifs <;> omega
    · unfold given
      rcases mem_take_or_drop s.required pos hp with h | h
      · rw [if_pos h, List.count_eq_zero.2 fun hpk => h2 p hpk h]
      · rw [if_neg (not_take_of_drop hs _ _ h), hcount p (h4 p h)]
  · rintro ⟨h1, h2, h3, h4⟩
    rw [if_neg, if_neg, if_neg, if_neg]
    · exact ⟨_, rfl⟩
    · simp only [List.any_eq_true, not_exists, not_and, Bool.not_eq_true', Bool.not_eq_false, List.contains_iff_mem]
      intro p hp
      have hp' : p ∈ s.params.take s.required := List.mem_of_mem_drop hp
      have := h4 p hp'
      unfold given at this
      rw [if_neg (not_take_of_drop hs _ _ hp)] at this
      exact List.one_le_count_iff.1 (by omega)
    · simp only [List.any_eq_true, not_exists, not_and, Bool.and_eq_true, Bool.not_eq_true', Bool.not_eq_false]
      intro k hkm hc
      rcases h2 k hkm with h | h
      · rw [List.contains_iff_mem.2 h] at hc
        cases hc
      · exact h
    · simp only [List.any_eq_true, not_exists, not_and, List.contains_iff_mem]
      intro k hkm hc
      have := h3 k (List.mem_of_mem_take hc)
      unfold given at this
      rw [if_pos hc, hcount k hkm] at this
      omega
    · simp only [Bool.and_eq_true, decide_eq_true_eq, Bool.not_eq_true', not_and, Bool.not_eq_false]
      intro h
      rcases h1 with h1 | h1
      · omega
      · exact h1

/-- Positional arguments go to the parameters in their order, keywords to the parameters of their names, and the rest has its default. -/
theorem C210_values (s : Sig) (pos : ℕ) (kws : List Ident) {r : List (Ident × Arg)} (h : bind s pos kws = .ok r) :
    r.length = s.params.length ∧ ∀ i (hi : i < s.params.length),
      (i < pos → r[i]? = some (s.params[i], .position i)) ∧ (pos ≤ i → s.params[i] ∈ kws → r[i]? = some (s.params[i], .keyword s.params[i])) ∧
      (pos ≤ i → s.params[i] ∉ kws → r[i]? = some (s.params[i], .default)) := by
  unfold bind at h
  split at h
  · cases h
  split at h
  · cases h
  split at h
  · cases h
  split at h
  · cases h
  cases h
  refine ⟨by simp, fun i hi => ⟨fun h => ?_, fun h hk => ?_, fun h hk => ?_⟩⟩
  · simp [List.getElem?_eq_getElem hi, h]
  · simp [List.getElem?_eq_getElem hi, Nat.not_lt.2 h, hk]
  · simp [List.getElem?_eq_getElem hi, Nat.not_lt.2 h, hk]

example : bind ⟨[n!"k_comp", n!"k", n!"los_axis", n!"absolute_mus"], 4, false, false⟩ 3 [n!"absolute_mus"] =
    .ok [(n!"k_comp", .position 0), (n!"k", .position 1), (n!"los_axis", .position 2), (n!"absolute_mus", .keyword n!"absolute_mus")] := by rfl

/-- The calls that do not fit. -/
def misfits : List Call :=
  [⟨n!"deprecated.freq_box", n!"lightcone._get_interp_slice", 6, []⟩,
    ⟨n!"lyman_alpha_coupling.Lya_coupling_coeff", n!"lyman_alpha_coupling.one_source", 5, []⟩,
    ⟨n!"lyman_alpha_coupling.Lya_coupling_coeff_", n!"lyman_alpha_coupling.one_source", 9, []⟩,
    ⟨n!"power_legendre.power_spectrum_multipoles", n!"power_spectrum._get_mu", 3, []⟩,
    ⟨n!"radio_telescope_noise.noise_cube_lightcone", n!"radio_telescope_noise.noise_lightcone", 21, []⟩,
    ⟨n!"smoothing.convolve_uvmap", n!"radio_telescope_noise.get_uv_map", 2, [n!"filename", n!"total_int_time", n!"int_time", n!"boxsize", n!"declination", n!"verbose"]⟩,
    ⟨n!"smoothing.convolve_uvmap_coeval", n!"radio_telescope_noise.get_uv_map", 2, [n!"filename", n!"total_int_time", n!"int_time", n!"boxsize", n!"declination", n!"verbose"]⟩]

/-- What the check of all calls computes. -/
def callCheck (c : Call) : Bool :=
  match sigs.lookup c.target with
  | none => false
  | some s => decide s.params.Nodup && decide c.kws.Nodup && ((match bind s c.pos c.kws with | .ok _ => true | .error _ => false) != misfits.contains c)

theorem callCheck_true : calls.all callCheck = true := by decide +kernel

theorem callCheck_spec {c : Call} (hc : c ∈ calls) :
    ∃ s, sigs.lookup c.target = some s ∧ s.params.Nodup ∧ c.kws.Nodup ∧ ((∃ r, bind s c.pos c.kws = .ok r) ↔ c ∉ misfits) := by
  have h := List.all_eq_true.1 callCheck_true c hc
  unfold callCheck at h
  split at h
  · cases h
  · rename_i s hs
    simp only [Bool.and_eq_true, decide_eq_true_eq] at h
    refine ⟨s, hs, h.1.1, h.1.2, ?_⟩
    have h2 := h.2
    have hm : c ∈ misfits ↔ misfits.contains c = true := List.contains_iff_mem.symm
    rw [hm]
    split at h2
    · rename_i r hr
      rw [hr]
      have h3 : misfits.contains c = false := by
        cases hc : misfits.contains c with
        | false => rfl
        | true => rw [hc] at h2; cases h2
      rw [h3]
      exact ⟨fun _ => by decide, fun _ => ⟨r, rfl⟩⟩
    · rename_i e he
      rw [he]
      have h3 : misfits.contains c = true := by
        cases hc : misfits.contains c with
        | true => rfl
        | false => rw [hc] at h2; cases h2
      rw [h3]
      exact ⟨fun ⟨r, hr⟩ => by (exact absurd hr (by simp)), fun hf => absurd rfl hf⟩

/-- **C210** (partial).  Every call of one function of the modules by another fits, except for the seven of `misfits`. -/
theorem C210_partial (c : Call) (hc : c ∈ calls) (hm : c ∉ misfits) : ∃ s, sigs.lookup c.target = some s ∧ Fits s c.pos c.kws := by
  obtain ⟨s, hs, h1, h2, h3⟩ := callCheck_spec hc
  exact ⟨s, hs, (C210_bind s c.pos c.kws h1 h2).1 (h3.2 hm)⟩

/-- A call of the power spectrum that fits. -/
example : (calls.any fun c => c.target == n!"power_spectrum.power_spectrum_1d" && !misfits.contains c) = true := by decide +kernel

theorem misfits_calls : (misfits.all fun c => calls.contains c) = true := by decide +kernel

/-- These do not fit, and raise a TypeError. -/
theorem C210_false (c : Call) (hm : c ∈ misfits) : c ∈ calls ∧ ∃ s e, sigs.lookup c.target = some s ∧ bind s c.pos c.kws = .error e ∧ ¬ Fits s c.pos c.kws := by
  have hc : c ∈ calls := List.contains_iff_mem.1 (List.all_eq_true.1 misfits_calls c hm)
  refine ⟨hc, ?_⟩
  obtain ⟨s, hs, h1, h2, h3⟩ := callCheck_spec hc
  have hn : ¬ ∃ r, bind s c.pos c.kws = .ok r := fun h => h3.1 h hm
  cases hb : bind s c.pos c.kws with
  | ok r => exact absurd ⟨r, hb⟩ hn
  | error e => exact ⟨s, e, hs, hb, fun hf => hn ((C210_bind s c.pos c.kws h1 h2).2 hf)⟩

end Verif.Calls
