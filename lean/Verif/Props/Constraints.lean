import Verif.Model.Constraints
import Mathlib.Data.List.Dedup

/-!
# C224: the compilation of constraints is consistent

Full statement (C224): every entry of the compilation is a possible neutral fraction with errors that bracket it: the value lies between 0 and 1, the lower errors (of redshift
and value) are not positive and the upper ones not negative, and the interval that they give lies between 0 and 1.  Every history has as many values as redshifts, with
different redshifts and values between 0 and 1; the neutral fraction does not fall with the redshift; and the errors of a history bracket its values.

False of the code: the interval of Yang+2020 at redshift 6.2 reaches below zero; the history of Hutter+2025 is not monotonic; the 16th percentile of the model of Qin+2025 lies
above its value at seven redshifts.  Everything else is proved.
-/

namespace Verif.Constraints

/-- The neutral fraction 1 in the unit of the tables. -/
def one : Int := 1000000000000000

/-- The value of an entry is a neutral fraction and the errors bracket it. -/
structure Bracketed (e : Entry) : Prop where
  nonneg : 0 ≤ e.value
  le_one : e.value ≤ one
  low : e.low ≤ 0
  high : 0 ≤ e.high
  zLow : e.zLow ≤ 0
  zHigh : 0 ≤ e.zHigh
  top : e.value + e.high ≤ one

/-- The interval of an entry does not reach below zero. -/
def FromZero (e : Entry) : Prop := 0 ≤ e.value + e.low

/-- **C224** (partial: the lower end of one entry is excepted): the entries of the compilation. -/
theorem C224_partial (e : Entry) (he : e ∈ entries) : Bracketed e ∧ (¬(e.source = n!"Yang+2020" ∧ e.z = 62000) → FromZero e) := by
  have h : ∀ e ∈ entries, (0 ≤ e.value ∧ e.value ≤ one ∧ e.low ≤ 0 ∧ 0 ≤ e.high ∧ e.zLow ≤ 0 ∧ 0 ≤ e.zHigh ∧ e.value + e.high ≤ one) ∧
      (¬(e.source = n!"Yang+2020" ∧ e.z = 62000) → 0 ≤ e.value + e.low) := by decide +kernel
  obtain ⟨⟨h1, h2, h3, h4, h5, h6, h7⟩, h8⟩ := h e he
  exact ⟨⟨h1, h2, h3, h4, h5, h6, h7⟩, h8⟩

/-- The samples of a history. -/
def History.samples (h : History) : List (Int × Int) := h.zs.zip h.values

/-- **C224**, the histories: as many values as redshifts, all different, values between 0 and 1, and (except for one of the five) a neutral fraction that does not fall with
the redshift. -/
theorem C224_histories (h : History) (hh : h ∈ histories) :
    h.zs.length = h.values.length ∧ h.zs.Nodup ∧ (∀ v ∈ h.values, 0 ≤ v ∧ v ≤ one) ∧
      (h.name ≠ n!"Evolving IMF" → ∀ p ∈ h.samples, ∀ q ∈ h.samples, p.1 < q.1 → p.2 ≤ q.2) := by
  have hd : ∀ h ∈ histories, h.zs.length = h.values.length ∧ h.zs.Nodup ∧ (∀ v ∈ h.values, 0 ≤ v ∧ v ≤ one) := by decide +kernel
  have hm : (histories.all fun h => h.name == n!"Evolving IMF" || h.samples.all fun p => h.samples.all fun q =>
      decide (q.1 ≤ p.1) || decide (p.2 ≤ q.2)) = true := by decide +kernel
  refine ⟨(hd h hh).1, (hd h hh).2.1, (hd h hh).2.2, fun hn p hp q hq hpq => ?_⟩
  have h1 := List.all_eq_true.mp hm h hh
  rw [Bool.or_eq_true, beq_iff_eq] at h1
  have h2 := List.all_eq_true.mp (List.all_eq_true.mp (h1.resolve_left hn) p hp) q hq
  rw [Bool.or_eq_true, decide_eq_true_iff, decide_eq_true_iff] at h2
  exact h2.resolve_left (Int.not_le.mpr hpq)

/-- **C224** is false of the code: an entry whose interval reaches below zero. -/
theorem C224_false : ∃ e ∈ entries, ¬FromZero e := by
  have h : ∃ e ∈ entries, ¬0 ≤ e.value + e.low := by decide +kernel
  exact h

/-- **C224** is false of the code: a history with a larger neutral fraction at a smaller redshift. -/
theorem C224_false_history : ∃ h ∈ histories, ∃ p ∈ h.samples, ∃ q ∈ h.samples, p.1 < q.1 ∧ q.2 < p.2 := by
  refine ⟨evolvingIMF, by simp [histories], (46300, 6761151850), ?_, (47500, 6489386030), ?_, ?_, ?_⟩ <;> decide +kernel

/-- **C224** is false of the code: the errors of the model of Qin+2025 do not bracket its values at seven redshifts, though the upper ones are never negative. -/
theorem C224_false_errors : mAPModelErrors.length = mAPModel.values.length ∧ (∀ e ∈ mAPModelErrors, e.1 ≤ e.2 ∧ 0 ≤ e.2) ∧
    (mAPModelErrors.filter fun e => decide (0 < e.1)).length = 7 := by decide +kernel

/-- **C224**, order: the redshifts of every history but that of `Garaldi+2022` are listed in order, rising for the two of `Giri+2024`, falling for the others. -/
theorem C224_order (h : History) (hh : h ∈ histories) (hn : h.name ≠ n!"Thesan-1") :
    (h.zs.Pairwise (· < ·) ∧ (h.name = n!"Source1_SinkA" ∨ h.name = n!"Source1_SinkB")) ∨ h.zs.Pairwise (· > ·) := by
  have hd : ∀ h ∈ histories, h.name ≠ n!"Thesan-1" →
      (h.zs.Pairwise (· < ·) ∧ (h.name = n!"Source1_SinkA" ∨ h.name = n!"Source1_SinkB")) ∨ h.zs.Pairwise (· > ·) := by decide +kernel
  exact hd h hh hn

/-- **C224** is false of the code: the redshifts of one history run neither up nor down, the list falls back by part of its length three times. -/
theorem C224_false_order : ∃ h ∈ histories, ¬h.zs.Pairwise (· < ·) ∧ ¬h.zs.Pairwise (· > ·) ∧
    (h.zs.zip h.zs.tail).filter (fun p => decide (p.1 ≤ p.2)) = [(143014, 146177), (100065, 106228), (55118, 55168)] := by
  refine ⟨thesan1, by simp [histories], ?_⟩
  decide +kernel

/-- The entries of `C224_partial`: 80 of them, from 36 references. -/
example : entries.length = 80 ∧ (entries.map Entry.source).dedup.length = 36 := by decide +kernel

/-- A history of `C224_order`. -/
example : source1SinkA ∈ histories ∧ source1SinkA.name ≠ n!"Thesan-1" ∧ source1SinkA.zs.take 3 = [53480, 53920, 54360] := by
  refine ⟨by simp [histories], ?_⟩; decide +kernel

/-- The histories of `C224_histories`. -/
example : histories.map (fun h => h.zs.length) = [74, 74, 98, 72, 48] := by decide +kernel

end Verif.Constraints
