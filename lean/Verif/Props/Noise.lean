import Verif.Model.Noise
import Verif.Props.RandomField
import Mathlib.Tactic.Linarith
import Mathlib.Tactic.FieldSimp
/-!
# Thermal noise

C113: `get_SEFD` and `sigma_noise_radio`.
-/

namespace Verif.Noise
open Verif.Convolve Verif.PowerSpectrum Verif.Conversions Verif.Constants

/-! ## C113 -/

/-- Specification: the value of a parameter at a frequency. -/
noncomputable def valueAt (p : Param) (dflt : ℝ → ℝ) (nu : ℝ) : ℝ :=
  match p with
  | .default => dflt nu
  | .const x => x
  | .fn f => f nu

/-- Specification: the documented default system temperature: sky and receiver. -/
noncomputable def systemTemperature (nu : ℝ) : ℝ := 60 * (300 / nu) ^ (2.55 : ℝ) + 100

open Classical in
/-- Specification: the default aperture efficiency falls as the inverse square of the frequency above 110 MHz. -/
noncomputable def apertureEfficiency (nu : ℝ) : ℝ := if nu ≤ 110 then 1 else (110 / nu) ^ 2

/-- Specification: `s` in Jy is the system equivalent flux density: collected on the effective area
`ep * pi D^2/4`, it has the power of the temperature, `2 k T`. -/
def IsSefd (D t ep s : ℝ) : Prop := s * 1e-26 * (ep * (Real.pi * D ^ 2 / 4)) = 2 * 1.380649e-23 * t

theorem sefdOf_spec {D t ep : ℝ} (hD : D ≠ 0) (he : ep ≠ 0) : IsSefd D t ep (sefdOf D t ep) := by
  unfold IsSefd sefdOf kbSI janskyToWatt
  have := Real.pi_ne_zero
  field_simp
  ring

theorem defaultT_eq : defaultT = systemTemperature := by
  funext nu
  unfold defaultT systemTemperature
  norm_num

theorem defaultEp_eq : defaultEp = apertureEfficiency := by
  funext nu
  unfold defaultEp apertureEfficiency
  by_cases h : nu ≤ 110
  · rw [if_pos h, if_neg (not_lt.mpr h)]
  · rw [if_neg h, if_pos (not_le.mp h)]

/-- One of the two parameters varies with the frequency. -/
def Varies (t e : Param) : Prop := ¬ ∃ x y, t = .const x ∧ e = .const y

theorem eval_list (p : Param) (f : ℝ → ℝ) (nu : List ℝ) :
    (∃ x, p = .const x ∧ p.eval f nu = .one x) ∨ p.eval f nu = .many (nu.map (valueAt p f)) := by
  cases p with
  | default => exact .inr rfl
  | const x => exact .inl ⟨x, rfl, rfl⟩
  | fn g => exact .inr rfl

theorem combined (t e : Param) (h : Varies t e) (D : ℝ) (nu : List ℝ) :
    combine (sefdOf D) (t.eval defaultT nu) (e.eval defaultEp nu) =
      .many (nu.map fun x => sefdOf D (valueAt t defaultT x) (valueAt e defaultEp x)) := by
  rcases eval_list t defaultT nu with ⟨x, rfl, h1⟩ | h1 <;> rcases eval_list e defaultEp nu with ⟨y, rfl, h2⟩ | h2
  · exact absurd ⟨x, y, rfl, rfl⟩ h
  · rw [h1, h2]; simp [combine, valueAt]
  · rw [h1, h2]; simp [combine, valueAt]
  · rw [h1, h2]
    simp only [combine, Nums.many.injEq]
    rw [List.zipWith_map, List.zipWith_self]

theorem zero_notMem (e : Param) (nu : List ℝ) (h : ∀ x ∈ nu, valueAt e defaultEp x ≠ 0) (hn : nu ≠ []) :
    0 ∉ (e.eval defaultEp nu).list := by
  rcases eval_list e defaultEp nu with ⟨y, rfl, h2⟩ | h2
  · rw [h2]
    obtain ⟨x, hx⟩ := List.exists_mem_of_ne_nil _ hn
    have := h x hx
    simpa [Nums.list, valueAt, eq_comm] using this
  · rw [h2]
    simp only [Nums.list, List.mem_map, not_exists, not_and]
    exact h

/-- Without a table the SEFD is that of the antenna, for a frequency or for an array of several, if the system
temperature or the aperture efficiency depends on the frequency. -/
theorem C113_partial (table : List ℝ × List ℝ) (t e : Param) (nuData : Option (List ℝ)) (D : ℝ) (h : Varies t e)
    (hD : D ≠ 0) :
    (∀ nu, valueAt e apertureEfficiency nu ≠ 0 →
      ∃ s, getSEFD table (.one nu) t .none nuData D e = .ok (.one s) ∧
        IsSefd D (valueAt t systemTemperature nu) (valueAt e apertureEfficiency nu) s) ∧
    ∀ nus : List ℝ, 2 ≤ nus.length → (∀ nu ∈ nus, valueAt e apertureEfficiency nu ≠ 0) →
      ∃ out, getSEFD table (.many nus) t .none nuData D e = .ok (.many out) ∧ out.length = nus.length ∧
        ∀ i < nus.length, IsSefd D (valueAt t systemTemperature (nus.getD i 0))
          (valueAt e apertureEfficiency (nus.getD i 0)) (out.getD i 0) := by
  rw [← defaultT_eq, ← defaultEp_eq]
  constructor
  · intro nu hnu
    refine ⟨_, ?_, sefdOf_spec hD hnu⟩
    have hz : ¬ (D = 0 ∨ 0 ∈ (e.eval defaultEp (Nums.one nu).list).list) := by
      rintro (h1 | h1)
      · exact hD h1
      · exact zero_notMem e [nu] (by simpa using hnu) (by simp) h1
    simp only [getSEFD]
    rw [if_neg hz, combined t e h, if_pos (by rfl)]
    rfl
  · intro nus hl hnu
    refine ⟨nus.map fun x => sefdOf D (valueAt t defaultT x) (valueAt e defaultEp x), ?_, by rw [List.length_map],
      fun i hi => ?_⟩
    · have hz : ¬ (D = 0 ∨ 0 ∈ (e.eval defaultEp (Nums.many nus).list).list) := by
        rintro (h1 | h1)
        · exact hD h1
        · exact zero_notMem e nus hnu (by rintro rfl; simp at hl) h1
      simp only [getSEFD]
      rw [if_neg hz, combined t e h, if_neg (by simp only [Nums.list]; omega)]
      rfl
    · rw [List.getD_eq_getElem nus _ hi, List.getD_eq_getElem (nus.map _) _ (by simpa using hi), List.getElem_map]
      exact sefdOf_spec hD (hnu _ (List.getElem_mem _))

/-- The default telescope at 142 MHz. -/
example : Varies .default .default ∧ (40 : ℝ) ≠ 0 ∧ valueAt .default apertureEfficiency 142 ≠ 0 := by
  refine ⟨by rintro ⟨x, y, h, -⟩; exact absurd h (by simp), by norm_num, ?_⟩
  simp only [valueAt, apertureEfficiency]
  norm_num

/-- Claims of C113: system temperature and aperture efficiency can both be numbers, and the result has the shape of the
frequencies.  False: then one frequency raises, several give a single number; and an array of one frequency always
gives a number. -/
theorem C113_false (table : List ℝ × List ℝ) (t ep : ℝ) (nuData : Option (List ℝ)) (D : ℝ) (hD : D ≠ 0) (he : ep ≠ 0) :
    (∀ nu, ∃ s, getSEFD table (.one nu) (.const t) .none nuData D (.const ep) = .error s) ∧
    (∀ nus : List ℝ, 2 ≤ nus.length →
      ∃ s, getSEFD table (.many nus) (.const t) .none nuData D (.const ep) = .ok (.one s)) ∧
    ∀ nu, ∃ s, getSEFD table (.many [nu]) (.fn fun _ => t) .none nuData D (.const ep) = .ok (.one s) := by
  have hz : ∀ nu, ¬ (D = 0 ∨ 0 ∈ ((Param.const ep).eval defaultEp nu).list) := by
    intro nu
    simp [Param.eval, Nums.list, hD, he.symm]
  refine ⟨fun nu => ⟨"'float' object is not subscriptable", ?_⟩, fun nus hl => ⟨sefdOf D t ep, ?_⟩,
    fun nu => ⟨sefdOf D t ep, ?_⟩⟩
  · simp only [getSEFD]
    rw [if_neg (hz _), if_pos (by rfl)]
    rfl
  · simp only [getSEFD]
    rw [if_neg (hz _), if_neg (by simp only [Nums.list]; omega)]
    rfl
  · simp only [getSEFD]
    rw [if_neg (hz _), if_pos (by rfl)]
    rfl

/-- A table without frequencies raises, and so does a name that is not known. -/
theorem C113_raises (table : List ℝ × List ℝ) (nu : Nums) (t e : Param) (D : ℝ) (l : List ℝ) :
    (∃ s, getSEFD table nu t (.array l) none D e = .error s) ∧
    ∀ nuData, ∃ s, getSEFD table nu t .unknown nuData D e = .error s := ⟨⟨_, rfl⟩, fun _ => ⟨_, rfl⟩⟩

/-- Specification: `p` and `q` are neighbours among the points. -/
def Neighbours (pts : List (ℝ × ℝ)) (p q : ℝ × ℝ) : Prop :=
  p ∈ pts ∧ q ∈ pts ∧ p.1 < q.1 ∧ ∀ r ∈ pts, r.1 ≤ p.1 ∨ q.1 ≤ r.1

open Classical in
theorem sorted_spec (pts : List (ℝ × ℝ)) (hn : (pts.map Prod.fst).Nodup) :
    (pts.insertionSort fun p q => p.1 ≤ q.1).Pairwise (fun p q => p.1 < q.1) := by
  have : Std.Total (fun p q : ℝ × ℝ => p.1 ≤ q.1) := ⟨fun p q => le_total _ _⟩
  have : IsTrans (ℝ × ℝ) (fun p q : ℝ × ℝ => p.1 ≤ q.1) := ⟨fun _ _ _ => le_trans⟩
  have h1 := List.pairwise_insertionSort (fun p q : ℝ × ℝ => p.1 ≤ q.1) pts
  have h2 : ((pts.insertionSort fun p q => p.1 ≤ q.1).map Prod.fst).Nodup :=
    ((List.perm_insertionSort (fun p q : ℝ × ℝ => p.1 ≤ q.1) pts).map Prod.fst).nodup_iff.mpr hn
  have h3 : (pts.insertionSort fun p q => p.1 ≤ q.1).Pairwise (fun p q => p.1 ≠ q.1) := List.pairwise_map.mp h2
  exact (h1.and h3).imp fun {a b} h => lt_of_le_of_ne h.1 h.2

theorem countP_sorted (s : List (ℝ × ℝ)) (x : ℝ) (m : ℕ) (hm : m ≤ s.length)
    (h1 : ∀ i (h : i < s.length), i < m → s[i].1 < x) (h2 : ∀ i (h : i < s.length), m ≤ i → x ≤ s[i].1) :
    (s.filter fun p => open Classical in decide (p.1 < x)).length = m := by
  have e : s.filter (fun p => open Classical in decide (p.1 < x)) = s.take m := by
    conv_lhs => rw [← List.take_append_drop m s]
    rw [List.filter_append]
    have a1 : (s.take m).filter (fun p => open Classical in decide (p.1 < x)) = s.take m := by
      rw [List.filter_eq_self]
      intro p hp
      obtain ⟨i, hi, rfl⟩ := List.getElem_of_mem hp
      rw [List.length_take] at hi
      simpa using h1 i (by omega) (by omega)
    have a2 : (s.drop m).filter (fun p => open Classical in decide (p.1 < x)) = [] := by
      rw [List.filter_eq_nil_iff]
      intro p hp
      obtain ⟨i, hi, rfl⟩ := List.getElem_of_mem hp
      rw [List.length_drop] at hi
      rw [List.getElem_drop]
      simpa using h2 (m + i) (by omega) (by omega)
    rw [a1, a2, List.append_nil]
  rw [e, List.length_take]
  omega

open Classical in
theorem interp_eq (pts : List (ℝ × ℝ)) (hn : (pts.map Prod.fst).Nodup) (p q : ℝ × ℝ) (h : Neighbours pts p q) (x : ℝ)
    (h1 : p.1 < x ∨ ∀ r ∈ pts, p.1 ≤ r.1) (h2 : x ≤ q.1 ∨ ∀ r ∈ pts, r.1 ≤ q.1) :
    interp pts x = .ok ((q.2 - p.2) / (q.1 - p.1) * (x - p.1) + p.2) := by
  obtain ⟨hp, hq, hpq, hb⟩ := h
  unfold interp
  set s := pts.insertionSort fun p q => p.1 ≤ q.1 with hs
  have hsort : s.Pairwise (fun p q => p.1 < q.1) := sorted_spec pts hn
  have hmem : ∀ r, r ∈ s ↔ r ∈ pts := fun r => List.mem_insertionSort _
  obtain ⟨i, hi, rfl⟩ := List.getElem_of_mem ((hmem p).mpr hp)
  obtain ⟨j, hj, rfl⟩ := List.getElem_of_mem ((hmem q).mpr hq)
  have mono : ∀ a b (ha : a < s.length) (hb : b < s.length), a < b → s[a].1 < s[b].1 :=
    fun a b ha hb hab => List.pairwise_iff_getElem.mp hsort a b ha hb hab
  have hij : i < j := by
    by_contra hc
    rcases Nat.lt_or_ge j i with h' | h'
    · linarith [mono j i hj hi h']
    · have : i = j := by omega
      subst this
      exact lt_irrefl _ hpq
  have hji : j = i + 1 := by
    by_contra hc
    have hk : i + 1 < s.length := by omega
    rcases hb s[i + 1] ((hmem _).mp (List.getElem_mem hk)) with h' | h'
    · linarith [mono i (i + 1) hi hk (by omega)]
    · linarith [mono (i + 1) j hk hj (by omega)]
  subst hji
  simp only []
  rw [if_neg (by omega)]
  have key : max 1 (min (s.filter fun p => decide (p.1 < x)).length (s.length - 1)) = i + 1 := by
    rcases h1 with h1 | h1
    · rcases h2 with h2 | h2
      · rw [countP_sorted s x (i + 1) (by omega)]
        · omega
        · intro a ha hai
          rcases Nat.lt_or_ge a i with h' | h'
          · linarith [mono a i ha hi h']
          · have : a = i := by omega
            subst this
            exact h1
        · intro a ha hai
          rcases Nat.lt_or_ge (i + 1) a with h' | h'
          · linarith [mono (i + 1) a hj ha h']
          · have : a = i + 1 := by omega
            subst this
            exact h2
      · have hlast : i + 2 = s.length := by
          by_contra hc
          have hk : i + 2 < s.length := by omega
          have := h2 s[i + 2] ((hmem _).mp (List.getElem_mem hk))
          linarith [mono (i + 1) (i + 2) hj hk (by omega)]
        have hge : i + 1 ≤ (s.filter fun p => decide (p.1 < x)).length := by
          have hsub : (s.take (i + 1)).Sublist s := List.take_sublist _ _
          have h3 := (hsub.filter fun p => decide (p.1 < x)).length_le
          rw [List.filter_eq_self.mpr, List.length_take] at h3
          · omega
          · intro r hr
            obtain ⟨a, ha, rfl⟩ := List.getElem_of_mem hr
            rw [List.length_take] at ha
            rw [List.getElem_take]
            simp only [decide_eq_true_eq]
            rcases Nat.lt_or_ge a i with h' | h'
            · linarith [mono a i (by omega) hi h']
            · have : a = i := by omega
              subst this
              exact h1
        omega
    · have h0 : i = 0 := by
        by_contra hc
        have := h1 s[0] ((hmem _).mp (List.getElem_mem (by omega)))
        linarith [mono 0 i (by omega) hi (by omega)]
      subst h0
      rcases h2 with h2 | h2
      · have : (s.filter fun p => decide (p.1 < x)).length ≤ 1 := by
          have e : s.filter (fun p => decide (p.1 < x)) = (s.take 1).filter fun p => decide (p.1 < x) := by
            conv_lhs => rw [← List.take_append_drop 1 s]
            rw [List.filter_append]
            suffices hd : (s.drop 1).filter (fun p => decide (p.1 < x)) = [] by rw [hd, List.append_nil]
            rw [List.filter_eq_nil_iff]
            intro r hr
            obtain ⟨a, ha, rfl⟩ := List.getElem_of_mem hr
            rw [List.length_drop] at ha
            rw [List.getElem_drop]
            simp only [decide_eq_true_eq, not_lt]
            rcases Nat.eq_zero_or_pos a with rfl | h'
            · exact h2
            · linarith [mono 1 (1 + a) hj (by omega) (by omega)]
          rw [e]
          refine (List.length_filter_le _ _).trans ?_
          rw [List.length_take]
          omega
        omega
      · have hlast : s.length = 2 := by
          by_contra hc
          have hk : 2 < s.length := by omega
          have := h2 s[2] ((hmem _).mp (List.getElem_mem hk))
          linarith [mono 1 2 hj hk (by omega)]
        omega
  rw [key, Nat.add_sub_cancel, List.getD_eq_getElem _ _ hi, List.getD_eq_getElem _ _ hj,
    if_neg (by intro h; linarith)]

/-- A table is interpolated in the logarithm of the SEFD: between two neighbouring frequencies, or beyond the first or the
last of them, the value is the weighted geometric mean of the two.  The order of the table does not matter. -/
theorem C113_table (table : List ℝ × List ℝ) (t e : Param) (D : ℝ) (nus sefds : List ℝ)
    (hl : nus.length = sefds.length) (hn : nus.Nodup) (hp : ∀ v ∈ sefds, 0 < v) (i j : ℕ) (hi : i < nus.length)
    (hj : j < nus.length) (hij : nus.getD i 0 < nus.getD j 0)
    (hb : ∀ nu ∈ nus, nu ≤ nus.getD i 0 ∨ nus.getD j 0 ≤ nu) (nu : ℝ)
    (h1 : nus.getD i 0 < nu ∨ ∀ x ∈ nus, nus.getD i 0 ≤ x) (h2 : nu ≤ nus.getD j 0 ∨ ∀ x ∈ nus, x ≤ nus.getD j 0) :
    getSEFD table (.one nu) t (.array sefds) (some nus) D e = .ok (.one
      (sefds.getD i 0 ^ ((nus.getD j 0 - nu) / (nus.getD j 0 - nus.getD i 0)) *
        sefds.getD j 0 ^ ((nu - nus.getD i 0) / (nus.getD j 0 - nus.getD i 0)))) := by
  simp only [getSEFD, tableSefd, tableAt]
  rw [if_neg (by simpa using hl), if_neg (by
    rintro ⟨v, hv, h⟩
    linarith [hp v hv])]
  have hfst : (nus.zip (sefds.map (Real.logb 10))).map Prod.fst = nus := by
    rw [List.map_fst_zip]
    rw [List.length_map]
    exact hl.le
  have hget : ∀ a (ha : a < nus.length), (nus.getD a 0, Real.logb 10 (sefds.getD a 0)) ∈
      nus.zip (sefds.map (Real.logb 10)) := by
    intro a ha
    have ha' : a < (nus.zip (sefds.map (Real.logb 10))).length := by simp; omega
    have := List.getElem_mem ha'
    rw [List.getElem_zip, List.getElem_map] at this
    rw [List.getD_eq_getElem _ _ ha, List.getD_eq_getElem _ _ (by omega)]
    exact this
  have hmem : ∀ r ∈ nus.zip (sefds.map (Real.logb 10)), r.1 ∈ nus := fun r hr => (List.of_mem_zip hr).1
  rw [interp_eq (nus.zip (sefds.map (Real.logb 10))) (by rw [hfst]; exact hn)
    (nus.getD i 0, Real.logb 10 (sefds.getD i 0)) (nus.getD j 0, Real.logb 10 (sefds.getD j 0))
    ⟨hget i hi, hget j hj, hij, fun r hr => hb _ (hmem r hr)⟩ nu
    (h1.imp id fun h r hr => h _ (hmem r hr)) (h2.imp id fun h r hr => h _ (hmem r hr))]
  simp only [Except.map]
  congr 2
  have pi : 0 < sefds.getD i 0 := by
    rw [List.getD_eq_getElem _ _ (by omega)]
    exact hp _ (List.getElem_mem _)
  have pj : 0 < sefds.getD j 0 := by
    rw [List.getD_eq_getElem _ _ (by omega)]
    exact hp _ (List.getElem_mem _)
  have hd : nus.getD j 0 - nus.getD i 0 ≠ 0 := by linarith
  set A := Real.logb 10 (sefds.getD i 0) with hA
  set B := Real.logb 10 (sefds.getD j 0) with hB
  have eA : sefds.getD i 0 = (10 : ℝ) ^ A := (Real.rpow_logb (by norm_num) (by norm_num) pi).symm
  have eB : sefds.getD j 0 = (10 : ℝ) ^ B := (Real.rpow_logb (by norm_num) (by norm_num) pj).symm
  rw [eA, eB, ← Real.rpow_mul (by norm_num), ← Real.rpow_mul (by norm_num), ← Real.rpow_add (by norm_num)]
  congr 1
  field_simp
  ring

/-- The table of the package (`sefd_data='SKA1-LOW'`) is interpolated in the same way. -/
theorem C113_named (t e : Param) (D : ℝ) (nus sefds : List ℝ)
    (hl : nus.length = sefds.length) (hn : nus.Nodup) (hp : ∀ v ∈ sefds, 0 < v) (i j : ℕ) (hi : i < nus.length)
    (hj : j < nus.length) (hij : nus.getD i 0 < nus.getD j 0)
    (hb : ∀ nu ∈ nus, nu ≤ nus.getD i 0 ∨ nus.getD j 0 ≤ nu) (nu : ℝ)
    (h1 : nus.getD i 0 < nu ∨ ∀ x ∈ nus, nus.getD i 0 ≤ x) (h2 : nu ≤ nus.getD j 0 ∨ ∀ x ∈ nus, x ≤ nus.getD j 0)
    (nuData : Option (List ℝ)) :
    getSEFD (nus, sefds) (.one nu) t .table nuData D e = .ok (.one
      (sefds.getD i 0 ^ ((nus.getD j 0 - nu) / (nus.getD j 0 - nus.getD i 0)) *
        sefds.getD j 0 ^ ((nu - nus.getD i 0) / (nus.getD j 0 - nus.getD i 0)))) :=
  C113_table ([], []) t e D nus sefds hl hn hp i j hi hj hij hb nu h1 h2

/-- Below the first of three frequencies given in descending order. -/
example (table : List ℝ × List ℝ) : getSEFD table (.one 40) .default (.array [1, 2, 4]) (some [100, 80, 60]) 40 .default =
    .ok (.one (4 ^ ((80 - 40 : ℝ) / (80 - 60)) * 2 ^ ((40 - 60 : ℝ) / (80 - 60)))) := by
  have h := C113_table table .default .default 40 [100, 80, 60] [1, 2, 4] rfl (by norm_num)
    (by intro v hv; simp at hv; rcases hv with rfl | rfl | rfl <;> norm_num) 2 1 (by simp) (by simp) (by norm_num)
    (by intro v hv; simp at hv; rcases hv with rfl | rfl | rfl <;> norm_num) 40
    (.inr (by intro v hv; simp at hv; rcases hv with rfl | rfl | rfl <;> norm_num)) (.inl (by norm_num))
  simpa using h

/-- The noise of a visibility falls with the square root of bandwidth and integration time, that of the image with the
square root of the number of baselines, the bandwidth and the observing time, whatever the integration time. -/
theorem C113_noise (table : List ℝ × List ℝ) (z depth obs int : ℝ) (nAnt : ℕ) (t : Param) (data : SefdData)
    (nuData : Option (List ℝ)) (D : ℝ) (e : Param) (s : ℝ)
    (hs : getSEFD table (.one (1420 / (1 + z))) t data nuData D e = .ok (.one s)) (h0 : 0 ≤ s)
    (hd : 0 < depth) (ho : 0 < obs) (hi : 0 < int) (hN : 2 ≤ nAnt) :
    ∃ sigma rms, sigmaNoiseRadio table z depth obs int nAnt t data nuData D e = .ok (some sigma, rms) ∧
      0 ≤ sigma ∧ 0 ≤ rms ∧ rms ^ 2 * (2 * (depth * 1e6) * int) = (1e6 * s) ^ 2 ∧
      sigma ^ 2 * ((nAnt : ℝ) * (nAnt - 1) / 2) * (2 * (depth * 1e6) * (obs * 3600)) = (1e6 * s) ^ 2 := by
  have hN' : (2 : ℝ) ≤ nAnt := by exact_mod_cast hN
  have p1 : 0 < 2 * depth * 10 ^ 6 * int := by positivity
  have p2 : 0 < (nAnt : ℝ) * (nAnt - 1) / 2 := by
    have : 0 < (nAnt : ℝ) - 1 := by linarith
    positivity
  have p3 : 0 < 3600 * obs / int := by positivity
  have q1 : 0 < Real.sqrt (2 * depth * 10 ^ 6 * int) := Real.sqrt_pos.mpr p1
  refine ⟨10 ^ 6 * s / Real.sqrt (2 * depth * 10 ^ 6 * int) / Real.sqrt ((nAnt : ℝ) * (nAnt - 1) / 2) /
    Real.sqrt (3600 * obs / int), 10 ^ 6 * s / Real.sqrt (2 * depth * 10 ^ 6 * int), ?_, by positivity, by positivity,
    ?_, ?_⟩
  · simp only [sigmaNoiseRadio, hs, sigmaNoise]
    rw [if_neg (not_le.mpr p1), if_neg (by
      rintro (h | h)
      · exact absurd p2 (not_lt.mpr h)
      · exact absurd p3 (not_lt.mpr h))]
  · rw [div_pow, Real.sq_sqrt p1.le]
    field_simp
    ring
  · rw [div_pow, div_pow, div_pow, Real.sq_sqrt p1.le, Real.sq_sqrt p2.le, Real.sq_sqrt p3.le]
    have : (nAnt : ℝ) - 1 ≠ 0 := by linarith
    have : (nAnt : ℝ) ≠ 0 := by linarith
    field_simp
    ring

/-- The default telescope of 512 stations at redshift nine for a thousand hours. -/
example (table : List ℝ × List ℝ) : ∃ s,
    getSEFD table (.one (1420 / (1 + 9))) .default .none none 40 .default = .ok (.one s) ∧ 0 ≤ s := by
  obtain ⟨s, h, hs⟩ := (C113_partial table .default .default none 40 (by rintro ⟨x, y, h, -⟩; exact absurd h (by simp))
    (by norm_num)).1 (1420 / (1 + 9)) (by
      simp only [valueAt, apertureEfficiency]
      norm_num)
  refine ⟨s, h, ?_⟩
  have e : apertureEfficiency (1420 / (1 + 9)) = (110 / 142) ^ 2 := by
    unfold apertureEfficiency
    norm_num
  have ht : 0 ≤ systemTemperature (1420 / (1 + 9)) := by
    unfold systemTemperature
    have := Real.rpow_nonneg (show (0 : ℝ) ≤ 300 / (1420 / (1 + 9)) by norm_num) 2.55
    linarith
  simp only [IsSefd, valueAt, e] at hs
  by_contra hn
  have : s * 1e-26 * ((110 / 142) ^ 2 * (Real.pi * 40 ^ 2 / 4)) < 0 := by
    have := Real.pi_pos
    have h1 : 0 < (1e-26 : ℝ) * ((110 / 142) ^ 2 * (Real.pi * 40 ^ 2 / 4)) := by positivity
    nlinarith [mul_neg_of_neg_of_pos (not_le.mp hn) h1]
  linarith [mul_nonneg (show (0 : ℝ) ≤ 2 * 1.380649e-23 by norm_num) ht]

end Verif.Noise
