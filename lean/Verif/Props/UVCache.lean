import Verif.Model.UVCache
import Mathlib.Data.List.Nodup
import Mathlib.Data.List.Induction
import Mathlib.Data.List.TakeWhile
import Mathlib.Algebra.Order.Floor.Ring
import Mathlib.Tactic.Linarith
import Mathlib.Tactic.NormNum
/-!
# The UV map cache (C31, C32)
-/

namespace Verif.UVCache

set_option linter.unusedSectionVars false

variable {Z K M F V : Type} [DecidableEq K] [DecidableEq V]

/-! ## Specification -/

/-- The redshifts whose maps are computed, in order. -/
def computes (es : List (Event Z K M F V)) : List Z :=
  es.filterMap fun e => match e with | .compute z => some z | _ => none

/-- Is there a map for this key in the file? -/
def Stored (f : File K M F V) (k : K) : Prop :=
  match f with
  | .complete c => c.maps k ≠ none
  | _ => False

instance (f : File K M F V) (k : K) : Decidable (Stored f k) := by
  cases f with
  | absent => exact instDecidableFalse
  | torn => exact instDecidableFalse
  | complete c => exact (match h : c.maps k with
    | none => isFalse (fun h' => h' h)
    | some m => isTrue (by simp [Stored, h]))

/-- The states that the cache file can be in when only runs with parameters `params` used it, any of which may have
stopped at any point. -/
inductive History (fields : List F) (key : Z → K) (worker : Z → M) (params : F → V) : File K M F V → Prop where
  | start : History fields key worker params .absent
  | step (f : File K M F V) (cfg : Config) (zs : List Z) (es₁ es₂ : List (Event Z K M F V))
      (r : Except String (Cache K M F V)) : History fields key worker params f →
      run fields key worker cfg params f zs = (es₁ ++ es₂, r) → History fields key worker params (fileAfter f es₁)

/-! ## Lemmas -/

theorem putAll_append (key : Z → K) (worker : Z → M) (c : Cache K M F V) (a b : List Z) :
    putAll key worker c (a ++ b) = putAll key worker (putAll key worker c a) b := by
  simp [putAll]

theorem putAll_params (key : Z → K) (worker : Z → M) (c : Cache K M F V) (l : List Z) :
    (putAll key worker c l).params = c.params := by
  induction l generalizing c with
  | nil => rfl
  | cons z l ih => rw [show putAll key worker c (z :: l) = putAll key worker (c.put (key z) (worker z)) l from rfl, ih]; rfl

theorem putAll_notMem (key : Z → K) (worker : Z → M) (c : Cache K M F V) (l : List Z) (k : K) (h : k ∉ l.map key) :
    (putAll key worker c l).maps k = c.maps k := by
  induction l generalizing c with
  | nil => rfl
  | cons z l ih =>
    rw [show putAll key worker c (z :: l) = putAll key worker (c.put (key z) (worker z)) l from rfl]
    simp only [List.map_cons, List.mem_cons, not_or] at h
    rw [ih _ h.2]
    exact Function.update_of_ne h.1 _ _

theorem putAll_isSome (key : Z → K) (worker : Z → M) (c : Cache K M F V) (l : List Z) (k : K) :
    (putAll key worker c l).maps k = none ↔ c.maps k = none ∧ k ∉ l.map key := by
  induction l generalizing c with
  | nil => simp [putAll]
  | cons z l ih =>
    rw [show putAll key worker c (z :: l) = putAll key worker (c.put (key z) (worker z)) l from rfl, ih]
    simp only [List.map_cons, List.mem_cons, not_or, Cache.put]
    by_cases h : k = key z
    · subst h; simp
    · rw [Function.update_of_ne h]; tauto

theorem putAll_last (key : Z → K) (worker : Z → M) (c : Cache K M F V) (a b : List Z) (z : Z)
    (h : key z ∉ b.map key) : (putAll key worker c (a ++ z :: b)).maps (key z) = some (worker z) := by
  rw [putAll_append, show putAll key worker (putAll key worker c a) (z :: b)
    = putAll key worker ((putAll key worker c a).put (key z) (worker z)) b from rfl, putAll_notMem _ _ _ _ _ h]
  simp [Cache.put]

/-- Every save stores the maps of an initial part of the list. -/
def Saves (key : Z → K) (worker : Z → M) (c : Cache K M F V) (l : List Z) (es : List (Event Z K M F V)) : Prop :=
  ∀ c', Event.written c' ∈ es → ∃ p s, l = p ++ s ∧ c' = putAll key worker c p

theorem chunked_saves (key : Z → K) (worker : Z → M) (save : Bool) (n : ℕ) (c : Cache K M F V) (l : List Z) :
    Saves key worker c l (chunked key worker save n c l) ∧
    computes (chunked key worker save n c l) = l := by
  induction h : l.length using Nat.strong_induction_on generalizing c l with
  | _ m ih =>
    cases l with
    | nil => rw [chunked]; exact ⟨fun c' h => by simp at h, rfl⟩
    | cons z l =>
      rw [chunked]
      obtain ⟨ih1, ih2⟩ := ih ((z :: l).drop (n + 1)).length
        (by simp only [List.length_drop, List.length_cons] at h ⊢; omega)
        (putAll key worker c ((z :: l).take (n + 1))) ((z :: l).drop (n + 1)) rfl
      constructor
      · intro c' hc
        simp only [List.mem_append, List.mem_map] at hc
        rcases hc with (⟨a, _, ha⟩ | hc) | hc
        · cases ha
        · cases save with
          | false => simp at hc
          | true =>
            simp only [if_true, writeEvents, List.mem_cons, List.not_mem_nil, or_false] at hc
            rcases hc with hc | hc
            · cases hc
            · cases hc
              exact ⟨_, _, (List.take_append_drop (n + 1) (z :: l)).symm, rfl⟩
        · obtain ⟨p, s, hp, rfl⟩ := ih1 c' hc
          refine ⟨(z :: l).take (n + 1) ++ p, s, ?_, (putAll_append ..).symm⟩
          rw [List.append_assoc, ← hp, List.take_append_drop]
      · simp only [computes, List.filterMap_append] at ih2 ⊢
        rw [ih2]
        have e1 : (List.map (Event.compute (K := K) (M := M) (F := F) (V := V)) ((z :: l).take (n + 1))).filterMap
            (fun e => match e with | .compute z => some z | _ => none) = (z :: l).take (n + 1) := by
          rw [List.filterMap_map]
          exact (List.filterMap_eq_map (f := id)).symm ▸ List.map_id _
        rw [e1]
        have e2 : (if save = true then writeEvents (putAll key worker c ((z :: l).take (n + 1))) else []).filterMap
            (fun e : Event Z K M F V => match e with | .compute z => some z | _ => none) = [] := by
          cases save <;> rfl
        rw [e2, List.append_nil, List.take_append_drop]

theorem sequential_saves (key : Z → K) (worker : Z → M) (save : Bool) (cp : Option ℤ) (total i : ℕ) (c : Cache K M F V)
    (l : List Z) :
    Saves key worker c l (sequential key worker save cp total i c l) ∧
    computes (sequential key worker save cp total i c l) = l := by
  induction l generalizing i c with
  | nil => exact ⟨fun c' h => by simp [sequential] at h, rfl⟩
  | cons z l ih =>
    obtain ⟨ih1, ih2⟩ := ih (i + 1) (c.put (key z) (worker z))
    simp only [sequential]
    generalize (save && isCheckpoint cp i && decide (i + 1 < total)) = b
    constructor
    · intro c' hc
      rw [List.mem_cons, List.mem_append] at hc
      rcases hc with hc | hc | hc
      · cases hc
      · cases b with
        | false => simp at hc
        | true =>
          simp only [if_true, writeEvents, List.mem_cons, List.not_mem_nil, or_false] at hc
          rcases hc with hc | hc
          · cases hc
          · cases hc
            exact ⟨[z], l, rfl, rfl⟩
      · obtain ⟨p, s, hp, rfl⟩ := ih1 c' hc
        exact ⟨z :: p, s, by rw [hp]; rfl, rfl⟩
    · simp only [computes, List.filterMap_cons, List.filterMap_append] at ih2 ⊢
      rw [ih2]
      cases b <;> rfl

theorem computes_map (l : List Z) : computes (l.map (Event.compute (K := K) (M := M) (F := F) (V := V))) = l := by
  rw [computes, List.filterMap_map]
  exact (List.filterMap_eq_map (f := id)).symm ▸ List.map_id _

theorem computes_append (a b : List (Event Z K M F V)) : computes (a ++ b) = computes a ++ computes b :=
  List.filterMap_append ..

theorem produce_saves (key : Z → K) (worker : Z → M) (cfg : Config) (c : Cache K M F V) (l : List Z) :
    Saves key worker c l (produce key worker cfg c l) ∧ computes (produce key worker cfg c l) = l := by
  cases l with
  | nil => exact ⟨fun c' h => by simp [produce] at h, rfl⟩
  | cons z l =>
    have fin : ∀ body : List (Event Z K M F V), (Saves key worker c (z :: l) body ∧ computes body = z :: l) →
        Saves key worker c (z :: l) (body ++ (if cfg.save then writeEvents (putAll key worker c (z :: l)) else [])) ∧
        computes (body ++ (if cfg.save then writeEvents (putAll key worker c (z :: l)) else [])) = z :: l := by
      rintro body ⟨h1, h2⟩
      constructor
      · intro c' hc
        rw [List.mem_append] at hc
        rcases hc with hc | hc
        · exact h1 c' hc
        · cases hs : cfg.save with
          | false => rw [hs] at hc; simp at hc
          | true =>
            simp only [hs, if_true, writeEvents, List.mem_cons, List.not_mem_nil, or_false] at hc
            rcases hc with hc | hc
            · cases hc
            · cases hc
              exact ⟨_, [], (List.append_nil _).symm, rfl⟩
      · rw [computes_append, h2]
        cases cfg.save <;> simp [computes, writeEvents]
    have allAtOnce : Saves key worker c (z :: l) ((z :: l).map .compute) ∧
        computes ((z :: l).map (Event.compute (K := K) (M := M) (F := F) (V := V))) = z :: l := by
      refine ⟨?_, computes_map _⟩
      intro c' hc
      rw [List.mem_map] at hc
      obtain ⟨a, _, ha⟩ := hc
      cases ha
    simp only [produce]
    apply fin
    cases cfg.checkpoint with
    | none =>
      dsimp only
      split_ifs
      · exact allAtOnce
      · exact sequential_saves ..
    | some n =>
      dsimp only
      split_ifs
      · exact chunked_saves ..
      · exact allAtOnce
      · exact sequential_saves ..

theorem fileAfter_cases (f : File K M F V) (es : List (Event Z K M F V)) :
    fileAfter f es = f ∨ fileAfter f es = .torn ∨ ∃ c, Event.written c ∈ es ∧ fileAfter f es = .complete c := by
  induction es using List.reverseRecOn with
  | nil => exact Or.inl rfl
  | append_singleton es e ih =>
    rw [fileAfter, List.foldl_append, ← fileAfter]
    cases e with
    | compute z =>
      rcases ih with h | h | ⟨c, h, h'⟩
      · exact Or.inl h
      · exact Or.inr (Or.inl h)
      · exact Or.inr (Or.inr ⟨c, List.mem_append_left _ h, h'⟩)
    | openForWriting => exact Or.inr (Or.inl rfl)
    | written c => exact Or.inr (Or.inr ⟨c, by simp, rfl⟩)

theorem produce_final (key : Z → K) (worker : Z → M) (cfg : Config) (hs : cfg.save = true) (c : Cache K M F V) (l : List Z)
    (hl : l ≠ []) (f : File K M F V) :
    (∃ es, produce key worker cfg c l = es ++ writeEvents (putAll key worker c l)) ∧
    fileAfter f (produce key worker cfg c l) = .complete (putAll key worker c l) ∧
    writes (produce key worker cfg c l) = true := by
  cases l with
  | nil => exact absurd rfl hl
  | cons z l =>
    have : ∃ es, produce key worker cfg c (z :: l) = es ++ writeEvents (putAll key worker c (z :: l)) := by
      simp only [produce]
      rw [hs, if_pos rfl]
      exact ⟨_, rfl⟩
    refine ⟨this, ?_, ?_⟩
    · obtain ⟨es, h⟩ := this
      rw [h, fileAfter, List.foldl_append]
      rfl
    · obtain ⟨es, h⟩ := this
      rw [h, writes, List.any_append]
      simp [writeEvents]

/-- The cache that a run works on. -/
def Loaded (fields : List F) (params : F → V) (f : File K M F V) (c : Cache K M F V) : Prop :=
  (f = .absent ∧ c = ⟨fun x => some (params x), fun _ => none⟩) ∨
  (f = .complete c ∧ ∀ x ∈ fields, ∀ v, c.params x = some v → v = params x)

theorem run_loaded (fields : List F) (key : Z → K) (worker : Z → M) (cfg : Config) (hs : cfg.save = true)
    (hf : cfg.format = .stores) (params : F → V) (f : File K M F V) (zs : List Z) (c : Cache K M F V)
    (h : Loaded fields params f c) :
    run fields key worker cfg params f zs =
      (produce key worker cfg c (zs.filter fun z => (c.maps (key z)).isNone),
        .ok (putAll key worker c (zs.filter fun z => (c.maps (key z)).isNone))) := by
  have hl : load fields params f = .ok c := by
    rcases h with ⟨rfl, rfl⟩ | ⟨rfl, hp⟩
    · rfl
    · have hn : (fields.any (mismatch params c)) = false := by
        rw [List.any_eq_false]
        intro x hx
        have := hp x hx
        cases hv : c.params x with
        | none => simp [mismatch, hv]
        | some v => simp [mismatch, hv, this v hv]
      simp [load, hn]
  simp only [run, hs, if_true, hl, execute, hf]
  split_ifs <;> rfl

theorem run_error (fields : List F) (key : Z → K) (worker : Z → M) (cfg : Config) (hs : cfg.save = true)
    (params : F → V) (f : File K M F V) (zs : List Z) (h : ∀ c, ¬ Loaded fields params f c) :
    ∃ e, run fields key worker cfg params f zs = ([], .error e) := by
  suffices hl : ∃ e, load fields params f = .error e by
    obtain ⟨e, hl⟩ := hl
    exact ⟨e, by simp only [run, hs, if_true, hl]⟩
  cases f with
  | absent => exact absurd (Or.inl ⟨rfl, rfl⟩) (h _)
  | torn => exact ⟨_, rfl⟩
  | complete c =>
    by_cases hn : (fields.any (mismatch params c)) = true
    · exact ⟨"ValueError", by simp only [load, hn, if_true]⟩
    · exfalso
      apply h c
      refine Or.inr ⟨rfl, ?_⟩
      intro x hx v hv
      rw [Bool.not_eq_true, List.any_eq_false] at hn
      have := hn x hx
      rw [mismatch, hv] at this
      simpa using this

theorem filter_rest (p : Z → Bool) (key : Z → K) (l : List Z) (hk : (l.map key).Nodup) (a b : List Z)
    (h : l.filter p = a ++ b) : (l.filter fun z => decide (key z ∉ a.map key) && p z) = b := by
  rw [← List.filter_filter, h, List.filter_append]
  have hn : ((a ++ b).map key).Nodup := by
    rw [← h]
    exact hk.sublist (List.filter_sublist.map key)
  rw [List.map_append, List.nodup_append] at hn
  have h1 : (a.filter fun z => decide (key z ∉ a.map key)) = [] := by
    rw [List.filter_eq_nil_iff]
    intro z hz
    simpa using ⟨z, hz, rfl⟩
  have h2 : (b.filter fun z => decide (key z ∉ a.map key)) = b := by
    rw [List.filter_eq_self]
    intro z hz
    rw [decide_eq_true_eq]
    intro hm
    exact hn.2.2 _ hm _ (List.mem_map_of_mem hz) rfl
  rw [h1, h2, List.nil_append]

/-! ## C31 -/

/-- **C31, crash between writes.** Let a run of `get_uv_map_lightcone` that would have returned `r` be stopped at any point
at which the cache file is not being written, and let it be run again, with the same redshifts and parameters and any number of
jobs and checkpoint interval. The second run returns `r`, leaves the cache file as the uninterrupted
run would have, and computes exactly the maps that were not in the file. The redshifts must have different keys and
the file format must be one that can store arrays.

Missing: crashes in the middle of a write, where it is false (`C31_false_torn`), and the formats of `C31_false_format`. -/
theorem C31_partial (fields : List F) (key : Z → K) (worker : Z → M) (cfg cfg' : Config) (hs : cfg.save = true)
    (hs' : cfg'.save = true) (hf : cfg.format = .stores) (hf' : cfg'.format = .stores) (params : F → V)
    (f : File K M F V) (zs : List Z) (hk : (zs.map key).Nodup) (es₁ es₂ : List (Event Z K M F V)) (r : Cache K M F V)
    (h : run fields key worker cfg params f zs = (es₁ ++ es₂, .ok r)) (ht : fileAfter f es₁ ≠ .torn) :
    ∃ es', run fields key worker cfg' params (fileAfter f es₁) zs = (es', .ok r) ∧
      fileAfter (fileAfter f es₁) es' = fileAfter f (es₁ ++ es₂) ∧
      computes es' = zs.filter fun z => decide (¬ Stored (fileAfter f es₁) (key z)) := by
  by_cases hl : ∃ c, Loaded fields params f c
  swap
  · push Not at hl
    obtain ⟨e, he⟩ := run_error fields key worker cfg hs params f zs hl
    rw [he] at h
    simp at h
  obtain ⟨c, hl⟩ := hl
  rw [run_loaded fields key worker cfg hs hf params f zs c hl] at h
  simp only [Prod.mk.injEq, Except.ok.injEq] at h
  obtain ⟨hes, rfl⟩ := h
  generalize hz : (zs.filter fun z => (c.maps (key z)).isNone) = zrun at hes ⊢
  -- final file of the uninterrupted run
  have hfin : fileAfter f (es₁ ++ es₂) = if zrun = [] then f else .complete (putAll key worker c zrun) := by
    rw [← hes]
    split_ifs with h0
    · subst h0; rfl
    · exact (produce_final key worker cfg hs c zrun h0 f).2.1
  have stored : ∀ (g : File K M F V) (c' : Cache K M F V), Loaded fields params g c' → ∀ z, (c'.maps (key z)).isNone = decide (¬ Stored g (key z)) := by
    rintro g c' (⟨rfl, rfl⟩ | ⟨rfl, _⟩) z
    · simp [Stored]
    · cases hm : c'.maps (key z) <;> simp [Stored, hm]
  -- a second run on a loaded cache that still has to do `rest`
  have again : ∀ (g : File K M F V) (c' : Cache K M F V) (rest : List Z), Loaded fields params g c' → (zs.filter fun z => (c'.maps (key z)).isNone) = rest →
      putAll key worker c' rest = putAll key worker c zrun →
      (rest = [] → g = fileAfter f (es₁ ++ es₂)) → (rest ≠ [] → zrun ≠ []) →
      ∃ es', run fields key worker cfg' params g zs = (es', .ok (putAll key worker c zrun)) ∧
        fileAfter g es' = fileAfter f (es₁ ++ es₂) ∧
        computes es' = zs.filter fun z => decide (¬ Stored g (key z)) := by
    intro g c' rest hg hrest hput h0 h1
    refine ⟨_, by rw [run_loaded fields key worker cfg' hs' hf' params g zs c' hg, hrest, hput], ?_, ?_⟩
    · by_cases hr : rest = []
      · rw [← h0 hr, hr]; rfl
      · rw [(produce_final key worker cfg' hs' c' rest hr g).2.1, hfin, if_neg (h1 hr), hput]
    · rw [(produce_saves key worker cfg' c' rest).2, ← hrest]
      exact List.filter_congr fun z _ => stored g c' hg z
  rcases fileAfter_cases f es₁ with hg | hg | ⟨c', hw, hg⟩
  · rw [hg]
    exact again f c zrun hl hz rfl (fun h0 => by rw [hfin, if_pos h0]) (fun h => h)
  · exact absurd hg ht
  · rw [hg]
    have hw' : Event.written c' ∈ produce key worker cfg c zrun := by rw [hes]; exact List.mem_append_left _ hw
    obtain ⟨p, s, hps, rfl⟩ := (produce_saves key worker cfg c zrun).1 c' hw'
    have hne : zrun ≠ [] := by
      rintro rfl
      simp [produce] at hw'
    apply again (.complete (putAll key worker c p)) (putAll key worker c p) s
    · refine Or.inr ⟨rfl, ?_⟩
      intro x hx v hv
      rw [putAll_params] at hv
      rcases hl with ⟨_, rfl⟩ | ⟨_, hp⟩
      · simp at hv; exact hv.symm
      · exact hp x hx v hv
    · have : (fun z => ((putAll key worker c p).maps (key z)).isNone)
          = fun z => decide (key z ∉ p.map key) && (c.maps (key z)).isNone := by
        funext z
        rw [Bool.eq_iff_iff, Option.isNone_iff_eq_none, putAll_isSome, Bool.and_eq_true, decide_eq_true_eq,
          Option.isNone_iff_eq_none]
        tauto
      rw [this]
      exact filter_rest _ key zs hk p s (hz.trans hps)
    · rw [hps, putAll_append]
    · intro h0
      rw [hfin, if_neg hne, hps, h0, List.append_nil]
    · intro _; exact hne

/-- A concrete instance: three redshifts, sequential with a checkpoint after every map, stopped after the first save. -/
example : (run (Z := ℕ) (K := ℕ) (M := ℕ) (F := Unit) (V := ℕ) [()] id (fun z => 10 * z) ⟨true, .stores, 1, some 1⟩
    (fun _ => 5) .absent [6, 7, 8]).1.length = 9 ∧
    (computes (run (Z := ℕ) (K := ℕ) (M := ℕ) (F := Unit) (V := ℕ) [()] id (fun z => 10 * z) ⟨true, .stores, 4, some 2⟩
      (fun _ => 5) (.complete ⟨fun _ => some 5, fun k => if k = 6 then some 60 else none⟩) [6, 7, 8]).1) = [7, 8] := by
  constructor
  · rfl
  · decide +kernel

/-- **C31 is false for a crash during a write.** Every run that has something to store passes a point at which a crash leaves
a file that no later call accepts, whatever its arguments: the earlier maps are lost too. -/
theorem C31_false_torn (fields : List F) (key : Z → K) (worker : Z → M) (cfg : Config) (hs : cfg.save = true)
    (hf : cfg.format = .stores) (params : F → V) (f : File K M F V) (zs : List Z) (es : List (Event Z K M F V))
    (r : Cache K M F V) (h : run fields key worker cfg params f zs = (es, .ok r))
    (hz : ∃ z ∈ zs, ¬ Stored f (key z)) :
    ∃ es₁ es₂, es = es₁ ++ es₂ ∧ ∀ (cfg' : Config) (params' : F → V) (zs' : List Z), cfg'.save = true →
      run fields key worker cfg' params' (fileAfter f es₁) zs' = ([], .error "UnpicklingError") := by
  by_cases hl : ∃ c, Loaded fields params f c
  swap
  · push Not at hl
    obtain ⟨e, he⟩ := run_error fields key worker cfg hs params f zs hl
    rw [he] at h
    simp at h
  obtain ⟨c, hl⟩ := hl
  rw [run_loaded fields key worker cfg hs hf params f zs c hl] at h
  simp only [Prod.mk.injEq, Except.ok.injEq] at h
  obtain ⟨rfl, rfl⟩ := h
  have hne : (zs.filter fun z => (c.maps (key z)).isNone) ≠ [] := by
    obtain ⟨z, hz, hst⟩ := hz
    apply List.ne_nil_of_mem (a := z)
    rw [List.mem_filter]
    refine ⟨hz, ?_⟩
    rcases hl with ⟨_, rfl⟩ | ⟨rfl, _⟩
    · rfl
    · cases hm : c.maps (key z) with
      | none => rfl
      | some m => simp [Stored, hm] at hst
  obtain ⟨⟨es, he⟩, _⟩ := produce_final key worker cfg hs c _ hne f
  refine ⟨es ++ [.openForWriting],
    [.written (putAll key worker c (zs.filter fun z => (c.maps (key z)).isNone))], ?_, ?_⟩
  · rw [he]; simp [writeEvents]
  · intro cfg' params' zs' hs'
    have : fileAfter f (es ++ [.openForWriting]) = .torn := by
      rw [fileAfter, List.foldl_append]; rfl
    rw [this]
    simp only [run, hs', if_true, load]

example : ∃ z ∈ ([6, 7] : List ℕ), ¬ Stored (K := ℕ) (M := ℕ) (F := Unit) (V := ℕ)
    (.complete ⟨fun _ => some 5, fun k => if k = 6 then some 60 else none⟩) z := ⟨7, by simp, by simp [Stored]⟩

/-- **C31 is false for the text formats** (`.json`, `.yaml`): a run with something to store computes maps, raises, and
leaves a file that every later call refuses. -/
theorem C31_false_format (fields : List F) (key : Z → K) (worker : Z → M) (cfg : Config) (hs : cfg.save = true)
    (hf : cfg.format = .raisesAfterOpen) (params : F → V) (z : Z) (zs : List Z) :
    ∃ es, run fields key worker cfg params .absent (z :: zs) = (es, .error "TypeError") ∧
      fileAfter (.absent : File K M F V) es = .torn ∧
      ∀ (cfg' : Config) (params' : F → V) (zs' : List Z), cfg'.save = true →
        run fields key worker cfg' params' (fileAfter .absent es) zs' = ([], .error "UnpicklingError") := by
  have hfilter : ((z :: zs).filter fun z => ((⟨fun x => some (params x), fun _ => none⟩ : Cache K M F V).maps
      (key z)).isNone) = z :: zs := by
    rw [List.filter_eq_self]; intro a _; rfl
  have hw := (produce_final key worker cfg hs (⟨fun x => some (params x), fun _ => none⟩ : Cache K M F V) (z :: zs)
    (by simp) .absent).2.2
  have hrun : run fields key worker cfg params (.absent : File K M F V) (z :: zs)
      = (beforeOpen (produce key worker cfg (⟨fun x => some (params x), fun _ => none⟩ : Cache K M F V) (z :: zs))
          ++ [.openForWriting], .error "TypeError") := by
    simp only [run, hs, if_true, load, execute, hfilter, hw, hf]
  refine ⟨_, hrun, ?_, ?_⟩
  · rw [fileAfter, List.foldl_append]; rfl
  · intro cfg' params' zs' hs'
    rw [show fileAfter (.absent : File K M F V) (beforeOpen (produce key worker cfg
      (⟨fun x => some (params x), fun _ => none⟩ : Cache K M F V) (z :: zs)) ++ [.openForWriting]) = .torn by
        rw [fileAfter, List.foldl_append]; rfl]
    simp only [run, hs', if_true, load]

/-- Files written by runs with parameters `params` hold exactly these parameters. -/
theorem history_params (fields : List F) (key : Z → K) (worker : Z → M) (params : F → V) (f : File K M F V)
    (h : History fields key worker params f) : ∀ c, f = .complete c → ∀ x, c.params x = some (params x) := by
  induction h with
  | start => intro c hc; cases hc
  | step f cfg zs es₁ es₂ r _ hrun ih =>
    intro c hc
    rcases fileAfter_cases f es₁ with hg | hg | ⟨c', hw, hg⟩
    · exact ih c (hg ▸ hc)
    · rw [hg] at hc; cases hc
    · rw [hg] at hc
      cases hc
      -- the dictionary of the run
      unfold run at hrun
      cases hl : load fields params (if cfg.save = true then f else .absent) with
      | error e =>
        rw [hl] at hrun
        simp only [Prod.mk.injEq] at hrun
        obtain ⟨rfl, rfl⟩ := List.append_eq_nil_iff.1 hrun.1.symm
        simp at hw
      | ok c0 =>
        rw [hl] at hrun
        have h0 : ∀ x, c0.params x = some (params x) := by
          cases hs : cfg.save with
          | false =>
            rw [hs] at hl
            simp only [Bool.false_eq_true, if_false, load, Except.ok.injEq] at hl
            subst hl; intro x; rfl
          | true =>
            rw [hs] at hl
            simp only [if_true] at hl
            cases hf : f with
            | absent =>
              rw [hf] at hl
              simp only [load, Except.ok.injEq] at hl
              subst hl; intro x; rfl
            | torn => rw [hf] at hl; simp [load] at hl
            | complete c1 =>
              rw [hf] at hl
              simp only [load] at hl
              split_ifs at hl
              simp only [Except.ok.injEq] at hl
              subst hl
              exact ih c1 hf
        have hmem : ∀ es : List (Event Z K M F V), Event.written c ∈ beforeOpen es → Event.written c ∈ es :=
          fun es h => (List.takeWhile_sublist _).subset h
        have : Event.written c ∈ produce key worker cfg c0 (zs.filter fun z => (c0.maps (key z)).isNone) := by
          have hw' : Event.written c ∈ es₁ ++ es₂ := List.mem_append_left _ hw
          simp only [execute] at hrun
          split_ifs at hrun
          · cases hfm : cfg.format with
            | stores =>
              simp only [hfm, Prod.mk.injEq] at hrun
              rw [hrun.1]; exact hw'
            | raisesAfterOpen =>
              simp only [hfm, Prod.mk.injEq] at hrun
              rw [← hrun.1] at hw'
              simp only [List.mem_append, List.mem_cons, List.not_mem_nil, or_false] at hw'
              rcases hw' with h | h
              · exact hmem _ h
              · cases h
            | raisesBeforeOpen =>
              simp only [hfm, Prod.mk.injEq] at hrun
              rw [← hrun.1] at hw'
              exact hmem _ hw'
          · simp only [Prod.mk.injEq] at hrun
            rw [hrun.1]; exact hw'
        obtain ⟨p, s, _, rfl⟩ := (produce_saves key worker cfg c0 _).1 c this
        rw [putAll_params]
        exact h0

/-- **C31, foreign caches.** A cache file produced by any number of (possibly interrupted) runs with parameters `params` is
refused by a call with other parameters, without any computation and without touching the file. -/
theorem C31_refused (fields : List F) (key : Z → K) (worker worker' : Z → M) (params params' : F → V) (cfg : Config)
    (hs : cfg.save = true) (c : Cache K M F V) (h : History fields key worker params (.complete c)) (x : F)
    (hx : x ∈ fields) (hp : params' x ≠ params x) (zs : List Z) :
    run fields key worker' cfg params' (.complete c) zs = ([], .error "ValueError") := by
  have h1 := history_params fields key worker params _ h c rfl x
  have : fields.any (mismatch params' c) = true := by
    rw [List.any_eq_true]
    exact ⟨x, hx, by simp [mismatch, h1, Ne.symm hp]⟩
  simp only [run, hs, if_true, load, this]

/-- Concrete history: one run with one redshift. -/
example : History (Z := ℕ) (K := ℕ) (M := ℕ) (F := Unit) (V := ℕ) [()] id (fun z => 10 * z) (fun _ => 5)
    (.complete ⟨fun _ => some 5, Function.update (fun _ => none) 7 (some 70)⟩) :=
  History.step .absent ⟨true, .stores, 1, none⟩ [7] [.compute 7, .openForWriting, .written ⟨fun _ => some 5,
    Function.update (fun _ => none) 7 (some 70)⟩] [] _ .start rfl

/-- A cache without recorded parameters (written by another program) is accepted whatever the parameters are. -/
theorem C31_false_unrecorded (fields : List F) (key : Z → K) (worker : Z → M) (params : F → V) (cfg : Config)
    (hs : cfg.save = true) (maps : K → Option M) (z : Z) (m : M) (hm : maps (key z) = some m) :
    ∃ r, run fields key worker cfg params (.complete ⟨fun _ => none, maps⟩) [z] = ([], .ok r) ∧
      r.maps (key z) = some m := by
  have : fields.any (mismatch params (⟨fun _ => none, maps⟩ : Cache K M F V)) = false := by
    rw [List.any_eq_false]; intro x _; simp [mismatch]
  have hf : ([z].filter fun z => ((⟨fun _ => none, maps⟩ : Cache K M F V).maps (key z)).isNone) = [] := by
    simp [hm]
  refine ⟨⟨fun _ => none, maps⟩, ?_, hm⟩
  simp only [run, hs, if_true, load, this, Bool.false_eq_true, if_false, execute, hf, produce]
  rfl

example : (fun k : ℕ => if k = 6 then some 60 else none) (id 6) = some 60 := rfl

/-! ## C32 -/

/-- **C32, different keys.** If the redshifts have different keys and the file does not hold a wrong map for one of them,
every redshift gets the map computed for it. Missing: redshifts with equal keys (`C32_false`). -/
theorem C32_partial (fields : List F) (key : Z → K) (worker : Z → M) (cfg : Config) (hs : cfg.save = true)
    (hf : cfg.format = .stores) (params : F → V) (f : File K M F V) (zs : List Z) (hk : (zs.map key).Nodup)
    (hgood : ∀ c, f = .complete c → ∀ z ∈ zs, ∀ m, c.maps (key z) = some m → m = worker z)
    (es : List (Event Z K M F V)) (r : Cache K M F V)
    (h : run fields key worker cfg params f zs = (es, .ok r)) : ∀ z ∈ zs, r.maps (key z) = some (worker z) := by
  by_cases hl : ∃ c, Loaded fields params f c
  swap
  · push Not at hl
    obtain ⟨e, he⟩ := run_error fields key worker cfg hs params f zs hl
    rw [he] at h
    simp at h
  obtain ⟨c, hl⟩ := hl
  rw [run_loaded fields key worker cfg hs hf params f zs c hl] at h
  simp only [Prod.mk.injEq, Except.ok.injEq] at h
  obtain ⟨_, rfl⟩ := h
  intro z hz
  cases hm : c.maps (key z) with
  | some m =>
    rw [putAll_notMem]
    · rw [hm]
      rcases hl with ⟨_, rfl⟩ | ⟨rfl, _⟩
      · simp at hm
      · rw [hgood c rfl z hz m hm]
    · rw [List.mem_map]
      rintro ⟨y, hy, hyz⟩
      rw [List.mem_filter, hyz, hm] at hy
      simp at hy
  | none =>
    have hmem : z ∈ zs.filter fun z => (c.maps (key z)).isNone := by
      rw [List.mem_filter]; exact ⟨hz, by rw [hm]; rfl⟩
    obtain ⟨a, b, hab⟩ := List.append_of_mem hmem
    rw [hab]
    apply putAll_last
    have hn : ((a ++ z :: b).map key).Nodup := by
      rw [← hab]; exact hk.sublist (List.filter_sublist.map key)
    rw [List.map_append, List.map_cons, List.nodup_append] at hn
    exact (List.nodup_cons.1 hn.2.1).1

/-- **C32 is false for equal keys**: of two redshifts with the same key both get the map of the second. -/
theorem C32_false (fields : List F) (key : Z → K) (worker : Z → M) (cfg : Config) (hf : cfg.format = .stores)
    (params : F → V) (z₁ z₂ : Z) (hkey : key z₁ = key z₂) (hw : worker z₁ ≠ worker z₂) :
    ∃ es r, run fields key worker cfg params (.absent : File K M F V) [z₁, z₂] = (es, .ok r) ∧
      r.maps (key z₁) = some (worker z₂) ∧ r.maps (key z₁) ≠ some (worker z₁) := by
  have hfilter : ([z₁, z₂].filter fun z => ((⟨fun x => some (params x), fun _ => none⟩ : Cache K M F V).maps
      (key z)).isNone) = [z₁, z₂] := by
    rw [List.filter_eq_self]; intro a _; rfl
  refine ⟨produce key worker cfg (⟨fun x => some (params x), fun _ => none⟩ : Cache K M F V) [z₁, z₂],
    putAll key worker (⟨fun x => some (params x), fun _ => none⟩ : Cache K M F V) [z₁, z₂], ?_, ?_, ?_⟩
  · have : load fields params (if cfg.save = true then (.absent : File K M F V) else .absent)
        = .ok ⟨fun x => some (params x), fun _ => none⟩ := by split_ifs <;> rfl
    simp only [run, this, execute, hfilter, hf]
    split_ifs <;> rfl
  · simp [putAll, Cache.put, hkey]
  · simp [putAll, Cache.put, hkey, Ne.symm hw]

/-- The two redshifts 7.0001 and 7.0004 share the key `7.000`. -/
theorem C32_false_witness : key3 7.0001 = 7000 ∧ key3 7.0004 = 7000 := by decide +kernel

theorem key3_close (z : ℚ) : |(key3 z : ℚ) - 1000 * z| ≤ 1 / 2 := by
  have h1 := Int.floor_le (1000 * z)
  have h2 := Int.lt_floor_add_one (1000 * z)
  simp only [key3]
  rw [abs_le]
  split_ifs <;> push_cast <;> constructor <;> linarith

/-- **C32, separation.** Redshifts more than 0.001 apart have different keys. -/
theorem C32_separated (z₁ z₂ : ℚ) (h : 1 / 1000 < |z₁ - z₂|) : key3 z₁ ≠ key3 z₂ := by
  intro he
  have h1 := abs_le.1 (key3_close z₁)
  have h2 := abs_le.1 (key3_close z₂)
  rw [he] at h1
  rcases lt_abs.1 h with h | h <;> linarith [h1.1, h1.2, h2.1, h2.2]

example : (1 : ℚ) / 1000 < |7 - 7.0011| := by norm_num [abs_of_neg]

end Verif.UVCache
