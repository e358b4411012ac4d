import Verif.Model.CubeInputs
import Mathlib.Data.Rat.Defs
import Mathlib.Algebra.Order.Ring.Unbundled.Rat
/-!
# Redshifts of the cubes of a light cone (C219)
-/

namespace Verif.CubeInputs

variable {K F G : Type} [LinearOrder K]

/-! ## Specification -/

/-- A dictionary has one value for each key. -/
def Dictionary (items : List (K × F)) : Prop := (items.map Prod.fst).Nodup

/-- The redshifts increase. -/
def Increasing (r : List (K × F)) : Prop := r.Pairwise fun p q => p.1 < q.1

/-! ## Lemmas -/

theorem mapM_exists {α β ε : Type} (f : α → Except ε β) (l : List α) (h : ∀ a ∈ l, ∃ b, f a = .ok b) :
    ∃ bs, l.mapM f = .ok bs ∧ bs.length = l.length ∧ ∀ p, p ∈ l.zip bs → f p.1 = .ok p.2 := by
  induction l with
  | nil => exact ⟨[], rfl, rfl, by simp⟩
  | cons a l ih =>
    obtain ⟨b, hb⟩ := h a (by simp)
    obtain ⟨bs, h1, h2, h3⟩ := ih fun x hx => h x (by simp [hx])
    refine ⟨b :: bs, ?_, by simp [h2], ?_⟩
    · rw [List.mapM_cons, hb, h1]
      rfl
    · intro p hp
      rw [List.zip_cons_cons, List.mem_cons] at hp
      rcases hp with rfl | hp
      · exact hb
      · exact h3 p hp

theorem mapM_none {α β ε : Type} (f : α → Except ε β) (e : ε) (l : List α) (h : ∀ a ∈ l, f a = .error e ∨ ∃ b, f a = .ok b) {a : α} (ha : a ∈ l)
    (hf : f a = .error e) : l.mapM f = .error e := by
  induction l with
  | nil => cases ha
  | cons x l ih =>
    rw [List.mapM_cons]
    rcases h x (by simp) with hx | ⟨b, hx⟩
    · rw [hx]
      rfl
    · rcases List.mem_cons.1 ha with rfl | ha
      · rw [hf] at hx
        cases hx
      · rw [hx, ih (fun y hy => h y (by simp [hy])) ha]
        rfl

theorem item_ok {items : List (K × F)} (hd : Dictionary items) {p : K × F} (hp : p ∈ items) : item items p.1 = .ok p.2 := by
  unfold item
  induction items with
  | nil => cases hp
  | cons x l ih =>
    have hd' := List.nodup_cons.1 (show (x.1 :: l.map Prod.fst).Nodup from hd)
    by_cases hx : x.1 = p.1
    · have : x = p := by
        rcases List.mem_cons.1 hp with h | h
        · exact h.symm
        · exact absurd (List.mem_map.2 ⟨p, h, hx.symm⟩) hd'.1
      subst this
      simp
    · have hp' : p ∈ l := by
        rcases List.mem_cons.1 hp with h | h
        · exact absurd (by rw [h]) hx
        · exact h
      rw [List.find?_cons_of_neg (by simpa using hx)]
      exact ih hd'.2 hp'

theorem item_mem {items : List (K × F)} {k : K} {f : F} (h : item items k = .ok f) : (k, f) ∈ items := by
  unfold item at h
  split at h
  · cases h
  · rename_i p hp
    have h1 := List.mem_of_find?_eq_some hp
    have h2 := List.find?_some hp
    cases h
    rw [show (k, p.2) = p from Prod.ext (by simpa using (eq_of_beq h2).symm) rfl]
    exact h1

theorem item_none {items : List (K × F)} {k : K} (h : k ∉ items.map Prod.fst) : item items k = .error "KeyError" := by
  unfold item
  rw [List.find?_eq_none.2 fun p hp => ?_]
  simp only [beq_iff_eq]
  rintro rfl
  exact h (List.mem_map.2 ⟨p, hp, rfl⟩)

theorem mem_sortedKeys {items : List (K × F)} {k : K} : k ∈ sortedKeys items ↔ ∃ f, (k, f) ∈ items := by
  unfold sortedKeys
  rw [(List.mergeSort_perm _ _).mem_iff]
  simp

theorem sortedKeys_lt {items : List (K × F)} (hd : Dictionary items) : (sortedKeys items).Pairwise (· < ·) := by
  have h1 : (sortedKeys items).Pairwise fun a b => decide (a ≤ b) = true := List.pairwise_mergeSort (fun a b c => by
    simpa using le_trans) (fun a b => by simpa using le_total a b) _
  have h2 : (sortedKeys items).Nodup := (List.mergeSort_perm _ _).nodup_iff.2 hd
  exact (h1.and h2).imp fun h => lt_of_le_of_ne (by simpa using h.1) h.2

theorem zip_increasing {l : List K} (hl : l.Pairwise (· < ·)) : ∀ (bs : List F), Increasing (l.zip bs) := by
  induction l with
  | nil => intro bs; simp [Increasing]
  | cons a l ih =>
    intro bs
    cases bs with
    | nil => simp [Increasing]
    | cons b bs =>
      have hl' := List.pairwise_cons.1 hl
      rw [List.zip_cons_cons]
      exact List.pairwise_cons.2 ⟨fun p hp => hl'.1 _ (List.of_mem_zip (a := p.1) (b := p.2) hp).1, ih hl'.2 bs⟩

theorem zip_fst {α β : Type} {l : List α} {bs : List β} (h : bs.length = l.length) {a : α} (ha : a ∈ l) : ∃ b, (a, b) ∈ l.zip bs := by
  induction l generalizing bs with
  | nil => cases ha
  | cons x l ih =>
    cases bs with
    | nil => simp at h
    | cons b bs =>
      rcases List.mem_cons.1 ha with rfl | ha
      · exact ⟨b, by simp⟩
      · obtain ⟨b', hb'⟩ := ih (by simpa using h) ha
        exact ⟨b', by rw [List.zip_cons_cons]; exact List.mem_cons_of_mem _ hb'⟩

/-! ## C219 -/

/-- **C219** (partial).  The cubes of a dictionary are used with their keys, in the order of increasing redshift, whatever else is given; the names of a list with the redshifts of
an array of the same length, one after the other; without redshifts with those of their names.  Missing: redshifts given as a list or as the name of a file (`C219_false`). -/
theorem C219_partial (determine : F → K) (limits : Bool) :
    (∀ (reader : Bool) (items : List (K × F)) (zs : Redshifts K), Dictionary items → items ≠ [] →
      ∃ r, scalarCubes determine reader limits (.dict items) zs = .ok r ∧ Increasing r ∧ ∀ p, p ∈ r ↔ p ∈ items) ∧
    (∀ (reader : Bool) (l : List F) (zs : List K), l ≠ [] → zs.length = l.length →
      scalarCubes determine reader limits (.names l) (.array zs) = .ok (zs.zip l)) ∧
    ∀ l : List F, l ≠ [] → scalarCubes determine false limits (.names l) .none = .ok (l.map fun f => (determine f, f)) := by
  refine ⟨fun reader items zs hd hne => ?_, fun reader l zs hl hlen => ?_, fun l hl => ?_⟩
  · obtain ⟨bs, h1, h2, h3⟩ := mapM_exists (item items) (sortedKeys items) fun k hk => by
      obtain ⟨f, hf⟩ := mem_sortedKeys.1 hk
      exact ⟨f, item_ok hd hf⟩
    have hbs : bs ≠ [] := by
      rintro rfl
      obtain ⟨p, hp⟩ := List.exists_mem_of_ne_nil _ hne
      have := mem_sortedKeys.2 ⟨p.2, hp⟩
      rw [List.length_nil, eq_comm, List.length_eq_zero_iff] at h2
      rw [h2] at this
      cases this
    refine ⟨(sortedKeys items).zip bs, ?_, zip_increasing (sortedKeys_lt hd) bs, fun p => ⟨fun hp => item_mem (h3 p hp), fun hp => ?_⟩⟩
    · unfold scalarCubes
      dsimp only
      rw [h1]
      cases bs with
      | nil => exact absurd rfl hbs
      | cons b bs =>
        show paired limits (.array (sortedKeys items)) (b :: bs) = _
        unfold paired Redshifts.len
        dsimp only
        rw [if_neg (not_not.2 h2.symm)]
        rfl
    · obtain ⟨b, hb⟩ := zip_fst h2 (mem_sortedKeys.2 ⟨p.2, hp⟩)
      have := h3 _ hb
      rw [item_ok hd hp] at this
      cases this
      exact hb
  · have : l.isEmpty = false := by simpa using hl
    unfold scalarCubes
    dsimp only
    rw [this]
    cases reader <;>
    · simp only [Bool.false_eq_true, if_false, if_true, getFileRedshifts]
      unfold paired Redshifts.len
      dsimp only
      rw [if_neg (not_not.2 hlen)]
      rfl
  · have : l.isEmpty = false := by simpa using hl
    unfold scalarCubes
    dsimp only
    rw [this]
    simp only [Bool.false_eq_true, if_false, getFileRedshifts]
    unfold paired Redshifts.len values
    dsimp only
    rw [if_neg (by simp)]
    congr 1
    induction l with
    | nil => rfl
    | cons x l ih =>
      cases l with
      | nil => rfl
      | cons y l =>
        rw [List.map_cons, List.zip_cons_cons, ih (by simp) (by simp), List.map_cons (l := y :: l)]

example : Dictionary [((9 : ℚ), "b"), (7, "a")] ∧ [((9 : ℚ), "b"), (7, "a")] ≠ [] ∧ [(7 : ℚ), 9].length = ["a", "b"].length := by
  unfold Dictionary
  decide +kernel

/-- Velocities and densities: a redshift goes with the velocity and the density of that key, or with those at the same place of the lists. -/
theorem C219_velocity (determine : G → K) (limits : Bool) :
    (∀ (v : List (K × F)) (d : List (K × G)) (zs : Redshifts K), Dictionary v → Dictionary d → v ≠ [] → (∀ p ∈ v, ∃ g, (p.1, g) ∈ d) →
      ∃ r, velocityCubes determine limits (.dict v) (.dict d) zs = .ok r ∧ Increasing r ∧
        ∀ k f g, (k, f, g) ∈ r ↔ (k, f) ∈ v ∧ (k, g) ∈ d) ∧
    (∀ (v : List (K × F)) (d : List (K × G)) (zs : Redshifts K), Dictionary v → (∃ p ∈ v, ∀ g, (p.1, g) ∉ d) →
      velocityCubes determine limits (.dict v) (.dict d) zs = .error "KeyError") ∧
    ∀ (v : List F) (d : List G) (zs : List K), d ≠ [] → v.length = d.length → zs.length = d.length →
      velocityCubes determine limits (.names v) (.names d) (.array zs) = .ok (zs.zip (v.zip d)) ∧
      velocityCubes determine limits (.names v) (.names d) .none = .ok ((d.map determine).zip (v.zip d)) := by
  refine ⟨fun v d zs hv hd hne hsub => ?_, fun v d zs hv ⟨p, hp, hno⟩ => ?_, fun v d zs hne hl hz => ?_⟩
  · obtain ⟨vs, h1, h2, h3⟩ := mapM_exists (item v) (sortedKeys v) fun k hk => by
      obtain ⟨f, hf⟩ := mem_sortedKeys.1 hk
      exact ⟨f, item_ok hv hf⟩
    obtain ⟨ds, e1, e2, e3⟩ := mapM_exists (item d) (sortedKeys v) fun k hk => by
      obtain ⟨f, hf⟩ := mem_sortedKeys.1 hk
      obtain ⟨g, hg⟩ := hsub _ hf
      exact ⟨g, item_ok hd hg⟩
    have hlen : (vs.zip ds).length = (sortedKeys v).length := by rw [List.length_zip, h2, e2, Nat.min_self]
    have hds : ds ≠ [] := by
      rintro rfl
      obtain ⟨p, hp⟩ := List.exists_mem_of_ne_nil _ hne
      have := mem_sortedKeys.2 ⟨p.2, hp⟩
      rw [List.length_nil, eq_comm, List.length_eq_zero_iff] at e2
      rw [e2] at this
      cases this
    have h4 : ∀ k f g, (k, f, g) ∈ (sortedKeys v).zip (vs.zip ds) → (k, f) ∈ (sortedKeys v).zip vs ∧ (k, g) ∈ (sortedKeys v).zip ds := by
      intro k f g h
      obtain ⟨i, hi, he⟩ := List.getElem_of_mem h
      rw [List.getElem_zip, List.getElem_zip] at he
      simp only [List.length_zip] at hi
      constructor
      · refine List.mem_iff_getElem.2 ⟨i, by simp only [List.length_zip]; omega, ?_⟩
        rw [List.getElem_zip]
        exact Prod.ext (congrArg (fun p => p.1) he :) (congrArg (fun p => p.2.1) he :)
      · refine List.mem_iff_getElem.2 ⟨i, by simp only [List.length_zip]; omega, ?_⟩
        rw [List.getElem_zip]
        exact Prod.ext (congrArg (fun p => p.1) he :) (congrArg (fun p => p.2.2) he :)
    refine ⟨(sortedKeys v).zip (vs.zip ds), ?_, zip_increasing (sortedKeys_lt hv) _, fun k f g => ⟨fun h => ?_, fun ⟨hf, hg⟩ => ?_⟩⟩
    · unfold velocityCubes
      dsimp only
      rw [h1]
      dsimp only
      rw [e1]
      cases ds with
      | nil => exact absurd rfl hds
      | cons b bs =>
        show paired limits (.array (sortedKeys v)) (vs.zip (b :: bs)) = _
        unfold paired Redshifts.len
        dsimp only
        rw [if_neg (not_not.2 hlen.symm)]
        rfl
    · have := h4 k f g h
      exact ⟨item_mem (h3 _ this.1), item_mem (e3 _ this.2)⟩
    · obtain ⟨⟨f', g'⟩, hb⟩ := zip_fst hlen (mem_sortedKeys.2 ⟨f, hf⟩)
      have := h4 _ _ _ hb
      have a1 := h3 _ this.1
      have a2 := e3 _ this.2
      rw [item_ok hv hf] at a1
      rw [item_ok hd hg] at a2
      cases a1
      cases a2
      exact hb
  · obtain ⟨vs, h1, -, -⟩ := mapM_exists (item v) (sortedKeys v) fun k hk => by
      obtain ⟨f, hf⟩ := mem_sortedKeys.1 hk
      exact ⟨f, item_ok hv hf⟩
    have hdc : ∀ k, item d k = .error "KeyError" ∨ ∃ b, item d k = .ok b := fun k => by
      unfold item
      split
      · exact .inl rfl
      · exact .inr ⟨_, rfl⟩
    have e1 : (sortedKeys v).mapM (item d) = .error "KeyError" :=
      mapM_none _ _ _ (fun k _ => hdc k) (mem_sortedKeys.2 ⟨p.2, hp⟩) (item_none fun hm => by
        obtain ⟨q, hq, he⟩ := List.mem_map.1 hm
        exact hno q.2 (he ▸ hq))
    unfold velocityCubes
    dsimp only
    rw [h1]
    dsimp only
    rw [e1]
  · have : d.isEmpty = false := by simpa using hne
    have hz' : ¬ zs.length ≠ (v.zip d).length := by rw [List.length_zip]; omega
    have hz2 : ¬ (d.map determine).length ≠ (v.zip d).length := by rw [List.length_zip, List.length_map]; omega
    constructor
    · unfold velocityCubes
      dsimp only
      rw [this]
      simp only [Bool.false_eq_true, if_false, getFileRedshifts, Redshifts.len]
      rw [if_neg (by omega), if_neg (by omega)]
      unfold paired Redshifts.len values
      dsimp only
      rw [if_neg hz']
    · unfold velocityCubes
      dsimp only
      rw [this]
      simp only [Bool.false_eq_true, if_false, getFileRedshifts, Redshifts.len, List.length_map]
      rw [if_neg (by omega), if_neg (by omega)]
      unfold paired Redshifts.len values
      dsimp only
      rw [if_neg hz2]

example : Dictionary [((9 : ℚ), "b"), (7, "a")] ∧ Dictionary [((7 : ℚ), 1), (8, 3), (9, 2)] ∧
    (∀ p ∈ [((9 : ℚ), "b"), (7, "a")], ∃ g ∈ [1, 3, 2], (p.1, g) ∈ [((7 : ℚ), 1), (8, 3), (9, 2)]) := by
  unfold Dictionary
  decide +kernel

/-- Redshifts of another number than the names raise, as does a reading function for names without redshifts. -/
theorem C219_raises (determine : F → K) (reader limits : Bool) (l : List F) (hl : l ≠ []) :
    (∀ zs : List K, zs.length ≠ l.length → scalarCubes determine reader limits (.names l) (.array zs) = .error "AssertionError") ∧
    scalarCubes determine true limits (.names l) .none = .error "AssertionError" := by
  have h : l.isEmpty = false := by simpa using hl
  constructor
  · intro zs hz
    unfold scalarCubes
    dsimp only
    rw [h]
    cases reader <;> simp [getFileRedshifts, paired, Redshifts.len, hz]
  · unfold scalarCubes
    simp [h]

example : scalarCubes (fun s : String => (s.length : ℚ)) false false (.names ["a", "b"]) (.array [7]) = .error "AssertionError" :=
  (C219_raises _ _ _ ["a", "b"] (by simp)).1 [7] (by simp)

/-- Redshifts given as the name of a file or as a list raise, in each of the two functions. -/
theorem C219_false (determine : F → K) (determine' : G → K) (reader limits : Bool) (l : List F) (d : List G) (s : String) (zs : List K) :
    (∃ e, scalarCubes determine reader limits (.names l) (.str s) = .error e) ∧ (∃ e, scalarCubes determine reader limits (.names l) (.list zs) = .error e) ∧
    (∃ e, velocityCubes determine' limits (.names l) (.names d) (.str s) = .error e) ∧
    ∃ e, velocityCubes determine' limits (.names l) (.names d) (.list zs) = .error e := by
  refine ⟨?_, ?_, ?_, ?_⟩
  · cases reader <;> simp only [scalarCubes, getFileRedshifts, paired, Redshifts.len, values] <;> split_ifs <;> exact ⟨_, rfl⟩
  · cases reader <;> simp only [scalarCubes, getFileRedshifts, paired, Redshifts.len, values] <;> split_ifs <;> exact ⟨_, rfl⟩
  · simp only [velocityCubes, getFileRedshifts, paired, Redshifts.len, values]
    split_ifs <;> exact ⟨_, rfl⟩
  · simp only [velocityCubes, getFileRedshifts, paired, Redshifts.len, values]
    split_ifs <;> exact ⟨_, rfl⟩

end Verif.CubeInputs
