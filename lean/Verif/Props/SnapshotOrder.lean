import Verif.Props.LightconeRedshifts
import Mathlib.Data.List.Perm.Basic
/-!
# The order of the snapshots of a lightcone (C249)
-/

set_option linter.unusedSectionVars false

namespace Verif.Lightcone

variable {K : Type} [Field K] [LinearOrder K] [IsStrictOrderedRing K] {D : Type}

/-! ## Specification -/

/-- The files `read 0`, `read 1`, … and the list of their redshifts hold these snapshots: pairs of a redshift and a cube. -/
def Holds (read : ℕ → D) (zs : List K) (s : List (K × D)) : Prop :=
  zs.length = s.length ∧ ∀ i p, s[i]? = some p → zs[i]? = some p.1 ∧ read i = p.2

/-- One cube for each redshift. -/
def OneEach (s : List (K × D)) : Prop := ∀ p ∈ s, ∀ q ∈ s, p.1 = q.1 → p.2 = q.2

/-! ## Lemmas -/

theorem Holds.mem {read : ℕ → D} {zs : List K} {s : List (K × D)} (h : Holds read zs s) (x : K) :
    x ∈ zs ↔ ∃ d, (x, d) ∈ s := by
  constructor
  · intro hx
    obtain ⟨i, hi, e⟩ := List.mem_iff_getElem.1 hx
    have hs : i < s.length := h.1 ▸ hi
    have := (h.2 i s[i] (List.getElem?_eq_getElem hs)).1
    rw [List.getElem?_eq_getElem hi, e] at this
    refine ⟨s[i].2, ?_⟩
    rw [Option.some.inj this]
    exact List.getElem_mem hs
  · rintro ⟨d, hd⟩
    obtain ⟨i, hi, e⟩ := List.mem_iff_getElem.1 hd
    have := (h.2 i (x, d) (by rw [List.getElem?_eq_getElem hi, e])).1
    exact List.mem_of_getElem? this

theorem Holds.nearest {read : ℕ → D} {zs : List K} {s : List (K × D)} (h : Holds read zs s) {x : K} (hx : x ∈ zs) :
    (x, read (nearest zs x)) ∈ s := by
  have hn := nearest_mem hx
  obtain ⟨hi, e⟩ := List.getElem?_eq_some_iff.1 hn
  have hs : Lightcone.nearest zs x < s.length := h.1 ▸ hi
  obtain ⟨h1, h2⟩ := h.2 _ _ (List.getElem?_eq_getElem hs)
  rw [hn] at h1
  have e2 : (x, read (Lightcone.nearest zs x)) = s[Lightcone.nearest zs x] := Prod.ext (Option.some.inj h1) h2
  rw [e2]
  exact List.getElem_mem hs

theorem bracketLow_congr {zs zs' : List K} {z : K} (h : ∀ lo, IsLower zs z lo ↔ IsLower zs' z lo) :
    bracketLow zs z = bracketLow zs' z := by
  ext lo
  rw [bracketLow_iff, bracketLow_iff]
  have := h lo
  unfold IsLower at this
  tauto

theorem bracketHigh_congr {zs zs' : List K} {z : K} (h : ∀ lo, IsUpper zs z lo ↔ IsUpper zs' z lo) :
    bracketHigh zs z = bracketHigh zs' z := by
  ext lo
  rw [bracketHigh_iff, bracketHigh_iff]
  have := h lo
  unfold IsUpper at this
  tauto

theorem loop_congr' (f g : Vars K D → K → ℕ → Except String (Vars K D × Used K D)) :
    ∀ (out : List K) (v : Vars K D) (n : ℕ), (∀ z ∈ out, ∀ v n, f v z n = g v z n) → loop f v n out = loop g v n out := by
  intro out
  induction out with
  | nil => intros; rfl
  | cons z out ih =>
    intro v n h
    simp only [loop, h z List.mem_cons_self v n]
    cases g v z n with
    | error e => rfl
    | ok p =>
      simp only [bind, Except.bind]
      rw [ih _ _ fun z hz => h z (List.mem_cons_of_mem _ hz)]

theorem step_same {read read' : ℕ → D} {zs zs' : List K} {s : List (K × D)} {s' : List (K × D)} (h : Holds read zs s)
    (h' : Holds read' zs' s') (ho : OneEach s) (hsub : ∀ p ∈ s', p ∈ s) {z : K}
    (hl : bracketLow zs z = bracketLow zs' z) (hh : bracketHigh zs z = bracketHigh zs' z) (v : Vars K D) (n : ℕ) :
    stepScalar read zs v z n = stepScalar read' zs' v z n ∧ stepVelocity read zs v z n = stepVelocity read' zs' v z n := by
  have key : ∀ x, x ∈ zs → x ∈ zs' → read (nearest zs x) = read' (nearest zs' x) := fun x hx hx' =>
    ho _ (h.nearest hx) _ (hsub _ (h'.nearest hx')) rfl
  unfold stepScalar stepVelocity
  rw [← hl, ← hh]
  cases el : bracketLow zs z with
  | none => exact ⟨rfl, rfl⟩
  | some lo =>
    cases eh : bracketHigh zs z with
    | none => exact ⟨rfl, rfl⟩
    | some hi =>
      have k1 := key lo (lower_of_bracketLow el).1 (lower_of_bracketLow (hl ▸ el)).1
      have k2 := key hi (upper_of_bracketHigh eh).1 (upper_of_bracketHigh (hh ▸ eh)).1
      simp only [k1, k2, and_self]

theorem slices_same {read read' : ℕ → D} {zs zs' : List K} {s : List (K × D)} {s' : List (K × D)} (h : Holds read zs s)
    (h' : Holds read' zs' s') (ho : OneEach s) (hsub : ∀ p ∈ s', p ∈ s) (out : List K)
    (hb : ∀ z ∈ out, bracketLow zs z = bracketLow zs' z ∧ bracketHigh zs z = bracketHigh zs' z) :
    scalarSlices read zs out = scalarSlices read' zs' out ∧ velocitySlices read zs out = velocitySlices read' zs' out :=
  ⟨loop_congr' _ _ out _ _ fun z hz v n => (step_same h h' ho hsub (hb z hz).1 (hb z hz).2 v n).1,
    loop_congr' _ _ out _ _ fun z hz v n => (step_same h h' ho hsub (hb z hz).1 (hb z hz).2 v n).2⟩

theorem stepScalar_z {read : ℕ → D} {zs : List K} {v v' : Vars K D} {z : K} {n : ℕ} {u : Used K D}
    (h : stepScalar read zs v z n = .ok (v', u)) : u.z = z := by
  rcases hl : bracketLow zs z with - | lo
  · rw [(step_unbracketed read zs v z n (.inl hl)).1] at h; cases h
  rcases hh : bracketHigh zs z with - | hi
  · rw [(step_unbracketed read zs v z n (.inr hh)).1] at h; cases h
  unfold stepScalar at h
  simp only [hl, hh] at h
  split at h
  · cases h; rfl
  · cases h

theorem scalar_z {read : ℕ → D} {zs : List K} : ∀ (out : List K) (v : Vars K D) (n : ℕ) (us : List (Used K D)),
    loop (stepScalar read zs) v n out = .ok us → us.map (·.z) = out := by
  intro out
  induction out with
  | nil => intro v n us h; cases h; rfl
  | cons z out ih =>
    intro v n us h
    simp only [loop] at h
    cases hs : stepScalar read zs v z n with
    | error e => rw [hs] at h; cases h
    | ok p =>
      obtain ⟨v', u⟩ := p
      rw [hs] at h
      simp only [bind, Except.bind] at h
      cases hr : loop (stepScalar read zs) v' (n + 1) out with
      | error e => rw [hr] at h; cases h
      | ok r =>
        rw [hr] at h
        cases h
        rw [List.map_cons, stepScalar_z hs, ih _ _ _ hr]

theorem min?_same {l l' : List K} (h : ∀ x, x ∈ l ↔ x ∈ l') : l.min? = l'.min? := by
  ext a
  rw [List.min?_eq_some_iff, List.min?_eq_some_iff]
  simp only [h]

theorem max?_same {l l' : List K} (h : ∀ x, x ∈ l ↔ x ∈ l') : l.max? = l'.max? := by
  ext a
  rw [List.max?_eq_some_iff, List.max?_eq_some_iff]
  simp only [h]

/-! ## C249 -/

/-- C249: the same snapshots in another order give the same lightcone: the same slices from the same cubes, and the same
errors.  (The grid of the output redshifts is that of the first file in the list; the cubes are of one shape.) -/
theorem C249_order (C : Cosmo K) (read read' : ℕ → D) (zs zs' : List K) (s s' : List (K × D)) (h : Holds read zs s)
    (h' : Holds read' zs' s') (ho : OneEach s) (hp : s.Perm s') (zLow zHigh : Option K) (n L : K) (dnu : Option K)
    (fuel : ℕ) (out : List K) :
    outputZ C zs zLow zHigh n L dnu fuel = outputZ C zs' zLow zHigh n L dnu fuel ∧
    makeLightcone C read zs zLow zHigh n L dnu fuel = makeLightcone C read' zs' zLow zHigh n L dnu fuel ∧
    velocitySlices read zs out = velocitySlices read' zs' out := by
  have hm : ∀ x, x ∈ zs ↔ x ∈ zs' := by
    intro x
    rw [h.mem, h'.mem]
    simp only [hp.mem_iff]
  have hz : outputZ C zs zLow zHigh n L dnu fuel = outputZ C zs' zLow zHigh n L dnu fuel := by
    unfold outputZ truncate
    rw [min?_same hm, max?_same hm]
  have hs : ∀ out, scalarSlices read zs out = scalarSlices read' zs' out ∧
      velocitySlices read zs out = velocitySlices read' zs' out := by
    intro out
    refine slices_same h h' ho (fun p hp' => hp.mem_iff.2 hp') out fun z _ => ⟨bracketLow_congr fun lo => ?_,
      bracketHigh_congr fun hi => ?_⟩
    · simp only [IsLower, hm]
    · simp only [IsUpper, hm]
  refine ⟨hz, ?_, (hs out).2⟩
  unfold makeLightcone
  rw [hz]
  congr 1
  funext o
  cases o with
  | error e => rfl
  | ok o => exact (hs o).1

/-- C249, snapshots that are not needed: a snapshot below another one that is at or below all redshifts of the lightcone, or above
another one that is above them all, may be left out. -/
theorem C249_spare (C : Cosmo K) (read read' : ℕ → D) (zs zs' : List K) (s s' : List (K × D)) (h : Holds read zs s)
    (h' : Holds read' zs' s') (ho : OneEach s) (hsub : ∀ p ∈ s', p ∈ s) (a b : K) (ha : ∃ d, (a, d) ∈ s') (hb : ∃ d, (b, d) ∈ s')
    (hd : ∀ p ∈ s, p ∈ s' ∨ p.1 < a ∨ b < p.1) :
    (∀ out : List K, (∀ z ∈ out, a ≤ z ∧ z < b) → scalarSlices read zs out = scalarSlices read' zs' out ∧
      velocitySlices read zs out = velocitySlices read' zs' out) ∧
    ∀ (zl zh n L : K) (dnu : Option K) (fuel : ℕ) (us : List (Used K D)),
      makeLightcone C read zs (some zl) (some zh) n L dnu fuel = some (.ok us) → (∀ u ∈ us, a ≤ u.z ∧ u.z < b) →
      makeLightcone C read' zs' (some zl) (some zh) n L dnu fuel = some (.ok us) := by
  have hsub' : ∀ x ∈ zs', x ∈ zs := by
    intro x hx
    obtain ⟨d, hx⟩ := (h'.mem x).1 hx
    exact (h.mem x).2 ⟨d, hsub _ hx⟩
  have hdrop : ∀ x ∈ zs, x ∈ zs' ∨ x < a ∨ b < x := by
    intro x hx
    obtain ⟨d, hx⟩ := (h.mem x).1 hx
    rcases hd _ hx with h1 | h1
    · exact .inl ((h'.mem x).2 ⟨d, h1⟩)
    · exact .inr h1
  have ha' : a ∈ zs' := (h'.mem a).2 ha
  have hb' : b ∈ zs' := (h'.mem b).2 hb
  have hs : ∀ out : List K, (∀ z ∈ out, a ≤ z ∧ z < b) → scalarSlices read zs out = scalarSlices read' zs' out ∧
      velocitySlices read zs out = velocitySlices read' zs' out := by
    intro out ho'
    refine slices_same h h' ho hsub out fun z hz => ?_
    obtain ⟨h1, h2⟩ := ho' z hz
    refine ⟨bracketLow_congr fun lo => ⟨fun ⟨p, q, r⟩ => ⟨?_, q, fun x hx => r x (hsub' x hx)⟩, fun ⟨p, q, r⟩ =>
      ⟨hsub' _ p, q, fun x hx hxz => ?_⟩⟩, bracketHigh_congr fun hi => ⟨fun ⟨p, q, r⟩ => ⟨?_, q, fun x hx => r x (hsub' x hx)⟩,
      fun ⟨p, q, r⟩ => ⟨hsub' _ p, q, fun x hx hxz => ?_⟩⟩⟩
    · rcases hdrop lo p with h3 | h3 | h3
      · exact h3
      · exact absurd (r a (hsub' _ ha') h1) (not_le.2 h3)
      · exact absurd (h2.trans h3) (not_lt.2 q)
    · rcases hdrop x hx with h3 | h3 | h3
      · exact r x h3 hxz
      · exact h3.le.trans (r a ha' h1)
      · exact absurd (h2.trans h3) (not_lt.2 hxz)
    · rcases hdrop hi p with h3 | h3 | h3
      · exact h3
      · exact absurd (h3.trans_le h1) (not_lt.2 q.le)
      · exact absurd (r b (hsub' _ hb') h2) (not_le.2 h3)
    · rcases hdrop x hx with h3 | h3 | h3
      · exact r x h3 hxz
      · exact absurd (h3.trans_le h1) (not_lt.2 hxz.le)
      · exact (r b hb' h2).trans h3.le
  refine ⟨hs, fun zl zh n L dnu fuel us hu hus => ?_⟩
  have hne : zs ≠ [] := List.ne_nil_of_mem (hsub' a ha')
  have hne' : zs' ≠ [] := List.ne_nil_of_mem ha'
  obtain ⟨flo, e1⟩ := Option.isSome_iff_exists.1 (List.isSome_min?_of_ne_nil hne)
  obtain ⟨fhi, e2⟩ := Option.isSome_iff_exists.1 (List.isSome_max?_of_ne_nil hne)
  obtain ⟨flo', e1'⟩ := Option.isSome_iff_exists.1 (List.isSome_min?_of_ne_nil hne')
  obtain ⟨fhi', e2'⟩ := Option.isSome_iff_exists.1 (List.isSome_max?_of_ne_nil hne')
  have key : ∀ r : Option (Except String (List K)),
      (r.map fun o => o.bind (truncate zs)).map (fun o => o.bind (scalarSlices read zs)) = some (.ok us) →
      (r.map fun o => o.bind (truncate zs')).map (fun o => o.bind (scalarSlices read' zs')) = some (.ok us) := by
    intro r hr
    rcases r with _ | _ | r
    · cases hr
    · cases hr
    simp only [Option.map_some, Except.bind, Option.some.injEq] at hr ⊢
    obtain ⟨t1, t2⟩ := truncate_spec zs r hne
    obtain ⟨t1', -⟩ := truncate_spec zs' r hne'
    by_cases hk : (r.filter fun z => decide ((∃ x ∈ zs, x ≤ z) ∧ ∃ x ∈ zs, z ≤ x)) = []
    · obtain ⟨e, he⟩ := t2 hk
      rw [he] at hr
      cases hr
    rw [t1 hk] at hr
    simp only at hr
    have hz := scalar_z _ _ _ _ hr
    have hin : ∀ z ∈ r.filter fun z => decide ((∃ x ∈ zs, x ≤ z) ∧ ∃ x ∈ zs, z ≤ x), a ≤ z ∧ z < b := by
      intro z hm
      rw [← hz] at hm
      obtain ⟨u, hu, rfl⟩ := List.mem_map.1 hm
      exact hus u hu
    have hf : (r.filter fun z => decide ((∃ x ∈ zs', x ≤ z) ∧ ∃ x ∈ zs', z ≤ x)) =
        r.filter fun z => decide ((∃ x ∈ zs, x ≤ z) ∧ ∃ x ∈ zs, z ≤ x) := by
      refine List.filter_congr fun z hm => ?_
      rw [decide_eq_decide]
      constructor
      · rintro ⟨⟨x, hx, h1⟩, y, hy, h2⟩
        exact ⟨⟨x, hsub' x hx, h1⟩, y, hsub' y hy, h2⟩
      · intro h1
        obtain ⟨h3, h4⟩ := hin z (List.mem_filter.2 ⟨hm, decide_eq_true h1⟩)
        exact ⟨⟨a, ha', h3⟩, b, hb', h4.le⟩
    rw [t1' (by rw [hf]; exact hk), hf]
    simp only
    rw [← (hs _ hin).1]
    exact hr
  unfold makeLightcone outputZ at hu ⊢
  rw [e1, e2] at hu
  rw [e1', e2']
  exact key _ hu

/-- Two snapshots of one redshift with different cubes: the first one in the list is used. -/
theorem C249_twice : ∃ (zs : List ℚ) (s s' : List (ℚ × ℕ)) (read read' : ℕ → ℕ), Holds read zs s ∧ Holds read' zs s' ∧ s.Perm s' ∧
    scalarSlices read zs [6] ≠ scalarSlices read' zs [6] := by
  refine ⟨[6, 6, 7], [(6, 0), (6, 1), (7, 2)], [(6, 1), (6, 0), (7, 2)], fun i => i, fun i => if i = 0 then 1 else if i = 1 then 0 else i,
    ⟨rfl, ?_⟩, ⟨rfl, ?_⟩, .swap _ _ _, by decide +kernel⟩
  · intro i p h
    rcases i with - | - | - | i <;> simp at h <;> subst h <;> simp
  · intro i p h
    rcases i with - | - | - | i <;> simp at h <;> subst h <;> simp

example : Holds (fun i => ([0, 1, 2, 3] : List ℕ).getD i 0) [(6 : ℚ), 7, 8, 9] [(6, 0), (7, 1), (8, 2), (9, 3)] ∧
    Holds (fun i => ([2, 0, 3, 1] : List ℕ).getD i 0) [(8 : ℚ), 6, 9, 7] [(8, 2), (6, 0), (9, 3), (7, 1)] ∧
    scalarSlices (fun i => ([0, 1, 2, 3] : List ℕ).getD i 0) [(6 : ℚ), 7, 8, 9] [15/2, 31/4] =
      .ok [⟨2, 1, 8, 7, 15/2, 0⟩, ⟨2, 1, 8, 7, 31/4, 1⟩] ∧
    scalarSlices (fun i => ([2, 0, 3, 1] : List ℕ).getD i 0) [(8 : ℚ), 6, 9, 7] [15/2, 31/4] =
      .ok [⟨2, 1, 8, 7, 15/2, 0⟩, ⟨2, 1, 8, 7, 31/4, 1⟩] ∧
    scalarSlices (fun i => ([2, 1] : List ℕ).getD i 0) [(8 : ℚ), 7] [15/2, 31/4] =
      .ok [⟨2, 1, 8, 7, 15/2, 0⟩, ⟨2, 1, 8, 7, 31/4, 1⟩] := by
  refine ⟨⟨rfl, ?_⟩, ⟨rfl, ?_⟩, by decide +kernel, by decide +kernel, by decide +kernel⟩
  · intro i p h
    rcases i with - | - | - | - | i <;> simp at h <;> subst h <;> simp
  · intro i p h
    rcases i with - | - | - | - | i <;> simp at h <;> subst h <;> simp

end Verif.Lightcone
