import Verif.Model.DictFiles
/-!
# C241: dictionaries written to files and read again
-/

namespace Verif.DictFiles

/-! ## Specification -/

/-- What a dictionary of dictionaries holds at the end of a path of keys: a value, or a dictionary (`()`). -/
def look : Dict → List Name → Option (Value ⊕ Unit)
  | _, [] => none
  | .nil, _ :: _ => none
  | .leaf k v r, n :: ns => if k = n then (if ns = [] then some (.inl v) else none) else look r (n :: ns)
  | .sub k d r, n :: ns => if k = n then (if ns = [] then some (.inr ()) else look d ns) else look r (n :: ns)

/-- Keys that are names in an HDF5 file. -/
def PlainKey (k : Name) : Prop := k ≠ [] ∧ k ≠ ['.'] ∧ '/' ∉ k

/-- Values that come back: strings, and what is neither bytes nor an object without a counterpart. -/
def Kept (v : Value) : Prop := (∃ s, v = .str s) ∨ ∃ n, v = .other n

/-- What becomes of a value that HDF5 knows: bytes become a string. -/
def decoded : Value → Value
  | .bytes s => .str s
  | v => v

/-- Dictionaries with plain keys, all different, and values that HDF5 knows, at every level. -/
inductive Plain : Dict → Prop
  | nil : Plain .nil
  | leaf (k : Name) (v : Value) (r : Dict) (hk : PlainKey k) (hf : look r [k] = none) (hv : v ≠ .object) (hr : Plain r) : Plain (.leaf k v r)
  | sub (k : Name) (d r : Dict) (hk : PlainKey k) (hf : look r [k] = none) (hd : Plain d) (hr : Plain r) : Plain (.sub k d r)

/-! ## Lemmas -/

theorem look_get (d : Dict) (n : Name) (ns : List Name) : look d (n :: ns) =
    match get d n with
    | none => none
    | some (.inl v) => if ns = [] then some (.inl v) else none
    | some (.inr s) => if ns = [] then some (.inr ()) else look s ns := by
  induction d with
  | nil => simp [look, get]
  | leaf k v r ih =>
    rw [look, get, ih]
    by_cases h : k = n
    · rw [if_pos h, if_pos h]
    · rw [if_neg h, if_neg h]
  | sub k d r _ ih =>
    rw [look, get, ih]
    by_cases h : k = n
    · rw [if_pos h, if_pos h]
    · rw [if_neg h, if_neg h]

theorem look_none {d : Dict} {n : Name} : look d [n] = none ↔ get d n = none := by
  rw [look_get]
  cases get d n with
  | none => simp
  | some e => cases e <;> simp

theorem get_entry (k : Name) (x : Entry) (r : Dict) (m : Name) : get (entry k x r) m = if k = m then some x else get r m := by
  cases x <;> rfl

theorem get_put (n : Name) (x : Entry) (g : Dict) (h : get g n = none) (m : Name) :
    get (put n x g) m = if n = m then some x else get g m := by
  induction g with
  | nil => rw [put, get_entry]
  | leaf k v r ih =>
    rw [get] at h
    by_cases hk : k = n
    · rw [if_pos hk] at h
      cases h
    rw [if_neg hk] at h
    rw [put]
    by_cases hlt : n < k
    · rw [if_pos hlt, get_entry]
    · rw [if_neg hlt, get, ih h, get]
      by_cases h1 : n = m
      · subst h1
        rw [if_neg hk, if_pos rfl, if_pos rfl]
      · rw [if_neg h1, if_neg h1]
  | sub k d r _ ih =>
    rw [get] at h
    by_cases hk : k = n
    · rw [if_pos hk] at h
      cases h
    rw [if_neg hk] at h
    rw [put]
    by_cases hlt : n < k
    · rw [if_pos hlt, get_entry]
    · rw [if_neg hlt, get, ih h, get]
      by_cases h1 : n = m
      · subst h1
        rw [if_neg hk, if_pos rfl, if_pos rfl]
      · rw [if_neg h1, if_neg h1]

theorem parts_plain {k : Name} (h : PlainKey k) : parts k = [k] := by
  unfold parts
  rw [List.splitOn_eq_singleton h.2.2]
  simp [h.1, h.2.1]

theorem parts_path {a b : Name} (ha : PlainKey a) (hb : PlainKey b) : parts (a ++ '/' :: b) = [a, b] := by
  unfold parts
  rw [List.splitOn_append_cons_self_of_not_mem ha.2.2, List.splitOn_eq_singleton hb.2.2]
  simp [ha.1, ha.2.1, hb.1, hb.2.1]

theorem create_new {k : Name} (h : PlainKey k) (x : Entry) {g : Dict} (hg : get g k = none) :
    create (parts k) x g = .ok (put k x g) := by
  rw [parts_plain h, create.eq_def]
  simp only [hg]

theorem create_old {n : Name} {g : Dict} {e : Entry} (h : get g n = some e) (x : Entry) : ∃ err, create [n] x g = .error err := by
  rw [create.eq_def]
  simp only [h]
  exact ⟨_, rfl⟩

theorem create_through {n m : Name} {g : Dict} {v : Value} (h : get g n = some (.inl v)) (x : Entry) : ∃ err, create [n, m] x g = .error err := by
  rw [create.eq_def]
  simp only [h]
  exact ⟨_, rfl⟩

theorem kept_object {v : Value} (h : Kept v) : v ≠ .object ∧ loadValue v = v := by
  rcases h with ⟨s, rfl⟩ | ⟨n, rfl⟩ <;> exact ⟨by simp, rfl⟩

theorem get_load (g : Dict) (n : Name) : get (load g) n = (get g n).map (Sum.map loadValue load) := by
  induction g with
  | nil => rfl
  | leaf k v r ih =>
    rw [load, get, get, ih]
    by_cases h : k = n
    · rw [if_pos h, if_pos h]
      rfl
    · rw [if_neg h, if_neg h]
  | sub k d r _ ih =>
    rw [load, get, get, ih]
    by_cases h : k = n
    · rw [if_pos h, if_pos h]
      rfl
    · rw [if_neg h, if_neg h]

theorem plain_get {d : Dict} (h : Plain d) (n : Name) :
    ∀ s, get d n = some (.inr s) → Plain s := by
  induction h with
  | nil => exact fun s h => by simp [get] at h
  | leaf k v r hk hf hv hr ih =>
    rw [get]
    by_cases h : k = n
    · rw [if_pos h]
      exact fun s hs => by cases hs
    · rw [if_neg h]
      exact ih
  | sub k d r hk hf hd hr _ ih =>
    rw [get]
    by_cases h : k = n
    · rw [if_pos h]
      exact fun s hs => by cases hs; exact hd
    · rw [if_neg h]
      exact ih

/-- What a member of the file is after the dictionary has been saved into it. -/
theorem save_get {d : Dict} (h : Plain d) : ∀ g : Dict, (∀ n, get d n ≠ none → get g n = none) → ∃ g', save d g = .ok g' ∧
    (∀ n, get d n = none → get g' n = get g n) ∧ (∀ n v, get d n = some (.inl v) → get g' n = some (.inl v)) ∧
      ∀ n s, get d n = some (.inr s) → ∃ s', save s .nil = .ok s' ∧ get g' n = some (.inr s') := by
  induction h with
  | nil => exact fun g _ => ⟨g, rfl, fun _ _ => rfl, fun _ _ h => by simp [get] at h, fun _ _ h => by simp [get] at h⟩
  | leaf k v r hk hf hv hr ih =>
    intro g hg
    rw [look_none] at hf
    have hgk : get g k = none := hg k (by rw [get, if_pos rfl]; simp)
    obtain ⟨g', hs, h1, h2, h3⟩ := ih (put k (.inl v) g) fun n hn => by
      rw [get_put _ _ _ hgk]
      have hne : ¬ k = n := fun e => hn (e ▸ hf)
      rw [if_neg hne]
      exact hg n (by rw [get, if_neg hne]; exact hn)
    refine ⟨g', ?_, fun n hn => ?_, fun n w hw => ?_, fun n s hns => ?_⟩
    · rw [save, if_neg hv, create_new hk _ hgk]
      exact hs
    · rw [get] at hn
      by_cases e : k = n
      · rw [if_pos e] at hn
        cases hn
      · rw [if_neg e] at hn
        rw [h1 n hn, get_put _ _ _ hgk, if_neg e]
    · rw [get] at hw
      by_cases e : k = n
      · rw [if_pos e] at hw
        subst e
        rw [h1 k hf, get_put _ _ _ hgk, if_pos rfl]
        exact hw
      · rw [if_neg e] at hw
        exact h2 n w hw
    · rw [get] at hns
      by_cases e : k = n
      · rw [if_pos e] at hns
        cases hns
      · rw [if_neg e] at hns
        exact h3 n s hns
  | sub k d r hk hf hd hr ihd ih =>
    intro g hg
    rw [look_none] at hf
    have hgk : get g k = none := hg k (by rw [get, if_pos rfl]; simp)
    obtain ⟨d', hd', -⟩ := ihd .nil fun _ _ => rfl
    obtain ⟨g', hs, h1, h2, h3⟩ := ih (put k (.inr d') g) fun n hn => by
      rw [get_put _ _ _ hgk]
      have hne : ¬ k = n := fun e => hn (e ▸ hf)
      rw [if_neg hne]
      exact hg n (by rw [get, if_neg hne]; exact hn)
    refine ⟨g', ?_, fun n hn => ?_, fun n w hw => ?_, fun n s hns => ?_⟩
    · rw [save, hd']
      show (create (parts k) (.inr d') g >>= fun x => save r x) = _
      rw [create_new hk _ hgk]
      exact hs
    · rw [get] at hn
      by_cases e : k = n
      · rw [if_pos e] at hn
        cases hn
      · rw [if_neg e] at hn
        rw [h1 n hn, get_put _ _ _ hgk, if_neg e]
    · rw [get] at hw
      by_cases e : k = n
      · rw [if_pos e] at hw
        cases hw
      · rw [if_neg e] at hw
        exact h2 n w hw
    · rw [get] at hns
      by_cases e : k = n
      · rw [if_pos e] at hns
        subst e
        cases hns
        exact ⟨d', hd', by rw [h1 k hf, get_put _ _ _ hgk, if_pos rfl]⟩
      · rw [if_neg e] at hns
        exact h3 n s hns

theorem look_load (path : List Name) : ∀ d g : Dict, Plain d → save d .nil = .ok g → look (load g) path = (look d path).map (Sum.map decoded id) := by
  induction path with
  | nil => intro d g _ _; cases d <;> cases g <;> simp [look, load]
  | cons n ns ih =>
    intro d g hp hs
    obtain ⟨g', hs', h1, h2, h3⟩ := save_get hp .nil fun _ _ => rfl
    obtain rfl : g' = g := by rw [hs'] at hs; exact Except.ok.inj hs
    rw [look_get, look_get, get_load]
    cases e : get d n with
    | none => rw [h1 n e]; rfl
    | some x =>
      cases x with
      | inl v =>
        rw [h2 n v e]
        show (if ns = [] then some (Sum.inl (loadValue v)) else none) = Option.map _ (if ns = [] then some (Sum.inl v) else none)
        by_cases h : ns = []
        · rw [if_pos h, if_pos h]
          cases v <;> rfl
        · rw [if_neg h, if_neg h]
          rfl
      | inr s =>
        obtain ⟨s', hss, hg⟩ := h3 n s e
        rw [hg]
        show (if ns = [] then some (Sum.inr ()) else look (load s') ns) = Option.map _ (if ns = [] then some (Sum.inr ()) else look s ns)
        rw [ih s s' (plain_get hp n s e) hss]
        by_cases h : ns = []
        · rw [if_pos h, if_pos h]
          rfl
        · rw [if_neg h, if_neg h]

/-! ## C241 -/

/-- A dictionary of dictionaries with plain keys and values that HDF5 knows comes back as it was, but for bytes, which have become strings. -/
theorem C241_decoded (d : Dict) (h : Plain d) :
    ∃ d', roundTrip d = .ok d' ∧ ∀ path, look d' path = (look d path).map (Sum.map decoded id) := by
  obtain ⟨g, hg, -⟩ := save_get h .nil fun _ _ => rfl
  refine ⟨load g, ?_, fun path => look_load path d g h hg⟩
  unfold roundTrip
  rw [hg]
  rfl

example : ∃ d', roundTrip (.sub "run".toList (.leaf "id".toList (.bytes "x".toList) .nil) .nil) = .ok d' ∧
    look d' ["run".toList, "id".toList] = some (.inl (.str "x".toList)) :=
  (C241_decoded _ (.sub _ _ _ ⟨by decide, by decide, by decide⟩ rfl (.leaf _ _ _ ⟨by decide, by decide, by decide⟩ rfl (by decide) .nil) .nil)).imp
    fun _ h => ⟨h.1, (h.2 _).trans (by decide)⟩

/-- **C241** (partial).  A dictionary of dictionaries with plain keys, of strings and other values that HDF5 knows, comes back as it was.
Missing: bytes, `None`, and keys with a slash (`C241_false`, `C241_bytes`, `C241_object`). -/
theorem C241_partial (d : Dict) (h : Plain d) (hv : ∀ path v, look d path = some (.inl v) → Kept v) :
    ∃ d', roundTrip d = .ok d' ∧ ∀ path, look d' path = look d path := by
  obtain ⟨d', h1, h2⟩ := C241_decoded d h
  refine ⟨d', h1, fun path => ?_⟩
  rw [h2]
  cases e : look d path with
  | none => rfl
  | some x =>
    cases x with
    | inr u => rfl
    | inl v => rcases hv path v e with ⟨s, rfl⟩ | ⟨n, rfl⟩ <;> rfl

example : ∃ d', roundTrip (.sub "run".toList (.leaf "z".toList (.other 7) .nil) (.leaf "n".toList (.other 3) .nil)) = .ok d' ∧
    look d' ["run".toList, "z".toList] = some (.inl (.other 7)) := by
  refine (C241_partial _ (.sub _ _ _ ⟨by decide, by decide, by decide⟩ (by decide) (.leaf _ _ _ ⟨by decide, by decide, by decide⟩ rfl (by decide) .nil)
    (.leaf _ _ _ ⟨by decide, by decide, by decide⟩ rfl (by decide) .nil)) fun path v h => ?_).imp fun _ h => ⟨h.1, (h.2 _).trans (by decide)⟩
  right
  match path, h with
  | n :: ns, h =>
    rw [look] at h
    split at h
    · split at h
      · cases h
      · cases ns with
        | nil => cases h
        | cons m ms =>
          simp only [look] at h
          split at h
          · split at h
            · cases h; exact ⟨_, rfl⟩
            · cases h
          · cases h
    · simp only [look] at h
      split at h
      · split at h
        · cases h; exact ⟨_, rfl⟩
        · cases h
      · cases h

/-- A value under a key with a slash comes back in a dictionary within the dictionary, and not under its key. -/
theorem C241_false (a b : Name) (v : Value) (ha : PlainKey a) (hb : PlainKey b) (hv : Kept v) : ∃ d',
    roundTrip (.leaf (a ++ '/' :: b) v .nil) = .ok d' ∧ look d' [a ++ '/' :: b] = none ∧ look d' [a, b] = some (.inl v) := by
  refine ⟨.sub a (.leaf b v .nil) .nil, ?_, ?_, ?_⟩
  · unfold roundTrip
    rw [save, if_neg (kept_object hv).1, parts_path ha hb]
    show (Except.ok (load (.sub a (.leaf b v .nil) .nil)) : Except String Dict) = _
    simp only [load, (kept_object hv).2]
  · rw [look, if_neg, look]
    intro h
    exact ha.2.2 (h ▸ by simp)
  · simp [look]

example : ∃ d', roundTrip (.leaf "km/s".toList (.other 5) .nil) = .ok d' ∧ look d' ["km/s".toList] = none ∧
    look d' ["km".toList, "s".toList] = some (.inl (.other 5)) :=
  C241_false "km".toList "s".toList _ ⟨by decide, by decide, by decide⟩ ⟨by decide, by decide, by decide⟩ (.inr ⟨_, rfl⟩)

/-- Keys with the same beginning come back in the same dictionary. -/
theorem C241_shared (a b c : Name) (v w : Value) (ha : PlainKey a) (hb : PlainKey b) (hc : PlainKey c) (hbc : b ≠ c) (hv : Kept v) (hw : Kept w) : ∃ d',
    roundTrip (.leaf (a ++ '/' :: b) v (.leaf (a ++ '/' :: c) w .nil)) = .ok d' ∧ look d' [a, b] = some (.inl v) ∧ look d' [a, c] = some (.inl w) := by
  have hget : get (.leaf b v .nil) c = none := by rw [get, if_neg hbc, get]
  have hcr : create [a, c] (.inl w) (.sub a (.leaf b v .nil) .nil) = .ok (.sub a (put c (.inl w) (.leaf b v .nil)) .nil) := by
    rw [create.eq_def]
    have h1 : get (.sub a (.leaf b v .nil) .nil) a = some (.inr (.leaf b v .nil)) := by rw [get, if_pos rfl]
    simp only [h1]
    rw [create.eq_def]
    simp only [hget]
    show (Except.ok (change a (put c (.inl w) (.leaf b v .nil)) (.sub a (.leaf b v .nil) .nil)) : Except String Dict) = _
    rw [change, if_pos rfl]
  refine ⟨load (.sub a (put c (.inl w) (.leaf b v .nil)) .nil), ?_, ?_, ?_⟩
  · unfold roundTrip
    rw [save, if_neg (kept_object hv).1, parts_path ha hb]
    show (save (.leaf (a ++ '/' :: c) w .nil) (.sub a (.leaf b v .nil) .nil)).map load = _
    rw [save, if_neg (kept_object hw).1, parts_path ha hc, hcr]
    rfl
  · rw [load, look, if_pos rfl, if_neg (by simp), look_get, get_load, get_put _ _ _ hget, if_neg (Ne.symm hbc), get, if_pos rfl]
    show some (Sum.inl (loadValue v)) = _
    rw [(kept_object hv).2]
  · rw [load, look, if_pos rfl, if_neg (by simp), look_get, get_load, get_put _ _ _ hget, if_pos rfl]
    show some (Sum.inl (loadValue w)) = _
    rw [(kept_object hw).2]

example : ∃ d', roundTrip (.leaf "km/s".toList (.other 5) (.leaf "km/h".toList (.other 6) .nil)) = .ok d' ∧
    look d' ["km".toList, "s".toList] = some (.inl (.other 5)) ∧ look d' ["km".toList, "h".toList] = some (.inl (.other 6)) :=
  C241_shared "km".toList "s".toList "h".toList _ _ ⟨by decide, by decide, by decide⟩ ⟨by decide, by decide, by decide⟩ ⟨by decide, by decide, by decide⟩
    (by decide) (.inr ⟨_, rfl⟩) (.inr ⟨_, rfl⟩)

/-- A key that leads through another key with a value cannot be written, whichever comes first. -/
theorem C241_clash (a b : Name) (v w : Value) (ha : PlainKey a) (hb : PlainKey b) :
    (∃ e, roundTrip (.leaf a v (.leaf (a ++ '/' :: b) w .nil)) = .error e) ∧ ∃ e, roundTrip (.leaf (a ++ '/' :: b) w (.leaf a v .nil)) = .error e := by
  unfold roundTrip
  constructor
  · rw [save]
    by_cases hv : v = .object
    · rw [if_pos hv]
      exact ⟨_, rfl⟩
    rw [if_neg hv, create_new ha _ rfl]
    show ∃ e, (save (.leaf (a ++ '/' :: b) w .nil) (.leaf a v .nil)).map load = .error e
    rw [save]
    by_cases hw : w = .object
    · rw [if_pos hw]
      exact ⟨_, rfl⟩
    obtain ⟨e, he⟩ := create_through (m := b) (show get (.leaf a v .nil) a = some (.inl v) by rw [get, if_pos rfl]) (.inl w)
    rw [if_neg hw, parts_path ha hb, he]
    exact ⟨e, rfl⟩
  · rw [save]
    by_cases hw : w = .object
    · rw [if_pos hw]
      exact ⟨_, rfl⟩
    rw [if_neg hw, parts_path ha hb]
    show ∃ e, (save (.leaf a v .nil) (.sub a (.leaf b w .nil) .nil)).map load = .error e
    rw [save]
    by_cases hv : v = .object
    · rw [if_pos hv]
      exact ⟨_, rfl⟩
    obtain ⟨e, he⟩ := create_old (show get (.sub a (.leaf b w .nil) .nil) a = some (.inr (.leaf b w .nil)) by rw [get, if_pos rfl]) (.inl v)
    rw [if_neg hv, parts_plain ha, he]
    exact ⟨e, rfl⟩

example : ∃ e, roundTrip (.leaf "m".toList (.other 1) (.leaf "m/s".toList (.other 2) .nil)) = .error e :=
  (C241_clash "m".toList "s".toList _ _ ⟨by decide, by decide, by decide⟩ ⟨by decide, by decide, by decide⟩).1

/-- Bytes come back as a string. -/
theorem C241_bytes (k s : Name) (hk : PlainKey k) : ∃ d', roundTrip (.leaf k (.bytes s) .nil) = .ok d' ∧ look d' [k] = some (.inl (.str s)) := by
  refine ⟨.leaf k (.str s) .nil, ?_, by simp [look]⟩
  unfold roundTrip
  rw [save, if_neg (by simp), create_new hk _ rfl]
  rfl

/-- A `None` anywhere at the top level makes the call fail. -/
theorem C241_object (k : Name) (r : Dict) : ∃ e, roundTrip (.leaf k .object r) = .error e := by
  unfold roundTrip
  rw [save, if_pos rfl]
  exact ⟨_, rfl⟩

example : ∃ d', roundTrip (.leaf "id".toList (.bytes "x".toList) .nil) = .ok d' ∧ look d' ["id".toList] = some (.inl (.str "x".toList)) :=
  C241_bytes _ _ ⟨by decide, by decide, by decide⟩

/-! ## Formats -/

/-- The formats and their names, as documented and as the extensions in use. -/
def names : List (Name × Backend) :=
  [("pickle".toList, .pickle), ("pkl".toList, .pickle), ("json".toList, .json), ("yaml".toList, .yaml), ("yml".toList, .yaml), ("hdf5".toList, .hdf5),
   ("h5".toList, .hdf5), ("npz".toList, .npz), ("nc".toList, .netcdf), ("netcdf".toList, .netcdf), ("zarr".toList, .zarr), ("csv".toList, .csv),
   ("parquet".toList, .parquet), ("xlsx".toList, .xlsx)]

theorem writer_iff (f : Name) (b : Backend) : writer f = some b ↔ (f, b) ∈ names := by
  constructor
  · unfold writer
    intro h
    repeat' split at h
    all_goals first | (cases h; done) | skip
    all_goals
      cases h
      simp_all [names]
  · intro h
    have : ∀ p ∈ names, writer p.1 = some p.2 := by decide +kernel
    exact this _ h

theorem reader_eq (f : Name) : reader f = writer (f.map Char.toLower) := by
  unfold reader writer
  simp only [List.mem_singleton]

/-- Formats given by name: what can be written can be read, by the same library; reading takes capitals as well. -/
theorem C241_formats (f : Name) (b : Backend) :
    (writer f = some b ↔ (f, b) ∈ names) ∧ (reader f = some b ↔ (f.map Char.toLower, b) ∈ names) ∧ (writer f = some b → reader f = some b) := by
  refine ⟨writer_iff f b, ?_, fun h => ?_⟩
  · rw [reader_eq, writer_iff]
  · rw [reader_eq, writer_iff]
    have : ∀ p ∈ names, (p.1.map Char.toLower, p.2) ∈ names := by decide +kernel
    exact this _ ((writer_iff f b).1 h)

/-- A format in capitals is refused when writing. -/
theorem C241_capitals : reader "HDF5".toList = some .hdf5 ∧ writer "HDF5".toList = none := by decide +kernel

theorem toLower_cases (c : Char) :
    (65 ≤ c.val.toNat ∧ c.val.toNat ≤ 90 ∧ c.toLower.val.toNat = c.val.toNat + 32) ∨ (¬ (65 ≤ c.val.toNat ∧ c.val.toNat ≤ 90) ∧ c.toLower = c) := by
  have e : (c.val ≥ 'A'.val ∧ c.val ≤ 'Z'.val) ↔ (65 ≤ c.val.toNat ∧ c.val.toNat ≤ 90) := by
    rw [ge_iff_le, UInt32.le_iff_toNat_le, UInt32.le_iff_toNat_le]
    rfl
  by_cases h : c.val ≥ 'A'.val ∧ c.val ≤ 'Z'.val
  · refine .inl ⟨(e.1 h).1, (e.1 h).2, ?_⟩
    have := e.1 h
    unfold Char.toLower
    rw [dif_pos h]
    show (c.val + ('a'.val - 'A'.val)).toNat = _
    rw [UInt32.toNat_add, show ('a'.val - 'A'.val).toNat = 32 from rfl]
    omega
  · refine .inr ⟨fun h' => h (e.2 h'), ?_⟩
    unfold Char.toLower
    rw [dif_neg h]

theorem toLower_toLower (c : Char) : c.toLower.toLower = c.toLower := by
  rcases toLower_cases c with h | h
  · rcases toLower_cases c.toLower with h' | h'
    · omega
    · exact h'.2
  · rw [h.2, h.2]

theorem toLower_dot (c : Char) : c.toLower = '.' ↔ c = '.' := by
  rcases toLower_cases c with h | h
  · refine ⟨fun e => ?_, fun e => ?_⟩
    · rw [e] at h
      have : '.'.val.toNat = 46 := rfl
      omega
    · rw [e] at h
      have : '.'.val.toNat = 46 := rfl
      omega
  · rw [h.2]

theorem dropWhile_lower (s : Name) : (s.map Char.toLower).dropWhile (· = '.') = (s.dropWhile (· = '.')).map Char.toLower := by
  induction s with
  | nil => rfl
  | cons c s ih =>
    have hc := toLower_dot c
    rw [List.map_cons, List.dropWhile_cons, List.dropWhile_cons]
    by_cases h : c = '.'
    · rw [if_pos (by simpa using hc.2 h), if_pos (by simpa using h), ih]
    · rw [if_neg (by simpa using fun e => h (hc.1 e)), if_neg (by simpa using h), List.map_cons]

/-- Without a format the extension decides, for both functions alike: the library is the same or both refuse. -/
theorem C241_extension (ext : Name) : reader (readFormat none ext) = writer (writeFormat none ext) := by
  rw [reader_eq]
  unfold readFormat writeFormat
  show writer (((ext.map Char.toLower).dropWhile (· = '.')).map Char.toLower) = writer ((ext.dropWhile (· = '.')).map Char.toLower)
  rw [dropWhile_lower, List.map_map]
  congr 1
  exact List.map_congr_left fun c _ => toLower_toLower c

example : reader (readFormat none ".H5".toList) = some .hdf5 ∧ writer (writeFormat none ".H5".toList) = some .hdf5 := by decide +kernel

/-- The file read is the file written, except for archives of arrays under a name without `.npz`. -/
theorem C241_target (b : Backend) (file : Name) : target b file = file ↔ (b = .npz → ∃ stem, file = stem ++ ".npz".toList) := by
  unfold target
  by_cases h : b = .npz ∧ ¬ ".npz".toList <:+ file
  · rw [if_pos h]
    refine ⟨fun e => ?_, fun e => ?_⟩
    · have := congrArg List.length e
      rw [List.length_append] at this
      exact absurd this (by simp)
    · obtain ⟨s, hs⟩ := e h.1
      exact absurd ⟨s, hs.symm⟩ h.2
  · rw [if_neg h]
    refine ⟨fun _ hb => ?_, fun _ => rfl⟩
    exact Classical.byContradiction fun hn => h ⟨hb, fun ⟨s, hs⟩ => hn ⟨s, hs.symm⟩⟩

example : target .npz "out.dat".toList = "out.dat.npz".toList := by decide +kernel

end Verif.DictFiles
