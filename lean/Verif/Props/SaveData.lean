import Verif.Model.SaveData
import Mathlib.Data.List.Infix
/-!
# Properties of `save_data` (C166), `save_fits` and `read_fits` (C167)
-/

namespace Verif.SaveData

/-! ## Specification -/

/-- The extension of a format. -/
def extension : Format → String
  | .npy => ".npy"
  | .pickle => ".pkl"
  | .cbin => ".cbin"
  | .fits => ".fits"
  | .raw => ".bin"

/-- The names of a format for the argument `filetype`. -/
def names : Format → List String
  | .npy => ["npy", "python_pickle"]
  | .pickle => ["pkl", "pickle"]
  | .cbin => ["cbin"]
  | .fits => ["fits"]
  | .raw => ["bin", "binary"]

/-- No extension is in the name. -/
def Plain (name : List Char) : Prop := ∀ f : Format, ¬ (extension f).toList <:+: name

/-! ## Lemmas -/

theorem contains_iff (sub s : List Char) : contains sub s = true ↔ sub <:+: s := by
  unfold contains
  rw [List.any_eq_true, List.infix_iff_prefix_suffix]
  constructor
  · rintro ⟨t, ht, hp⟩
    exact ⟨t, List.isPrefixOf_iff_prefix.1 hp, (List.mem_tails _ _).1 ht⟩
  · rintro ⟨t, hp, ht⟩
    exact ⟨t, (List.mem_tails _ _).2 ht, List.isPrefixOf_iff_prefix.2 hp⟩

theorem not_in_plain {name : List Char} (h : Plain name) (f : Format) : contains (extension f).toList (last5 name) = false := by
  rw [Bool.eq_false_iff]
  intro hc
  exact h f (((contains_iff _ _).1 hc).trans (List.drop_suffix _ _).isInfix)

theorem last5_five (stem ext : List Char) (h : ext.length = 5) : last5 (stem ++ ext) = ext := by
  unfold last5
  rw [List.length_append, h, Nat.add_sub_cancel, List.drop_left]

theorem last5_four (stem ext : List Char) (h : ext.length = 4) : last5 (stem ++ ext) = ext ∨ ∃ c, last5 (stem ++ ext) = c :: ext := by
  rcases List.eq_nil_or_concat stem with rfl | ⟨s, c, rfl⟩
  · left
    unfold last5
    simp [h]
  · right
    refine ⟨c, ?_⟩
    rw [List.concat_eq_append, List.append_assoc]
    exact last5_five s ([c] ++ ext) (by simp [h])

/-! ## C166 -/

/-- **C166, partial**: without a `filetype` the extension decides, whatever is in front of it, and the file has the name that was
given; FITS files if `pyfits` is installed.  The full property: `filetype` decides if it is given. -/
theorem C166_partial (stem : List Char) (f : Format) : saveData true (stem ++ (extension f).toList) none =
    .ok (some (stem ++ (extension f).toList, f), true) := by
  have hf : format (stem ++ (extension f).toList) none = some f := by
    unfold format
    dsimp only
    cases f with
    | npy =>
      rcases last5_four stem (extension .npy).toList rfl with h | ⟨c, h⟩ <;> rw [h] <;> simp [contains, extension, lower]
    | pickle =>
      rcases last5_four stem (extension .pickle).toList rfl with h | ⟨c, h⟩ <;> rw [h] <;> simp [contains, extension, lower]
    | cbin =>
      rw [last5_five stem (extension .cbin).toList rfl]
      simp [contains, extension, lower]
    | fits =>
      rw [last5_five stem (extension .fits).toList rfl]
      simp [contains, extension, lower]
    | raw =>
      rcases last5_four stem (extension .raw).toList rfl with h | ⟨c, h⟩ <;> rw [h] <;> simp [contains, extension, lower]
  unfold saveData
  rw [hf]
  cases f with
  | npy =>
    have : ['.', 'n', 'p', 'y'] <:+ stem ++ (extension .npy).toList := List.suffix_append _ _
    simp [written, this]
  | fits => rfl
  | pickle => simp [written]
  | cbin => simp [written]
  | raw => simp [written]

/-- For a name without any extension the names of the formats decide; only the files of `np.save` get another name. -/
theorem C166_filetype {name : List Char} (h : Plain name) (f : Format) {n : String} (hn : n ∈ names f) :
    saveData true name (some n.toList) = .ok (some (if f = .npy then name ++ ".npy".toList else name, f), true) := by
  have h1 := not_in_plain h .npy
  have h2 := not_in_plain h .pickle
  have h3 := not_in_plain h .cbin
  have h4 := not_in_plain h .fits
  have h5 := not_in_plain h .raw
  simp [extension] at h1 h2 h3 h4 h5
  have hf : format name (some n.toList) = some f := by
    cases f <;> simp only [names, List.mem_cons, List.not_mem_nil, or_false] at hn <;>
      first
        | (rcases hn with rfl | rfl <;> simp [format, h1, h2, h3, h4, h5, lower])
        | (subst hn; simp [format, h1, h2, h3, h4, h5, lower])
  unfold saveData
  rw [hf]
  cases f with
  | npy =>
    have : ¬ ['.', 'n', 'p', 'y'] <:+ name := fun hc => h .npy hc.isInfix
    simp [written, this]
  | fits => rfl
  | pickle => simp [written]
  | cbin => simp [written]
  | raw => simp [written]

/-- A name without any extension and no `filetype`: nothing is written, and `False` is returned. -/
theorem C166_unknown (pyfits : Bool) {name : List Char} (h : Plain name) : saveData pyfits name none = .ok (none, false) := by
  have h1 := not_in_plain h .npy
  have h2 := not_in_plain h .pickle
  have h3 := not_in_plain h .cbin
  have h4 := not_in_plain h .fits
  have h5 := not_in_plain h .raw
  simp [extension] at h1 h2 h3 h4 h5
  have hf : format name none = none := by
    simp [format, h1, h2, h3, h4, h5, lower]
  unfold saveData
  rw [hf]

/-- A `filetype` is ignored if the name has another extension that is looked for earlier. -/
theorem C166_ignored (stem : List Char) (pyfits : Bool) (filetype : Option (List Char)) :
    saveData pyfits (stem ++ ".npy".toList) filetype = .ok (some (stem ++ ".npy".toList, .npy), true) := by
  have hf : format (stem ++ ".npy".toList) filetype = some .npy := by
    unfold format
    dsimp only
    rcases last5_four stem ".npy".toList rfl with h | ⟨c, h⟩ <;> rw [h] <;> simp [contains]
  have : ['.', 'n', 'p', 'y'] <:+ stem ++ ".npy".toList := List.suffix_append _ _
  unfold saveData
  rw [hf]
  simp [written]

example := C166_ignored "xfrac".toList true (some "bin".toList)

/-- **C166 is false**: a pickle is asked for and an array of numpy is written; an array is asked for and the file has another name than
the one given; and the names of some formats must be in lower case. -/
theorem C166_false :
    saveData true "x.npy".toList (some "pickle".toList) = .ok (some ("x.npy".toList, .npy), true) ∧
      saveData true "x.pkl".toList (some "npy".toList) = .ok (some ("x.pkl.npy".toList, .npy), true) ∧
      saveData true "x".toList (some "PKL".toList) = .ok (some ("x".toList, .pickle), true) ∧
      saveData true "x".toList (some "FITS".toList) = .ok (none, false) := by
  refine ⟨?_, ?_, ?_, ?_⟩ <;> decide

/-- Without `pyfits` no FITS file is written: an exception. -/
theorem C166_fits (stem : List Char) : saveData false (stem ++ ".fits".toList) none = .error "UnboundLocalError" := by
  have hf : format (stem ++ ".fits".toList) none = some .fits := by
    unfold format
    dsimp only
    rw [last5_five stem ".fits".toList rfl]
    simp [contains, lower]
  unfold saveData
  rw [hf]
  rfl

/-! ## C167 -/

/-- **C167, partial**: with `pyfits` a FITS file that was saved is read back, in double precision, also if it replaces another one,
and other files are as before.  The full property: also without `pyfits`, and without the header if it is not wanted. -/
theorem C167_partial {D : Type} (f64 : D → D) (hf : ∀ x, f64 (f64 x) = f64 x) (fs : FS D) (name : List Char) (data : D) :
    ∃ fs', saveFits true f64 fs name data = .ok fs' ∧ (∃ h, readFits true f64 fs' name true = .ok (f64 data, some h)) ∧
      ∀ other, other ≠ name → ∀ b, readFits true f64 fs' other b = readFits true f64 fs other b := by
  refine ⟨_, rfl, ⟨["SIMPLE"], ?_⟩, ?_⟩
  · unfold readFits
    simp only [Function.update_self]
    by_cases h : (fs.files name).isSome = true
    · simp [h, hf]
    · simp [h]
  · intro other ho b
    unfold readFits
    simp only [Function.update_of_ne ho]

/-- **C167 is false**: without `pyfits` nothing can be saved, and a file that exists is not found. -/
theorem C167_false {D : Type} (f64 : D → D) (fs : FS D) (name : List Char) (data : D) (b : Bool) :
    saveFits false f64 fs name data = .error "UnboundLocalError" ∧
      (fs.testdata name = none → readFits false f64 fs name b = .error "FileNotFoundError") := by
  refine ⟨rfl, fun h => ?_⟩
  unfold readFits
  simp only [h]

/-- The header is returned whether or not it is wanted. -/
theorem C167_header_false {D : Type} (pyfits : Bool) (f64 : D → D) (fs : FS D) (name : List Char) (b : Bool) {d : D}
    {h : Option (List String)} (hr : readFits pyfits f64 fs name b = .ok (d, h)) : ∃ c l, h = some (c :: l) := by
  unfold readFits at hr
  split at hr
  · cases hr
    exact ⟨_, _, rfl⟩
  · split at hr
    · cases hr
    · cases hr
      exact ⟨_, _, rfl⟩
    · cases hr

/-! ## Examples -/

example : Plain "density".toList := by
  intro f
  cases f <;> decide

example : saveData true "z8.n.cbin".toList none = .ok (some ("z8.n.cbin".toList, .cbin), true) := C166_partial "z8.n".toList .cbin

example : saveData true "density".toList (some "binary".toList) = .ok (some ("density".toList, .raw), true) :=
  C166_filetype (by intro f; cases f <;> decide) .raw (by simp [names])

example : saveData false "density".toList none = .ok (none, false) := C166_unknown _ (by intro f; cases f <;> decide)

/-- A directory without files. -/
def empty : FS ℕ := ⟨fun _ => none, fun _ => none⟩

example : ∃ fs', saveFits true id empty "a".toList 7 = .ok fs' ∧ ∃ h, readFits true id fs' "a".toList true = .ok (7, some h) := by
  obtain ⟨fs', h1, h2, _⟩ := C167_partial id (fun _ => rfl) empty "a".toList 7
  exact ⟨fs', h1, h2⟩

example : readFits false id ⟨fun _ => some [⟨"SIMPLE", [], 7⟩], fun _ => none⟩ "a".toList true = .error "FileNotFoundError" :=
  (C167_false id _ _ 0 _).2 rfl

end Verif.SaveData
