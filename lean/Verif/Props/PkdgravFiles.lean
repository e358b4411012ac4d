import Verif.Model.PkdgravFiles
import Verif.Props.Pkdgrav
/-!
# Catalogues of pkdgrav haloes (C213) and saving them (C214)
-/

namespace Verif.PkdgravFiles
open Verif.Pkdgrav

/-! ## C213: catalogues -/

/-- The critical density of the universe today in units of h^2 solar masses per cubic Mpc. -/
def critical : ℝ := 277536627000

/-- The mass in solar masses of a part `f` of the critical mass of a box of `B` Mpc. -/
def MassSun (B h f m : ℝ) : Prop := m = critical * h ^ 2 * B ^ 3 * f

/-- The same in units of solar masses over h. -/
def MassSunH (B h f m : ℝ) : Prop := m = critical * h ^ 2 * B ^ 3 * f * h

/-- **C213** (partial).  The catalogue has one line for each halo of the files, in order, with the position in Mpc and a mass proportional to the part of
the halo; masses are in solar masses, and in solar masses over h, if h is one.  Missing: other h (`C213_false`). -/
theorem C213_partial {files : List (List Halo)} (hf : files ≠ []) (B h : ℝ) : ∃ rows, catalogue files B h = .ok (some rows) ∧
    rows.length = (files.map List.length).sum ∧
    ∀ (i : ℕ) (g : Halo), files.flatten[i]? = some g → ∃ m x, rows[i]? = some (m, x) ∧ (∀ j, x j = B * (g.rPot j + g.rcom j)) ∧
      m = critical * B ^ 3 * g.fMass ∧ (h = 1 → MassSun B h g.fMass m ∧ MassSunH B h g.fMass m) := by
  obtain ⟨f, fs, rfl⟩ := List.exists_cons_of_ne_nil hf
  have hfl : (f :: fs).flatten = fs.foldl (· ++ ·) f := by rw [foldl_append, List.flatten_cons]
  have hc : rhoC = critical := by
    unfold rhoC critical
    norm_num
  refine ⟨_, rfl, ?_, ?_⟩
  · rw [List.length_map, ← hfl, List.length_flatten]
  · intro i g hg
    rw [hfl] at hg
    refine ⟨_, _, by rw [List.getElem?_map, hg]; rfl, fun j => mul_comm _ _, ?_, ?_⟩
    · show rhoC * B ^ 3 * g.fMass = _
      rw [hc]
    · rintro rfl
      constructor
      · show rhoC * B ^ 3 * g.fMass = _
        rw [hc]
        ring
      · show rhoC * B ^ 3 * g.fMass = _
        rw [hc]
        ring

/-- The argument `hlittle` has no effect: for every positive h other than one the mass of no halo is in solar masses or in solar masses over h. -/
theorem C213_false {files : List (List Halo)} (hf : files ≠ []) {B h : ℝ} (hB : 0 < B) (hh : 0 < h) (h1 : h ≠ 1) :
    (∀ h', catalogue files B h' = catalogue files B h) ∧
    ∃ rows, catalogue files B h = .ok (some rows) ∧
      ∀ (i : ℕ) (g : Halo), files.flatten[i]? = some g → 0 < g.fMass →
        ∃ m x, rows[i]? = some (m, x) ∧ ¬ MassSun B h g.fMass m ∧ ¬ MassSunH B h g.fMass m := by
  refine ⟨fun _ => rfl, ?_⟩
  obtain ⟨rows, hr, -, hx⟩ := C213_partial hf B h
  refine ⟨rows, hr, fun i g hg hm => ?_⟩
  obtain ⟨m, x, hi, -, rfl, -⟩ := hx i g hg
  have hp : 0 < critical * B ^ 3 * g.fMass := by
    unfold critical
    positivity
  refine ⟨_, x, hi, fun hc => h1 ?_, fun hc => h1 ?_⟩
  · have e : critical * B ^ 3 * g.fMass * (h ^ 2 - 1) = 0 := by
      unfold MassSun at hc
      linear_combination -hc
    have := (mul_eq_zero.1 e).resolve_left hp.ne'
    nlinarith
  · have e : critical * B ^ 3 * g.fMass * (h ^ 3 - 1) = 0 := by
      unfold MassSunH at hc
      linear_combination -hc
    have h3 := (mul_eq_zero.1 e).resolve_left hp.ne'
    have : (h - 1) * (h ^ 2 + h + 1) = 0 := by linear_combination h3
    rcases mul_eq_zero.1 this with h | h
    · linarith
    · nlinarith

example : ([[⟨0, 0, 1 / 1000⟩]] : List (List Halo)) ≠ [] ∧ (0 : ℝ) < 100 ∧ (0 : ℝ) < 67 / 100 ∧ (67 / 100 : ℝ) ≠ 1 := by norm_num

/-- Without files the call raises; a file without haloes gives an array without lines. -/
theorem C213_raises (B h : ℝ) : catalogue [] B h = .error .unbound ∧ catalogue [[]] B h = .ok (some []) := ⟨rfl, rfl⟩

/-- The density contrast does not depend on the size of the box, which therefore may be given in any unit. -/
theorem C213_density {n : ℕ} (hn : 0 < n) (dens : List ℝ) (hl : dens.length = n ^ 3) (hs : dens.sum ≠ 0) {B B' : ℝ} (hB : B ≠ 0) (hB' : B' ≠ 0) :
    (∃ r, densityGrid dens B none = .ok r) ∧ densityGrid dens B none = densityGrid dens B' none ∧
      densityGrid dens B (some n) = densityGrid dens B' none := by
  have hr : rhoC ≠ 0 := by
    unfold rhoC
    norm_num
  have key : ∀ (b : ℝ), b ≠ 0 → ∀ g : Option ℕ, (g = some n ∨ g = none) →
      densityGrid dens b g = .ok (n, fun i j k => some (dens.getD (i + n * j + n ^ 2 * k) 0 / (dens.sum / (n : ℝ) ^ 3) - 1)) := by
    intro b hb g hg
    obtain ⟨δ, h1, h2, -⟩ := C189 hn dens hl hs hb hr g hg
    unfold densityGrid
    rw [h1]
    simp only [h2]
  exact ⟨⟨_, key B hB none (Or.inr rfl)⟩, by rw [key B hB none (Or.inr rfl), key B' hB' none (Or.inr rfl)],
    by rw [key B hB (some n) (Or.inl rfl), key B' hB' none (Or.inr rfl)]⟩

/-! ## C214: saving -/

/-- The name ends with an extension. -/
def EndsWith (ext name : List Char) : Prop := ∃ p, name = p ++ ext

/-- The name ends with an extension, or with the extension and one more character. -/
def EndsNearly (ext name : List Char) : Prop := ∃ p q : List Char, q.length ≤ 1 ∧ name = p ++ ext ++ q

theorem infix_tail5 {ext : List Char} (he : ext.length = 4) (name : List Char) : ext <:+: tail5 name ↔ EndsNearly ext name := by
  unfold tail5
  constructor
  · rintro ⟨s, t, h⟩
    have hl := congrArg List.length h
    simp only [List.length_append, List.length_drop] at hl
    refine ⟨name.take (name.length - 5) ++ s, t, by omega, ?_⟩
    rw [List.append_assoc, List.append_assoc, ← List.append_assoc s, h, List.take_append_drop]
  · rintro ⟨p, q, hq, rfl⟩
    have hk : (p ++ ext ++ q).length - 5 ≤ p.length := by
      simp only [List.length_append]
      omega
    refine ⟨p.drop ((p ++ ext ++ q).length - 5), q, ?_⟩
    rw [List.append_assoc p, List.drop_append_of_le_length (by simpa only [List.append_assoc] using hk), List.append_assoc]

theorem not_both (name : List Char) : EndsWith ".npy".toList name → ¬ EndsNearly ".txt".toList name := by
  rintro ⟨p, rfl⟩ ⟨p', q, hq, h⟩
  have h' := congrArg List.reverse h
  rw [List.reverse_append, List.reverse_append, List.reverse_append] at h'
  match q, hq with
  | [], _ => exact absurd (List.cons.inj h').1 (by decide)
  | [c], _ => exact absurd (List.cons.inj (List.cons.inj h').2).1 (by decide)

/-- **C214** (partial).  After reading, names that end with `.txt` or `.npy` give a file of that kind with the lines of all haloes; names that do not end so,
with at most one more character, give none; with `verbose` the message says which.  Missing: names with one more character, data not read, and the message
without `verbose` (`C214_false`). -/
theorem C214_partial (L rhoc : ℝ) (z : Option ℝ) {files : List (List Halo)} (hf : files ≠ []) (name : List Char) :
    ∃ s rows, readFof L rhoc z files = .ok s ∧ rows.length = (files.map List.length).sum ∧
      (∀ (i : ℕ) (g : Halo), files.flatten[i]? = some g → ∃ m x, rows[i]? = some (m, x) ∧ m = rhoc * L ^ 3 * g.fMass ∧
        ∀ j, x j = L * (g.rPot j + g.rcom j)) ∧
      (EndsWith ".txt".toList name → save L s true name = .ok (some (.txt, .lines rows), .saved)) ∧
      (EndsWith ".npy".toList name → save L s true name = .ok (some (.npy, .lines rows), .saved)) ∧
      (¬ EndsNearly ".txt".toList name → ¬ EndsNearly ".npy".toList name → ∀ v, save L s v name = .ok (none, .unknown)) := by
  obtain ⟨f, fs, rfl⟩ := List.exists_cons_of_ne_nil hf
  have hfl : (f :: fs).flatten = fs.foldl (· ++ ·) f := by rw [foldl_append, List.flatten_cons]
  refine ⟨⟨some (fs.foldl (· ++ ·) f), (factors L rhoc z).1, (factors L rhoc z).2⟩,
    (fs.foldl (· ++ ·) f).map (line L ⟨some (fs.foldl (· ++ ·) f), (factors L rhoc z).1, (factors L rhoc z).2⟩), rfl, ?_, ?_, ?_, ?_, ?_⟩
  · rw [List.length_map, ← hfl, List.length_flatten]
  · intro i g hg
    rw [hfl] at hg
    exact ⟨_, _, by rw [List.getElem?_map, hg]; rfl, rfl, fun j => mul_comm _ _⟩
  · rintro ⟨p, hp⟩
    unfold save
    rw [if_pos ((infix_tail5 rfl name).2 ⟨p, [], by simp, by simpa using hp⟩)]
    rfl
  · intro hp
    unfold save
    rw [if_neg fun h => not_both name hp ((infix_tail5 rfl name).1 h)]
    obtain ⟨p, hp⟩ := hp
    rw [if_pos ((infix_tail5 rfl name).2 ⟨p, [], by simp, by simpa using hp⟩)]
    rfl
  · intro h1 h2 v
    unfold save
    rw [if_neg fun h => h1 ((infix_tail5 rfl name).1 h), if_neg fun h => h2 ((infix_tail5 rfl name).1 h)]
    cases v <;> rfl

example : EndsWith ".npy".toList "haloes.npy".toList ∧ EndsNearly ".txt".toList "haloes.txt1".toList :=
  ⟨⟨"haloes".toList, by decide⟩, ⟨"haloes".toList, ['1'], by decide, by decide⟩⟩

/-- Without `verbose` the file is written and the message says that the extension is unknown.  A name with `.txt` and one more character, which ends with no
known extension, gives a text file.  If nothing has been read, `.txt` raises and `.npy` writes a file without data, with the message of success. -/
theorem C214_false (L : ℝ) (s : State) (p : List Char) (c : Char) :
    (∀ l, s.fof = some l → ∃ rows, rows.length = l.length ∧ save L s false (p ++ ".txt".toList) = .ok (some (.txt, .lines rows), .unknown)) ∧
    (∀ l, s.fof = some l → ∃ rows, rows.length = l.length ∧ save L s true (p ++ ".txt".toList ++ [c]) = .ok (some (.txt, .lines rows), .saved)) ∧
    (c ≠ 't' → ¬ EndsWith ".txt".toList (p ++ ".txt".toList ++ [c])) ∧
    (s.fof = none → save L s true (p ++ ".txt".toList) = .error .value ∧
      save L s true (p ++ ".npy".toList) = .ok (some (.npy, .nothing), .saved)) := by
  have ht := (infix_tail5 (ext := ".txt".toList) rfl (p ++ ".txt".toList)).2 ⟨p, [], by simp, by simp⟩
  have ht' := (infix_tail5 (ext := ".txt".toList) rfl (p ++ ".txt".toList ++ [c])).2 ⟨p, [c], by simp, rfl⟩
  have hn := (infix_tail5 (ext := ".npy".toList) rfl (p ++ ".npy".toList)).2 ⟨p, [], by simp, by simp⟩
  have hn' : ¬ ".txt".toList <:+: tail5 (p ++ ".npy".toList) := fun h => not_both _ ⟨p, rfl⟩ ((infix_tail5 rfl _).1 h)
  refine ⟨fun l hl => ⟨l.map (line L s), List.length_map _, ?_⟩, fun l hl => ⟨l.map (line L s), List.length_map _, ?_⟩, ?_, fun hs => ⟨?_, ?_⟩⟩
  · unfold save arrayFof
    rw [if_pos ht, hl]
    rfl
  · unfold save arrayFof
    rw [if_pos ht', hl]
    rfl
  · rintro hc ⟨q, hq⟩
    have := congrArg List.reverse hq
    simp only [List.reverse_append] at this
    exact hc (List.cons.inj this).1
  · unfold save arrayFof
    rw [if_pos ht, hs]
    rfl
  · unfold save arrayFof
    rw [if_neg hn', if_pos hn, hs]
    rfl

end Verif.PkdgravFiles
