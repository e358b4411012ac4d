import Verif.Model.IonRates
import Verif.Props.Files
import Mathlib.Algebra.Ring.Rat
/-!
# Files of ionisation rates (C217)
-/

namespace Verif.IonRates
open Nd Verif.Files

/-! ## Specification -/

/-- A file of C2-Ray: the header, with the record markers `m0`, `m4` and `m5` if it is not `binary_format`, the words of the array with the first index running fastest, and
what follows, which is a marker or nothing. -/
def fileOf (binary : Bool) (m0 m4 m5 : ℕ) (a : Arr ℕ) (rest : List ℕ) : List ℕ :=
  headerBytes (if binary then a.shape else m0 :: a.shape ++ [m4, m5]) ++ (toBytes 4 (a.flatten .F) ++ rest)

/-! ## Lemmas -/

theorem takeWhile_all {p : Char → Bool} {l t : List Char} {c : Char} (h : ∀ x ∈ l, p x = true) (hc : p c = false) :
    (l ++ c :: t).takeWhile p = l ∧ (l ++ c :: t).dropWhile p = c :: t := by
  induction l with
  | nil => simp [hc]
  | cons x l ih =>
    have hx := h x (by simp)
    have := ih fun y hy => h y (by simp [hy])
    simp [hx, this.1, this.2]

theorem takeWhile_self {p : Char → Bool} {l : List Char} (h : ∀ x ∈ l, p x = true) : l.takeWhile p = l := by
  induction l with
  | nil => rfl
  | cons x l ih => rw [List.takeWhile_cons_of_pos (h x (by simp)), ih fun y hy => h y (by simp [hy])]

theorem dropWhile_nil {p : Char → Bool} {l : List Char} (h : ∀ x ∈ l, p x = true) : l.dropWhile p = [] := by
  induction l with
  | nil => rfl
  | cons x l ih => rw [List.dropWhile_cons_of_pos (h x (by simp)), ih fun y hy => h y (by simp [hy])]

theorem flatten_single (l : List ℕ) : (l.map fun i => [[i]]).flatten = l.map fun i => [i] := by
  induction l with
  | nil => rfl
  | cons x l ih => rw [List.map_cons, List.flatten_cons, ih]; rfl

theorem baseName_join (dir name : List Char) (h : '/' ∉ name) : baseName (dir ++ '/' :: name) = name := by
  unfold baseName
  rw [List.reverse_append, List.reverse_cons, List.append_assoc]
  have := (takeWhile_all (p := (· != '/')) (l := name.reverse) (c := '/') (t := dir.reverse)
    (fun x hx => by
      simp only [bne_iff_ne, ne_eq]
      rintro rfl
      exact h (List.mem_reverse.1 hx)) (by simp)).1
  show ((name.reverse ++ '/' :: dir.reverse).takeWhile (· != '/')).reverse = name
  rw [this, List.reverse_reverse]

theorem second_last (head t : List Char) (h : '_' ∉ head) (ht : '_' ∉ t) : second (head ++ '_' :: t) = some t := by
  unfold second
  rw [(takeWhile_all (p := (· != '_')) (fun x hx => by simp only [bne_iff_ne, ne_eq]; rintro rfl; exact h hx) (by simp)).2]
  dsimp only
  rw [takeWhile_self fun x hx => by simp only [bne_iff_ne, ne_eq]; rintro rfl; exact ht hx]

theorem second_mid (head r t : List Char) (h : '_' ∉ head) (hr : '_' ∉ r) : second (head ++ '_' :: (r ++ '_' :: t)) = some r := by
  unfold second
  rw [(takeWhile_all (p := (· != '_')) (fun x hx => by simp only [bne_iff_ne, ne_eq]; rintro rfl; exact h hx) (by simp)).2]
  dsimp only
  rw [(takeWhile_all (p := (· != '_')) (fun x hx => by simp only [bne_iff_ne, ne_eq]; rintro rfl; exact hr hx) (by simp)).1]

theorem header_ok {mx my mz : ℕ} (binary : Bool) (m0 m4 m5 : ℕ) (a : Arr ℕ) (hs : a.shape = [mx, my, mz]) (hf : Fits a.shape)
    (hm : Fits [m0, m4, m5]) (rest : List ℕ) :
    fromFile 4 (if binary then 3 else 6) (headerBytes (if binary then a.shape else m0 :: a.shape ++ [m4, m5]) ++ rest) =
      (if binary then [mx, my, mz] else [m0, mx, my, mz, m4, m5], rest) := by
  rw [hs] at hf ⊢
  cases binary with
  | true => exact (header_read [mx, my, mz] rest hf).1
  | false =>
    have hf6 : Fits [m0, mx, my, mz, m4, m5] := by
      intro n hn
      simp only [List.mem_cons, List.not_mem_nil, or_false] at hn
      have : n ∈ [m0, m4, m5] ∨ n ∈ [mx, my, mz] := by simp; tauto
      rcases this with h | h
      · exact hm n h
      · exact hf n h
    exact (header_read [m0, mx, my, mz, m4, m5] rest hf6).1

/-! ## C217 -/

/-- **C217** (partial).  In both formats of the header the rates of a file are those that were written, cell by cell, whatever follows them; the redshift of a file
with the name `<head>_<redshift>.bin` is that of the name, in any directory.  Missing: the old format and other names (`C217_false`). -/
theorem C217_partial (binary : Bool) (m0 m4 m5 : ℕ) {mx my mz : ℕ} (a : Arr ℕ) (hs : a.shape = [mx, my, mz]) (hf : Fits a.shape) (hm : Fits [m0, m4, m5])
    (hw : ∀ i, a.val i < 2 ^ 32) (rest : List ℕ) : ∃ b, read (fileOf binary m0 m4 m5 a rest) false binary = .ok b ∧ Same b a := by
  obtain ⟨b, hb, hsame⟩ := reshape_flatten a .F
  refine ⟨b, ?_, hsame⟩
  have hh := header_ok binary m0 m4 m5 a hs hf hm (toBytes 4 (a.flatten .F) ++ rest)
  have hmesh : meshOf [mx, my, mz] = .ok [mx, my, mz] := (header_read [mx, my, mz] [] (hs ▸ hf)).2
  have hp : fromFile 4 [mx, my, mz].prod (toBytes 4 (a.flatten .F) ++ rest) = (a.flatten .F, rest) := by
    rw [← hs, ← flatten_length a .F]
    refine fromFile_toBytes 4 _ rest fun x hx => ?_
    obtain ⟨i, -, rfl⟩ := List.mem_map.1 hx
    exact (hw i).trans_eq (by norm_num)
  have hb' : reshape (a.flatten .F) [mx, my, mz] .F = .ok b := hs ▸ hb
  unfold read fileOf
  dsimp only
  rw [hh]
  cases binary with
  | true => simp only [if_true, hmesh, List.length_cons, List.length_nil, ne_eq, not_true, if_false, Bool.false_eq_true, hp, hb']
  | false =>
    simp only [Bool.false_eq_true, if_false, List.drop_succ_cons, List.drop_zero, List.take_succ_cons, List.take_zero, hmesh, List.length_cons,
      List.length_nil, ne_eq, not_true, hp, hb']

/-- The redshift of the name. -/
theorem C217_redshift {K : Type} [Neg K] [One K] (float : List Char → Option K) (dir head r ext : List Char) {z : K} (hz : float r = some z)
    (h1 : '_' ∉ head) (h2 : '/' ∉ head) (h3 : '_' ∉ r) (h4 : '/' ∉ r) (h5 : '_' ∉ ext) (h6 : '/' ∉ ext) (h7 : ext.length = 4) :
    redshift float (dir ++ '/' :: (head ++ '_' :: (r ++ ext))) = z := by
  unfold redshift
  rw [baseName_join _ _ (by simp [h2, h4, h6]), second_last _ _ h1 (by simp [h3, h5])]
  dsimp only
  rw [show (r ++ ext).take ((r ++ ext).length - 4) = r by simp [h7], hz]

example : let a : Arr ℕ := ⟨[2, 1, 2], fun i => i.foldl (fun n k => 10 * n + k) 0⟩
    a.shape = [2, 1, 2] ∧ Fits a.shape ∧ Fits [12, 12, 16] ∧ ('_' ∉ "IonRates3".toList) ∧ ".bin".toList.length = 4 := by
  refine ⟨rfl, ?_, ?_, by decide, rfl⟩ <;> (intro n hn; simp at hn; omega)

/-- The redshift is -1 if the name has no underscore, also if its directory has one, and if what follows the underscore is not a number. -/
theorem C217_unknown {K : Type} [Neg K] [One K] (float : List Char → Option K) (dir name : List Char) (h2 : '/' ∉ name) :
    ('_' ∉ name → redshift float (dir ++ '/' :: name) = -1) ∧
    (∀ head r ext, name = head ++ '_' :: (r ++ ext) → '_' ∉ head → '_' ∉ r → '_' ∉ ext → ext.length = 4 → float r = none →
      redshift float (dir ++ '/' :: name) = -1) := by
  constructor
  · intro h1
    unfold redshift
    rw [baseName_join _ _ h2]
    have : name.dropWhile (· != '_') = [] :=
      dropWhile_nil fun x hx => by simp only [bne_iff_ne, ne_eq]; rintro rfl; exact h1 hx
    simp [second, this]
  · rintro head r ext rfl h1 h3 h5 h7 hz
    unfold redshift
    rw [baseName_join _ _ h2, second_last _ _ h1 (by simp [h3, h5])]
    dsimp only
    rw [show (r ++ ext).take ((r ++ ext).length - 4) = r by simp [h7], hz]

example : redshift (fun _ => some (7 : ℚ)) "run_12.bin/rates.bin".toList = -1 := by decide +kernel

/-- A file that ends before all cells have a value raises. -/
theorem C217_raises (binary : Bool) (m0 m4 m5 : ℕ) {mx my mz : ℕ} (a : Arr ℕ) (hs : a.shape = [mx, my, mz]) (hf : Fits a.shape) (hm : Fits [m0, m4, m5])
    (data : List ℕ) (hd : data.length < 4 * (mx * my * mz)) :
    read (headerBytes (if binary then a.shape else m0 :: a.shape ++ [m4, m5]) ++ data) false binary = .error "ValueError: cannot reshape" := by
  have hh := header_ok binary m0 m4 m5 a hs hf hm data
  have hmesh : meshOf [mx, my, mz] = .ok [mx, my, mz] := (header_read [mx, my, mz] [] (hs ▸ hf)).2
  have hlen : ∀ (c : ℕ) (bs : List ℕ), 4 * (fromFile 4 c bs).1.length ≤ bs.length := by
    intro c
    induction c with
    | zero => intro bs; simp [fromFile]
    | succ c ih =>
      intro bs
      unfold fromFile
      split
      · simp
      · have := ih (bs.drop 4)
        simp only [List.length_cons, List.length_drop] at this ⊢
        omega
  have hp : reshape (fromFile 4 [mx, my, mz].prod data).1 [mx, my, mz] .F = .error "ValueError: cannot reshape" := by
    apply reshape_error
    have := hlen [mx, my, mz].prod data
    have e : [mx, my, mz].prod = mx * my * mz := by simp [Nat.mul_assoc]
    intro h
    omega
  unfold read
  dsimp only
  rw [hh]
  cases binary with
  | true => simp only [if_true, hmesh, List.length_cons, List.length_nil, ne_eq, not_true, if_false, Bool.false_eq_true, hp]
  | false =>
    simp only [Bool.false_eq_true, if_false, List.drop_succ_cons, List.drop_zero, List.take_succ_cons, List.take_zero, hmesh, List.length_cons,
      List.length_nil, ne_eq, not_true, hp]

/-- In the old format the result has one axis, and the marker at the end of the record is its last value. -/
theorem C217_false (m0 m4 m5 m6 : ℕ) {mx my mz : ℕ} (a : Arr ℕ) (hs : a.shape = [mx, my, mz]) (hf : Fits a.shape) (hm : Fits [m0, m4, m5]) (h6 : m6 < 2 ^ 31)
    (hw : ∀ i, a.val i < 2 ^ 32) : ∃ b, read (fileOf false m0 m4 m5 a (toBytes 4 [m6])) true false = .ok b ∧
      b.shape = [mx * my * mz + 1] ∧ b.shape ≠ a.shape ∧ b.val [mx * my * mz] = m6 := by
  have hh := header_ok false m0 m4 m5 a hs hf hm (toBytes 4 (a.flatten .F) ++ toBytes 4 [m6])
  have hmesh : meshOf [mx, my, mz] = .ok [mx, my, mz] := (header_read [mx, my, mz] [] (hs ▸ hf)).2
  have hp : fromFileAll 4 (toBytes 4 (a.flatten .F) ++ toBytes 4 [m6]) = a.flatten .F ++ [m6] := by
    have e : toBytes 4 (a.flatten .F) ++ toBytes 4 [m6] = toBytes 4 (a.flatten .F ++ [m6]) := by simp [toBytes]
    rw [e]
    refine fromFileAll_toBytes 4 (by norm_num) _ fun x hx => ?_
    rcases List.mem_append.1 hx with hx | hx
    · obtain ⟨i, -, rfl⟩ := List.mem_map.1 hx
      exact (hw i).trans_eq (by norm_num)
    · rw [List.mem_singleton.1 hx]
      exact h6.trans (by norm_num)
  have hl : (a.flatten .F ++ [m6]).length = mx * my * mz + 1 := by
    rw [List.length_append, flatten_length, hs]
    simp [Nat.mul_assoc]
  refine ⟨⟨[mx * my * mz + 1], fun i => ((a.flatten .F ++ [m6])[(indices .C [mx * my * mz + 1]).idxOf i]?).getD default⟩, ?_, rfl, ?_, ?_⟩
  · unfold read fileOf
    dsimp only
    have hh' : fromFile 4 6 (headerBytes (m0 :: a.shape ++ [m4, m5]) ++ (toBytes 4 (a.flatten .F) ++ toBytes 4 [m6])) =
      ([m0, mx, my, mz, m4, m5], toBytes 4 (a.flatten .F) ++ toBytes 4 [m6]) := hh
    simp only [Bool.false_eq_true, if_false, hh', List.drop_succ_cons, List.drop_zero, List.take_succ_cons, List.take_zero, hmesh, List.length_cons,
      List.length_nil, ne_eq, not_true, if_true, hp, hl]
    unfold reshape
    rw [if_pos (by simpa using hl)]
  · rw [hs]
    simp
  · have hi : (indices .C [mx * my * mz + 1]).idxOf [mx * my * mz] = mx * my * mz := by
      have hnd := indices_nodup .C [mx * my * mz + 1]
      have hg : (indices .C [mx * my * mz + 1])[mx * my * mz]? = some [mx * my * mz] := by
        have : indices .C [mx * my * mz + 1] = (List.range (mx * my * mz + 1)).map fun i => [i] := by
          simp [indices, indicesC, List.flatMap_def, flatten_single]
        rw [this, List.getElem?_map, List.getElem?_range (by omega)]
        rfl
      obtain ⟨h1, h2⟩ := List.getElem?_eq_some_iff.1 hg
      conv_lhs => rw [← h2]
      exact hnd.idxOf_getElem _ _
    dsimp only
    rw [hi, List.getElem?_append_right (by rw [flatten_length, hs]; simp [Nat.mul_assoc]), flatten_length, hs]
    simp [Nat.mul_assoc]

/-- With a further underscore in the name, the last four characters of the redshift are cut off: `IonRates3_10.110_v2.bin` has the redshift 10, not 10.11 nor -1. -/
theorem C217_false_redshift {K : Type} [Neg K] [One K] (float : List Char → Option K) (dir head r e t : List Char) {z : K} (hz : float r = some z)
    (h1 : '_' ∉ head) (h2 : '/' ∉ head) (h3 : '_' ∉ r) (h4 : '/' ∉ r) (h5 : '_' ∉ e) (h6 : '/' ∉ e) (h7 : e.length = 4) (h8 : '/' ∉ t) :
    redshift float (dir ++ '/' :: (head ++ '_' :: (r ++ e ++ '_' :: t))) = z := by
  unfold redshift
  rw [baseName_join _ _ (by simp [h2, h4, h6, h8]), second_mid _ _ _ h1 (by simp [h3, h5])]
  dsimp only
  rw [show (r ++ e).take ((r ++ e).length - 4) = r by simp [h7], hz]

example : let float : List Char → Option ℚ := fun s => if s = "10".toList then some 10 else none
    redshift float "d/IonRates3_10.110_v2.bin".toList = 10 := by
  decide +kernel

end Verif.IonRates
