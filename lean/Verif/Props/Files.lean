import Verif.Model.Files
import Verif.Lemmas.NdArray
import Mathlib.Algebra.Field.Rat
import Mathlib.Tactic.NormNum
/-!
# Binary files round trip (C14 - C18, C54 - C56)

`Nd.Same a b` is the specification of "the same array": equal shapes and equal values at every index inside
the shape.
-/

namespace Verif.Files
open Nd

variable {V : Type}

/-- Every size of the shape fits into a positive `int32`. -/
def Fits (shape : List ℕ) : Prop := ∀ n ∈ shape, n < 2 ^ 31

/-- The cast produces words of `w` bytes. -/
def Words (cast : V → ℕ) (w : ℕ) : Prop := ∀ v, cast v < 256 ^ w

theorem header_read (mesh rest : List ℕ) (h : Fits mesh) :
    fromFile 4 mesh.length (headerBytes mesh ++ rest) = (mesh, rest) ∧ meshOf mesh = .ok mesh := by
  have e : mesh.map (· % 2 ^ 32) = mesh := by
    conv_rhs => rw [← List.map_id mesh]
    apply List.map_congr_left
    intro n hn
    have := h n hn
    simp only [id]
    omega
  refine ⟨?_, ?_⟩
  · unfold headerBytes
    rw [e]
    exact fromFile_toBytes 4 mesh rest fun x hx => by have := h x hx; omega
  · unfold meshOf
    exact if_pos h

theorem words_flatten (cast : V → ℕ) (w : ℕ) (hc : Words cast w) (l : List V) :
    ∀ x ∈ l.map cast, x < 256 ^ w := by
  intro x hx
  obtain ⟨v, _, rfl⟩ := List.mem_map.1 hx
  exact hc v

theorem wordBytes_cases {bits w : ℕ} (h : wordBytes bits = .ok w) :
    (bits = 32 ∧ w = 4) ∨ (bits = 64 ∧ w = 8) := by
  unfold wordBytes at h
  split at h
  · next c => exact .inl ⟨c, (Except.ok.inj h).symm⟩
  · split at h
    · next c => exact .inr ⟨c, (Except.ok.inj h).symm⟩
    · cases h

/-! ## C14: cbin files -/

/-- C14, proved part: an array of one, two or three dimensions that is saved and read back with the same
bits, order and number of dimensions comes back with the same shape and, bit by bit, the same stored words.
Missing: more than three dimensions, and reading with another number of dimensions, both refuted below. -/
theorem C14_partial (cast : V → ℕ) (data : Arr V) (bits w : ℕ) (o : Order) (hb : wordBytes bits = .ok w)
    (hd : data.shape.length ≤ 3) (hf : Fits data.shape) (hc : Words cast w) :
    ∃ file b, saveCbin cast data bits o = .ok file ∧
      readCbin file bits o data.shape.length false = .ok b ∧ Same b (data.map cast) := by
  refine ⟨headerBytes data.shape ++ toBytes w ((data.flatten o).map cast), ?_⟩
  obtain ⟨h1, h2⟩ := header_read data.shape (toBytes w ((data.flatten o).map cast)) hf
  obtain ⟨b, hb1, hb2⟩ := reshape_flatten (data.map cast) o
  refine ⟨b, ?_, ?_, hb2⟩
  · unfold saveCbin
    rw [hb]; rfl
  · have hw := fromFile_toBytes w ((data.flatten o).map cast) []
      (words_flatten cast w hc _)
    rw [List.append_nil, List.length_map, flatten_length] at hw
    unfold readCbin
    rw [hb]
    simp only [bind, Except.bind, Bool.false_eq_true, if_false, h1]
    rw [List.take_of_length_le hd, h2]
    dsimp only
    rw [hw]
    dsimp only
    rw [← flatten_map]
    exact hb1

/-- A 2 × 1 × 3 array of 32-bit words in Fortran order. -/
example :
    let a : Arr ℕ := ⟨[2, 1, 3], fun i => match i with | [i, _, k] => 70000 * i + k | _ => 0⟩
    a.shape.length ≤ 3 ∧ (saveCbin (· % 256 ^ 4) a 32 .F).map List.length = .ok 36 ∧
    ((saveCbin (· % 256 ^ 4) a 32 .F).bind fun f => (readCbin f 32 .F 3 false).map fun b =>
      (b.shape, b.flatten .C)) = .ok ([2, 1, 3], [0, 1, 2, 70000, 70001, 70002]) := by
  decide +kernel

/-- C14 fails for four dimensions: whatever the array, reading it with `dimensions=4` silently returns an
array with the last axis missing (only the first three sizes are used). -/
theorem C14_false_4d (cast : V → ℕ) (data : Arr V) (bits w n0 n1 n2 n3 : ℕ) (o : Order)
    (hb : wordBytes bits = .ok w) (hs : data.shape = [n0, n1, n2, n3]) (h3 : 0 < n3)
    (hf : Fits data.shape) :
    ∃ file b, saveCbin cast data bits o = .ok file ∧ readCbin file bits o 4 false = .ok b ∧
      b.shape = [n0, n1, n2] := by
  refine ⟨headerBytes data.shape ++ toBytes w ((data.flatten o).map cast), ?_⟩
  obtain ⟨h1, -⟩ := header_read data.shape (toBytes w ((data.flatten o).map cast)) hf
  have hm : meshOf [n0, n1, n2] = .ok [n0, n1, n2] := by
    unfold meshOf
    rw [if_pos]
    intro x hx
    exact hf x (by rw [hs]; simp at hx ⊢; tauto)
  have hlen : (fromFile w [n0, n1, n2].prod (toBytes w ((data.flatten o).map cast))).1.length =
      [n0, n1, n2].prod := by
    apply (fromFile_length w _ _ _).1
    rw [toBytes_length, List.length_map, flatten_length, hs]
    simp only [List.prod_cons, List.prod_nil, mul_one]
    calc n0 * (n1 * n2) * w = w * (n0 * (n1 * n2)) * 1 := by ring
      _ ≤ w * (n0 * (n1 * n2)) * n3 := Nat.mul_le_mul_left _ h3
      _ = w * (n0 * (n1 * (n2 * n3))) := by ring
  have h4 : data.shape.length = 4 := by rw [hs]; rfl
  rw [h4] at h1
  obtain ⟨b, hb1, hb2⟩ := reshape_ok (o := o) hlen
  refine ⟨b, ?_, ?_, hb2⟩
  · unfold saveCbin
    rw [hb]; rfl
  · unfold readCbin
    rw [hb]
    simp only [bind, Except.bind, Bool.false_eq_true, if_false, h1]
    rw [hs]
    simp only [List.take_succ_cons, List.take_zero]
    rw [hm]
    exact hb1

example : wordBytes 32 = .ok 4 ∧ Fits [2, 2, 2, 2] := ⟨rfl, by simp [Fits]⟩

/-- C14 fails for a two-dimensional array read with the default `dimensions=3`: the third size is taken from
the first value; a 2 × 2 array of zeros comes back as an empty array of shape 2 × 2 × 0. -/
theorem C14_false_2d : ∃ (data : Arr ℕ) (file : List ℕ) (b : Arr ℕ), data.shape = [2, 2] ∧
    saveCbin id data 32 .C = .ok file ∧ readCbin file 32 .C 3 false = .ok b ∧ b.shape = [2, 2, 0] :=
  ⟨⟨[2, 2], fun _ => 0⟩, _, _, rfl, rfl, rfl, rfl⟩

/-! ## C15: raw binary files -/

theorem roundCbrt_cube (n : ℕ) : roundCbrt (n ^ 3) = n := by
  have key : ∀ m : ℕ, 8 * n ^ 3 < (2 * m + 1) ^ 3 ↔ n ≤ m := by
    intro m
    have e : 8 * n ^ 3 = (2 * n) ^ 3 := by ring
    rw [e, Nat.pow_lt_pow_iff_left (by norm_num)]
    omega
  unfold roundCbrt
  have hfind : (List.range (n ^ 3 + 1)).find? (fun m => decide (8 * n ^ 3 < (2 * m + 1) ^ 3)) = some n := by
    rw [List.find?_range_eq_some]
    refine ⟨decide_eq_true ((key n).2 le_rfl), ?_, ?_⟩
    · rw [List.mem_range]
      have : n ≤ n ^ 3 := Nat.le_self_pow (by norm_num) n
      omega
    · intro j hj
      have := (key j).not.2 (by omega)
      simpa using this
  rw [hfind]; rfl

/-- C15: a cubic array saved and read back with the same bits and order is the same array. -/
theorem raw_roundtrip (cast : V → ℕ) (data : Arr V) (bits w n : ℕ) (o : Order)
    (hb : wordBytes bits = .ok w) (hs : data.shape = [n, n, n]) (hc : Words cast w) :
    ∃ b, readRaw (saveRaw cast data bits o) bits o = .ok b ∧ Same b (data.map cast) := by
  have hw : (if bits = 32 then 4 else 8) = w ∧ 0 < w := by
    rcases wordBytes_cases hb with ⟨rfl, rfl⟩ | ⟨rfl, rfl⟩ <;> decide
  have hdata : fromFileAll w (saveRaw cast data bits o) = (data.flatten o).map cast := by
    unfold saveRaw
    rw [hw.1]
    exact fromFileAll_toBytes w hw.2 _ (words_flatten cast w hc _)
  obtain ⟨b, hb1, hb2⟩ := reshape_flatten (data.map cast) o
  refine ⟨b, ?_, hb2⟩
  unfold readRaw
  rw [hb]
  simp only [bind, Except.bind]
  rw [hdata, List.length_map, flatten_length, hs]
  have : [n, n, n].prod = n ^ 3 := by simp; ring
  rw [this, roundCbrt_cube, ← flatten_map]
  rw [← hs]
  exact hb1

/-- C15: a file whose number of words is not a cube raises. -/
theorem raw_not_cube (file : List ℕ) (bits w : ℕ) (o : Order) (hb : wordBytes bits = .ok w)
    (h : ∀ n, file.length / w ≠ n ^ 3) : ∃ e, readRaw file bits o = .error e := by
  refine ⟨"ValueError: cannot reshape", ?_⟩
  unfold readRaw
  rw [hb]
  simp only [bind, Except.bind]
  apply reshape_error
  rw [fromFileAll_length]
  generalize roundCbrt (file.length / w) = n
  have := h n
  simp only [List.prod_cons, List.prod_nil, mul_one]
  intro h'
  apply this
  rw [h']; ring

example : (readRaw (List.replicate 64 7) 64 .C).map (fun b => b.shape) = .ok [2, 2, 2] ∧
    (readRaw (List.replicate 72 7) 64 .C).isOk = false := by decide +kernel

/-! ## C16: ionised fraction files -/

/-- C16: with the same flags, a three-dimensional ionised fraction comes back with the same mesh, and with
the word that `1.0 - x`, the cast, and the reader's `1.0 - x` produce for the neutral option.  Without it the
stored words come back unchanged. -/
theorem xfrac_roundtrip (cast : V → ℕ) (neg : V → V) (negW : ℕ → ℕ) (xi : Arr V) (mx my mz : ℕ)
    (oldFormat neutral binary : Bool) (hs : xi.shape = [mx, my, mz]) (hf : Fits xi.shape)
    (hc : Words cast (if oldFormat then 4 else 8)) :
    ∃ file b, writeXfrac cast neg xi oldFormat neutral binary = .ok file ∧
      readXfrac negW file oldFormat neutral binary = .ok b ∧
      Same b (xi.map fun x => if neutral then negW (cast (neg x)) else cast x) := by
  set w := if oldFormat then 4 else 8 with hwdef
  have hw0 : 0 < w := by rw [hwdef]; split <;> norm_num
  set data := if neutral then xi.map neg else xi with hdata
  have hshape : data.shape = [mx, my, mz] := by rw [hdata]; split <;> exact hs
  set payload := toBytes w ((data.flatten .F).map cast) with hpay
  have hpay' : toBytes w ((data.map cast).T.flatten .C) = payload := by
    rw [T_flatten, flatten_map]
  obtain ⟨c, hc1, hc2⟩ := reshape_flatten (data.map cast) .F
  have hcs : (data.map cast).shape = [mx, my, mz] := hshape
  rw [hcs, flatten_map] at hc1
  have hall : fromFileAll w payload = (data.flatten .F).map cast :=
    fromFileAll_toBytes w hw0 _ (words_flatten cast w hc _)
  have hf3 : Fits [mx, my, mz] := hs ▸ hf
  have hf6 : Fits [0, mx, my, mz, 0, 0] := by
    intro n hn
    simp only [List.mem_cons, List.not_mem_nil, or_false] at hn
    have : n = 0 ∨ n ∈ [mx, my, mz] := by simp; tauto
    rcases this with rfl | h
    · norm_num
    · exact hf3 n h
  have e3 := header_read [mx, my, mz] payload hf3
  have e6 := header_read [0, mx, my, mz, 0, 0] payload hf6
  refine ⟨(if binary then headerBytes [mx, my, mz] else headerBytes [0, mx, my, mz, 0, 0]) ++ payload,
    if neutral then c.map negW else c, ?_, ?_, ?_⟩
  · unfold writeXfrac
    rw [hs]
    dsimp only
    rw [← hdata, ← hwdef, hpay']
  · unfold readXfrac
    cases binary with
    | true =>
      have e3' : fromFile 4 3 (headerBytes [mx, my, mz] ++ payload) = ([mx, my, mz], payload) := e3.1
      simp only [if_true, e3', bind, Except.bind, e3.2, List.length_cons, List.length_nil, ← hwdef, hall,
        hc1]
    | false =>
      have e6' : fromFile 4 6 (headerBytes [0, mx, my, mz, 0, 0] ++ payload) =
        ([0, mx, my, mz, 0, 0], payload) := e6.1
      simp only [Bool.false_eq_true, if_false, e6', bind, Except.bind, List.drop_succ_cons, List.drop_zero,
        List.take_succ_cons, List.take_zero, e3.2, List.length_cons, List.length_nil, ← hwdef, hall,
        hc1, if_true]
  · cases neutral with
    | true =>
      simp only [if_true] at hdata ⊢
      refine ⟨?_, fun i hi => ?_⟩
      · exact hc2.1.trans rfl
      · have := hc2.2 i hi
        simp only [Arr.map, hdata] at this ⊢
        rw [this]
    | false =>
      simp only [Bool.false_eq_true, if_false] at hdata ⊢
      exact hc2

/-- A 1 × 2 × 2 fraction in the unformatted 64-bit format. -/
example :
    let a : Arr ℕ := ⟨[1, 2, 2], fun i => match i with | [_, j, k] => 2 ^ 40 * j + k | _ => 0⟩
    ((writeXfrac (· % 256 ^ 8) id a false false false).bind fun f =>
      (readXfrac id f false false false).map fun b => (b.shape, b.flatten .C)) =
      .ok ([1, 2, 2], [0, 1, 2 ^ 40, 2 ^ 40 + 1]) := by
  decide +kernel

/-- C16, mismatched precision: a non-empty file written in one precision and read in the other raises, it
never returns wrong values. -/
theorem xfrac_precision_mismatch (cast : V → ℕ) (neg : V → V) (negW : ℕ → ℕ) (xi : Arr V) (mx my mz : ℕ)
    (oldW oldR nW nR binary : Bool) (hs : xi.shape = [mx, my, mz]) (hf : Fits xi.shape)
    (hne : 0 < mx * my * mz) (hmis : oldW ≠ oldR) :
    ∃ file, writeXfrac cast neg xi oldW nW binary = .ok file ∧
      ∃ e, readXfrac negW file oldR nR binary = .error e := by
  set data := if nW then xi.map neg else xi with hdata
  have hshape : data.shape = [mx, my, mz] := by rw [hdata]; split <;> exact hs
  set payload := toBytes (if oldW then 4 else 8) ((data.map cast).T.flatten .C) with hpay
  have hlen : payload.length = (if oldW then 4 else 8) * (mx * my * mz) := by
    rw [hpay, toBytes_length, T_flatten, flatten_length]
    have : (data.map cast).shape = [mx, my, mz] := hshape
    rw [this]
    simp only [List.prod_cons, List.prod_nil, mul_one, mul_assoc]
  have hf3 : Fits [mx, my, mz] := hs ▸ hf
  have hf6 : Fits [0, mx, my, mz, 0, 0] := by
    intro n hn
    simp only [List.mem_cons, List.not_mem_nil, or_false] at hn
    have : n = 0 ∨ n ∈ [mx, my, mz] := by simp; tauto
    rcases this with rfl | h
    · norm_num
    · exact hf3 n h
  have e3 := header_read [mx, my, mz] payload hf3
  have e6 := header_read [0, mx, my, mz, 0, 0] payload hf6
  have hbad : reshape (fromFileAll (if oldR then 4 else 8) payload) [mx, my, mz] .F =
      .error "ValueError: cannot reshape" := by
    apply reshape_error
    rw [fromFileAll_length, hlen]
    have hp : [mx, my, mz].prod = mx * my * mz := by
      simp only [List.prod_cons, List.prod_nil, mul_one, mul_assoc]
    rw [hp]
    clear hlen hpay hp
    generalize mx * my * mz = N at hne ⊢
    cases oldW <;> cases oldR <;> simp at hmis ⊢ <;> omega
  refine ⟨(if binary then headerBytes [mx, my, mz] else headerBytes [0, mx, my, mz, 0, 0]) ++ payload,
    ?_, "ValueError: cannot reshape", ?_⟩
  · unfold writeXfrac
    rw [hs]
  · unfold readXfrac
    cases binary with
    | true =>
      have e3' : fromFile 4 3 (headerBytes [mx, my, mz] ++ payload) = ([mx, my, mz], payload) := e3.1
      simp only [if_true, e3', bind, Except.bind, e3.2, List.length_cons, List.length_nil, hbad]
    | false =>
      have e6' : fromFile 4 6 (headerBytes [0, mx, my, mz, 0, 0] ++ payload) =
        ([0, mx, my, mz, 0, 0], payload) := e6.1
      simp only [Bool.false_eq_true, if_false, e6', bind, Except.bind, List.drop_succ_cons, List.drop_zero,
        List.take_succ_cons, List.take_zero, e3.2, List.length_cons, List.length_nil, hbad, if_true]

/-- C16, mismatched header, one direction: a file with the six-integer header read as `binary_format`
always raises. -/
theorem xfrac_header_mismatch (cast : V → ℕ) (neg : V → V) (negW : ℕ → ℕ) (xi : Arr V) (mx my mz : ℕ)
    (oldW nW nR : Bool) (hs : xi.shape = [mx, my, mz]) (hf : Fits xi.shape) :
    ∃ file, writeXfrac cast neg xi oldW nW false = .ok file ∧
      ∃ e, readXfrac negW file oldW nR true = .error e := by
  set data := if nW then xi.map neg else xi with hdata
  have hshape : data.shape = [mx, my, mz] := by rw [hdata]; split <;> exact hs
  set payload := toBytes (if oldW then 4 else 8) ((data.map cast).T.flatten .C) with hpay
  have hlen : payload.length = (if oldW then 4 else 8) * (mx * my * mz) := by
    rw [hpay, toBytes_length, T_flatten, flatten_length]
    have : (data.map cast).shape = [mx, my, mz] := hshape
    rw [this]
    simp only [List.prod_cons, List.prod_nil, mul_one, mul_assoc]
  have hf3 : Fits [0, mx, my] := by
    intro n hn
    have : n = 0 ∨ n ∈ [mx, my, mz] := by simp at hn ⊢; tauto
    rcases this with rfl | h
    · norm_num
    · exact hf n (hs ▸ h)
  have hsplit : headerBytes [0, mx, my, mz, 0, 0] ++ payload =
      headerBytes [0, mx, my] ++ (headerBytes [mz, 0, 0] ++ payload) := by
    rw [← List.append_assoc]; rfl
  have e3 := header_read [0, mx, my] (headerBytes [mz, 0, 0] ++ payload) hf3
  have e3' : fromFile 4 3 (headerBytes [0, mx, my, mz, 0, 0] ++ payload) =
      ([0, mx, my], headerBytes [mz, 0, 0] ++ payload) := by rw [hsplit]; exact e3.1
  have h12 : (headerBytes [mz, 0, 0]).length = 12 := by
    unfold headerBytes; rw [toBytes_length]; rfl
  have hbad : reshape (fromFileAll (if oldW then 4 else 8) (headerBytes [mz, 0, 0] ++ payload))
      [0, mx, my] .F = .error "ValueError: cannot reshape" := by
    apply reshape_error
    rw [fromFileAll_length, List.length_append, hlen, h12]
    simp only [List.prod_cons, List.prod_nil, mul_one, zero_mul]
    generalize mx * my * mz = N
    cases oldW <;> simp <;> omega
  refine ⟨headerBytes [0, mx, my, mz, 0, 0] ++ payload, ?_, "ValueError: cannot reshape", ?_⟩
  · unfold writeXfrac
    rw [hs]; rfl
  · unfold readXfrac
    simp only [if_true, e3', bind, Except.bind, e3.2, List.length_cons, List.length_nil, hbad]

/-- C16, mismatched header, other direction: a `binary_format` file read with the default header can
silently return an array of another shape: the 3 × 1 × 1 array with words 1, 0, 5 comes back as a
1 × 1 × 1 array. -/
theorem C16_false_header : ∃ (xi : Arr ℕ) (file : List ℕ) (b : Arr ℕ), xi.shape = [3, 1, 1] ∧
    writeXfrac (· % 256 ^ 8) id xi false false true = .ok file ∧
    readXfrac id file false false false = .ok b ∧ b.shape = [1, 1, 1] :=
  ⟨⟨[3, 1, 1], fun i => match i with | [0, _, _] => 1 | [2, _, _] => 5 | _ => 0⟩, _, _, rfl, rfl, rfl, rfl⟩

/-! ## C17: velocity files -/

/-- C17: a velocity array of shape `(3, mx, my, mz)` comes back with the same shape and words. -/
theorem vel_roundtrip (cast : V → ℕ) (v : Arr V) (mx my mz : ℕ) (hs : v.shape = [3, mx, my, mz])
    (hf : Fits [mx, my, mz]) (hc : Words cast 4) :
    ∃ file b, writeVel cast v = .ok file ∧ readVel file = .ok b ∧ Same b (v.map cast) := by
  obtain ⟨b, hb1, hb2⟩ := reshape_flatten (v.map cast) .F
  have e3 := header_read [mx, my, mz] (toBytes 4 ((v.map cast).flatten .F)) hf
  have e3' : fromFile 4 3 (headerBytes [mx, my, mz] ++ toBytes 4 ((v.map cast).flatten .F)) =
      ([mx, my, mz], toBytes 4 ((v.map cast).flatten .F)) := e3.1
  have hall : fromFileAll 4 (toBytes 4 ((v.map cast).flatten .F)) = (v.map cast).flatten .F :=
    fromFileAll_toBytes 4 (by norm_num) _ (by rw [flatten_map]; exact words_flatten cast 4 hc _)
  refine ⟨headerBytes [mx, my, mz] ++ toBytes 4 ((v.map cast).flatten .F), b, ?_, ?_, hb2⟩
  · simp [writeVel, hs]
  · unfold readVel
    simp only [e3', bind, Except.bind, e3.2, List.length_cons, List.length_nil, if_true, hall]
    rw [← hs]
    exact hb1

example :
    let a : Arr ℕ := ⟨[3, 1, 2, 1], fun i => match i with | [c, _, j, _] => 10 * c + j | _ => 0⟩
    ((writeVel (· % 256 ^ 4) a).bind fun f => (readVel f).map fun b => (b.shape, b.flatten .C)) =
      .ok ([3, 1, 2, 1], [0, 1, 10, 11, 20, 21]) := by
  decide +kernel

/-! ## C18: density and clumping files -/

/-- C18: raw densities (and clumping factors) come back with the same mesh and words in the new format. -/
theorem density_roundtrip (cast : V → ℕ) (raw : Arr V) (mx my mz : ℕ) (hs : raw.shape = [mx, my, mz])
    (hf : Fits raw.shape) (hc : Words cast 4) :
    ∃ b, readDensity (densityBytes cast raw false) false = .ok b ∧ Same b (raw.map cast) := by
  obtain ⟨b, hb1, hb2⟩ := reshape_flatten (raw.map cast) .F
  have hf3 : Fits [mx, my, mz] := hs ▸ hf
  have e3 := header_read [mx, my, mz] (toBytes 4 ((raw.map cast).T.flatten .C)) hf3
  have e3' : fromFile 4 3 (headerBytes [mx, my, mz] ++ toBytes 4 ((raw.map cast).T.flatten .C)) =
      ([mx, my, mz], toBytes 4 ((raw.map cast).T.flatten .C)) := e3.1
  have hall : fromFileAll 4 (toBytes 4 ((raw.map cast).T.flatten .C)) = (raw.map cast).flatten .F := by
    rw [T_flatten]
    exact fromFileAll_toBytes 4 (by norm_num) _ (by rw [flatten_map]; exact words_flatten cast 4 hc _)
  refine ⟨b, ?_, hb2⟩
  unfold readDensity densityBytes
  simp only [Bool.false_eq_true, if_false, hs, e3', bind, Except.bind, e3.2, List.length_cons,
    List.length_nil, if_true, hall]
  rw [← hs]
  exact hb1

/-- C18, old format: the file has no header; only 203³ meshes can be read back, others raise. -/
theorem density_roundtrip_old (cast : V → ℕ) (raw : Arr V) (hc : Words cast 4) :
    (raw.shape = [203, 203, 203] →
      ∃ b, readDensity (densityBytes cast raw true) true = .ok b ∧ Same b (raw.map cast)) ∧
    (raw.shape.prod ≠ 203 ^ 3 → ∃ e, readDensity (densityBytes cast raw true) true = .error e) := by
  have hall : fromFileAll 4 (toBytes 4 ((raw.map cast).T.flatten .C)) = (raw.map cast).flatten .F := by
    rw [T_flatten]
    exact fromFileAll_toBytes 4 (by norm_num) _ (by rw [flatten_map]; exact words_flatten cast 4 hc _)
  unfold readDensity densityBytes
  simp only [if_true, List.nil_append, hall]
  constructor
  · intro hs
    obtain ⟨b, hb1, hb2⟩ := reshape_flatten (raw.map cast) .F
    refine ⟨b, ?_, hb2⟩
    have : (raw.map cast).shape = [203, 203, 203] := hs
    rw [this] at hb1
    exact hb1
  · intro hs
    refine ⟨_, reshape_error ?_⟩
    rw [flatten_length]
    exact hs

variable {K : Type} [Field K]

/-- C18: writing raw densities succeeds from every state of the object, writes the bytes that read back
(`density_roundtrip`), and sets the cgs density to the raw one times a factor that depends only on the mesh
and the module constants. -/
theorem density_write_raw (cast : K → ℕ) (rhoCrit omegaB nboxFine : K) (d : Density K K) (r : Arr K)
    (mx my mz : ℕ) (old : Bool) (hs : r.shape = [mx, my, mz]) :
    (writeDensity cast rhoCrit omegaB nboxFine d (some r) none old).2 = .ok (densityBytes cast r old) ∧
    ∃ c, (writeDensity cast rhoCrit omegaB nboxFine d (some r) none old).1 =
        ⟨some r, some c, some [mx, my, mz]⟩ ∧ c.shape = r.shape ∧
      ∀ i, c.val i = r.val i * (rhoCrit * ((mx : K) / nboxFine) ^ 3 * omegaB) := by
  unfold writeDensity
  simp only [hs]
  exact ⟨trivial, _, rfl, hs, fun i => rfl⟩

/-- C18 fails when writing from cgs densities: every such call raises (the attribute `conv_factor` does
not exist), nothing is written, and the object already holds the new cgs density and mesh next to the old
raw density. -/
theorem C18_false (cast : K → ℕ) (rhoCrit omegaB nboxFine : K) (d : Density K K) (c : Arr K)
    (mx my mz : ℕ) (old : Bool) (hs : c.shape = [mx, my, mz]) :
    (∃ e, (writeDensity cast rhoCrit omegaB nboxFine d none (some c) old).2 = .error e) ∧
    (writeDensity cast rhoCrit omegaB nboxFine d none (some c) old).1 =
      ⟨d.raw, some c, some [mx, my, mz]⟩ := by
  unfold writeDensity
  simp only [hs]
  exact ⟨⟨_, rfl⟩, trivial⟩

example : (⟨[2, 2, 1], fun _ => 3⟩ : Arr ℚ).shape = [2, 2, 1] ∧
    convFactor (5 : ℚ) (1 / 10) 4 2 = 1 / 16 := by
  refine ⟨rfl, ?_⟩
  norm_num [convFactor]

/-! ## C56: mesh size of a file -/

/-- C56, proved part: for ionised fraction files (default header), density and cbin files `get_mesh_size`
returns the mesh written.  Missing: temperature files (`C56_false`). -/
theorem C56_partial (cast : V → ℕ) (neg : V → V) (a : Arr V) (mx my mz : ℕ) (hs : a.shape = [mx, my, mz])
    (hf : Fits a.shape) (old neutral : Bool) (bits : ℕ) (o : Order) :
    (∀ file, writeXfrac cast neg a old neutral false = .ok file → getMeshSize .xfrac file = .ok [mx, my, mz]) ∧
    getMeshSize .density (densityBytes cast a false) = .ok [mx, my, mz] ∧
    (∀ file, saveCbin cast a bits o = .ok file → getMeshSize .cbin file = .ok [mx, my, mz]) := by
  have hf3 : Fits [mx, my, mz] := hs ▸ hf
  have hf6 : Fits [0, mx, my, mz, 0, 0] := by
    intro n hn
    simp only [List.mem_cons, List.not_mem_nil, or_false] at hn
    have : n = 0 ∨ n ∈ [mx, my, mz] := by simp; tauto
    rcases this with rfl | h
    · norm_num
    · exact hf3 n h
  refine ⟨?_, ?_, ?_⟩
  · intro file h
    unfold writeXfrac at h
    rw [hs] at h
    simp only [Bool.false_eq_true, if_false, Except.ok.injEq] at h
    subst h
    unfold getMeshSize
    have e := (header_read [0, mx, my, mz, 0, 0] (toBytes (if old then 4 else 8)
      ((((if neutral then a.map neg else a)).map cast).T.flatten .C)) hf6).1
    simp only [List.length_cons, List.length_nil] at e
    dsimp only
    rw [e]; rfl
  · unfold getMeshSize densityBytes
    have e := (header_read [mx, my, mz] (toBytes 4 ((a.map cast).T.flatten .C)) hf3).1
    simp only [List.length_cons, List.length_nil] at e
    simp only [Bool.false_eq_true, if_false, hs]
    rw [e]
  · intro file h
    unfold saveCbin at h
    cases hw : wordBytes bits with
    | error e => rw [hw] at h; cases h
    | ok w =>
      rw [hw] at h
      simp only [bind, Except.bind, Except.ok.injEq] at h
      subst h
      have e := (header_read [mx, my, mz] (toBytes w ((a.flatten o).map cast)) hf3).1
      simp only [List.length_cons, List.length_nil] at e
      unfold getMeshSize
      dsimp only
      rw [hs, e]

example : getMeshSize .density (densityBytes (· % 256 ^ 4) ⟨[2, 3, 1], fun _ => 9⟩ false) =
    .ok [2, 3, 1] := by decide +kernel

/-- C56 fails for temperature files: whatever the mesh, only two of the three numbers come back, while the
reader of the same file finds all three. -/
theorem C56_false (m0 mx my mz m4 m5 : ℕ) (payload : List ℕ) (hf : Fits [m0, mx, my, mz, m4, m5])
    (hp : 4 * (mx * my * mz) ≤ payload.length) :
    getMeshSize .temper (headerBytes [m0, mx, my, mz, m4, m5] ++ payload) = .ok [mx, my] ∧
    ∃ b, readTemper (headerBytes [m0, mx, my, mz, m4, m5] ++ payload) false = .ok b ∧
      b.shape = [mx, my, mz] := by
  have hfm : Fits [m0, mx, my] := fun n hn => hf n (by simp at hn ⊢; tauto)
  have hfx : Fits [mx, my, mz] := fun n hn => hf n (by simp at hn ⊢; tauto)
  constructor
  · have hsplit : headerBytes [m0, mx, my, mz, m4, m5] ++ payload =
        headerBytes [m0, mx, my] ++ (headerBytes [mz, m4, m5] ++ payload) := by
      rw [← List.append_assoc]; rfl
    have e := (header_read [m0, mx, my] (headerBytes [mz, m4, m5] ++ payload) hfm).1
    simp only [List.length_cons, List.length_nil] at e
    unfold getMeshSize
    dsimp only
    rw [hsplit, e]; rfl
  · have e := header_read [m0, mx, my, mz, m4, m5] payload hf
    have e1 := e.1
    simp only [List.length_cons, List.length_nil] at e1
    have e2 := (header_read [mx, my, mz] payload hfx).2
    have hlen : (fromFile 4 [mx, my, mz].prod payload).1.length = [mx, my, mz].prod := by
      apply (fromFile_length 4 _ _ _).1
      simp only [List.prod_cons, List.prod_nil, mul_one]
      calc mx * (my * mz) * 4 = 4 * (mx * my * mz) := by ring
        _ ≤ _ := hp
    obtain ⟨b, hb1, hb2⟩ := reshape_ok (o := .F) hlen
    refine ⟨b, ?_, hb2⟩
    unfold readTemper
    simp only [e1, bind, Except.bind, List.drop_succ_cons, List.drop_zero, List.take_succ_cons,
      List.take_zero, e2, List.length_cons, List.length_nil, if_true, Bool.false_eq_true, if_false]
    exact hb1

example : getMeshSize .temper (headerBytes [12, 2, 3, 1, 12, 24] ++ List.replicate 24 0) =
    .ok [2, 3] := by decide +kernel

/-! ## C55: objects and file names give the same data -/

/-- C55 fails for file names: `raw_density=True` is dropped on the way, so
`make_lightcone(..., raw_density=True)` on density files returns cgs densities. -/
theorem C55_false : ∃ raw, getDataAndType (.name .density) raw ≠ getDataAndType .densityObj raw :=
  ⟨true, by simp [getDataAndType]⟩

/-- C55, proved part: a `DensityFile` object gives the raw field exactly when it is asked for; the name of
a file gives what the object read from it gives, for ionised fractions, temperatures, and densities with
`raw_density=False`; arrays are handed through; velocity and unknown files raise.
Missing: raw densities by file name (`C55_false`). -/
theorem C55_partial (raw : Bool) :
    getDataAndType .densityObj raw = .ok (if raw then .rawDensity else .cgsDensity) ∧
    (getDataAndType (.name .density) raw = getDataAndType .densityObj raw ↔ raw = false) ∧
    getDataAndType (.name .xfrac) raw = getDataAndType .xfracObj raw ∧
    getDataAndType (.name .temper) raw = getDataAndType .temperObj raw ∧
    getDataAndType .array raw = .ok .theArray ∧
    (getDataAndType (.name .velocity) raw).isOk = false ∧
    (getDataAndType (.name .unknown) raw).isOk = false := by
  cases raw <;> simp [getDataAndType, Except.isOk, Except.toBool]

end Verif.Files
