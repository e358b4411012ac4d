import Verif.Model.PowerSpectrum
import Mathlib.Data.Multiset.Sort
/-!
# Model of `power_spect_fast.py`

Cubes are arrays of `Model/Convolve` with three axes; the spectrum is that of `Model/PowerSpectrum`, whose formula is the same.  Floating
point is replaced by the real numbers, minus infinity (the logarithm of zero) by `⊥`, not-a-number by `none`.
-/

namespace Verif.FastSpectrum
open Verif.Convolve Verif.PowerSpectrum

/-- The exceptions that occur. -/
inductive Raise
  | value | type | index | key | unbound | attribute
  deriving DecidableEq

/-- The index of a mode. -/
abbrev Ix := Fin 3 → ℤ

/-- The forms of the argument `box_dims`; other lists are not modelled. -/
inductive Box
  | number (x : ℝ)
  | three (L : Fin 3 → ℝ)

/-- `box_dims` after the first line of each function (`power_spect_fast.py` lines 31, 66 and 87). -/
def Box.sides : Box → Fin 3 → ℝ
  | .number x => fun _ => x
  | .three L => L

/-- `power_spect_nd` (`power_spect_fast.py` lines 11-44) of a cube: the same formula as `power_spectrum_nd`. -/
noncomputable def power (L : Fin 3 → ℝ) (a : Arr (Fin 3) ℝ) : Ix → ℝ := (powerNd [L 0, L 1, L 2] a).val

/-- Component `j` of the wave vector in `_get_k` (`power_spect_fast.py` lines 101-107). -/
noncomputable def kComp (s : Fin 3 → ℕ) (L : Fin 3 → ℝ) (j : Fin 3) (i : Ix) : ℝ :=
  2 * Real.pi * ((i j : ℝ) - ((s j : ℝ) - 1) / 2) / L j

/-- `k` of `_get_k` (`power_spect_fast.py` line 109). -/
noncomputable def kMag (s : Fin 3 → ℕ) (L : Fin 3 → ℝ) (i : Ix) : ℝ :=
  Real.sqrt (kComp s L 0 i ^ 2 + kComp s L 1 i ^ 2 + kComp s L 2 i ^ 2)

/-- The argument `binning`; `other` stands for all other strings. -/
inductive Scale
  | log | linear | auto | other
  deriving DecidableEq

open Classical in
/-- `np.log10(x)` for `x` that is not negative. -/
noncomputable def log10 (x : ℝ) : WithBot ℝ := if x = 0 then ⊥ else (Real.logb 10 x : ℝ)

open Classical in
/-- `np.sort(x.flatten())`. -/
noncomputable def sorted (s : Fin 3 → ℕ) (x : Ix → ℝ) : List ℝ := ((box s).val.map x).sort (· ≤ ·)

/-- `x.min()` of an array that is not empty. -/
noncomputable def least (s : Fin 3 → ℕ) (x : Ix → ℝ) : ℝ := (sorted s x).headD 0

/-- `x.max()` of an array that is not empty. -/
noncomputable def most (s : Fin 3 → ℕ) (x : Ix → ℝ) : ℝ := (sorted s x).getLastD 0

/-- `|x - a| <= w/2`, where `w` is the difference of `hi` and `lo`. -/
def near (a : ℝ) (lo : WithBot ℝ) (hi : ℝ) (x : WithBot ℝ) : Prop :=
  match lo, x with
  | ⊥, _ => True
  | (_ : ℝ), ⊥ => False
  | (l : ℝ), (x : ℝ) => |x - a| ≤ (hi - l) / 2

/-- `power[arg].sum()/arg.size`. -/
noncomputable def mean (S : Finset Ix) (v : Ix → ℝ) : Option ℝ := if S.card = 0 then none else some ((∑ i ∈ S, v i) / S.card)

/-- What `power_spect_1d` returns. -/
structure One where
  ps : List (Option ℝ)
  ks : List ℝ
  modes : List ℕ

/-- The lower end of `kkk` for bin `i` (`power_spect_fast.py` line 127). -/
noncomputable def lower (ks : ℕ → ℝ) (lo : WithBot ℝ) (i : ℕ) : WithBot ℝ := if i = 0 then lo else ((ks (i - 1) + ks i) / 2 : ℝ)

/-- The upper end of `kkk` for bin `i` (`power_spect_fast.py` line 127). -/
noncomputable def upper (n : ℕ) (ks : ℕ → ℝ) (hi : ℝ) (i : ℕ) : ℝ := if i + 1 < n then (ks i + ks (i + 1)) / 2 else hi

open Classical in
/-- The modes of bin `i` (`power_spect_fast.py` lines 127-133). -/
noncomputable def members (s : Fin 3 → ℕ) (n : ℕ) (ks : ℕ → ℝ) (lo : WithBot ℝ) (hi : ℝ) (k : Ix → WithBot ℝ) (i : ℕ) : Finset Ix :=
  (box s).filter fun x => near (ks i) (lower ks lo i) (upper n ks hi i) (k x)

/-- The loop over the bins (`power_spect_fast.py` lines 127-138); `back` turns the centres into wave numbers. -/
noncomputable def collect (s : Fin 3 → ℕ) (n : ℕ) (ks : ℕ → ℝ) (lo : WithBot ℝ) (hi : ℝ) (k : Ix → WithBot ℝ) (v : Ix → ℝ) (back : ℝ → ℝ) : One where
  ps := (List.range n).map fun (i : ℕ) => mean (members s n ks lo hi k i) v
  ks := (List.range n).map fun (i : ℕ) => back (ks i)
  modes := (List.range n).map fun (i : ℕ) => (members s n ks lo hi k i).card

/-- `(ks[:-1]+ks[1:])/2.` of `np.linspace(a, b, n + 1)`. -/
noncomputable def centre (a b : ℝ) (n i : ℕ) : ℝ := ((linspace a b n).getD i 0 + (linspace a b n).getD (i + 1) 0) / 2

/-- The largest side. -/
noncomputable def longest (L : Fin 3 → ℝ) : ℝ := max (L 0) (max (L 1) (L 2))

/-- `power_spect_1d` (`power_spect_fast.py` lines 113-141).  In the logarithmic case the limits and the largest `k` have to be positive. -/
noncomputable def spect1d (a : Arr (Fin 3) ℝ) (B : Box) (n : ℕ) (binning : Scale) (kmin kmax : Option ℝ) : Except Raise One :=
  let s := a.shape
  let L := B.sides
  let k := kMag s L
  let v := power L a
  let lo := kmin.getD (2 * Real.pi / longest L)
  let hi := kmax.getD (most s k)
  if ∃ j, s j = 0 then .error .value
  else match binning with
  | .log => .ok (collect s n (centre (Real.logb 10 lo) (Real.logb 10 hi) n) (log10 (least s k)) (Real.logb 10 (most s k)) (fun x => log10 (k x)) v
      fun x => (10 : ℝ) ^ x)
  | .linear => .ok (collect s n (centre lo hi n) (least s k : ℝ) (most s k) (fun x => (k x : ℝ)) v id)
  | .auto => .ok (collect s n (fun i => (sorted s k).getD ((box s).card * (2 * i + 1) / (2 * n)) 0) (least s k : ℝ) (most s k) (fun x => (k x : ℝ)) v id)
  | .other => .error .unbound

/-- `dimensional_power` (`power_spect_fast.py` lines 234-237). -/
noncomputable def dimensional (a : Arr (Fin 3) ℝ) (B : Box) (n : ℕ) (binning : Scale) : Except Raise One :=
  match spect1d a B n binning none none with
  | .error e => .error e
  | .ok r => .ok { r with ps := List.zipWith (fun p k => p.map fun p => p * k ^ 3 / 2 / Real.pi ^ 2) r.ps r.ks }

/-! ## Two dimensions -/

/-- The two axes that are not `los` (`np.setdiff1d`). -/
def across : Fin 3 → Fin 3 × Fin 3
  | 0 => (1, 2)
  | 1 => (0, 2)
  | 2 => (0, 1)

/-- `kp` (`power_spect_fast.py` line 191). -/
noncomputable def kPer (s : Fin 3 → ℕ) (L : Fin 3 → ℝ) (los : Fin 3) (i : Ix) : ℝ :=
  Real.sqrt (kComp s L (across los).1 i ^ 2 + kComp s L (across los).2 i ^ 2)

/-- `kz` (`power_spect_fast.py` lines 190 and 192). -/
noncomputable def kPar (s : Fin 3 → ℕ) (L : Fin 3 → ℝ) (los : Fin 3) (i : Ix) : ℝ := |kComp s L los i|

open Classical in
/-- `np.abs(x[x!=0]).min()`: of an empty array an error. -/
noncomputable def leastNonzero (s : Fin 3 → ℕ) (x : Ix → ℝ) : Except Raise ℝ :=
  match ((((box s).filter fun i => x i ≠ 0).image fun i => |x i|)).min with
  | some m => .ok m
  | none => .error .value

/-- The forms of the argument `kbins`: one integer is used twice. -/
inductive Bins
  | counts (n m : ℕ)
  | edges (per par : List ℝ)

/-- What `power_spect_2d` and `power_spect_mu` return. -/
structure Two where
  ps : List (List (Option ℝ))
  first : List ℝ
  second : List ℝ
  modes : List (List ℕ)

open Classical in
/-- The modes of a bin (`power_spect_fast.py` line 216). -/
noncomputable def both (s : Fin 3 → ℕ) (x y : Ix → WithBot ℝ) (a wa b wb : ℝ) : Finset Ix :=
  (box s).filter fun i => near a (0 : ℝ) wa (x i) ∧ near b (0 : ℝ) wb (y i)

/-- The loops (`power_spect_fast.py` lines 205-224) over the centres between the edges `e` and `f`; the result has `n` and `m` entries. -/
noncomputable def grid (s : Fin 3 → ℕ) (n m : ℕ) (e f : List ℝ) (x y : Ix → WithBot ℝ) (v : Ix → ℝ) (back : ℝ → ℝ) : Except Raise Two :=
  if e.length < 2 ∨ f.length < 2 then .error .index
  else
    let c := fun (l : List ℝ) (i : ℕ) => (l.getD i 0 + l.getD (i + 1) 0) / 2
    let w := fun (l : List ℝ) => l.getD 1 0 - l.getD 0 0
    let S := fun (i j : ℕ) => if i + 1 < e.length ∧ j + 1 < f.length then both s x y (c e i) (w e) (c f j) (w f) else ∅
    .ok {
      ps := (List.range n).map fun i => (List.range m).map fun j => mean (S i j) v
      first := (List.range (e.length - 1)).map fun (i : ℕ) => back (c e i)
      second := (List.range (f.length - 1)).map fun (i : ℕ) => back (c f i)
      modes := (List.range n).map fun i => (List.range m).map fun j => (S i j).card }

/-- `power_spect_2d` without a window (`power_spect_fast.py` lines 179-231). -/
noncomputable def cylinder (a : Arr (Fin 3) ℝ) (B : Box) (kbins : Bins) (binning : Scale) (axis : ℤ) : Except Raise Two :=
  let s := a.shape
  let L := B.sides
  let v := power L a
  if ∃ j, s j = 0 then .error .value
  else
    match (if axis = 0 then some (0 : Fin 3) else if axis = 1 then some 1 else if axis = 2 then some 2 else none) with
    | none => .error .key
    | some los =>
      let x := kPer s L los
      let y := kPar s L los
      match kbins with
      | .edges e f => grid s e.length f.length e f (fun i => (x i : ℝ)) (fun i => (y i : ℝ)) v id
      | .counts n m =>
        match binning with
        | .log => do
          let p ← leastNonzero s x
          let q ← leastNonzero s y
          grid s n m (linspace (Real.logb 10 p) (Real.logb 10 (most s x)) n) (linspace (Real.logb 10 q) (Real.logb 10 (most s y)) m)
            (fun i => log10 (x i)) (fun i => log10 (y i)) v fun x => (10 : ℝ) ^ x
        | .linear => do
          let p ← leastNonzero s x
          let q ← leastNonzero s y
          grid s n m (linspace p (most s x) n) (linspace q (most s y) m) (fun i => (x i : ℝ)) (fun i => (y i : ℝ)) v id
        | _ => .error .unbound

/-- The argument `window`. -/
inductive Window
  | none | blackmanharris | tukey
  /-- another string -/
  | name
  /-- a numpy array -/
  | array (w : Ix → ℝ)

/-- `power_spect_2d` (`power_spect_fast.py` lines 143-231) and the array of the caller afterwards, which is of floating point numbers.  The
windows of scipy for a number of cells are arguments. -/
noncomputable def spect2d (bh tk : ℕ → ℤ → ℝ) (a : Arr (Fin 3) ℝ) (B : Box) (kbins : Bins) (binning : Scale) (axis : ℤ) (window : Window) :
    Except Raise (Two × Arr (Fin 3) ℝ) :=
  let run := fun a => (cylinder a B kbins binning axis).map fun r => (r, a)
  match window with
  | .none => run a
  | .blackmanharris => run ⟨a.shape, fun i => a.val i * bh (a.shape 2) (i 2)⟩
  | .tukey => run ⟨a.shape, fun i => a.val i * tk (a.shape 2) (i 2)⟩
  | .name => .error .type
  | .array _ => .error .attribute

/-! ## The cosine -/

/-- The modes in the order of `flatten()`. -/
def modes (s : Fin 3 → ℕ) : List Ix :=
  (List.range (s 0)).flatMap fun (x : ℕ) => (List.range (s 1)).flatMap fun (y : ℕ) => (List.range (s 2)).map fun (z : ℕ) => ![(x : ℤ), (y : ℤ), (z : ℤ)]

open Classical in
/-- `m` (`power_spect_fast.py` line 249), on a logarithmic scale if asked for (line 260); `none` if it is not finite. -/
noncomputable def cosine (s : Fin 3 → ℕ) (L : Fin 3 → ℝ) (los : Fin 3) (log : Bool) (i : Ix) : Option ℝ :=
  if kMag s L i = 0 then none
  else if log then (if kComp s L los i = 0 then none else some (Real.logb 10 |kComp s L los i / kMag s L i|))
  else some |kComp s L los i / kMag s L i|

open Classical in
/-- The positions in the flattened array of the modes of a bin (`power_spect_fast.py` line 271): `m` has lost what is not finite. -/
noncomputable def args (s : Fin 3 → ℕ) (k : Ix → WithBot ℝ) (m : Ix → Option ℝ) (a wa b wb : ℝ) : List ℕ :=
  (List.range (modes s).length).filter fun p =>
    decide ((∃ i, (modes s)[p]? = some i ∧ near a (0 : ℝ) wa (k i)) ∧ ∃ c, ((modes s).filterMap m)[p]? = some c ∧ |c - b| ≤ wb / 2)

/-- `power[arg].sum()/arg.size` for positions in the flattened array. -/
noncomputable def meanAt (s : Fin 3 → ℕ) (l : List ℕ) (v : Ix → ℝ) : Option ℝ :=
  if l.length = 0 then none else some ((l.map fun p => v ((modes s).getD p 0)).sum / l.length)

/-- `power_spect_mu` (`power_spect_fast.py` lines 240-281), where `logk` and `logmu` say which of the binnings is `log`.  The limits of
the logarithmic cosine are taken over the finite ones that are not zero. -/
noncomputable def spectMu (a : Arr (Fin 3) ℝ) (B : Box) (n m : ℕ) (logk logmu : Bool) (axis : ℤ) : Except Raise Two :=
  let s := a.shape
  let L := B.sides
  let v := power L a
  if ∃ j, s j = 0 then .error .value
  else
    match (if axis = 0 then some (0 : Fin 3) else if axis = 1 then some 1 else if axis = 2 then some 2 else none) with
    | none => .error .key
    | some los =>
      let k := kMag s L
      let mu := fun i => (cosine s L los false i).getD 0
      match leastNonzero s k with
      | .error e => .error e
      | .ok p =>
        let t := fun (b : Bool) (x : ℝ) => if b then Real.logb 10 x else x
        let c := fun (i : ℕ) => centre (t logk p) (t logk (most s k)) n i
        if n < 2 then .error .index
        else
          match (if logmu then (leastNonzero s mu).map fun q => (Real.logb 10 q, Real.logb 10 (most s mu)) else .ok (0, 1)) with
          | .error e => .error e
          | .ok (q, r) =>
            let d := fun (j : ℕ) => centre q r m j
            if m < 2 then .error .index
            else
              let S := fun (i j : ℕ) => args s (fun x => if logk then log10 (k x) else (k x : ℝ)) (cosine s L los logmu) (c i) (c 1 - c 0) (d j) (d 1 - d 0)
              let back := fun (b : Bool) (x : ℝ) => if b then (10 : ℝ) ^ x else x
              .ok {
                ps := (List.range n).map fun i => (List.range m).map fun j => meanAt s (S i j) v
                first := (List.range n).map fun (i : ℕ) => back logk (c i)
                second := (List.range m).map fun (j : ℕ) => back logmu (d j)
                modes := (List.range n).map fun i => (List.range m).map fun j => (S i j).length }

end Verif.FastSpectrum
