import Verif.Lemmas.DFT
import Mathlib.Analysis.SpecialFunctions.Pow.Real
import Mathlib.Analysis.SpecialFunctions.Log.Base
import Mathlib.Data.Finset.Max
/-!
# Model of `power_spectrum.py`

Arrays are those of `Model/Convolve` (`Arr`), with axes `Fin d`; `fftpack.fftn` is the defining sum of
`Lemmas/DFT`.  Floating point is replaced by the real numbers, not-a-number by `none`.
-/

namespace Verif.PowerSpectrum
open Verif.Convolve

/-- The exceptions that occur. -/
inductive Err
  | value | type | index | attribute | assertion | exception
  deriving DecidableEq

/-- The forms of the argument `box_dims`. -/
inductive Dims
  | none
  | number (x : ℝ)
  | list (l : List ℝ)
  | array (l : List ℝ)

/-- The forms of the argument `kbins`. -/
inductive KBins
  | int (n : ℕ)
  | list (l : List ℝ)
  | array (l : List ℝ)

/-- The argument `binning`; anything but the first two is treated alike (lines 515-518). -/
inductive Binning
  | linear | log | other
  deriving DecidableEq

/-- `_get_dims` (`power_spectrum.py` lines 522-534).  Comparing an array with `None` gives an array,
whose truth value is an error unless it has one element. -/
def getDims (LB : ℝ) (nd : ℕ) : Dims → Except Err (List ℝ)
  | .none => .ok (List.replicate nd LB)
  | .number x => .ok (List.replicate nd x)
  | .list l => .ok l
  | .array l => if l.length = 1 then .ok l else .error .value

/-- `fftshift` along every axis: `out[i] = in[(i - n//2) mod n]`. -/
def shift {d : ℕ} {α : Type} (s : Fin d → ℕ) (a : (Fin d → ℤ) → α) (i : Fin d → ℤ) : α :=
  a (md s fun j => i j - (s j / 2 : ℕ))

/-- The scale factor of the spectra (`power_spectrum.py` lines 49-52 and 90-93); `box_dims` is
multiplied as it is, whatever its length. -/
noncomputable def scale {d : ℕ} (s : Fin d → ℕ) (L : List ℝ) : ℝ :=
  (L.prod / ∏ j, (s j : ℝ)) ^ 2 / L.prod

/-- `power_spectrum_nd` (`power_spectrum.py` lines 24-54), for the resolved `box_dims`. -/
noncomputable def powerNd {d : ℕ} (L : List ℝ) (a : Arr (Fin d) ℝ) : Arr (Fin d) ℝ where
  shape := a.shape
  val i := ‖shift a.shape (fftn a.shape fun x => (a.val x : ℂ)) i‖ ^ 2 * scale a.shape L

/-- `cross_power_spectrum_nd` (`power_spectrum.py` lines 57-95), for the resolved `box_dims`. -/
noncomputable def crossNd {d : ℕ} (L : List ℝ) (a b : Arr (Fin d) ℝ) : Except Err (Arr (Fin d) ℝ) :=
  if a.shape = b.shape then
    .ok {
      shape := a.shape
      val := fun i =>
        let f := shift a.shape (fftn a.shape fun x => (a.val x : ℂ)) i
        let g := shift b.shape (fftn b.shape fun x => (b.val x : ℂ)) i
        (f.re * g.re + f.im * g.im) * scale a.shape L }
  else .error .assertion

/-- The `center` of `_get_k` along an axis of `n` cells of a `d`-dimensional array
(`power_spectrum.py` lines 458, 463 and 471-472). -/
noncomputable def center (d n : ℕ) : ℝ :=
  if d = 3 then (if n % 2 = 0 then (n : ℝ) / 2 else ((n : ℝ) - 1) / 2) else ((n : ℝ) - 1) / 2

/-- Component `j` of the wave vector at the index `i` (`power_spectrum.py` lines 459, 464-465,
473-475). -/
noncomputable def kComp {d : ℕ} (s : Fin d → ℕ) (L : List ℝ) (j : Fin d) (i : Fin d → ℤ) : ℝ :=
  2 * Real.pi * ((i j : ℝ) - center d (s j)) / L.getD j 0

/-- The `k` of `_get_k` (`power_spectrum.py` lines 449-478); in one dimension it is the component
itself, with its sign. -/
noncomputable def kMag {d : ℕ} (s : Fin d → ℕ) (L : List ℝ) (i : Fin d → ℤ) : ℝ :=
  if d = 1 then ∑ j, kComp s L j i else Real.sqrt (∑ j, kComp s L j i ^ 2)

/-- The `box_dims[j]` of `_get_k`: for which arguments it works. -/
def boxOf (d : ℕ) : Dims → Except Err (List ℝ)
  | .none => .error .type
  | .number _ => .error .type
  | .list l => if d ≤ l.length then .ok l else .error .index
  | .array l => if d ≤ l.length then .ok l else .error .index

/-- `_get_k`: other numbers of dimensions than one to three give `None`, which cannot be unpacked. -/
def getK (d : ℕ) (b : Dims) : Except Err (List ℝ) :=
  if d = 1 ∨ d = 2 ∨ d = 3 then boxOf d b else .error .type

/-- `np.linspace(a, b, n + 1)`. -/
noncomputable def linspace (a b : ℝ) (n : ℕ) : List ℝ :=
  (List.range (n + 1)).map fun (i : ℕ) => a + (i : ℝ) * ((b - a) / n)

/-- `10**np.linspace(np.log10(a), np.log10(b), n + 1)`. -/
noncomputable def logspace (a b : ℝ) (n : ℕ) : List ℝ :=
  (linspace (Real.logb 10 a) (Real.logb 10 b) n).map fun x => (10 : ℝ) ^ x

/-- The edges `_get_kbins` makes for an integer (`power_spectrum.py` lines 510-519). -/
noncomputable def edges (kmin kmax : ℝ) (n : ℕ) (binning : Binning) (breakpoint : ℝ) : List ℝ :=
  match binning with
  | .linear => linspace kmin kmax n
  | .log => logspace kmin kmax n
  | .other =>
    open Classical in
    (linspace kmin kmax n).filter (fun x => x < breakpoint) ++
      (logspace kmin kmax n).filter (fun x => breakpoint < x)

/-- `k.max()`; the maximum of an empty array is an error. -/
noncomputable def kMax {d : ℕ} (s : Fin d → ℕ) (L : List ℝ) : Except Err ℝ :=
  match ((box s).image (kMag s L)).max with
  | some m => .ok m
  | none => .error .value

/-- `_get_kbins` (`power_spectrum.py` lines 505-519) followed by the difference
`kbins[1:]-kbins[:-1]` (lines 126, 397), which lists do not support.  `min(box_dims)` takes all the
entries. -/
noncomputable def getKbins {d : ℕ} (s : Fin d → ℕ) (L : List ℝ) (kbins : KBins) (binning : Binning)
    (breakpoint : ℝ) : Except Err (List ℝ) :=
  match kbins with
  | .int n =>
    match kMax s L with
    | .ok m => .ok (edges (2 * Real.pi / (L.min?.getD 0)) m n binning breakpoint)
    | .error e => .error e
  | .list _ => .error .type
  | .array l => .ok l

/-- Whether `np.histogram` counts `x` in bin `b`; the last bin includes its upper edge. -/
def inBin (e : List ℝ) (b : ℕ) (x : ℝ) : Prop :=
  e.getD b 0 ≤ x ∧ (x < e.getD (b + 1) 0 ∨ (b + 2 = e.length ∧ x = e.getD (b + 1) 0))

open Classical in
/-- Number of modes in bin `b` (`power_spectrum.py` line 131). -/
noncomputable def nModes {d : ℕ} (s : Fin d → ℕ) (k : (Fin d → ℤ) → ℝ) (e : List ℝ) (b : ℕ) : ℕ :=
  ((box s).filter fun i => inBin e b (k i)).card

open Classical in
/-- `outdata` in bin `b` (`power_spectrum.py` lines 127-132): not a number without modes. -/
noncomputable def average {d : ℕ} (s : Fin d → ℕ) (k v : (Fin d → ℤ) → ℝ) (e : List ℝ) (b : ℕ) :
    Option ℝ :=
  if nModes s k e b = 0 then none
  else some ((∑ i ∈ (box s).filter fun i => inBin e b (k i), v i) / nModes s k e b)

/-- What `radial_average` returns. -/
structure Radial where
  data : List (Option ℝ)
  bins : List ℝ
  modes : List ℕ

/-- `kbins[:-1]+dk`. -/
noncomputable def centres (e : List ℝ) : List ℝ :=
  (List.range (e.length - 1)).map fun (b : ℕ) =>
    e.getD b 0 + (e.getD (b + 1) 0 - e.getD b 0) / 2

open Classical in
/-- `radial_average` (`power_spectrum.py` lines 98-134).  `np.histogram` demands edges that do not
decrease. -/
noncomputable def radialAverage {d : ℕ} (a : Arr (Fin d) ℝ) (boxDims : Dims) (kbins : KBins)
    (binning : Binning) (breakpoint : ℝ) : Except Err Radial :=
  match getK d boxDims with
  | .error e => .error e
  | .ok L =>
    match getKbins a.shape L kbins binning breakpoint with
    | .error e => .error e
    | .ok e =>
      if e.Pairwise (· ≤ ·) then
        .ok {
          data := (List.range (e.length - 1)).map (average a.shape (kMag a.shape L) a.val e)
          bins := centres e
          modes := (List.range (e.length - 1)).map (nModes a.shape (kMag a.shape L) e) }
      else .error .value

/-- `power_spectrum_1d` without a window (`power_spectrum.py` lines 137-174). -/
noncomputable def power1d {d : ℕ} (LB : ℝ) (a : Arr (Fin d) ℝ) (boxDims : Dims) (kbins : KBins)
    (binning : Binning) (breakpoint : ℝ) : Except Err Radial :=
  match getDims LB d boxDims with
  | .error e => .error e
  | .ok L => radialAverage (powerNd L a) (.list L) kbins binning breakpoint

/-! ## Binning in `k` and `mu` -/

/-- The argument `weights`. -/
inductive Weights
  | none
  | number
  | array

/-- The argument `mubins`. -/
inductive MuBins
  | int (n : ℕ)
  | list (l : List ℝ)
  | array (l : List ℝ)

open Classical in
/-- `_get_mu` at one index (`power_spectrum.py` lines 481-502): not a number where `k < 0.001`. -/
noncomputable def muAt (s : Fin 3 → ℕ) (L : List ℝ) (los : Fin 3) (absolute : Bool) (i : Fin 3 → ℤ) :
    Option ℝ :=
  if kMag s L i < 1 / 1000 then none
  else some (if absolute then |kComp s L los i / kMag s L i| else kComp s L los i / |kMag s L i|)

/-- `_get_nonzero_idx` at one index (`power_spectrum.py` lines 563-575): the two other axes are compared
with half their length, which is not an integer for odd lengths. -/
noncomputable def nonzeroIdx (s : Fin 3 → ℕ) (los : Fin 3) (i : Fin 3 → ℤ) : Prop :=
  ¬ ∀ j, j ≠ los → (i j : ℝ) = (s j : ℝ) / 2

/-- The edges in `mu` (`power_spectrum.py` lines 407-410). -/
noncomputable def muEdges (absolute : Bool) : MuBins → Except Err (List ℝ)
  | .int n => .ok (linspace (if absolute then 0 else -1) 1 n)
  | .list _ => .error .type
  | .array l => .ok l

/-- Whether index `i` is selected for bin `mb` in `mu` and `kb` in `k` (`power_spectrum.py` lines
422-429). -/
def selected (s : Fin 3 → ℕ) (L : List ℝ) (los : Fin 3) (absolute exclude : Bool) (em ek : List ℝ)
    (mb kb : ℕ) (i : Fin 3 → ℤ) : Prop :=
  (ek.getD kb 0 ≤ kMag s L i ∧ kMag s L i < ek.getD (kb + 1) 0) ∧ (exclude = true → nonzeroIdx s los i) ∧
    ∃ m, muAt s L los absolute i = some m ∧ em.getD mb 0 ≤ m ∧ m < em.getD (mb + 1) 0

open Classical in
/-- Entry of `n_modes` (`power_spectrum.py` line 431). -/
noncomputable def muModes (s : Fin 3 → ℕ) (L : List ℝ) (los : Fin 3) (absolute exclude : Bool)
    (em ek : List ℝ) (mb kb : ℕ) : ℕ :=
  ((box s).filter (selected s L los absolute exclude em ek mb kb)).card

open Classical in
/-- Entry of `outdata` (`power_spectrum.py` lines 414 and 430). -/
noncomputable def muAverage (a : Arr (Fin 3) ℝ) (L : List ℝ) (los : Fin 3) (absolute exclude : Bool)
    (em ek : List ℝ) (mb kb : ℕ) : Option ℝ :=
  let n := muModes a.shape L los absolute exclude em ek mb kb
  if n = 0 then none
  else some ((∑ i ∈ (box a.shape).filter (selected a.shape L los absolute exclude em ek mb kb),
    if i = fun j => ((a.shape j / 2 : ℕ) : ℤ) then 0 else a.val i) / n)

/-- What `mu_binning` returns. -/
structure Anisotropic where
  data : List (List (Option ℝ))
  mus : List ℝ
  ks : List ℝ
  modes : List (List ℕ)

/-- `mu_binning` for three-dimensional arrays (`power_spectrum.py` lines 380-435); for others the
assertion of line 389 fails.  Comparing an array of weights with `None` (line 386) gives an array
without a truth value; a number as weight cannot be indexed (line 433). -/
noncomputable def muBinning (a : Arr (Fin 3) ℝ) (los : ℤ) (mubins : MuBins) (kbins : KBins)
    (boxDims : Dims) (weights : Weights) (exclude : Bool) (binning : Binning) (absolute : Bool) :
    Except Err Anisotropic :=
  match weights with
  | .array => .error .value
  | w =>
    match getK 3 boxDims with
    | .error e => .error e
    | .ok L =>
      if h : 0 ≤ los ∧ los < 3 then
        match getKbins a.shape L kbins binning (1 / 10) with
        | .error e => .error e
        | .ok ek =>
          match muEdges absolute mubins with
          | .error e => .error e
          | .ok em =>
            let l : Fin 3 := ⟨los.toNat, by omega⟩
            if w matches .number ∧ 0 < (ek.length - 1) * (em.length - 1) then .error .type
            else
              .ok {
                data := (List.range (em.length - 1)).map fun (mb : ℕ) =>
                  (List.range (ek.length - 1)).map (muAverage a L l absolute exclude em ek mb)
                mus := centres em
                ks := centres ek
                modes := (List.range (em.length - 1)).map fun (mb : ℕ) =>
                  (List.range (ek.length - 1)).map (muModes a.shape L l absolute exclude em ek mb) }
      else .error .exception

end Verif.PowerSpectrum
