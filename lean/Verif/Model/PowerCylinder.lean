import Verif.Model.PowerSpectrum
/-!
# Model of `power_spectrum.py`: windows and the cylindrical power spectrum

`scipy.stats.binned_statistic_2d` by its documented behaviour: edges must increase, the last bin
includes its upper edge, outliers are left out, the mean of nothing is not a number.
-/

namespace Verif.PowerSpectrum
open Verif.Convolve

/-- The argument `window`; the tapers of scipy are parameters of the model. -/
inductive Window
  | none
  | blackmanharris
  | tukey
  | name
  | array (w : (Fin 3 → ℤ) → ℝ)

/-- What can go wrong with a window. -/
inductive WErr
  | attribute | type | value | inner (e : Err)
  deriving DecidableEq

/-- `apply_window` (`power_spectrum.py` lines 12-21).  The result is the caller's array itself, changed
in place.  `harris n` and `tukey n` are the tapers for `n` cells; `isFloat` tells whether the
array holds floating point numbers.  In one and two dimensions the taper does not fit. -/
noncomputable def applyWindow {d : ℕ} (harris tukey : ℕ → ℤ → ℝ) (isFloat : Bool) (a : Arr (Fin d) ℝ) :
    Window → Except WErr (Arr (Fin d) ℝ)
  | .none => .ok a
  | .array _ => .error .attribute
  | .name => .error .type
  | .blackmanharris => taper (harris)
  | .tukey => taper (tukey)
where
  taper (w : ℕ → ℤ → ℝ) : Except WErr (Arr (Fin d) ℝ) :=
    if h : d < 3 then .error .value
    else if isFloat then
      .ok ⟨a.shape, fun x => a.val x * w (a.shape ⟨d - 1, by omega⟩) (x ⟨d - 1, by omega⟩)⟩
    else .error .type

/-- `power_spectrum_1d` (`power_spectrum.py` lines 137-174): the caller's array afterwards, and the
result. -/
noncomputable def power1dWindow {d : ℕ} (harris tukey : ℕ → ℤ → ℝ) (isFloat : Bool) (LB : ℝ)
    (a : Arr (Fin d) ℝ) (window : Window) (boxDims : Dims) (kbins : KBins) (binning : Binning)
    (breakpoint : ℝ) : Arr (Fin d) ℝ × Except WErr Radial :=
  match applyWindow harris tukey isFloat a window with
  | .error e => (a, .error e)
  | .ok b =>
    match power1d LB b boxDims kbins binning breakpoint with
    | .ok r => (b, .ok r)
    | .error e => (b, .error (.inner e))

/-! ## Cylindrical power spectrum -/

/-- The argument `kbins` of `power_spectrum_2d`: an integer, integers in a tuple or a list, or edges
in a list. -/
inductive KBins2
  | int (n : ℕ)
  | tuple (n m : ℕ)
  | listInts (n m : ℕ)
  | listEdges (e e' : List ℝ)

/-- The exceptions of `power_spectrum_2d`. -/
inductive CErr
  | value | type | unbound | inner (e : Err)
  deriving DecidableEq

/-- `kz` (`power_spectrum.py` line 223). -/
noncomputable def kPar (s : Fin 3 → ℕ) (L : List ℝ) (ax : Fin 3) (i : Fin 3 → ℤ) : ℝ := |kComp s L ax i|

/-- `kp` (`power_spectrum.py` line 224). -/
noncomputable def kPerp (s : Fin 3 → ℕ) (L : List ℝ) (ax : Fin 3) (i : Fin 3 → ℤ) : ℝ :=
  Real.sqrt (∑ j ∈ Finset.univ.erase ax, kComp s L j i ^ 2)

open Classical in
/-- The edges for a number of bins (`power_spectrum.py` lines 232-238): from the smallest value other
than zero to the largest; in decimal logarithms for `'log'`. -/
noncomputable def edges2 (s : Fin 3 → ℕ) (f : (Fin 3 → ℤ) → ℝ) (n : ℕ) (binning : Binning) :
    Except CErr (List ℝ) :=
  match binning with
  | .other => .error .unbound
  | b =>
    match (((box s).filter fun i => f i ≠ 0).image f).min, ((box s).image f).max with
    | some lo, some hi =>
      .ok (if b = .log then linspace (Real.logb 10 lo) (Real.logb 10 hi) n else linspace lo hi n)
    | _, _ => .error .value

/-- What is binned: the value, or its logarithm (`power_spectrum.py` line 235), that of zero being
below every edge. -/
noncomputable def coordinate (log : Bool) (x : ℝ) : Option ℝ :=
  open Classical in
  if log then (if x = 0 then none else some (Real.logb 10 x)) else some x

/-- Whether a value falls into bin `b`. -/
def inBin2 (e : List ℝ) (b : ℕ) (x : Option ℝ) : Prop := ∃ v, x = some v ∧ inBin e b v

/-- What `power_spectrum_2d` returns. -/
structure Cylinder where
  data : List (List (Option ℝ))
  kper : List ℝ
  kpar : List ℝ
  modes : List (List ℕ)

open Classical in
/-- Number of modes in a bin (`power_spectrum.py` line 251). -/
noncomputable def cylModes (s : Fin 3 → ℕ) (L : List ℝ) (ax : Fin 3) (log : Bool) (e e' : List ℝ) (b b' : ℕ) : ℕ :=
  ((box s).filter fun i => inBin2 e b (coordinate log (kPerp s L ax i)) ∧
    inBin2 e' b' (coordinate log (kPar s L ax i))).card

open Classical in
/-- Mean power of a bin (`power_spectrum.py` line 241). -/
noncomputable def cylAverage (a : Arr (Fin 3) ℝ) (L : List ℝ) (ax : Fin 3) (log : Bool) (e e' : List ℝ)
    (b b' : ℕ) : Option ℝ :=
  if cylModes a.shape L ax log e e' b b' = 0 then none
  else some ((∑ i ∈ (box a.shape).filter fun i => inBin2 e b (coordinate log (kPerp a.shape L ax i)) ∧
    inBin2 e' b' (coordinate log (kPar a.shape L ax i)), a.val i) / cylModes a.shape L ax log e e' b b')

/-- The centres of the bins (`power_spectrum.py` lines 243-248). -/
noncomputable def middles (log : Bool) (e : List ℝ) : List ℝ :=
  (List.range (e.length - 1)).map fun (b : ℕ) =>
    if log then (10 : ℝ) ^ ((e.getD b 0 + e.getD (b + 1) 0) / 2) else (e.getD b 0 + e.getD (b + 1) 0) / 2

open Classical in
/-- Lines 240-254 of `power_spectrum.py` from the edges on. -/
noncomputable def cylinder (a : Arr (Fin 3) ℝ) (L : List ℝ) (ax : Fin 3) (log : Bool) (e e' : List ℝ) :
    Except CErr Cylinder :=
  if 2 ≤ e.length ∧ e.Pairwise (· < ·) ∧ 2 ≤ e'.length ∧ e'.Pairwise (· < ·) then
    .ok {
      data := (List.range (e.length - 1)).map fun (b : ℕ) =>
        (List.range (e'.length - 1)).map (cylAverage a L ax log e e' b)
      kper := middles log e
      kpar := middles log e'
      modes := (List.range (e.length - 1)).map fun (b : ℕ) =>
        (List.range (e'.length - 1)).map (cylModes a.shape L ax log e e' b) }
  else .error .value

/-- `power_spectrum_2d` of a three-dimensional array without a window (`power_spectrum.py` lines
177-254).  A list switches the binning off, so that integers in a list are taken for edges and fail;
an axis other than 0, 1, 2 is not in the list of axes. -/
noncomputable def power2d (LB : ℝ) (a : Arr (Fin 3) ℝ) (kbins : KBins2) (binning : Binning) (boxDims : Dims)
    (nu : ℤ) : Except CErr Cylinder :=
  match getDims LB 3 boxDims with
  | .error e => .error (.inner e)
  | .ok L =>
    match getK 3 (.list L) with
    | .error e => .error (.inner e)
    | .ok L =>
      if h : 0 ≤ nu ∧ nu < 3 then
        let ax : Fin 3 := ⟨nu.toNat, by omega⟩
        let byNumber (n m : ℕ) : Except CErr Cylinder :=
          match edges2 a.shape (kPerp a.shape L ax) n binning, edges2 a.shape (kPar a.shape L ax) m binning with
          | .ok e, .ok e' => cylinder (powerNd L a) L ax (binning = .log) e e'
          | .error e, _ => .error e
          | _, .error e => .error e
        match kbins with
        | .int n => byNumber n n
        | .tuple n m => byNumber n m
        | .listInts _ _ => .error .type
        | .listEdges e e' => cylinder (powerNd L a) L ax false e e'
      else .error .value

end Verif.PowerSpectrum
