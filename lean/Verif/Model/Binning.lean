import Verif.Model.Conversions
import Verif.Model.Helpers
import Verif.Model.Padding
import Mathlib.Algebra.BigOperators.Group.Finset.Basic
import Mathlib.Algebra.Order.Floor.Defs
/-!
# Model of the changes of coordinates in `angular_coordinates.py`

From comoving boxes to frequencies and angles and back.  Floating point numbers are exact
reals, and `scipy.signal.fftconvolve` is the exact linear convolution.  `cm.cdist_to_z` is a
parameter `toZ` (`Model/Conversions.lean` has its code), and so is the spline resampling of a
slice.
-/

namespace Verif.Binning

open Verif.Conversions Verif.Constants Verif.Helpers Verif.Padding

/-- A lightcone; only entries inside the shape are meaningful.  The last axis is the line of
sight. -/
structure Cone where
  n0 : ℕ
  n1 : ℕ
  n2 : ℕ
  val : ℕ → ℕ → ℕ → ℝ

/-- `np.arange(start, stop, step)`.  A vanishing step raises in NumPy; here it gives the empty
array, on which the callers raise as well. -/
noncomputable def arange (start stop step : ℝ) : List ℝ :=
  (List.range ⌈(stop - start) / step⌉₊).map fun (i : ℕ) => start + i * step

/-- `np.round`: halves go to the even neighbour. -/
noncomputable def roundEven (x : ℝ) : ℤ :=
  if x - ⌊x⌋ < 1 / 2 then ⌊x⌋
  else if 1 / 2 < x - ⌊x⌋ then ⌊x⌋ + 1
  else if Even ⌊x⌋ then ⌊x⌋ else ⌊x⌋ + 1

/-- Entry `j` of the linear convolution of `f`, of length `n`, with `w` equal weights that sum
to one (`fftconvolve(lightcone, tophat3d)`, whose default mode is `'full'`). -/
noncomputable def full (w n : ℕ) (f : ℕ → ℝ) (j : ℕ) : ℝ :=
  ∑ t ∈ Finset.range w, if t ≤ j ∧ j - t < n then f (j - t) * (1 / (w : ℝ)) else 0

/-- Entry `j` with `mode='same'`: the middle `n` entries of the full convolution. -/
noncomputable def same (w n : ℕ) (f : ℕ → ℝ) (j : ℕ) : ℝ := full w n f (j + (w - 1) / 2)

/-- `int(hf.find_idx(table, v))`.  `find_idx` clamps to the table, so the index is not
negative and `int` rounds down.  `int(nan)` raises. -/
noncomputable def pick (table : List ℝ) (v : ℝ) : Except String ℕ :=
  match findIdx table v with
  | .error e => .error e
  | .ok none => .error "cannot convert float NaN to integer"
  | .ok (some t) => .ok ⌊t⌋₊

/-- `nu_to_cdist` (`cosmo.py` lines 281-292). -/
noncomputable def nu_to_cdist (k : Const) (nu : ℝ) : ℝ := cdist k (nu_to_z nu)

/-- `distances` (`angular_coordinates.py` line 276, also line 69). -/
noncomputable def distances (k : Const) (zLow cell : ℝ) (n : ℕ) : List ℝ :=
  (List.range n).map fun (i : ℕ) => cdist k zLow + i * cell

/-- `smooth_scale` as an integer (`angular_coordinates.py` lines 286-289 and 292). -/
noncomputable def smoothScale (maxCell cell : ℝ) : ℕ :=
  (if roundEven (maxCell / cell) < 1 then 1 else roundEven (maxCell / cell)).toNat

/-- `bin_lightcone_in_frequency` (`angular_coordinates.py` lines 259-301). -/
noncomputable def binFrequency (k : Const) (toZ : List ℝ → Except String (List ℝ)) (lc : Cone)
    (zLow box dnu : ℝ) : Except String (Cone × List ℝ) :=
  if lc.n0 = 0 then .error "float division by zero"
  else
    let cell := box / lc.n0
    match toZ (distances k zLow cell lc.n2) with
    | .error e => .error e
    | .ok zs =>
      let freqs := zs.map z_to_nu
      match freqs.head?, freqs.getLast? with
      | some nu1, some nu2 =>
        let out := arange nu1 nu2 (-dnu)
        let m := out.length
        if m < 2 then .error "index out of bounds"
        else
          let maxCell := nu_to_cdist k (out.getD (m - 1) 0) - nu_to_cdist k (out.getD (m - 2) 0)
          let w := smoothScale maxCell cell
          match out.mapM (pick freqs) with
          | .error e => .error e
          | .ok idx =>
            if idx.all fun i => decide (i < lc.n2 + w - 1) then
              .ok (⟨lc.n0, lc.n1, m, fun x y i => full w lc.n2 (lc.val x y) (idx.getD i 0)⟩, out)
            else .error "index out of bounds"
      | _, _ => .error "index out of bounds"

/-- `bin_lightcone_in_mpc` (`angular_coordinates.py` lines 303-325).  An empty tophat makes
`fftconvolve` return an empty one-dimensional array, which cannot be indexed; a single
frequency divides by zero. -/
noncomputable def binMpc (k : Const) (toZ : List ℝ → Except String (List ℝ)) (lc : Cone)
    (freqs : List ℝ) (cell : ℝ) : Except String (Cone × List ℝ) :=
  let ds := freqs.map (nu_to_cdist k)
  match ds.head?, ds.getLast? with
  | some d0, some d1 =>
    if cell = 0 then .error "float division by zero"
    else
      let n := (d1 - d0) / cell
      if n = 0 then .error "cannot convert float infinity to integer"
      else if n ≤ -1 then .error "negative dimensions are not allowed"
      else
        let outD := arange d0 d1 cell
        let m := ⌊n⌋₊
        let w := roundEven (freqs.length / n)
        if w < 0 then .error "negative dimensions are not allowed"
        else if w = 0 ∧ 0 < m then .error "too many indices for array"
        else
          match (outD.take m).mapM (pick ds) with
          | .error e => .error e
          | .ok idx =>
            if idx.all fun i => decide (i < lc.n2) then
              match toZ outD with
              | .error e => .error e
              | .ok zs => .ok (⟨lc.n0, lc.n1, m, fun x y i =>
                  same w.toNat lc.n2 (lc.val x y) (idx.getD i 0)⟩, zs)
            else .error "index out of bounds"
  | _, _ => .error "index out of bounds"

end Verif.Binning
