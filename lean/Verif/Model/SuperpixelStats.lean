import Verif.Model.Superpixels
/-!
# Model of the statistics of superpixels and of the stitching with a histogram (`superpixels.py` lines 73-110 and 170-205)

`argsort` is an argument.  Arrays are flattened lists.
-/

namespace Verif.SuperpixelStats
open Verif.Superpixels

/-- What the functions raise. -/
inductive Raise where
  | index | assertion | type | value
  /-- `slic` is called without data -/
  | noData
  deriving DecidableEq

/-- The errors of `Model/Superpixels`. -/
def lift {α : Type} : Except Err α → Except Raise α
  | .ok x => .ok x
  | .error .index => .error .index
  | .error .assertion => .error .assertion

/-- A quotient of floating point numbers. -/
inductive Quotient where
  | num (x : ℝ)
  | posInf
  | negInf
  | nan

open Classical in
/-- `means/sigmas` for one superpixel. -/
noncomputable def quotient (m s : ℝ) : Quotient :=
  if s = 0 then (if m = 0 then .nan else if 0 < m then .posInf else .negInf) else .num (m / s)

open Classical in
/-- `q < t`. -/
noncomputable def Quotient.below : Quotient → ℝ → Bool
  | .num x, t => decide (x < t)
  | .negInf, _ => true
  | _, _ => false

/-- What `get_superpixel_SNRs` returns without the pixels. -/
structure Stats where
  snr : List Quotient
  means : List ℝ
  sigmas : List ℝ
  ns : List ℝ

/-- `get_superpixel_SNRs` (`superpixels.py` lines 170-182) with means, deviations and numbers of pixels given.  With `pixels=True` a
list is indexed with an array, whatever the pixels are. -/
noncomputable def snrs (argsort : List ℝ → List ℕ) (means sigmas ns : List ℝ) (pixels : Bool) : Except Raise Stats := do
  let o := argsort means
  let s ← lift (gather sigmas o)
  let n ← lift (gather ns o)
  let m ← lift (gather means o)
  if pixels then .error .type else .ok ⟨List.zipWith quotient m s, m, s, n⟩

/-- `mean_estimate` (`superpixels.py` lines 193-205).  Data and labels are not passed on, so that what is not given cannot be computed. -/
noncomputable def meanEstimate (argsort : List ℝ → List ℕ) (means sigmas ns : Option (List ℝ)) (thres : ℝ) : Except Raise (ℝ × ℝ) :=
  open Classical in
  match means, sigmas, ns with
  | some means, some sigmas, some ns => do
    let st ← snrs argsort means sigmas ns false
    let locs := st.snr.map fun q => q.below (if thres ≤ 0 then thres else -thres)
    let pick := fun (l : List ℝ) => ((locs.zip l).filter fun p => p.1).map Prod.snd
    let gm := (pick st.means).map fun x => |x|
    if gm.length = 0 then .ok (0, 0) else lift (combined gm (pick st.sigmas) (pick st.ns))
  | _, _, _ => .error .noData

/-! ## Stitching -/

/-- `l.argmax()` of a list that is not empty: the first index of the largest value. -/
noncomputable def argmax {K : Type} [LinearOrder K] (l : List K) : ℕ :=
  open Classical in l.findIdx fun x => decide (l.all fun y => decide (y ≤ x))

/-- `argrelextrema(l, np.greater)[0]`: the indices of values above both neighbours; ends do not count. -/
def peaks (l : List ℕ) : List ℕ :=
  (List.range l.length).filter fun i => decide (0 < i ∧ i + 1 < l.length ∧ l.getD (i - 1) 0 < l.getD i 0 ∧ l.getD (i + 1) 0 < l.getD i 0)

/-- The distance from the line through the first bin and the peak, up to a factor (`superpixels.py` lines 85-90). -/
noncomputable def offLine (h : List ℕ) (e : List ℝ) (i : ℕ) : ℝ :=
  let b := argmax h
  let m0 := ((h.getD b 0 : ℝ) - h.getD 0 0) / (e.getD b 0 - e.getD 0 0)
  |((h.getD i 0 : ℝ) - h.getD 0 0) - m0 * (e.getD i 0 - e.getD 0 0)|

/-- The threshold of `stitch_using_histogram` (`superpixels.py` lines 81-91 and 100-102): `h` and `e` are the counts and edges of the histogram,
`otsu` the result of `threshold_otsu` and `distinct` says whether the means differ.  `none` stands for an array of zeros in place of the
threshold. -/
noncomputable def threshold (h : List ℕ) (e : List ℝ) (otsu : ℝ) (distinct : Bool) : Except Raise (Option ℝ) :=
  let p := if argmax h = 0 then peaks (0 :: h) else peaks h
  if p.length = 1 then
    if argmax h = 0 then .error .value
    else
      let d := argmax ((List.range (argmax h)).map (offLine h e))
      .ok (some (e.getD d 0 / 2 + e.getD (d + 1) 0 / 2))
  else if distinct then .ok (some otsu) else .ok none

/-- `stitch_using_histogram` with `binary=True` (`superpixels.py` lines 92-110): `field` is the superpixel map or the data. -/
noncomputable def stitch (h : List ℕ) (e : List ℝ) (otsu : ℝ) (distinct : Bool) (field : List ℝ) : Except Raise (List Bool) :=
  open Classical in
  match threshold h e otsu distinct with
  | .error r => .error r
  | .ok none => .ok (field.map fun _ => false)
  | .ok (some t) => .ok (field.map fun x => decide (x < t))

end Verif.SuperpixelStats
