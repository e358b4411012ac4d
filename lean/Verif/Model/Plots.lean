import Mathlib.Data.Nat.Notation
import Mathlib.Data.Int.Notation
/-!
# Model of `plot_slice` and `plot_hist` (`plotting.py`)

What matplotlib is called with: the data and the keyword arguments.  A dictionary of keyword arguments is a list of names with their values, `V` is the type of these.
Simplified: labels and titles are left out.
-/

namespace Verif.Plots

/-- `name in kwargs.keys()`. -/
def has {V : Type} (kw : List (String × V)) (name : String) : Bool := kw.any fun p => p.1 == name

/-- `kwargs[name] = v`. -/
def set {V : Type} (kw : List (String × V)) (name : String) (v : V) : List (String × V) := (kw.filter fun p => p.1 != name) ++ [(name, v)]

/-- `f(name=v, **kwargs)`. -/
def call {V : Type} (name : String) (v : V) (kw : List (String × V)) : Except String (List (String × V)) :=
  if has kw name then .error "TypeError: multiple values" else .ok ((name, v) :: kw)

/-- The keyword arguments of `pl.hist` (`plotting.py` lines 117-130).  `xfrac` tells if the type of the data is `'xfrac'`; the values are `np.linspace(0,1,30)`, `30`, `'step'` and `'k'`. -/
def histArgs {V : Type} (linspace thirty step black : V) (xfrac : Bool) (logscale : V) (kw : List (String × V)) : Except String (List (String × V)) :=
  let kw := if xfrac && !has kw "bins" then set kw "bins" linspace else set kw "bins" thirty
  let kw := if !has kw "histtype" then set kw "histtype" step else kw
  let kw := if !has kw "color" then set kw "color" black else kw
  call "log" logscale kw

/-- A cube: its shape and its values. -/
structure Cube (K : Type) where
  nx : ℕ
  ny : ℕ
  nz : ℕ
  val : ℕ → ℕ → ℕ → K

/-- An index of numpy on an axis of `n` cells. -/
def index (n : ℕ) (i : ℤ) : Except String ℕ :=
  if 0 ≤ i ∧ i < n then .ok i.toNat
  else if i < 0 ∧ -n ≤ i then .ok (n + i).toNat
  else .error "IndexError"

/-- The image of `plot_slice` (`plotting.py` lines 53-69): its shape and its values, with `log10` as a parameter. -/
def image {K : Type} (log10 : K → K) (data : Cube K) (losAxis sliceNum : ℤ) (logscale : Bool) : Except String (ℕ × ℕ × (ℕ → ℕ → K)) :=
  let scale : K → K := if logscale then log10 else id
  if losAxis = 0 then
    match index data.nx sliceNum with
    | .error e => .error e
    | .ok k => .ok (data.ny, data.nz, fun i j => scale (data.val k i j))
  else if losAxis = 1 then
    match index data.ny sliceNum with
    | .error e => .error e
    | .ok k => .ok (data.nx, data.nz, fun i j => scale (data.val i k j))
  else if losAxis = 2 then
    match index data.nz sliceNum with
    | .error e => .error e
    | .ok k => .ok (data.nx, data.ny, fun i j => scale (data.val i j k))
  else .error "AssertionError"

/-- `plot_slice` up to `pl.imshow` (`plotting.py` lines 24-72): the image and the keyword arguments; `ext` is the box `[0, LB, 0, LB]`. -/
def plotSlice {K V : Type} (log10 : K → K) (ext : V) (data : Cube K) (losAxis sliceNum : ℤ) (logscale : Bool) (kw : List (String × V)) :
    Except String ((ℕ × ℕ × (ℕ → ℕ → K)) × List (String × V)) :=
  match image log10 data losAxis sliceNum logscale with
  | .error e => .error e
  | .ok im =>
    match call "extent" ext kw with
    | .error e => .error e
    | .ok args => .ok (im, args)

end Verif.Plots
