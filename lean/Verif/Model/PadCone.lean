import Mathlib.Algebra.Order.Field.Basic
import Mathlib.Algebra.Order.Field.Rat
import Mathlib.Data.Int.Notation
/-!
# Model of `padding_lightcone` of `angular_coordinates.py` with every mode of `np.pad`

`np.pad` fills the border of one axis after the other, later axes from planes that are padded
already.  The entries are those of an ordered field: rounding and the conversion to the type of
the array are left out.  The modes `empty`, whose border is whatever the memory held, and
`median` are not modelled.  Modes that repeat the array are taken as documented by numpy, as the
periodic continuation, also where the border is wider than the array.
-/

namespace Verif.PadCone

/-- A lightcone; only `val i j k` with `i < nx`, `j < ny`, `k < nz` is meaningful. -/
structure Cone (R : Type*) where
  nx : ℕ
  ny : ℕ
  nz : ℕ
  val : ℕ → ℕ → ℕ → R

/-- The modes of `np.pad` (`angular_coordinates.py` line 345 refers to its documentation). -/
inductive Mode
  | constant | edge | linearRamp | maximum | minimum | mean | reflect | symmetric | wrap
  deriving DecidableEq

/-- The cell of an axis of `n` cells that `np.pad` repeats at position `t`, counted from the first
cell of the unpadded axis, for the modes that repeat the array (`angular_coordinates.py` line 354). -/
def repeated (m : Mode) (n : ℕ) (t : ℤ) : ℕ :=
  match m with
  | .symmetric => let q := t % (2 * n); (if q < n then q else 2 * n - 1 - q).toNat
  | .reflect => if n = 1 then 0 else let q := t % (2 * n - 2); (if q < n then q else 2 * n - 2 - q).toNat
  | _ => (t % n).toNat

variable {R : Type*} [Field R] [LinearOrder R]

/-- Entry `i` of one axis of `np.pad(f, p, mode)` for `n` entries of `f`
(`angular_coordinates.py` line 354). -/
def line (m : Mode) (p n : ℕ) (f : ℕ → R) (i : ℕ) : R :=
  if p ≤ i ∧ i < n + p then f (i - p) else
    match m with
    | .constant => 0
    | .edge => if i < p then f 0 else f (n - 1)
    | .linearRamp => if i < p then f 0 * (i / p) else f (n - 1) * ((n + 2 * p - 1 - i : ℕ) / p)
    | .maximum => (List.range n).foldl (fun x a => max x (f a)) (f 0)
    | .minimum => (List.range n).foldl (fun x a => min x (f a)) (f 0)
    | .mean => ((List.range n).map f).sum / n
    | .reflect | .symmetric | .wrap => f (repeated m n ((i : ℤ) - p))

/-- `np.pad(s, p, mode)` for a plane of `nx` by `ny` entries: the first axis, then the second
(`angular_coordinates.py` line 354). -/
def plane (m : Mode) (p nx ny : ℕ) (s : ℕ → ℕ → R) (i j : ℕ) : R :=
  line m p ny (fun b => line m p nx (fun a => s a b) i) j

/-- `padding_lightcone` (`angular_coordinates.py` lines 338-355); `padded_n` is an integer or
`None`, `mode` is `none` for a string that `np.pad` does not know. -/
def paddingLightcone (lc : Cone R) (paddedN : Option ℤ) (mode : Option Mode) : Except String (Cone R) :=
  let p := paddedN.getD (lc.ny / 2 : ℕ)
  if lc.nx + 2 * p < 0 ∨ lc.ny + 2 * p < 0 then .error "ValueError: negative dimensions are not allowed"
  else if lc.nz = 0 then .ok ⟨(lc.nx + 2 * p).toNat, (lc.ny + 2 * p).toNat, 0, fun _ _ _ => 0⟩
  else if p < 0 then .error "ValueError: index can't contain negative values"
  else match mode with
  | none => .error "ValueError: mode is not supported"
  | some m =>
    if m ≠ .constant ∧ 0 < p ∧ (lc.nx = 0 ∨ lc.ny = 0) then .error "ValueError: can't extend empty axis"
    else .ok ⟨lc.nx + 2 * p.toNat, lc.ny + 2 * p.toNat, lc.nz, fun i j k =>
      plane m p.toNat lc.nx lc.ny (fun a b => lc.val a b k) i j⟩

end Verif.PadCone
