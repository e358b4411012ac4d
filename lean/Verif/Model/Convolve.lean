import Mathlib.Algebra.BigOperators.Group.Finset.Basic
import Mathlib.Algebra.BigOperators.Pi
import Mathlib.Data.Fintype.Pi
import Mathlib.Data.Int.Interval
import Mathlib.Algebra.Ring.Defs
/-!
# Model of `fft_functions.fftconvolve`

Arrays have axes `ι` (any finite type), a shape, and a value at every integer multi-index (only the values
inside the shape matter).  `irfftn(rfftn(a, s=fsize) * rfftn(b, s=fsize), s=fsize)` is the circular convolution
with periods `fsize` of the zero-padded arrays: `circ` below.  `Verif.Convolve.ifft_fft_mul` (in `Lemmas/DFT`)
proves this for the defining sums of `fftn`/`ifftn` over the complex numbers.
-/

namespace Verif.Convolve

variable {ι : Type} [Fintype ι] [DecidableEq ι] {R : Type}

/-- An array of shape `shape`. -/
structure Arr (ι R : Type) where
  shape : ι → ℕ
  val : (ι → ℤ) → R

/-- The multi-indices of an array of shape `s`. -/
def box (s : ι → ℕ) : Finset (ι → ℤ) := Fintype.piFinset fun i => Finset.Ico 0 (s i : ℤ)

/-- Componentwise `x mod f`. -/
def md (f : ι → ℕ) (x : ι → ℤ) : ι → ℤ := fun i => x i % (f i : ℤ)

/-- Zero padding to any larger size (`s=fsize` of the FFTs). -/
def Arr.ext [Zero R] (a : Arr ι R) : (ι → ℤ) → R := fun x => if x ∈ box a.shape then a.val x else 0

/-- Circular convolution with periods `f`. -/
def circ [CommRing R] (f : ι → ℕ) (a b : (ι → ℤ) → R) (x : ι → ℤ) : R :=
  ∑ y ∈ box f, a y * b (md f (x - y))

/-- Argument `mode` (`fft_functions.py` line 51). -/
inductive Mode where
  | same | full | valid
  deriving DecidableEq

/-- Argument `boundary` (line 52). -/
inductive Boundary where
  | constant | circular | reflect | nearest | mirror | wrap
  deriving DecidableEq

/-- Argument `backend`. -/
inductive Backend where
  | numpy | jax | torch | other
  deriving DecidableEq

/-- How one axis is extended: the modes of `np.pad`, `jnp.pad` and `torch.nn.functional.pad`. -/
inductive Pad where
  | reflect    -- numpy and torch 'reflect': mirror at the centre of the edge cell
  | symmetric  -- numpy 'symmetric': mirror at the outer face of the edge cell
  | edge       -- numpy 'edge', torch 'replicate'
  | wrap       -- numpy 'wrap', torch 'circular'

/-- Index of the cell of an axis of length `n` that continues position `t`. -/
def Pad.index (p : Pad) (n : ℕ) (t : ℤ) : ℤ :=
  match p with
  | .wrap => t % n
  | .edge => max 0 (min t (n - 1))
  | .symmetric => let m := t % (2 * n); if m < n then m else 2 * n - 1 - m
  | .reflect => if n = 1 then 0 else let m := t % (2 * n - 2); if m < n then m else 2 * n - 2 - m

/-- The dictionaries `t_mode`, `j_mode`, `n_mode` (lines 91, 119, 141). -/
def padMode (backend : Backend) (b : Boundary) : Pad :=
  match b with
  | .reflect => .reflect
  | .mirror => if backend = .torch then .reflect else .symmetric
  | .nearest => .edge
  | _ => .wrap

/-- `pad_before` (line 74). -/
def padBefore (m : Mode) (s2 : ℕ) : ℕ := if m = .full then s2 - 1 else s2 / 2

/-- `pad_after` (line 75). -/
def padAfter (m : Mode) (s2 : ℕ) : ℕ := if m = .full then s2 - 1 else s2 - 1 - s2 / 2

/-- `np.pad(in1, zip(pad_before, pad_after), mode)`. -/
def padded (p : Pad) (m : Mode) (a : Arr ι R) (s2 : ι → ℕ) : Arr ι R :=
  ⟨fun i => a.shape i + padBefore m (s2 i) + padAfter m (s2 i),
    fun x => a.val fun i => p.index (a.shape i) (x i - padBefore m (s2 i))⟩

/-- torch's `pad` refuses to reflect by the length of an axis or more and to wrap more than once. -/
def torchPadOk (p : Pad) (n before after : ℕ) : Bool :=
  match p with
  | .reflect => decide (before < n ∧ after < n)
  | .wrap => decide (before ≤ n ∧ after ≤ n)
  | _ => true

/-- `np.roll(ret, shift)`: `out[x] = ret[x - shift]` (periodic in the shape `f` of `ret`). -/
def rolled (f : ι → ℕ) (shift : ι → ℤ) (ret : (ι → ℤ) → R) : (ι → ℤ) → R :=
  fun x => ret (md f (x - shift))

/-- `fftconvolve(in1, in2, mode, boundary, backend)` (`fft_functions.py` lines 34-170) for valid `mode` and `boundary`
arguments and non-empty arrays. A backend that is not installed is not modelled; an unknown one leaves `ret`
undefined. -/
def fftconvolve [CommRing R] (in1 in2 : Arr ι R) (mode : Mode) (boundary : Boundary) (backend : Backend) :
    Except String (Arr ι R) :=
  let s1 := in1.shape
  let s2 := in2.shape
  if mode = .valid ∧ ∃ i, s1 i < s2 i then .error "ValueError"                    -- line 62
  else
    let boundary := if mode = .valid then .constant else boundary                 -- line 63
    if backend = .other then .error "UnboundLocalError"
    else if boundary = .circular then                                             -- lines 65-68, 110, 135, 157
      let f : ι → ℕ := fun i => max (s1 i) (s2 i)
      .ok ⟨f, rolled f (fun i => (-(s2 i : ℤ)) / 2) (circ f in1.ext in2.ext)⟩
    else if boundary = .constant then                                             -- lines 69-71, 163-170
      let f : ι → ℕ := fun i => s1 i + s2 i - 1
      let start : ι → ℤ := fun i =>
        match mode with | .full => 0 | .same => s2 i / 2 | .valid => s2 i - 1
      let size : ι → ℕ := fun i =>
        match mode with | .full => s1 i + s2 i - 1 | .same => s1 i | .valid => s1 i - s2 i + 1
      .ok ⟨size, fun x => circ f in1.ext in2.ext (x + start)⟩
    else                                                                          -- lines 72-76, 91-94, 141-142, 161
      let p := padMode backend boundary
      if backend = .torch ∧
          ¬ ∀ i, torchPadOk p (s1 i) (padBefore mode (s2 i)) (padAfter mode (s2 i)) = true then
        .error "RuntimeError"
      else
        let big := padded p mode in1 s2
        let f : ι → ℕ := fun i => big.shape i + s2 i - 1
        let start : ι → ℤ := fun i => s2 i - 1
        let size : ι → ℕ := fun i => if mode = .full then s1 i + s2 i - 1 else s1 i
        .ok ⟨size, fun x => circ f big.ext in2.ext (x + start)⟩

end Verif.Convolve
