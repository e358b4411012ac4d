import Verif.Model.PowerSpectrum
import Verif.Model.Conversions
/-!
# Model of `primary_beam.py`

Floating point numbers are exact reals; not-a-number is an error here.  The Bessel function `j1` of SciPy is an
argument.
-/

namespace Verif.Beam
open Verif.Convolve Verif.Conversions Verif.Constants

inductive Err where
  | value | index | attribute | nan
  deriving DecidableEq

/-- The argument `beam_func`, in any case. -/
inductive BeamFunc where
  | step | gaussian | bessel | sigmoid | other
  deriving DecidableEq

/-- `primary_beam_null` (`primary_beam.py` lines 52-60), `D` in m. -/
noncomputable def beamNull (k : Const) (z D : ℝ) : ℝ := cdist k z * nu_to_wavel (z_to_nu z) / D * (122 / 100)

/-- `rr` (`primary_beam.py` lines 74-75). -/
noncomputable def radius (n : ℕ) (L : ℝ) (i : Fin 2 → ℤ) : ℝ :=
  Real.sqrt (((-((n : ℝ) / 2) + i 0) * L / n) ^ 2 + ((-((n : ℝ) / 2) + i 1) * L / n) ^ 2)

open Classical in
/-- The beam before the division by its maximum (`primary_beam.py` lines 77-102), at the distance `r`.  In `rr**2**0.5`
the right power is taken first. -/
noncomputable def rawBeam (j1 : ℝ → ℝ) (f : BeamFunc) (null r : ℝ) : ℝ :=
  match f with
  | .step => if r ≤ null / 2 then 1 else 0
  | .gaussian => Real.exp (-r ^ 2 / (2 * (null / (1186 / 1000) / (2355 / 1000)) ^ 2))
  | .bessel => if r = 0 then 1 else (2 * j1 (38317 / 10000 / null * r) / (38317 / 10000 / null * r)) ^ 2
  | .sigmoid => 1 - 1 / (1 + Real.exp (1 / 2 * (null / 2) - 1 / 2 * r ^ ((2 : ℝ) ^ (1 / 2 : ℝ))))
  | .other => 0

open Classical in
/-- `circular_beam` (`primary_beam.py` lines 62-104), for the resolved `l_null` and `boxsize`. -/
noncomputable def circularBeam (j1 : ℝ → ℝ) (f : BeamFunc) (n : ℕ) (null L : ℝ) : Except Err (Arr (Fin 2) ℝ) :=
  if f = .other then .error .value
  else if h : (box fun _ : Fin 2 => n).Nonempty then
    let m := (box fun _ : Fin 2 => n).sup' h fun i => rawBeam j1 f null (radius n L i)
    if m = 0 then .error .nan else .ok ⟨fun _ => n, fun i => rawBeam j1 f null (radius n L i) / m⟩
  else .error .value

/-- `primary_beam` of a 2-D array (`primary_beam.py` lines 38-39).  Shapes which differ are an error here; numpy repeats
a beam of one cell, or columns if the second length is one. -/
noncomputable def primary2 (k : Const) (j1 : ℝ → ℝ) (a : Arr (Fin 2) ℝ) (z : ℝ) (f : BeamFunc) (L D : ℝ)
    (_null : Option ℝ) : Except Err (Arr (Fin 2) ℝ) :=
  match circularBeam j1 f (a.shape 0) (beamNull k z D) L with
  | .error e => .error e
  | .ok b => if a.shape = fun _ => a.shape 0 then .ok ⟨a.shape, fun x => a.val x * b.val x⟩ else .error .value

/-- The argument `z`: a number, a numpy array, a Python list. -/
inductive ZArg where
  | one (z : ℝ)
  | array (l : List ℝ)
  | list (l : List ℝ)

/-- The redshifts of the slices (`primary_beam.py` lines 43-45), `m` being the number of slices. -/
def ZArg.slices (m : ℕ) : ZArg → Except Err (List ℝ)
  | .one z => .ok (List.replicate m z)
  | .array l => match l with
    | [z] => .ok (List.replicate m z)
    | l => .ok l
  -- a list has no attribute `size`
  | .list l => match l with
    | [z] => .ok (List.replicate m z)
    | _ => .error .attribute

/-- The shape or index `s` with the axes `ν` and 2 swapped. -/
def swapped {α : Type} (ν : Fin 3) (s : Fin 3 → α) : Fin 3 → α := fun j => s (Equiv.swap ν 2 j)

/-- The assignment to `beam[:,:,i]` (`primary_beam.py` lines 37 and 46) for an array of shape `s` (before the axes are
swapped) and `n` cells along the first axis (after it). -/
noncomputable def sliceBeam (k : Const) (j1 : ℝ → ℝ) (s : Fin 3 → ℕ) (n : ℕ) (zs : List ℝ) (f : BeamFunc) (L D : ℝ)
    (null : Option ℝ) (i : ℕ) : Except Err (Arr (Fin 2) ℝ) :=
  match circularBeam j1 f n (null.getD (beamNull k (zs.getD i 0) D)) L with
  | .error e => .error e
  | .ok b =>
    if s 2 ≤ i then .error .index
    else if s 0 = n ∧ s 1 = n then .ok b else .error .value

/-- `primary_beam` of a 3-D array (`primary_beam.py` lines 34-50): the array `beam` has the shape before the axes are
swapped.  Shapes which differ are an error here; numpy repeats axes of length one. -/
noncomputable def primary3 (k : Const) (j1 : ℝ → ℝ) (a : Arr (Fin 3) ℝ) (z : ZArg) (ν : Fin 3) (f : BeamFunc) (L D : ℝ)
    (null : Option ℝ) : Except Err (Arr (Fin 3) ℝ) :=
  match z.slices (swapped ν a.shape 2) with
  | .error e => .error e
  | .ok zs =>
    match (List.range zs.length).mapM (sliceBeam k j1 a.shape (swapped ν a.shape 0) zs f L D null) with
    | .error e => .error e
    | .ok l =>
      if swapped ν a.shape = a.shape then
        .ok ⟨a.shape, fun x => a.val x * ((l[(x ν).toNat]?).map fun b =>
          b.val ![swapped ν x 0, swapped ν x 1]).getD 0⟩
      else .error .value

end Verif.Beam
