import Mathlib.Data.Rat.Defs
import Mathlib.Data.Int.Notation
/-!
# Model of `model_21cmfast.py`

The library `py21cmfast` is a parameter: `none` if it cannot be imported.  Redshifts are rationals.  Printing and timing are left out.
-/

namespace Verif.Fast21cm

/-- `TypeError`, or an exception of the library. -/
inductive Err (E : Type) where
  | type
  | library (e : E)

/-- The argument `redshift`.  `scalar` is a NumPy number that is no instance of `int` or `float` (`np.int64`, `np.float32`). -/
inductive Redshift where
  | int (n : ℤ)
  | float (z : ℚ)
  | scalar (z : ℚ)
  | list (l : List ℚ)
  | array (l : List ℚ)

/-- The keyword arguments of `run_21cmfast_init` that reach the library (`model_21cmfast.py` lines 13-19 and 25-32); dictionaries are values of type `P`, further
keywords of type `K`. -/
structure InitArgs (P K : Type) where
  user : P
  cosmo : P
  write : Bool
  direc : Option String
  seed : ℤ
  regenerate : Bool
  kw : K

/-- The keyword arguments of `run_21cmfast_coeval` (lines 69-82). -/
structure RunArgs (P K B F : Type) where
  user : P
  cosmo : P
  astro : P
  flags : P
  regenerate : Bool
  write : Bool
  direc : Option String
  initBox : Option B
  perturb : Option F
  interp : Bool
  halos : Bool
  seed : ℤ
  kw : K

/-- What `run_coeval` of the library returns: a list for a list of redshifts, one box for a number. -/
inductive Answer (V : Type) where
  | many (l : List V)
  | one (v : V)

/-- `py21cmfast`. -/
structure Lib (P K B F V E : Type) where
  initial : InitArgs P K → Except E B
  perturbField : ℚ → B → K → Except E F
  coeval : Redshift → RunArgs P K B F → Except E (Answer V)

variable {P K B F V E : Type}

/-- A Python dictionary: keys in the order of their insertion. -/
abbrev Dict (V : Type) := List (ℚ × V)

/-- `d[k] = v`. -/
def Dict.set (d : Dict V) (k : ℚ) (v : V) : Dict V :=
  if d.any fun p => p.1 == k then d.map fun p => if p.1 = k then (k, v) else p else d ++ [(k, v)]

/-- `run_21cmfast_init` (lines 12-34). -/
def runInit (lib : Option (Lib P K B F V E)) (a : InitArgs P K) : Except (Err E) (Option B) :=
  match lib with
  | none => .ok none
  | some p =>
    match p.initial a with
    | .error e => .error (.library e)
    | .ok b => .ok (some b)

/-- The dictionary of line 65, after the entries `d`. -/
def fields (p : Lib P K B F V E) (b : B) (kw : K) : Dict F → List ℚ → Except (Err E) (Dict F)
  | d, [] => .ok d
  | d, z :: zs =>
    match p.perturbField z b kw with
    | .error e => .error (.library e)
    | .ok f => fields p b kw (Dict.set d z f) zs

/-- Lines 49-58: the initial conditions are made unless they are given. -/
def initialBox (p : Lib P K B F V E) (a : InitArgs P K) : Option B → Except E B
  | none => p.initial a
  | some b => .ok b

/-- `run_21cmfast_matter` (lines 36-66); a number cannot be enumerated (line 65). -/
def runMatter (lib : Option (Lib P K B F V E)) (redshift : Redshift) (initBox : Option B) (a : InitArgs P K) : Except (Err E) (Option (Dict F)) :=
  match lib with
  | none => .ok none
  | some p =>
    match initialBox p a initBox with
    | .error e => .error (.library e)
    | .ok b =>
      match redshift with
      | .int _ => .error .type
      | .float _ => .error .type
      | .scalar _ => .error .type
      | .list l => (fields p b a.kw [] l).map some
      | .array l => (fields p b a.kw [] l).map some

/-- Lines 86-87. -/
def normalise : Redshift → Redshift
  | .int n => .list [(n : ℚ)]
  | .float z => .list [z]
  | .array l => .list l
  | r => r

/-- The dictionary of line 104; there is a box for every redshift, else an IndexError, which the library's answer excludes. -/
def gather : List ℚ → List V → Dict V → Dict V
  | z :: zs, v :: vs, d => gather zs vs (Dict.set d z v)
  | _, _, d => d

/-- `run_21cmfast_coeval` (lines 68-105). -/
def runCoeval (lib : Option (Lib P K B F V E)) (redshift : Redshift) (a : RunArgs P K B F) : Except (Err E) (Option (Dict V)) :=
  match lib with
  | none => .ok none
  | some p =>
    match p.coeval (normalise redshift) a with
    | .error e => .error (.library e)
    | .ok c =>
      match normalise redshift, c with
      | .list l, .many vs => .ok (some (gather l vs []))
      | _, _ => .error .type

end Verif.Fast21cm
