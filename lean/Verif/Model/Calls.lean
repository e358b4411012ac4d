import Verif.Model.Ident
/-!
# Model of calls: how Python binds arguments to parameters

The signatures and calls of the package are in `Model/CallsTable.lean`.
-/

namespace Verif.Calls

/-- A signature: the parameters, how many of the first ones have no default, and whether there are `*args` and `**kwargs`. -/
structure Sig where
  params : List Ident
  required : Nat
  varargs : Bool
  kwargs : Bool

/-- A call: who calls, what is called, the number of positional arguments and the keywords. -/
structure Call where
  caller : Ident
  target : Ident
  pos : Nat
  kws : List Ident
  deriving DecidableEq

/-- What a parameter receives. -/
inductive Arg
  | position (i : Nat)
  | keyword (k : Ident)
  | default
  deriving DecidableEq

/-- The TypeErrors: too many positional arguments, more than one value for a parameter, an unexpected keyword, and a missing argument. -/
inductive Err
  | tooMany | multiple | unexpected | missing
  deriving DecidableEq

/-- The rules of Python for binding the arguments of a call (the functions concerned are in all modules, for instance `power_spectrum.py` lines 481-502 and the
call in `power_legendre.py` line 47). -/
def bind (s : Sig) (pos : Nat) (kws : List Ident) : Except Err (List (Ident × Arg)) :=
  if s.params.length < pos && !s.varargs then .error .tooMany
  else if kws.any fun k => (s.params.take pos).contains k then .error .multiple
  else if kws.any fun k => !s.params.contains k && !s.kwargs then .error .unexpected
  else if ((s.params.take s.required).drop pos).any fun p => !kws.contains p then .error .missing
  else .ok (s.params.mapIdx fun i p => (p, if i < pos then .position i else if kws.contains p then .keyword p else .default))

end Verif.Calls
