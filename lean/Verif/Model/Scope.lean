import Mathlib.Data.List.Basic
/-!
# Names of variables in a call of a python function

The rule of python: a name that is a parameter or is assigned to anywhere in the body of a function is local to it; reading it before it has
a value raises `UnboundLocalError`.  Other names are looked up in the module, and reading one that is not there raises `NameError`.
-/

namespace Verif.Scope

/-- The exceptions of reading a name. -/
inductive Err
  | unbound | name
  deriving DecidableEq

/-- A call: the names local to the function, the values they have so far, and the names of the module. -/
structure Frame (V : Type) where
  locals : List String
  vals : List (String × V)
  module : List (String × V)

/-- The value of a name in a list of names with values. -/
def value {V : Type} (l : List (String × V)) (x : String) : Option V := (l.find? fun p => p.1 == x).map Prod.snd

/-- Reading a name. -/
def Frame.read {V : Type} (f : Frame V) (x : String) : Except Err V :=
  match (if x ∈ f.locals then value f.vals x else value f.module x) with
  | some v => .ok v
  | none => .error (if x ∈ f.locals then .unbound else .name)

/-- Assigning to a name. -/
def Frame.assign {V : Type} (f : Frame V) (x : String) (v : V) : Frame V := { f with vals := (x, v) :: f.vals }

end Verif.Scope
