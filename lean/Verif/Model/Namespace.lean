import Verif.Model.Ident
/-!
# Model of the names of the package

What `import tools21cm as t2c` makes available (`__init__.py`): the modules run one after the other, `from .m import *` copies the public names of a module, and
a later binding of a name replaces an earlier one.  The statements themselves are in `Model/NamespaceTable.lean`.
-/

namespace Verif.Namespace

/-- What a name refers to: a definition of a module of the package, something of another library, or a module of the package. -/
inductive Origin
  | here (module : Ident)
  | external (library : Ident)
  | submodule (module : Ident)
  deriving DecidableEq

/-- A statement at the top level of a module: a function or class, an assignment, an import from another library, `from . import module as name`,
`from .module import name as other`, and `from .module import *`. -/
inductive Stmt
  | define (name : Ident)
  | assign (name : Ident)
  | bring (name library : Ident)
  | sub (name module : Ident)
  | take (module name other : Ident)
  | star (module : Ident)
  deriving DecidableEq

/-- Names and what they refer to, the latest binding first. -/
abbrev Scope := List (Ident × Origin)

/-- A name without a leading underscore; without `__all__` only these are copied by `import *`.  No module of the package has `__all__`. -/
def isPublic (name : Ident) : Bool := name % 256 != n!"_"

/-- One statement of the module `m`, where `env` has the modules that have run; `none` stands for an ImportError. -/
def exec (env : List (Ident × Scope)) (m : Ident) (s : Scope) : Stmt → Option Scope
  | .define n => some ((n, .here m) :: s)
  | .assign n => some ((n, .here m) :: s)
  | .bring n lib => some ((n, .external lib) :: s)
  | .sub n k => some ((n, .submodule k) :: s)
  | .take k n other =>
    match env.lookup k with
    | none => none
    | some t =>
      match t.lookup n with
      | none => none
      | some o => some ((other, o) :: s)
  | .star k =>
    match env.lookup k with
    | none => none
    | some t => some (t.filter (fun e => isPublic e.1) ++ s)

/-- The statements of a module. -/
def execAll (env : List (Ident × Scope)) (m : Ident) : Scope → List Stmt → Option Scope
  | s, [] => some s
  | s, c :: cs =>
    match exec env m s c with
    | none => none
    | some s' => execAll env m s' cs

/-- The modules of the package, in an order in which each one comes after those that it imports. -/
def runModules : List (Ident × Scope) → List (Ident × List Stmt) → Option (List (Ident × Scope))
  | env, [] => some env
  | env, (m, body) :: ms =>
    match execAll env m [] body with
    | none => none
    | some s => runModules ((m, s) :: env) ms

/-- The names of the package after `__init__.py` has run.  That loading a module also binds its name in the package is left out: the functions
`beam_convolve`, `primary_beam` and `tau` are bound after the modules of the same names. -/
def package (ms : List (Ident × List Stmt)) (init : List Stmt) : Option Scope :=
  match runModules [] ms with
  | none => none
  | some env => execAll env n!"__init__" [] init

/-- What a function of the module `m` finds under a global name when it is called: the scope of the module, then the builtins (`none` is a
NameError). -/
def resolves (env : List (Ident × Scope)) (builtins : List Ident) (m name : Ident) : Bool :=
  match env.lookup m with
  | none => false
  | some s => (s.lookup name).isSome || builtins.contains name

end Verif.Namespace
