import Verif.Model.Ident

/-!
# Local variables of the functions of the package

A name that a Python function assigns anywhere in its body is local in all of it, and reading it before it has a value raises `UnboundLocalError`.  Here are the statements of
the function bodies of `src/tools21cm` (for example `read_files.py` lines 37-63) as far as they concern local variables, and the check "every read comes after an assignment on
every path".  The local variables of a function are numbered, its parameters first; sets of them are numbers whose binary digits tell the members.

Simplifications: the values and the conditions are left out, so a branch may be taken either way, a loop may run any number of times, and every statement may raise.  The
bodies of lambdas and nested functions run later and are not part of the statement that makes them (nested functions have entries of their own, for their own variables); the
reads of a comprehension (outside its own variables) and of all parts of a boolean or conditional expression count as reads of the statement.
-/

namespace Verif.Locals

/-- The statements of a function body (for example those of `read_files.py` lines 53-63, `ViteBetti.py` lines 190-209). -/
inductive Stmt where
  /-- nothing -/
  | skip
  /-- an expression that reads these variables -/
  | read (vars : Nat)
  /-- an assignment, import, definition or loop variable -/
  | write (vars : Nat)
  /-- `del` -/
  | del (vars : Nat)
  /-- `return`, with a value or not (or with `None`) -/
  | ret (value : Bool)
  /-- `raise` -/
  | throw
  | brk
  | cont
  /-- one after the other -/
  | seq (first second : Stmt)
  /-- `if` -/
  | either (yes no : Stmt)
  /-- `for` and `while`: the body any number of times, then the `else` branch -/
  | loop (body orelse : Stmt)
  /-- `while True` -/
  | forever (body : Stmt)
  /-- `try`, `except`, `else` -/
  | attempt (body handler orelse : Stmt)
  /-- `try`, `finally` -/
  | cleanup (body final : Stmt)

/-- Statements one after the other (for example `read_files.py` lines 33-35). -/
def block : List Stmt → Stmt
  | [] => .skip
  | [s] => s
  | s :: t => .seq s (block t)

/-- The variables that a statement may delete (for example `power_spectrum.py` line 225). -/
def kill : Stmt → Nat
  | .skip | .read _ | .write _ | .ret _ | .throw | .brk | .cont => 0
  | .del v => v
  | .seq a b | .either a b | .loop a b | .cleanup a b => kill a ||| kill b
  | .forever a => kill a
  | .attempt a b c => kill a ||| kill b ||| kill c

/-- The first set without the second (used for `del`, for example `lightcone.py` line 253). -/
def without (a b : Nat) : Nat := a ^^^ (a &&& b)

/-- What is known after a statement: the variables that surely have a value where it ends normally and where it breaks out of the loop around it; `none` if it never does
(for example after the `return` of `read_files.py` line 63). -/
structure Known where
  norm : Option Nat
  brk : Option Nat

/-- What is known where two paths join (for example `read_files.py` line 63, after the branches of lines 54-62). -/
def meet : Option Nat → Option Nat → Option Nat
  | none, b => b
  | a, none => a
  | some a, some b => some (a &&& b)

/-- The check of a statement that starts with values for `m` at least; `none` if some read may find no value (the rule of the Python language applied to bodies like those of
`read_files.py` lines 53-63). -/
def check : Stmt → Nat → Option Known
  | .skip, m => some ⟨some m, none⟩
  | .read v, m => if v &&& m = v then some ⟨some m, none⟩ else none
  | .write v, m => some ⟨some (m ||| v), none⟩
  | .del v, m => if v &&& m = v then some ⟨some (without m v), none⟩ else none
  | .ret _, _ | .throw, _ | .cont, _ => some ⟨none, none⟩
  | .brk, m => some ⟨none, some m⟩
  | .seq a b, m =>
    (check a m).bind fun ka =>
      match ka.norm with
      | none => some ka
      | some m' => (check b m').bind fun kb => some ⟨kb.norm, meet ka.brk kb.brk⟩
  | .either a b, m =>
    (check a m).bind fun ka => (check b m).bind fun kb => some ⟨meet ka.norm kb.norm, meet ka.brk kb.brk⟩
  | .loop a b, m =>
    (check a (without m (kill a))).bind fun ka => (check b (without m (kill a))).bind fun kb => some ⟨meet ka.brk kb.norm, kb.brk⟩
  | .forever a, m => (check a (without m (kill a))).bind fun ka => some ⟨ka.brk, none⟩
  | .attempt a h b, m =>
    (check a m).bind fun ka => (check h (without m (kill a))).bind fun kh =>
      match ka.norm with
      | none => some ⟨kh.norm, meet ka.brk kh.brk⟩
      | some m' => (check b m').bind fun kb => some ⟨meet kb.norm kh.norm, meet ka.brk (meet kb.brk kh.brk)⟩
  | .cleanup a f, m =>
    (check a m).bind fun ka => (check f (without m (kill a))).bind fun kf =>
      match ka.norm with
      | none => some ⟨none, meet (ka.brk.bind fun _ => kf.norm) kf.brk⟩
      | some m' => (check f m').bind fun kn => some ⟨kn.norm, meet (ka.brk.bind fun _ => kf.norm) (meet kf.brk kn.brk)⟩

/-- A function of the package: its name, its number of parameters (the variables 0, 1, ...), its body (for example `read_files.py` lines 37-63). -/
structure Fn where
  name : Ident
  params : Nat
  body : Stmt

/-- The check of a function, which starts with values for its parameters only (for example `read_files.py` line 37). -/
def Fn.ok (f : Fn) : Bool := (check f.body (2 ^ f.params - 1)).isSome

end Verif.Locals
