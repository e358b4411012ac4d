import Mathlib.Data.Rat.Defs
import Mathlib.Algebra.Order.Ring.Rat
/-!
# Model of the module state of `const.py` and `conv.py`

Module globals are record fields.  Floating point numbers are exact rationals.  `π` and the
square root are parameters (`pi`, `sqrt`), no property depends on their values.
-/

namespace Verif.Constants

/-- The globals of `const.py` that the setters and their users touch
(lines 24-29 helium, 37-44 and 95-98 cosmology). -/
structure Const where
  abuHeMass : ℚ
  abuHMass : ℚ
  h : ℚ
  omega0 : ℚ
  omegaB : ℚ
  lam : ℚ
  omegaL : ℚ
  ns : ℚ
  sigma8 : ℚ
  q0 : ℚ
  H0 : ℚ
  H0cgs : ℚ
  rhoCrit0 : ℚ
  rhoMatter : ℚ

/-- `Mpc = 1e6*pc`, `pc = 3.086e18` (`const.py` lines 13-14). -/
def mpc : ℚ := 10 ^ 6 * (3086 * 10 ^ 15)

/-- `G_grav = 6.6732e-8` (`const.py` line 15). -/
def gGrav : ℚ := 66732 / 10 ^ 12

/-- `H0cgs = H0*1e5/Mpc` (`const.py` line 96). -/
def H0cgsOf (H0 : ℚ) : ℚ := H0 * 10 ^ 5 / mpc

/-- `rho_crit_0 = 3.0*H0cgs*H0cgs/(8.0*np.pi*G_grav)` (`const.py` line 97). -/
def rhoCritOf (pi H0cgs : ℚ) : ℚ := 3 * H0cgs * H0cgs / (8 * pi * gGrav)

/-- Importing `const.py` (lines 9-98). -/
def Const.init (pi : ℚ) : Const :=
  let h : ℚ := 7 / 10
  let omega0 : ℚ := 27 / 100
  let lam := 1 - omega0
  let H0 := 100 * h
  let H0cgs := H0cgsOf H0
  let rhoCrit0 := rhoCritOf pi H0cgs
  { abuHeMass := 2486 / 10000, abuHMass := 1 - 2486 / 10000, h := h, omega0 := omega0,
    omegaB := 44 / 1000, lam := lam, omegaL := lam, ns := 96 / 100, sigma8 := 8 / 10,
    q0 := omega0 / 2 - lam, H0 := H0, H0cgs := H0cgs, rhoCrit0 := rhoCrit0,
    rhoMatter := rhoCrit0 * omega0 }

/-- The setters of `const.py`. -/
inductive ConstOp where
  | hubble (v : ℚ)
  | omegaMatter (v : ℚ)
  | omegaBaryon (v : ℚ)
  | omegaLambda (v : ℚ)
  | ns (v : ℚ)
  | sigma8 (v : ℚ)
  | helium (v : ℚ)

/-- One call of a setter.  `set_omega_lambda` (lines 72-78) declares only `lam` global, so
its assignment to `OmegaL` is local and lost. -/
def Const.step (c : Const) : ConstOp → Const
  | .hubble v => { c with h := v, H0 := 100 * v }                                  -- lines 47-53
  | .omegaMatter v => { c with omega0 := v, lam := 1 - v, q0 := v / 2 - (1 - v) }   -- lines 55-62
  | .omegaBaryon v => { c with omegaB := v }                                       -- lines 65-70
  | .omegaLambda v => { c with lam := v }                                          -- lines 72-78
  | .ns v => { c with ns := v }                                                    -- lines 80-85
  | .sigma8 v => { c with sigma8 := v }                                            -- lines 87-92
  | .helium v => { c with abuHeMass := v, abuHMass := 1 - v }                      -- lines 26-29

/-- The globals of `conv.py` (lines 10-20). -/
structure Conv where
  boxsize : ℚ
  LB : ℚ
  nboxFine : ℕ
  mBox : ℚ
  mGrid : ℚ
  lscale : ℚ
  tscale : ℚ

/-- `flt_comp(x, y)` (`helper_functions.py` lines 139-141). -/
def fltComp (x y : ℚ) : Bool := decide (|x - y| < 1 / 10000)

/-- The `elif` chain of `set_sim_constants` (`conv.py` lines 36-61); `none` is the final
`raise`. -/
def fineMesh (b : ℚ) : Option ℕ :=
  if fltComp b 425 then some 10976
  else if fltComp b 114 then some 6144
  else if fltComp b 64 then some 3456
  else if fltComp b 37 then some 2048
  else if fltComp b 500 then some 13824
  else if fltComp b 244 then some 8000
  else if fltComp b 47 then some 3456
  else if fltComp b 200 then some 3456
  else none

/-- The last five assignments (`conv.py` lines 63-67), given `boxsize`, `LB`, `nbox_fine`. -/
def Conv.derive (sqrt : ℚ → ℚ) (c : Const) (b LB : ℚ) (n : ℕ) : Conv :=
  let mBox := c.rhoMatter * (LB * mpc) ^ 3
  { boxsize := b, LB := LB, nboxFine := n, mBox := mBox, mGrid := mBox / (n : ℚ) ^ 3,
    lscale := LB / n * mpc, tscale := 2 / (3 * sqrt c.omega0 * c.H0 / mpc * 10 ^ 5) }

/-- State of both modules. -/
structure State where
  const : Const
  conv : Conv

/-- Importing the package. -/
def State.init (pi : ℚ) (sqrt : ℚ → ℚ) : State :=
  let c := Const.init pi
  ⟨c, Conv.derive sqrt c 244 (244 / c.h) 8000⟩

/-- A call by the user. -/
inductive Op where
  | const (o : ConstOp)
  | simConstants (b : ℚ)

/-- `set_sim_constants` (`conv.py` lines 22-67): `boxsize` and `LB` are assigned before the box
size is validated; `LB = boxsize/const.h` (line 35) raises when `h` is 0. -/
def setSim (sqrt : ℚ → ℚ) (s : State) (b : ℚ) : State × Except String Unit :=
  if s.const.h = 0 then (⟨s.const, { s.conv with boxsize := b }⟩, .error "ZeroDivisionError")
  else
    let conv := { s.conv with boxsize := b, LB := b / s.const.h }
    match fineMesh b with
    | none => (⟨s.const, conv⟩, .error "Invalid boxsize")
    | some n => (⟨s.const, Conv.derive sqrt s.const conv.boxsize conv.LB n⟩, .ok ())

/-- One user call; the exception (if any) is returned next to the state it leaves behind. -/
def State.step (sqrt : ℚ → ℚ) (s : State) : Op → State × Except String Unit
  | .const o => (⟨s.const.step o, s.conv⟩, .ok ())
  | .simConstants b => setSim sqrt s b

/-- A history of calls, the caller catching exceptions. -/
def State.run (sqrt : ℚ → ℚ) (s : State) (ops : List Op) : State :=
  ops.foldl (fun s o => (s.step sqrt o).1) s

/-- `gridpos_to_mpc` (`conv.py` line 80). -/
def gridposToMpc (c : Conv) (x : ℚ) : ℚ := x * c.lscale / mpc

end Verif.Constants
