import Verif.Model.Constants
/-!
# Model of the constants as attributes of the package

`from .conv import *` and `from .const import *` (`__init__.py` lines 24-25) copy the values which the names of these modules have at the import.  Numbers are
copied; a function is copied as an object, which reads the names of its module when it is called.  Both the modules themselves and their names are attributes of
the package.
-/

namespace Verif.PackageValues
open Verif.Constants

/-- The numbers of `const.py` and `conv.py` that the setters assign, or that follow from these. -/
inductive Name
  | abuHeMass | abuHMass | h | omega0 | omegaB | lam | omegaL | ns | sigma8 | q0 | H0 | H0cgs | rhoCrit0 | rhoMatter
  | boxsize | LB | nboxFine | mBox | mGrid | lscale | tscale
  deriving DecidableEq

/-- The value of a name in the modules `const` and `conv`. -/
def moduleValue (s : State) : Name → ℚ
  | .abuHeMass => s.const.abuHeMass
  | .abuHMass => s.const.abuHMass
  | .h => s.const.h
  | .omega0 => s.const.omega0
  | .omegaB => s.const.omegaB
  | .lam => s.const.lam
  | .omegaL => s.const.omegaL
  | .ns => s.const.ns
  | .sigma8 => s.const.sigma8
  | .q0 => s.const.q0
  | .H0 => s.const.H0
  | .H0cgs => s.const.H0cgs
  | .rhoCrit0 => s.const.rhoCrit0
  | .rhoMatter => s.const.rhoMatter
  | .boxsize => s.conv.boxsize
  | .LB => s.conv.LB
  | .nboxFine => s.conv.nboxFine
  | .mBox => s.conv.mBox
  | .mGrid => s.conv.mGrid
  | .lscale => s.conv.lscale
  | .tscale => s.conv.tscale

/-- The package: the modules, and the numbers copied at the import. -/
structure Package where
  modules : State
  copies : Name → ℚ

/-- Importing the package (`__init__.py` lines 24-25). -/
def Package.init (pi : ℚ) (sqrt : ℚ → ℚ) : Package := ⟨State.init pi sqrt, moduleValue (State.init pi sqrt)⟩

/-- A call of a setter: `global` names are those of the module of the function. -/
def Package.step (sqrt : ℚ → ℚ) (p : Package) (o : Op) : Package := ⟨(p.modules.step sqrt o).1, p.copies⟩

/-- A history of calls of setters, exceptions being caught. -/
def Package.run (sqrt : ℚ → ℚ) (p : Package) (ops : List Op) : Package := ops.foldl (Package.step sqrt) p

/-- A number as an attribute of the package, `t2c.h`. -/
def Package.attr (p : Package) (n : Name) : ℚ := p.copies n

/-- `t2c.Hz(z)` (`const.py` line 102). -/
def Package.hz (sqrt : ℚ → ℚ) (p : Package) (z : ℚ) : ℚ :=
  p.modules.const.H0 * sqrt (p.modules.const.omega0 * (1 + z) ^ 3 + p.modules.const.lam)

/-- `t2c.velconvert(z)` (`conv.py` lines 20 and 67): `set_sim_constants` binds the name of the module to a new function, of which the package keeps the first;
both read the names of the module. -/
def Package.velconvert (p : Package) (z : ℚ) : ℚ := p.modules.conv.lscale / p.modules.conv.tscale * (1 + z) / 10 ^ 5

/-- `t2c.gridvel_to_kms(v, z)` (`conv.py` lines 83-94). -/
def Package.gridvelToKms (p : Package) (v z : ℚ) : ℚ := v * p.velconvert z

/-- `t2c.gridpos_to_mpc(x)` (`conv.py` lines 70-80). -/
def Package.gridposToMpc (p : Package) (x : ℚ) : ℚ := x * p.modules.conv.lscale / mpc

/-- `t2c.gridmass_to_msol(m)` (`conv.py` lines 97-107) with the logarithm as an argument. -/
def Package.gridmassToMsol (log10 : ℚ → ℚ) (p : Package) (m : ℚ) : ℚ := log10 (m * p.modules.conv.mGrid * (502785431 / 10 ^ 42))

end Verif.PackageValues
