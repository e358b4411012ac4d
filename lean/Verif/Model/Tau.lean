import Verif.Model.Conversions
/-!
# Model of `tau.py`: optical depth to Thomson scattering

Floating point numbers are exact reals.  `np.argsort` is a parameter, because its order of
equal entries is not specified.  Inputs are NumPy arrays.
-/

namespace Verif.Tau

open Verif.Constants Verif.Conversions

/-- `const.abu_he` (`const.py` line 9). -/
noncomputable def abuHe : ℝ := 74 / 1000

/-- `const.mean_molecular`, evaluated once at import (`const.py` line 31). -/
noncomputable def meanMolecular : ℝ := 1 / (1 - 2486 / 10000)

/-- `const.m_p` (`const.py` line 22). -/
noncomputable def protonMass : ℝ := 1672661 / 10 ^ 30

/-- `coeff` (`tau.py` lines 46-49 and 117-120), with `sigma_T = 6.65e-25`. -/
noncomputable def coeff (k : Const) : ℝ :=
  2 * (c * 10 ^ 5) * (665 / 10 ^ 27) * k.omegaB / k.omega0 * k.rhoCrit0 *
    (1 + abuHe) / meanMolecular / protonMass / (3 * k.H0cgs)

/-- `np.sqrt(const.Omega0*(1+z)**3+const.lam)`. -/
noncomputable def rate (k : Const) (z : ℝ) : ℝ := Real.sqrt (k.omega0 * (1 + z) ^ 3 + k.lam)

/-- `l[i]`, where negative indices count from the end. -/
noncomputable def get (l : List ℝ) (i : ℤ) : ℝ :=
  l.getD (if i < 0 then (l.length + i).toNat else i.toNat) 0

/-- Values of a fully ionised universe at the first points (`tau.py` lines 56 and 126). -/
noncomputable def start (k : Const) (tauZ : List ℝ) (N : ℕ) : List ℝ :=
  (tauZ.take N).map fun z => coeff k * (rate k z - 1)

/-- `tau0[i]` from `tau0[i-1]` (`tau.py` lines 58-62). -/
noncomputable def step (k : Const) (ion tauZ : List ℝ) (N i : ℕ) (prev : ℝ) : ℝ :=
  prev + 3 / 2 * coeff k * k.omega0 *
    (get ion ((i : ℤ) - 1 - N) * (1 + get tauZ ((i : ℤ) - 1)) ^ 2 / rate k (get tauZ ((i : ℤ) - 1)) +
      get ion ((i : ℤ) - N) * (1 + get tauZ i) ^ 2 / rate k (get tauZ i)) *
    (get tauZ i - get tauZ ((i : ℤ) - 1)) / 2

/-- `tau0` after `j` rounds of the loop (`tau.py` lines 53-62). -/
noncomputable def fill (k : Const) (ion tauZ : List ℝ) (N n : ℕ) : ℕ → List ℝ
  | 0 => start k tauZ N ++ List.replicate n 0
  | j + 1 =>
    let t := fill k ion tauZ N n j
    t.set (N + j) (step k ion tauZ N (N + j) (get t ((N : ℤ) + j - 1)))

/-- `tau_z` for sorted redshifts `zs` with first entry `z0` (`tau.py` line 51). -/
noncomputable def tauZ (N : ℕ) (z0 : ℝ) (zs : List ℝ) : List ℝ :=
  ((List.range N).map fun (i : ℕ) => ((i : ℝ) + 1) / N * z0) ++ zs

/-- `a[np.argsort(redshifts)]`, given the indices. -/
noncomputable def take (o : List ℕ) (a : List ℝ) : List ℝ := o.map fun i => a.getD i 0

/-- `tau` (`tau.py` lines 6-64). -/
noncomputable def tau (argsort : List ℝ → List ℕ) (k : Const) (ion zs : List ℝ) (N : ℕ) :
    Except String (List ℝ × List ℝ) :=
  if ion.length ≠ zs.length then .error "Incorrect length of ionfractions"
  else
    let ion' := take (argsort zs) ion
    let zs' := take (argsort zs) zs
    match zs' with
    | [] => .error "IndexError"
    | z0 :: _ => .ok (fill k ion' (tauZ N z0 zs') N zs'.length zs'.length, tauZ N z0 zs')

/-- A lightcone: `depth` is its length along the last axis, `ι` are the lines of sight. -/
structure Cone (ι : Type*) where
  depth : ℕ
  val : ι → ℕ → ℝ

/-- `lightcone[:,:,i]` on one line of sight, negative `i` from the end. -/
noncomputable def Cone.get {ι : Type*} (lc : Cone ι) (l : ι) (i : ℤ) : ℝ :=
  lc.val l (if i < 0 then (lc.depth + i).toNat else i.toNat)

/-- `np.linspace(a, b, n)`. -/
noncomputable def linspace (a b : ℝ) (n : ℕ) : List ℝ :=
  if n = 1 then [a] else (List.range n).map fun (i : ℕ) => a + i * ((b - a) / ((n : ℝ) - 1))

/-- `tau_z` of `tau_map` (`tau.py` line 122). -/
noncomputable def mapZ (N : ℕ) (z0 : ℝ) (zs : List ℝ) : List ℝ := linspace (z0 / N) z0 N ++ zs

/-- One round of the loop of `tau_map` on one line of sight (`tau.py` lines 129-138). -/
noncomputable def mapStep {ι : Type*} (k : Const) (lc : Cone ι) (l : ι) (tz : List ℝ) (N i : ℕ)
    (prev : ℝ) : ℝ :=
  let zPrev := get tz ((i : ℤ) - 1)
  let zCurr := get tz i
  let xPrev := lc.get l ((i : ℤ) - N - 1)
  let xCurr := lc.get l ((i : ℤ) - N)
  let fPrev := xPrev * (1 + zPrev) ^ 2 / rate k zPrev
  let fCurr := xCurr * (1 + zCurr) ^ 2 / rate k zCurr
  let delta := 3 / 2 * coeff k * k.omega0 * (fPrev + fCurr) * (zCurr - zPrev) / 2
  prev + delta

/-- `tau_0[x, y, :]` after `j` rounds (`tau.py` lines 123-138). -/
noncomputable def mapFill {ι : Type*} (k : Const) (lc : Cone ι) (l : ι) (tz : List ℝ) (N n : ℕ) :
    ℕ → List ℝ
  | 0 => start k tz N ++ List.replicate n 0
  | j + 1 =>
    let t := mapFill k lc l tz N n j
    t.set (N + j) (mapStep k lc l tz N (N + j) (get t ((N : ℤ) + j - 1)))

/-- `tau_map` of an array (`tau.py` lines 66-140).  Building the lightcone from files is not
modelled here.  Reading beyond the last plane raises. -/
noncomputable def tauMap {ι : Type*} (k : Const) (lc : Cone ι) (zs : List ℝ) (N : ℕ) :
    Except String ((ι → List ℝ) × List ℝ) :=
  match zs with
  | [] => .error "IndexError"
  | z0 :: _ =>
    if lc.depth < zs.length then .error "IndexError"
    else .ok (fun l => mapFill k lc l (mapZ N z0 zs) N zs.length zs.length, mapZ N z0 zs)

end Verif.Tau
