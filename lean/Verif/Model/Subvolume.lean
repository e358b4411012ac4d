import Verif.Model.Lightcone

/-!
# Sub-volumes of lightcones, as a whole

`get_lightcone_subvolume` of `lightcone.py` (lines 358-428): the limits of the sub-volume, its cells, its
dimensions and its redshifts.  The choice of the slices is `Lightcone.subvolume`.
-/

namespace Verif.Subvolume

variable {K : Type} [Field K] [LinearOrder K] [IsStrictOrderedRing K]

/-- What the call takes from the rest of the package: `const.nu0`, `conv.LB` (`lightcone.py` line 385) and the two
functions `z_to_cdist` and `cdist_to_z` of `cosmo.py` (lines 131-173), which are left open here. -/
structure World (K : Type) where
  nu0 : K
  side : K
  cdist : K → K
  toZ : K → K

/-- An array with three axes. -/
structure Cone (K : Type) where
  nx : ℕ
  ny : ℕ
  nz : ℕ
  val : ℕ → ℕ → ℕ → K

/-- What the call returns (line 428). -/
structure Result (K : Type) where
  cone : Cone K
  dims : K × K × K
  zs : List K

/-- `nu_to_z(nu)` (`cosmo.py` lines 242-252). -/
def nuToZ (w : World K) (nu : K) : K := w.nu0 / nu - 1

/-- `z_to_nu(z)` (`cosmo.py` lines 255-265). -/
def zToNu (w : World K) (z : K) : K := w.nu0 / (1 + z)

/-- `low_z`, `high_z`, `min_cdist`, `max_cdist` (`lightcone.py` lines 382-400).  The assertion of line 382 counts the
axes of a list, which is one whatever the depths are, and never fails; without a depth `None/2.` of line 395
raises.  Frequencies of zero (a division by zero in python) are not modelled apart. -/
def limits (w : World K) (centralZ : K) (mhz mpc : Option K) : Except String (K × K × K × K) :=
  let nu := zToNu w centralZ
  match mpc with
  | some d =>
    let dist := w.cdist (nuToZ w nu)
    let near := dist - d / 2
    let far := dist + d / 2
    .ok (w.toZ near, w.toZ far, near, far)
  | none =>
    match mhz with
    | some f =>
      let minF := nu - f / 2
      let maxF := nu + f / 2
      .ok (nuToZ w maxF, nuToZ w minF, w.cdist (nuToZ w maxF), w.cdist (nuToZ w minF))
    | none => .error "TypeError"

/-- `lightcone[:,:,low_n:high_n]` (line 414). -/
def cut (c : Cone K) (lo hi : ℕ) : Cone K :=
  ⟨c.nx, c.ny, min hi c.nz - min lo c.nz, fun i j k => c.val i j (lo + k)⟩

/-- `subtract_mean_signal(subbox, los_axis=2)` (`statistics.py` lines 62-85). -/
def centred (c : Cone K) : Cone K :=
  { c with val := fun i j k =>
      c.val i j k - (((List.range c.nx).flatMap fun a => (List.range c.ny).map fun b => c.val a b k).sum) / ((c.nx * c.ny : ℕ) : K) }

/-- `get_lightcone_subvolume(lightcone, redshifts, central_z, …)` (`lightcone.py` lines 358-428). -/
def volume (w : World K) (c : Cone K) (zs : List K) (centralZ : K) (mhz mpc : Option K) (odd subtract : Bool)
    (fov : Option K) (verbose : Bool) : Except String (Result K) :=
  match limits w centralZ mhz mpc with
  | .error e => .error e
  | .ok (lowZ, highZ, near, far) =>
    match Lightcone.subvolume zs lowZ highZ odd verbose with
    | .error e => .error e
    | .ok (lo, hi) =>
      let sub := cut c lo hi
      let side := fov.getD w.side
      .ok ⟨if subtract then centred sub else sub, (side, side, far - near), (zs.drop lo).take (hi - lo)⟩

end Verif.Subvolume
