import Verif.Model.PowerSpectrum
/-!
# Model of `power_legendre.py`, and of two functions of `power_spectrum.py` built on binned spectra

Floating point is replaced by the real numbers; the spectra and bins are those of `Model/PowerSpectrum`.
-/

namespace Verif.Multipoles

open Verif.Convolve Verif.PowerSpectrum

/-! ## Multipoles -/

/-- The polynomials of `power_legendre.py` lines 56-61. -/
noncomputable def P0 (_mu : ℝ) : ℝ := 1
/-- See `P0`. -/
noncomputable def P2 (mu : ℝ) : ℝ := 0.5 * (3 * mu ^ 2 - 1)
/-- See `P0`. -/
noncomputable def P4 (mu : ℝ) : ℝ := 4.375 * (mu ^ 2 - 0.115587) * (mu ^ 2 - 0.741556)

/-- `np.sum(ps[idx]*P[idx])/np.sum(P[idx]**2)` (`power_legendre.py` lines 81-86) over the modes of a bin; not a number if
the denominator vanishes. -/
noncomputable def fit {ι : Type} (modes : Finset ι) (ps mu : ι → ℝ) (P : ℝ → ℝ) : Option ℝ :=
  open Classical in
  if ∑ i ∈ modes, P (mu i) ^ 2 = 0 then none
  else some ((∑ i ∈ modes, ps i * P (mu i)) / ∑ i ∈ modes, P (mu i) ^ 2)

/-- `len(np.nonzero(idx))` (`power_legendre.py` line 80): `np.nonzero` returns a tuple of one array per axis. -/
def countModes (d : ℕ) {ι : Type} (_modes : Finset ι) : ℕ := d

/-- What `power_spectrum_multipoles` would return. -/
structure Result where
  multipoles : List (List (Option ℝ))
  nmodes : List ℕ
  ks : List ℝ

/-- `power_spectrum_multipoles` (`power_legendre.py` lines 4-91).  `_get_mu` has four arguments without defaults
(`power_spectrum.py` line 481) and is called with three (`power_legendre.py` line 47). -/
noncomputable def multipoles {d : ℕ} (LB : ℝ) (a : Arr (Fin d) ℝ) (kbins : KBins) (boxDims : Dims) (los : ℤ)
    (_output : List String) (_exclude : Bool) : Except Err Result :=
  if 0 ≤ los ∧ los ≤ d then
    match getDims LB d boxDims with
    | .error e => .error e
    | .ok L =>
      match getK d (.list L) with
      | .error e => .error e
      | .ok L =>
        match getKbins a.shape L kbins .log (1 / 10) with
        | .error e => .error e
        | .ok _ => .error .type
  else .error .assertion

/-! ## Dimensionless spectrum -/

/-- `np.interp`, to which `interp1d` delegates, for `x` between the first and the last of increasing `ks`: the node if `x`
is one, and the line through the two nodes around `x`, which is not a number if one of them is not. -/
noncomputable def interp (ks : List ℝ) (ys : List (Option ℝ)) (x : ℝ) : Option ℝ :=
  open Classical in
  match (List.range (ks.length - 1)).find? fun j => decide (ks.getD j 0 ≤ x ∧ x < ks.getD (j + 1) 0) with
  | none => (ys.getLast?).join
  | some j =>
    if ks.getD j 0 = x then (ys[j]?).join
    else match (ys[j]?).join, (ys[j + 1]?).join with
      | some y0, some y1 => some (y0 + (y1 - y0) / (ks.getD (j + 1) 0 - ks.getD j 0) * (x - ks.getD j 0))
      | _, _ => none

/-- The part of `dimensionless_ps` after the spectrum (`power_spectrum.py` lines 558-561).  `ks[1]` needs two bins;
`interp1d` refuses values outside. -/
noncomputable def dimensionless (r : Radial) (kbins : ℕ) (binning : Binning) :
    Except Err (List (Option ℝ) × List ℝ) :=
  let ys := (List.range r.bins.length).map fun (b : ℕ) =>
    ((r.data[b]?).join).map fun P => P * r.bins.getD b 0 ^ 3 / 2 / Real.pi ^ 2
  if r.bins.length < 2 then .error .index
  else
    let lo := r.bins.getD 1 0
    let hi := r.bins.getLast?.getD 0
    let knew := if binning = .log then logspace lo hi (kbins - 1) else linspace lo hi (kbins - 1)
    .ok (knew.map (interp r.bins ys), knew)

/-- `dimensionless_ps` (`power_spectrum.py` lines 536-561), for at least two bins in the result. -/
noncomputable def dimensionlessPs {d : ℕ} (LB : ℝ) (a : Arr (Fin d) ℝ) (kbins : ℕ) (boxDims : Dims) (binning : Binning)
    (factor : ℕ) : Except Err (List (Option ℝ) × List ℝ) :=
  match power1d LB a boxDims (.int (kbins * factor)) binning (1 / 10) with
  | .error e => .error e
  | .ok r => dimensionless r kbins binning

/-! ## Anisotropy ratio -/

/-- `pp[np.isfinite(pp)].mean()` (`power_spectrum.py` lines 610-611); the mean of nothing is not a number. -/
noncomputable def finiteMean (l : List (Option ℝ)) : Option ℝ :=
  let f := l.filterMap id
  if f = [] then none else some (f.sum / f.length)

/-- `rup/rdn-1.0`; by zero it is not finite. -/
noncomputable def ratio (u v : Option ℝ) : Option ℝ :=
  open Classical in
  match u, v with
  | some u, some v => if v = 0 then none else some (u / v - 1)
  | _, _ => none

/-- The values of column `b` in the rows whose bin of `mu` satisfies the condition (`power_spectrum.py` lines 608-611). -/
noncomputable def column (p : Anisotropic) (cond : ℝ → Prop) (b : ℕ) : List (Option ℝ) :=
  open Classical in
  ((List.range p.mus.length).filter fun m => decide (cond (p.mus.getD m 0))).map fun m =>
    ((p.data.getD m [])[b]?).join

/-- The part of `anisotropy_ratio_r_mu` after the spectrum (`power_spectrum.py` lines 608-613). -/
noncomputable def anisotropy (p : Anisotropic) (cut : ℝ) : List (Option ℝ) × List ℝ :=
  ((List.range p.ks.length).map fun b =>
    ratio (finiteMean (column p (fun m => cut ≤ m) b)) (finiteMean (column p (fun m => m < cut) b)), p.ks)

/-- `anisotropy_ratio_r_mu` (`power_spectrum.py` lines 577-613), without weights, for cubes.  With `return_n_modes` four
values are unpacked into three names. -/
noncomputable def anisotropyRatio (LB : ℝ) (a : Arr (Fin 3) ℝ) (los : ℤ) (cut : ℝ) (mubins : MuBins) (kbins : KBins)
    (boxDims : Dims) (exclude nModes absolute : Bool) : Except Err (List (Option ℝ) × List ℝ) :=
  match getDims LB 3 boxDims with
  | .error e => .error e
  | .ok L =>
    match muBinning (powerNd L a) los mubins kbins (.list L) .none exclude .log absolute with
    | .error e => .error e
    | .ok p => if nModes then .error .value else .ok (anisotropy p cut)

end Verif.Multipoles
