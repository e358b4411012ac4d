import Mathlib.Analysis.SpecialFunctions.Log.Base
import Mathlib.Analysis.SpecialFunctions.Trigonometric.Basic
/-!
# Model of `bispectrum_equilateral` (`bispectrum.py` lines 287-333)

`Pk_library.Bk` of Pylians is an argument, for the windowed array.  The array enters through its smallest side only; the rounding to
single precision is left out.
-/

namespace Verif.Equilateral

/-- What `PKL.Bk` returns (`bispectrum.py` lines 239-243). -/
structure Bk where
  B : List ℝ
  Q : List ℝ
  k : List ℝ
  Pk : List ℝ

/-- The argument `binning` in lower case (`bispectrum.py` lines 313 and 316-321). -/
inductive Binning where
  | linear | log | other

/-- The dictionary that is returned (`bispectrum.py` lines 244-252 and 324). -/
structure Out where
  k1 : List ℝ
  k2 : List ℝ
  k3 : List ℝ
  theta : List ℝ
  Bk : List ℝ
  Qk : List ℝ
  Pk : List ℝ

/-- `np.linspace(a, b, n + 1)`. -/
noncomputable def linspace (a b : ℝ) (n : ℕ) : List ℝ := (List.range (n + 1)).map fun (i : ℕ) => a + (b - a) * (i : ℝ) / n

/-- `(kbins[1:] + kbins[:-1]) / 2`. -/
noncomputable def centres (l : List ℝ) : List ℝ := List.zipWith (fun a b => (a + b) / 2) l.tail l

/-- `kbins` (`bispectrum.py` lines 314-321); without a known binning the name is not bound. -/
noncomputable def kbins (side n : ℕ) (L : ℝ) : Binning → Except String (List ℝ)
  | .linear => .ok (centres (linspace (2 * Real.pi / L) (2 * Real.pi / L * side / 2) n))
  | .log => .ok ((centres (linspace (Real.logb 10 (2 * Real.pi / L)) (Real.logb 10 (2 * Real.pi / L * side / 2)) n)).map fun x => (10 : ℝ) ^ x)
  | .other => .error "UnboundLocalError"

/-- `bispectrum_k1k2` of the class for an array of angles (`bispectrum.py` lines 226-252). -/
noncomputable def k1k2 (pkl : ℝ → ℝ → ℝ → List ℝ → Bk) (L k1 k2 : ℝ) (theta : List ℝ) : Out :=
  let b := pkl L k1 k2 theta
  ⟨[k1], [k2], b.k, theta, b.B, b.Q, b.Pk⟩

/-- `np.append` for all entries of the dictionary (`bispectrum.py` lines 329-330). -/
def append (a b : Out) : Out :=
  ⟨a.k1 ++ b.k1, a.k2 ++ b.k2, a.k3 ++ b.k3, a.theta ++ b.theta, a.Bk ++ b.Bk, a.Qk ++ b.Qk, a.Pk ++ b.Pk⟩

/-- `bispectrum_equilateral` (`bispectrum.py` lines 287-333). -/
noncomputable def equilateral (pkl : ℝ → ℝ → ℝ → List ℝ → Bk) (side n : ℕ) (box : Option ℝ) (binning : Binning) : Except String Out :=
  match box with
  | none => .error "TypeError"
  | some L =>
    match kbins side n L binning with
    | .error e => .error e
    | .ok ks => .ok (ks.foldl (fun o k => append o (k1k2 pkl L k k [Real.pi / 3])) ⟨[], [], [], [], [], [], []⟩)

end Verif.Equilateral
