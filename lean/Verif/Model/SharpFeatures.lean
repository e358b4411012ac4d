import Mathlib.Analysis.SpecialFunctions.Exp
import Mathlib.Analysis.SpecialFunctions.Sqrt
import Mathlib.Algebra.Order.Floor.Semiring
import Mathlib.Algebra.Order.Archimedean.Real.Basic
/-!
# Model of `_suppress_sharp_features_uv_map` and of the response of the noise that uses it

`radio_telescope_noise.py` lines 399-473, for square maps.  Real numbers replace floating point numbers.
-/

namespace Verif.SharpFeatures

/-- `nan` stands for a result whose entries are all not numbers. -/
inductive Err
  | value | assertion | unbound | nan
  deriving DecidableEq

/-- A map: its entries `[i, j]`. -/
abbrev Map := ℕ → ℕ → ℝ

/-- The cells of a map. -/
def cells (n : ℕ) : Finset (ℕ × ℕ) := Finset.range n ×ˢ Finset.range n

/-- `map.max()` of a map with cells. -/
noncomputable def peak (n : ℕ) (m : Map) : ℝ := if h : (cells n).Nonempty then (cells n).sup' h fun c => m c.1 c.2 else 0

/-- The index in the map of an index beyond its ends (scipy's mode `reflect`, the default of `gaussian_filter`). -/
def reflect (n : ℕ) (i : ℤ) : ℕ :=
  let r := i % (2 * n)
  if r < n then r.toNat else (2 * n - 1 - r).toNat

/-- The radius of the kernel of `gaussian_filter`: `int(4*sigma + 0.5)`. -/
noncomputable def radius (sigma : ℝ) : ℕ := ⌊4 * sigma + 1 / 2⌋₊

/-- The kernel before it is normalised. -/
noncomputable def kernel (sigma : ℝ) (x : ℤ) : ℝ := Real.exp (-1 / 2 / sigma ^ 2 * (x : ℝ) ^ 2)

/-- The filter along one axis. -/
noncomputable def filterAxis (sigma : ℝ) (n : ℕ) (f : ℕ → ℝ) (i : ℕ) : ℝ :=
  ∑ x ∈ Finset.Icc (-(radius sigma : ℤ)) (radius sigma),
    kernel sigma x / (∑ y ∈ Finset.Icc (-(radius sigma : ℤ)) (radius sigma), kernel sigma y) * f (reflect n (i + x))

/-- `gaussian_filter(m, sigma)` (`radio_telescope_noise.py` line 420): scipy skips axes whose width is not larger than 1e-15. -/
noncomputable def gaussianFilter (sigma : ℝ) (n : ℕ) (m : Map) : Map :=
  if 1 / 10 ^ 15 < sigma then fun i j => filterAxis sigma n (fun j' => filterAxis sigma n (fun i' => m i' j') i) j else m

open Classical in
/-- `_suppress_sharp_features_uv_map` (lines 399-433).  The square root of a negative number and zero divided by zero make everything nan.  `binned` is
what lines 423-429 return. -/
noncomputable def suppress (method : String) (box : Option ℝ) (sigma : ℝ) (n : ℕ) (m : Map) (binned : ℝ → Except Err Map) : Except Err Map :=
  if method.toLower = "gaussian" then
    if n = 0 then .error .value
    else
      let g := gaussianFilter sigma n m
      if ∃ c ∈ cells n, g c.1 c.2 < 0 then .error .nan
      else
        let s : Map := fun i j => Real.sqrt (g i j)
        if peak n s = 0 then .error .nan else .ok fun i j => s i j * (peak n m / peak n s)
  else if method.toLower = "binned" ∨ method.toLower = "bin" then
    match box with
    | none => .error .assertion
    | some b => binned b
  else .error .unbound

/-- What the noise is divided by, squared (lines 463-466); the option is `none` for `False`. -/
noncomputable def weights (option : Option String) (box : Option ℝ) (n : ℕ) (uv : Map) (binned : ℝ → Except Err Map) : Except Err Map :=
  match option with
  | none => .ok uv
  | some method => if method = "" then .ok uv else suppress method box 15 n uv binned

open Classical in
/-- `apply_uv_response_noise` (lines 435-473) with `uv_map_min=0.01` for the real or the imaginary parts: `none` stands for a value that is not finite. -/
noncomputable def response (weighting : String) (option : Option String) (box : Option ℝ) (n : ℕ) (uv : Map) (noise : ℕ → ℕ → ℝ)
    (binned : ℝ → Except Err Map) : Except Err (ℕ → ℕ → Option ℝ) :=
  let masked (out : ℕ → ℕ → Option ℝ) : ℕ → ℕ → Option ℝ := fun i j => if uv i j < 1 / 100 then some 0 else out i j
  if weighting.toLower ∈ ["nat", "natural", "natural_weighting"] then
    match weights option box n uv binned with
    | .error e => .error e
    | .ok s => .ok (masked fun i j => if s i j ≤ 0 then none else some (noise i j / Real.sqrt (s i j)))
  else if weighting.toLower ∈ ["uni", "uniform", "uniform_weighting"] then .ok (masked fun i j => some (noise i j))
  else .error .unbound

end Verif.SharpFeatures
