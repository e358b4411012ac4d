import Verif.Model.SlideBoxes

/-!
# Loops that report their progress

`make_uv_map_lightcone` (`radio_telescope_noise.py` lines 625-654), the loop over the observations of a day (`numba_functions.py` lines 58-70) and the loop over skewers of
`get_distorted_dt` (`pv_mpm.py` lines 89-94).  A message is the number in it, before it is rounded for printing.  Exact rational numbers in place of floating point numbers.
-/

namespace Verif.Progress
open Verif.SlideBoxes

/-- The errors of `make_uv_map_lightcone`, those of the maps included. -/
inductive Err (E : Type) where
  | zeroDivision
  | map (e : E)
  deriving DecidableEq

/-- The loop of `make_uv_map_lightcone` (`radio_telescope_noise.py` lines 649-653) from slice `i` on; `n` is the number of antennas of the slice before. -/
def uvLoop {Z M E : Type} (getMap : Z → Except E (M × ℕ)) (percc : ℚ) : ℕ → Option ℕ → List Z → List ℚ × Except (Err E) (List M × Option ℕ)
  | _, n, [] => ([], .ok ([], n))
  | i, _, z :: zs =>
    match getMap z with
    | .error e => ([], .error (.map e))
    | .ok (m, n) =>
      let r := uvLoop getMap percc (i + 1) (some n) zs
      (i * percc :: r.1, r.2.map fun x => (m :: x.1, x.2))

/-- `make_uv_map_lightcone` (`radio_telescope_noise.py` lines 647-654): the messages, the slices and the number of antennas.  `getMap` stands for `get_uv_map` with the
arguments that are passed on. -/
def uvCube {Z M E : Type} (getMap : Z → Except E (M × ℕ)) (zs : List Z) : List ℚ × Except (Err E) (List M × Option ℕ) :=
  if zs.length = 0 then ([], .error .zeroDivision)
  else uvLoop getMap (roundQ (100 / zs.length * 100) / 100) 0 none zs

/-- The messages of the numba module (`numba_functions.py` lines 61-68; `prange` without `parallel=True` is a loop in order), for a number of observations. -/
def numba (verbose : Bool) (tot : ℕ) : List ℚ :=
  if verbose then (List.range (tot - 1)).map fun (i : ℕ) => ((i : ℚ) + 2) * 100 / tot else []

/-- The messages of the loop over skewers (`pv_mpm.py` lines 89-94), for the remaining indices and the last message. -/
def skewerLoop (width : ℕ) : ℕ → List ℕ → List ℕ
  | _, [] => []
  | last, i :: is =>
    let done := i * 100 / width
    if done % 10 = 0 ∧ done ≠ last then done :: skewerLoop width done is else skewerLoop width last is

/-- All messages of the loop over skewers. -/
def skewers (width : ℕ) : List ℕ := skewerLoop width 0 (List.range width)

end Verif.Progress
