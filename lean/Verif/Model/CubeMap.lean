import Mathlib.Logic.Function.Basic
/-!
# Model of `ViteBetti.CubeMap` and `topology.EulerCharacteristic`

Source: `/repo/src/tools21cm/ViteBetti.py`, `/repo/src/tools21cm/topology.py`.

The marker array (`np.zeros((Nx,Ny,Nz), dtype=np.int32)`) is a function from
index triples to `Nat`. Only the values 0..4 are ever stored, so the width of
`int32` plays no role.  Cells outside the allocated box are never addressed by
the loops; the model leaves them at 0.
-/

namespace Verif.CubeMap

/-- An index triple `[i, j, k]` of the marker array. -/
abbrev Idx := Nat × Nat × Nat

/-- Contents of the marker array. -/
abbrev Mem := Idx → Nat

/-- Shape of a 3-D array: `arr.shape` (`ViteBetti.py` line 53). -/
structure Shape where
  nx : Nat
  ny : Nat
  nz : Nat

/-- `Nx, Ny, Nz = 2 * nx, 2 * ny, 2 * nz` (`ViteBetti.py` line 54). -/
def Shape.dbl (s : Shape) : Shape := ⟨2 * s.nx, 2 * s.ny, 2 * s.nz⟩

/-- The tuple `markers` (`ViteBetti.py` lines 57-59). -/
structure Markers where
  m0 : Nat
  m1 : Nat
  m2 : Nat
  m3 : Nat

/-- `markers = (1, 2, 3, 4)` when `multi_marker`, else `(1, 1, 1, 1)`
(`ViteBetti.py` lines 57-59, 181, 224-226). -/
def markers (multi : Bool) : Markers := if multi then ⟨1, 2, 3, 4⟩ else ⟨1, 1, 1, 1⟩

/-- `cubemap[p] = v`. -/
def set (m : Mem) (p : Idx) (v : Nat) : Mem := fun q => if q = p then v else m q

/-- Python's `(i - 1) % n` (floor modulus, so `-1 % n = n - 1`). -/
def dec (i n : Nat) : Nat := (((i : Int) - 1) % (n : Int)).toNat

/-- Python's `(i + 1) % n`. -/
def inc (i n : Nat) : Nat := (i + 1) % n

/-- The triple loop `for i in range(a): for j in range(b): for k in range(c)`
starting at `i0` (`i0 = 0` in the sequential code, `i_start` in the workers). -/
def cellsFrom (i0 i1 b c : Nat) : List Idx :=
  (List.range' i0 (i1 - i0)).flatMap fun i =>
    (List.range b).flatMap fun j => (List.range c).map fun k => (i, j, k)

/-- All cells of a box in loop order. -/
def cells (s : Shape) : List Idx := cellsFrom 0 s.nx s.ny s.nz

/-- Both neighbours along the first axis carry marker `v`. -/
def bothX (N : Shape) (m : Mem) (v : Nat) : Idx → Bool
  | (i, j, k) => m (dec i N.nx, j, k) == v && m (inc i N.nx, j, k) == v

/-- Both neighbours along the second axis carry marker `v`. -/
def bothY (N : Shape) (m : Mem) (v : Nat) : Idx → Bool
  | (i, j, k) => m (i, dec j N.ny, k) == v && m (i, inc j N.ny, k) == v

/-- Both neighbours along the third axis carry marker `v`. -/
def bothZ (N : Shape) (m : Mem) (v : Nat) : Idx → Bool
  | (i, j, k) => m (i, j, dec k N.nz) == v && m (i, j, inc k N.nz) == v

/-- Body of the vertex loop (`ViteBetti.py` lines 62-66). -/
def vertexStep (mk : Markers) (A : Idx → Bool) (m : Mem) (p : Idx) : Mem :=
  if A p then set m (p.1 * 2, p.2.1 * 2, p.2.2 * 2) mk.m0 else m

/-- Body of the edge loop (`ViteBetti.py` lines 72-79). -/
def edgeStep (mk : Markers) (N : Shape) (m : Mem) (p : Idx) : Mem :=
  if m p == 0 then
    if bothX N m mk.m0 p then set m p mk.m1
    else if bothY N m mk.m0 p then set m p mk.m1
    else if bothZ N m mk.m0 p then set m p mk.m1
    else m
  else m

/-- Body of the face loop (`ViteBetti.py` lines 85-94). -/
def faceStep (mk : Markers) (N : Shape) (m : Mem) (p : Idx) : Mem :=
  if m p == 0 then
    if bothX N m mk.m1 p && bothY N m mk.m1 p then set m p mk.m2
    else if bothY N m mk.m1 p && bothZ N m mk.m1 p then set m p mk.m2
    else if bothZ N m mk.m1 p && bothX N m mk.m1 p then set m p mk.m2
    else m
  else m

/-- Body of the cube loop (`ViteBetti.py` lines 100-104). -/
def cubeStep (mk : Markers) (N : Shape) (m : Mem) (p : Idx) : Mem :=
  if m p == 0 then
    if bothX N m mk.m2 p && bothY N m mk.m2 p && bothZ N m mk.m2 p then set m p mk.m3
    else m
  else m

/-- `CubeMap(arr, multi_marker)` (`ViteBetti.py` lines 48-106).  The Cython version
(`ViteBetti_cython.pyx` lines 7-69) and the numba version (line 109) are the same
text. -/
def cubeMap (multi : Bool) (s : Shape) (A : Idx → Bool) : Mem :=
  let mk := markers multi
  let N := s.dbl
  let m := (cells s).foldl (vertexStep mk A) (fun _ => 0)
  let m := (cells N).foldl (edgeStep mk N) m
  let m := (cells N).foldl (faceStep mk N) m
  (cells N).foldl (cubeStep mk N) m

/-- `m.roll(shift, axis)` on a box of shape `N`: element `x` of the result is element
`(x - shift) mod N` of the argument. -/
def roll (N : Shape) (shift : Int) (axis : Nat) (m : Mem) : Mem
  | (i, j, k) =>
    if axis = 0 then m ((((i : Int) - shift) % (N.nx : Int)).toNat, j, k)
    else if axis = 1 then m (i, (((j : Int) - shift) % (N.ny : Int)).toNat, k)
    else m (i, j, (((k : Int) - shift) % (N.nz : Int)).toNat)

/-- `(cubemap.roll(1, a) == v) & (cubemap.roll(-1, a) == v)`
(`ViteBetti.py` lines 236-238, 245-250, 257-259). -/
def rollBoth (N : Shape) (m : Mem) (v axis : Nat) : Idx → Bool := fun p =>
  roll N 1 axis m p == v && roll N (-1) axis m p == v

/-- `cubemap[mask & test] = v` with `mask = cubemap == 0`: both masks are evaluated on
the whole array before the assignment (`ViteBetti.py` lines 234-240, 243-252, 255-261). -/
def torchStage (N : Shape) (test : Idx → Bool) (v : Nat) (m : Mem) : Mem :=
  fun p => if p ∈ cells N ∧ m p = 0 ∧ test p = true then v else m p

/-- `CubeMap_torch` (`ViteBetti.py` lines 212-263). -/
def cubeMapTorch (multi : Bool) (s : Shape) (A : Idx → Bool) : Mem :=
  let mk := markers multi
  let N := s.dbl
  let coords := (cells s).filter A
  let m : Mem := fun p =>
    if p ∈ coords.map (fun c => (c.1 * 2, c.2.1 * 2, c.2.2 * 2)) then mk.m0 else 0
  let m := torchStage N
    (fun p => rollBoth N m mk.m0 0 p || rollBoth N m mk.m0 1 p || rollBoth N m mk.m0 2 p) mk.m1 m
  let m := torchStage N
    (fun p => (rollBoth N m mk.m1 0 p && rollBoth N m mk.m1 1 p) ||
      (rollBoth N m mk.m1 1 p && rollBoth N m mk.m1 2 p) ||
      (rollBoth N m mk.m1 2 p && rollBoth N m mk.m1 0 p)) mk.m2 m
  torchStage N
    (fun p => rollBoth N m mk.m2 0 p && rollBoth N m mk.m2 1 p && rollBoth N m mk.m2 2 p) mk.m3 m

/-- `np.sum(cubemap == v)` over the box. -/
def countMarker (N : Shape) (m : Mem) (v : Nat) : Nat :=
  ((cells N).filter fun p => m p == v).length

/-- The binary field `A = (data > thres)`, inverted unless `neighbors` is 6 or 4
(`topology.py` lines 33-37). -/
def binaryField {α : Type} [LT α] [DecidableRel (α := α) (· < ·)]
    (data : Idx → α) (thres : α) (neighbors : Nat) : Idx → Bool := fun p =>
  let a := decide (thres < data p)
  if !(neighbors == 6 || neighbors == 4) then !a else a

/-- `V - E + F - C` from the marker counts (`topology.py` lines 66-74; an absent marker
counts 0). -/
def eulerOfMap (N : Shape) (m : Mem) : Int :=
  (countMarker N m 1 : Int) - countMarker N m 2 + countMarker N m 3 - countMarker N m 4

/-- `EulerCharacteristic` with the sequential (pure Python, Cython, numba) backends
(`topology.py` lines 10-74). -/
def euler {α : Type} [LT α] [DecidableRel (α := α) (· < ·)]
    (s : Shape) (data : Idx → α) (thres : α) (neighbors : Nat := 6) : Int :=
  eulerOfMap s.dbl (cubeMap true s (binaryField data thres neighbors))

/-- `EulerCharacteristic` with `speed_up='torch'`. -/
def eulerTorch {α : Type} [LT α] [DecidableRel (α := α) (· < ·)]
    (s : Shape) (data : Idx → α) (thres : α) (neighbors : Nat := 6) : Int :=
  eulerOfMap s.dbl (cubeMapTorch true s (binaryField data thres neighbors))

end Verif.CubeMap
