import Verif.Model.CubeMap
/-!
# Operational model of `ViteBetti.CubeMap_joblib`

Each worker is a program that performs single reads and writes of the shared array, in
exactly the order the Python text evaluates them (with short-circuit `and`). A scheduler
picks any unfinished worker for each step, so every interleaving of
individual memory accesses is a run. One array element access is atomic (aligned
`int32`).
-/

namespace Verif.CubeMap

/-- A worker program over the shared marker array. -/
inductive Prog where
  | halt : Prog
  | read : Idx → (Nat → Prog) → Prog
  | write : Idx → Nat → Prog → Prog

/-- `if cubemap[a] == v and cubemap[b] == v: yes else: no`, short-circuiting. -/
def Prog.both (v : Nat) (a b : Idx) (yes no : Prog) : Prog :=
  .read a fun x => if x = v then .read b fun y => if y = v then yes else no else no

/-- Stage `'vertices'` of the worker (`ViteBetti.py` lines 121-126). -/
def vertexProg (mk : Markers) (A : Idx → Bool) : List Idx → Prog
  | [] => .halt
  | p :: ps =>
    if A p then .write (p.1 * 2, p.2.1 * 2, p.2.2 * 2) mk.m0 (vertexProg mk A ps)
    else vertexProg mk A ps

/-- Index of the lower/upper neighbours with periodic wrap. -/
def xm (N : Shape) (p : Idx) : Idx := (dec p.1 N.nx, p.2.1, p.2.2)
/-- See `xm`. -/
def xp (N : Shape) (p : Idx) : Idx := (inc p.1 N.nx, p.2.1, p.2.2)
/-- See `xm`. -/
def ym (N : Shape) (p : Idx) : Idx := (p.1, dec p.2.1 N.ny, p.2.2)
/-- See `xm`. -/
def yp (N : Shape) (p : Idx) : Idx := (p.1, inc p.2.1 N.ny, p.2.2)
/-- See `xm`. -/
def zm (N : Shape) (p : Idx) : Idx := (p.1, p.2.1, dec p.2.2 N.nz)
/-- See `xm`. -/
def zp (N : Shape) (p : Idx) : Idx := (p.1, p.2.1, inc p.2.2 N.nz)

/-- Stage `'edges'` (`ViteBetti.py` lines 128-139). -/
def edgeProg (mk : Markers) (N : Shape) : List Idx → Prog
  | [] => .halt
  | p :: ps =>
    let rest := edgeProg mk N ps
    let hit := Prog.write p mk.m1 rest
    .read p fun c =>
      if c = 0 then
        Prog.both mk.m0 (xm N p) (xp N p) hit
          (Prog.both mk.m0 (ym N p) (yp N p) hit
            (Prog.both mk.m0 (zm N p) (zp N p) hit rest))
      else rest

/-- Stage `'faces'` (`ViteBetti.py` lines 141-155). -/
def faceProg (mk : Markers) (N : Shape) : List Idx → Prog
  | [] => .halt
  | p :: ps =>
    let rest := faceProg mk N ps
    let hit := Prog.write p mk.m2 rest
    let third := Prog.both mk.m1 (zm N p) (zp N p)
      (Prog.both mk.m1 (xm N p) (xp N p) hit rest) rest
    let second := Prog.both mk.m1 (ym N p) (yp N p)
      (Prog.both mk.m1 (zm N p) (zp N p) hit third) third
    let first := Prog.both mk.m1 (xm N p) (xp N p)
      (Prog.both mk.m1 (ym N p) (yp N p) hit second) second
    .read p fun c => if c = 0 then first else rest

/-- Stage `'cubes'` (`ViteBetti.py` lines 157-166). -/
def cubeProg (mk : Markers) (N : Shape) : List Idx → Prog
  | [] => .halt
  | p :: ps =>
    let rest := cubeProg mk N ps
    let hit := Prog.write p mk.m3 rest
    .read p fun c =>
      if c = 0 then
        Prog.both mk.m2 (xm N p) (xp N p)
          (Prog.both mk.m2 (ym N p) (yp N p)
            (Prog.both mk.m2 (zm N p) (zp N p) hit rest) rest) rest
      else rest

/-- Shared array together with what is left of every worker. -/
structure Config where
  mem : Mem
  procs : List Prog

/-- One scheduling step: some worker performs its next memory access. -/
inductive Step : Config → Config → Prop
  | read (m : Mem) (before after : List Prog) (a : Idx) (k : Nat → Prog) :
      Step ⟨m, before ++ .read a k :: after⟩ ⟨m, before ++ k (m a) :: after⟩
  | write (m : Mem) (before after : List Prog) (a : Idx) (v : Nat) (k : Prog) :
      Step ⟨m, before ++ .write a v k :: after⟩ ⟨set m a v, before ++ k :: after⟩

/-- Finitely many scheduling steps. -/
inductive Steps : Config → Config → Prop
  | refl (c : Config) : Steps c c
  | head {a b c : Config} : Step a b → Steps b c → Steps a c

/-- The stage is over when every worker has returned (`Parallel` joins all tasks,
`ViteBetti.py` line 201). -/
def Config.done (c : Config) : Prop := ∀ p ∈ c.procs, p = .halt

/-- The index ranges given to the workers: `chunk_size = (domain + n_jobs - 1) // n_jobs`,
task `i` gets `range(i*chunk_size, min((i+1)*chunk_size, domain))`
(`ViteBetti.py` lines 192-200). -/
def chunks (domain nJobs : Nat) : List (Nat × Nat) :=
  let size := (domain + nJobs - 1) / nJobs
  (List.range nJobs).map fun i => (i * size, min ((i + 1) * size) domain)

/-- `Stage progs m m'`: starting all workers on the array `m`, some schedule runs all of
them to completion and leaves `m'`. -/
def Stage (progs : List Prog) (m m' : Mem) : Prop :=
  ∃ ps, Steps ⟨m, progs⟩ ⟨m', ps⟩ ∧ Config.done ⟨m', ps⟩

/-- `CubeMap_joblib(arr, multi_marker, n_jobs)` may return `m`
(`ViteBetti.py` lines 171-209); the four stages are separated by the joins. -/
def JoblibReturns (multi : Bool) (s : Shape) (A : Idx → Bool) (nJobs : Nat) (m : Mem) : Prop :=
  let mk := markers multi
  let N := s.dbl
  ∃ m1 m2 m3,
    Stage ((chunks s.nx nJobs).map fun c => vertexProg mk A (cellsFrom c.1 c.2 s.ny s.nz))
      (fun _ => 0) m1 ∧
    Stage ((chunks N.nx nJobs).map fun c => edgeProg mk N (cellsFrom c.1 c.2 N.ny N.nz)) m1 m2 ∧
    Stage ((chunks N.nx nJobs).map fun c => faceProg mk N (cellsFrom c.1 c.2 N.ny N.nz)) m2 m3 ∧
    Stage ((chunks N.nx nJobs).map fun c => cubeProg mk N (cellsFrom c.1 c.2 N.ny N.nz)) m3 m

/-- Which optional backends could be imported (`ViteBetti.py` lines 6-45). -/
structure Backends where
  cython : Bool
  numba : Bool
  torch : Bool
  joblib : Bool

/-- `EulerCharacteristic(data, thres, neighbors, speed_up, n_jobs=n_jobs)` on a machine with
`cpu` processors may end with `r`: the backend dispatch of `topology.py` lines 43-62 on the binary
field `A`, then the counts of lines 66-74.  The Cython and numba backends run the same loops as
`cubeMap`.  Allocating a shared-memory segment of size 0 raises (`ViteBetti.py` line 183), and
`n_jobs = 0` divides by zero (line 193); a negative `n_jobs` gives no task at all (line 200). -/
def EulerReturns (b : Backends) (cpu : Nat) (speedUp : String) (nJobs : Option Int)
    (s : Shape) (A : Idx → Bool) (r : Except String Int) : Prop :=
  if (speedUp.toLower = "cython" ∧ b.cython = true) ∨ (speedUp.toLower = "numba" ∧ b.numba = true) then
    r = .ok (eulerOfMap s.dbl (cubeMap true s A))
  else if speedUp.toLower = "torch" ∧ b.torch = true then
    r = .ok (eulerOfMap s.dbl (cubeMapTorch true s A))
  else
    match (if nJobs = some (-1) then some (cpu : Int) else nJobs) with
    | none => r = .ok (eulerOfMap s.dbl (cubeMap true s A))
    | some n =>
      if n = 1 ∨ b.joblib = false then r = .ok (eulerOfMap s.dbl (cubeMap true s A))
      else if s.nx * s.ny * s.nz = 0 then r = .error "ValueError"
      else if n = 0 then r = .error "ZeroDivisionError"
      else ∃ m, JoblibReturns true s A n.toNat m ∧ r = .ok (eulerOfMap s.dbl m)

end Verif.CubeMap
