import Verif.Model.Binning
import Mathlib.Analysis.SpecialFunctions.Pow.Real
import Mathlib.Analysis.SpecialFunctions.Log.Base
/-!
# Model of the readers of binary files of CubeP3M

`HaloCubeP3M` (`halo_list.py` lines 286-430) and `NbodyFile` (`nbody_file.py` lines 16-149).  A file is its header and the four byte words after it;
integers of eight bytes count as two words.  Single precision is replaced by the real numbers.
-/

namespace Verif.CubeP3M

/-- The exceptions that occur. -/
inductive Err
  | name | file | value | assertion | index
  deriving DecidableEq

/-! ## Haloes -/

/-- The factors of `conv.py`: the length of a cell in Mpc, the mass of a particle in solar masses, the unit of velocity at the redshift in km/s, the
size of the box in Mpc/h, and `const.h`. -/
structure Units where
  len : ℝ
  mass : ℝ
  vel : ℝ
  box : ℝ
  h : ℝ

/-- A halo of the catalogue; `none` stands for nan. -/
structure Halo where
  pos : List ℝ
  m : Option ℝ
  r : ℝ
  posCm : List ℝ
  vel : List ℝ
  l : List (Option ℝ)
  velDisp : ℝ

/-- A file of haloes: their number in the header (`halo_list.py` lines 325-329; the two other numbers are not used), and the words after it. -/
structure HaloFile where
  count : ℕ
  words : List ℝ

/-- `10**np.log10(x)`: nan if `x` is negative. -/
noncomputable def tenLog (x : ℝ) : Option ℝ :=
  if x < 0 then none else if x = 0 then some 0 else some ((10 : ℝ) ^ Real.logb 10 x)

/-- `_reposition` of one coordinate (`halo_list.py` lines 332-342). -/
noncomputable def wrap (box x : ℝ) : ℝ := if x < 0 then box + x else if box < x then x - box else x

/-- The conversions of lines 404-411. -/
noncomputable def convert (u : Units) (pos : List ℝ) (m r : ℝ) (cm vel l : List ℝ) (disp : ℝ) : Halo where
  pos := (pos.map fun x => x * u.len * u.h).map (wrap u.box)
  m := (tenLog (m * u.mass)).map fun x => x * u.h
  r := r * u.len * u.h
  posCm := (cm.map fun x => x * u.len * u.h).map (wrap u.box)
  vel := vel.map fun x => x * u.vel
  l := l.map fun x => (tenLog (x * u.vel * u.len * u.mass)).map fun y => y * u.h * u.h
  velDisp := disp * u.vel

/-- One halo (`halo_list.py` lines 377-413), and the words that are left.  `np.fromfile` returns what there is; assigning fewer than four numbers
(line 380) and giving fewer than 300 numbers the shape `(50, 6)` (line 400) raise. -/
noncomputable def readHalo (u : Units) (vir pid cosm : Bool) (w : List ℝ) : Except Err (Halo × List ℝ) :=
  let pos := w.take 3
  let four := (w.drop 3).take 4
  if four.length < 4 then .error .value
  else
    let m := if vir then four.getD 0 0 else four.getD 1 0
    let r := if vir then four.getD 2 0 else four.getD 3 0
    let cm := (w.drop 7).take 3
    let vel := (w.drop 10).take 3
    let l := (w.drop 13).take 3
    let disp := Real.sqrt (((w.drop 16).take 3).map fun x => x ^ 2).sum
    let rest := w.drop 22
    let halo : Halo := if cosm then convert u pos m r cm vel l disp else ⟨pos, some m, r, cm, vel, l.map some, disp⟩
    if pid then if rest.length < 400 then .error .value else .ok (halo, rest.drop 400)
    else .ok (halo, rest.drop 6)

/-- The loop over the haloes of a file (line 376). -/
noncomputable def readHalos (u : Units) (vir pid cosm : Bool) : ℕ → List ℝ → Except Err (List Halo)
  | 0, _ => .ok []
  | n + 1, w =>
    match readHalo u vir pid cosm w with
    | .error e => .error e
    | .ok (h, rest) =>
      match readHalos u vir pid cosm n rest with
      | .error e => .error e
      | .ok hs => .ok (h :: hs)

/-- The files that are read (`halo_list.py` lines 362-368, `nbody_file.py` lines 108-115): that of one node, or those of as many nodes as there are
directories. -/
def nodesOf (nodes : ℕ) (node : Option ℕ) : List ℕ :=
  match node with
  | none => List.range nodes
  | some k => [k]

/-- `HaloCubeP3M.read_from_file` (lines 345-413): the number of haloes and the haloes. -/
noncomputable def readCatalogue (u : Units) (vir pid cosm : Bool) (files : ℕ → Option HaloFile) : List ℕ → Except Err (ℕ × List Halo)
  | [] => .ok (0, [])
  | k :: ks =>
    match files k with
    | none => .error .file
    | some f =>
      match readHalos u vir pid cosm f.count f.words with
      | .error e => .error e
      | .ok hs =>
        match readCatalogue u vir pid cosm files ks with
        | .error e => .error e
        | .ok (n, rest) => .ok (f.count + n, hs ++ rest)

/-- `HaloCubeP3M(filespath, z, node, mass_def, pid_flag, cosm_unit)` (lines 310-323); `units` and `files` are for the redshift. -/
noncomputable def haloCubeP3M (units : ℝ → Units) (dir : String → ℝ → ℕ × (ℕ → Option HaloFile)) (path : Option String) (z : Option ℝ)
    (node : Option ℕ) (vir pid cosm : Bool) : Except Err (ℕ × List Halo) :=
  match z with
  | none => .error .name
  | some z =>
    if z = 0 then .error .name
    else match path with
      | none => .error .name
      | some p =>
        if p = "" then .error .name
        else readCatalogue (units z) vir pid cosm (dir p z).2 (nodesOf (dir p z).1 node)

/-! ## Particles -/

/-- A file `xv`: the number of particles and the scale factor of the header (`nbody_file.py` lines 70-85), and the numbers after it. -/
structure XvFile where
  count : ℕ
  a : ℝ
  data : List ℝ

/-- A file `PID`. -/
structure PidFile where
  count : ℕ
  a : ℝ
  ids : List ℤ

/-- `NbodyParticle` (`nbody_file.py` lines 12-20); `pid` is zero unless it is set. -/
structure Particle where
  pos : Fin 3 → ℝ
  vel : Fin 3 → ℝ
  pid : ℤ := 0

/-- The particles and their number (`nbody_file.py` lines 51 and 61). -/
structure State where
  nbody : List Particle
  npart : ℕ

/-- `round(1./self.a-1, 2) == round(self.z, 2)` (line 78). -/
noncomputable def sameRedshift (a z : ℝ) : Prop := a ≠ 0 ∧ Binning.roundEven (100 * (1 / a - 1)) = Binning.roundEven (100 * z)

/-- `pos_node` and the loop over it (lines 126 and 140-147), for `n` particles: the numbers are taken as six columns. -/
def particles (n : ℕ) (data : List ℝ) (ids : Option (List ℤ)) : List Particle :=
  (List.range n).map fun (i : ℕ) =>
    ⟨fun j => data.getD (j * n + i) 0, fun j => data.getD ((j + 3) * n + i) 0, match ids with | none => 0 | some l => l.getD i 0⟩

open Classical in
/-- The files of one node (lines 121-147). -/
noncomputable def readNode (z : ℝ) (xv : Option XvFile) (pid : Option (Option PidFile)) : Except Err (ℕ × List Particle) :=
  match xv with
  | none => .error .file
  | some x =>
    if ¬ sameRedshift x.a z then .error .assertion
    else if x.data.length < 6 * x.count then .error .value
    else
      match pid with
      | none => .ok (x.count, particles x.count x.data none)
      | some none => .error .file
      | some (some p) =>
        if ¬ sameRedshift p.a z then .error .assertion
        else if p.count ≠ x.count then .error .assertion
        else if (p.ids.take p.count).length < x.count then .error .index
        else .ok (x.count, particles x.count x.data (some p.ids))

/-- The directories: the number of nodes, the files `xv` and the files `PID` of a redshift. -/
structure Dir where
  nodes : ℕ
  xv : ℕ → Option XvFile
  pid : ℕ → Option PidFile

/-- The loop over the nodes (line 120). -/
noncomputable def readNodes (z : ℝ) (d : Dir) (pidFile : Bool) : List ℕ → Except Err (ℕ × List Particle)
  | [] => .ok (0, [])
  | k :: ks =>
    match readNode z (d.xv k) (if pidFile then some (d.pid k) else none) with
    | .error e => .error e
    | .ok (n, ps) =>
      match readNodes z d pidFile ks with
      | .error e => .error e
      | .ok (m, rest) => .ok (n + m, ps ++ rest)

/-- `read_from_file` (lines 101-149): the particles are appended to those that are there. -/
noncomputable def readFromFile (z : ℝ) (d : Dir) (pidFile : Bool) (s : State) (node : Option ℕ) : Except Err State :=
  match readNodes z d pidFile (nodesOf d.nodes node) with
  | .error e => .error e
  | .ok (n, ps) => .ok ⟨s.nbody ++ ps, n⟩

open Classical in
/-- `get_npart` (lines 88-98). -/
noncomputable def getNpart (z : ℝ) (d : Dir) : List ℕ → Except Err ℕ
  | [] => .ok 0
  | k :: ks =>
    match d.xv k with
    | none => .error .file
    | some x =>
      if ¬ sameRedshift x.a z then .error .assertion
      else match getNpart z d ks with
        | .error e => .error e
        | .ok n => .ok (x.count + n)

/-- `NbodyFile(filespath, z, node, pid_file=...)` (lines 37-67). -/
noncomputable def nbodyFile (dir : String → ℝ → Dir) (path : Option String) (z : Option ℝ) (node : Option ℕ) (pidFile : Bool) : Except Err State :=
  match z with
  | none => .error .name
  | some z =>
    match path with
    | none => .error .name
    | some p =>
      if p = "" then .error .name
      else
        match getNpart z (dir p z) (List.range (dir p z).nodes) with
        | .error e => .error e
        | .ok n =>
          match node with
          | none => .ok ⟨[], n⟩
          | some k => readFromFile z (dir p z) pidFile ⟨[], n⟩ (some k)

end Verif.CubeP3M
