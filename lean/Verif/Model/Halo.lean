import Mathlib.Algebra.Order.Field.Rat
import Mathlib.Algebra.Order.Floor.Defs
import Mathlib.Data.Rat.Floor
/-!
# Model of the halo catalogue readers (`halo_list.py`)

A line is the list of its whitespace-separated fields.  Numbers are rational; reading the
file and printing are not modelled.
-/

namespace Verif.Halo

/-- The exceptions that the readers can raise. -/
inductive Err
  | index
  | value
  | unbound
  | zeroDivision
  | attribute
  deriving DecidableEq

/-! ## `HaloList` and `HaloCubeP3MFull` -/

/-- A line of the file, `none` for a field that `float` refuses. -/
abbrev Row := List (Option ℚ)

/-- `float(x)`. -/
def float (x : Option ℚ) : Except Err ℚ :=
  match x with
  | some q => .ok q
  | none => .error .value

/-- `float(vals[i])`. -/
def num (r : Row) (i : ℕ) : Except Err ℚ :=
  match r[i]? with
  | some x => float x
  | none => .error .index

/-- `[float(i) for i in vals[i:j]]`; a slice never raises. -/
def nums (r : Row) (i j : ℕ) : Except Err (List ℚ) := ((r.take j).drop i).mapM float

/-- `float(vals[-3])` (`halo_list.py` lines 231 and 516). -/
def gridMass (r : Row) : Except Err ℚ := if r.length < 3 then .error .index else num r (r.length - 3)

/-- The selection parameters of `read_from_file` (lines 176 and 468); `unit` is
`conv.M_grid*const.solar_masses_per_gram`. -/
structure Sel where
  unit : ℚ
  minMass : ℚ
  maxMass : Option ℚ
  limit : ℤ
  startline : ℤ

/-- The condition of lines 234 and 519.  `max_select_grid_mass` is bound only if
`max_select_mass` is true as a condition (lines 210 and 500), that is not `None` or `0`. -/
def accept (p : Sel) (g : ℚ) : Except Err Bool :=
  if p.minMass / p.unit < g then
    match p.maxMass with
    | none => .ok true
    | some M => if M = 0 then .error .unbound else .ok (decide (g < M / p.unit))
  else .ok false

/-- The loop of lines 214-252 and 504-536; `row` is what the body does with a line that is
read: the halo to append, if any. -/
def readLines {α : Type} (p : Sel) (row : Row → Except Err (Option α)) :
    ℤ → List α → List Row → Except Err (List α × Bool)
  | _, hs, [] => .ok (hs, true)
  | n, hs, r :: rs =>
    if n < p.startline then readLines p row (n + 1) hs rs
    else if 0 ≤ p.limit ∧ p.limit ≤ hs.length then .ok (hs, false)
    else match row r with
      | .error e => .error e
      | .ok none => readLines p row (n + 1) hs rs
      | .ok (some h) => readLines p row (n + 1) (hs ++ [h]) rs

/-- The fields of a `Halo` that `HaloList` fills (lines 525-535). -/
structure Halo where
  pos : List ℚ
  posCm : List ℚ
  vel : List ℚ
  l : List ℚ
  velDisp : List ℚ
  m : ℚ
  mp : ℚ
  solarMasses : ℚ
  deriving DecidableEq

/-- `HaloList.read_from_file`, the new halo (lines 520-535). -/
def halo (p : Sel) (r : Row) (g : ℚ) : Except Err Halo := do
  let pos ← nums r 0 3
  let posCm ← nums r 3 6
  let vel ← nums r 6 9
  let l ← nums r 9 12
  let velDisp ← nums r 12 15
  let m ← num r 16
  let mp ← num r 17
  let _ ← num r 18
  let _ ← nums r 19 22
  .ok ⟨pos, posCm, vel, l, velDisp, m, mp, g * p.unit⟩

/-- `HaloList.read_from_file`, one line (lines 515-536). -/
def listRow (p : Sel) (r : Row) : Except Err (Option Halo) := do
  let g ← gridMass r
  if ← accept p g then
    let h ← halo p r g
    .ok (some h)
  else .ok none

/-- `HaloList.read_from_file` (lines 468-540) on the lines of the file: the haloes and the
value returned. -/
def readList (p : Sel) (lines : List Row) : Except Err (List Halo × Bool) :=
  readLines p (listRow p) 1 [] lines

/-- One coordinate of `_reposition` (lines 278-284 with `self.box_len`, 332-342 with
`conv.boxsize`). -/
def repositionOne (L x : ℚ) : ℚ := if x < 0 then L + x else if L < x then x - L else x

/-- `_reposition` (lines 278-284, 332-342). -/
def reposition (L : ℚ) (pos : List ℚ) : List ℚ := pos.map (repositionOne L)

/-- `HaloCubeP3MFull.read_from_file`, the new halo (lines 235-251).  The conversions of
velocities, masses and angular momenta are left in grid units (they are in
`Model/Conversions.lean`); the positions are converted as the code does. -/
def fullHalo (p : Sel) (boxLen : ℚ) (nbox : ℕ) (r : Row) (g : ℚ) : Except Err Halo := do
  let pos ← nums r 0 3
  let posCm ← nums r 3 6
  let vel ← nums r 6 9
  let l ← nums r 9 12
  let velDisp ← nums r 12 15
  let m ← num r 16
  let mp ← num r 17
  let _ ← num r 18
  let _ ← nums r 19 22
  .ok ⟨reposition boxLen (pos.map fun (x : ℚ) => x * boxLen / nbox),
    reposition boxLen (posCm.map fun (x : ℚ) => x * boxLen / nbox),
    vel, l, velDisp, m, mp, g * p.unit⟩

/-- `HaloCubeP3MFull.read_from_file`, one line (lines 225-252): lines of one field are skipped. -/
def fullRow (p : Sel) (boxLen : ℚ) (nbox : ℕ) (r : Row) : Except Err (Option Halo) := do
  if r.length = 1 then .ok none
  else
    let g ← gridMass r
    if ← accept p g then
      let h ← fullHalo p boxLen nbox r g
      .ok (some h)
    else .ok none

/-- `HaloCubeP3MFull.read_from_file` (lines 176-261). -/
def readFull (p : Sel) (boxLen : ℚ) (nbox : ℕ) (lines : List Row) :
    Except Err (List Halo × Bool) :=
  readLines p (fullRow p boxLen nbox) 1 [] lines

/-! ## `HaloRockstar` -/

/-- The extension of the file name (lines 61 and 71). -/
inductive Ext
  | list
  | ascii
  | other
  deriving DecidableEq

/-- The columns and header lines found on line 0 (lines 58-80). -/
structure Layout where
  pos : ℕ
  vel : ℕ
  l : ℕ
  vrms : ℕ
  r : ℕ
  m : ℕ
  lnrCosm : ℕ
  lnrPart : ℕ
  lnrVals : ℕ

/-- `header.index(name)`. -/
def column (header : List String) (name : String) : Except Err ℕ :=
  match header.idxOf? name with
  | some i => .ok i
  | none => .error .value

/-- Lines 58-82.  The `ValueError` of line 82 is created but not raised: for another extension
nothing is bound. -/
def layout (ext : Ext) (massDef : String) (header : List String) : Except Err (Option Layout) :=
  match ext with
  | .list => do
    let pos ← column header "X"
    let vel ← column header "VX"
    let l ← column header "JX"
    let vrms ← column header "Vrms"
    let r ← column header ("R" ++ massDef)
    let m ← column header ("M" ++ massDef)
    .ok (some ⟨pos, vel, l, vrms, r, m, 2, 5, 15⟩)
  | .ascii => do
    let pos ← column header "x"
    let vel ← column header "vx"
    let l ← column header "Jx"
    let vrms ← column header "vrms"
    let r ← column header ("r" ++ massDef)
    let m ← column header ("m" ++ massDef)
    .ok (some ⟨pos, vel, l, vrms, r, m, 3, 6, 19⟩)
  | .other => .ok none

/-- The fields of a `Halo` that `HaloRockstar` fills (lines 99-107; `pos_cm` is `pos`). -/
structure RHalo where
  pos : List ℚ
  vel : List ℚ
  l : List ℚ
  velDisp : ℚ
  r : ℚ
  m : ℚ
  mp : ℤ
  deriving DecidableEq

/-- The object: what the header told and the haloes. -/
structure Cat where
  z : Option ℚ
  cosmology : Option (ℚ × ℚ × ℚ)
  partMass : Option ℚ
  halos : List RHalo

/-- `round(x, 0)`: to the nearest integer, halves to the even one. -/
def roundEven (x : ℚ) : ℤ :=
  let f := ⌊x⌋
  if x - f < 1 / 2 then f else if 1 / 2 < x - f then f + 1 else if f % 2 = 0 then f else f + 1

/-- `float(vals[i])` for a field given as text; `rd` is `float` on text. -/
def txt (rd : String → Option ℚ) (v : List String) (i : ℕ) : Except Err ℚ :=
  match v[i]? with
  | some s => float (rd s)
  | none => .error .index

/-- `np.array(vals[i:i+3]).astype(float)`. -/
def txts (rd : String → Option ℚ) (v : List String) (i : ℕ) : Except Err (List ℚ) :=
  ((v.drop i).take 3).mapM fun s => float (rd s)

/-- `float(line.split()[-1])`. -/
def lastTxt (rd : String → Option ℚ) (v : List String) : Except Err ℚ :=
  match v.getLast? with
  | some s => float (rd s)
  | none => .error .index

/-- `float(cosm[i][:-1])`. -/
def chopped (rd : String → Option ℚ) (v : List String) (i : ℕ) : Except Err ℚ :=
  match v[i]? with
  | some s => float (rd (String.ofList s.toList.dropLast))
  | none => .error .index

/-- The new halo (lines 99-107). -/
def rockstarHalo (rd : String → Option ℚ) (c : Layout) (part : Option ℚ) (v : List String) :
    Except Err RHalo := do
  let pos ← txts rd v c.pos
  let vel ← txts rd v c.vel
  let l ← txts rd v c.l
  let disp ← txt rd v c.vrms
  let r ← txt rd v c.r
  let m ← txt rd v c.m
  let q ← (match part with
    | none => .error .attribute
    | some q => if q = 0 then .error .zeroDivision else .ok q : Except Err ℚ)
  .ok ⟨pos, vel, l, disp, r, m, roundEven (m / q)⟩

/-- The lines after the first (lines 83-110), `n` the line number. -/
def rockstarLines (rd : String → Option ℚ) (limit : ℤ) (c : Option Layout) :
    ℕ → Cat → List (List String) → Except Err Cat
  | _, s, [] => .ok s
  | n, s, v :: vs =>
    if n = 1 then
      match lastTxt rd v with
      | .error e => .error e
      | .ok a => if a = 0 then .error .zeroDivision
        else rockstarLines rd limit c (n + 1) { s with z := some (1 / a - 1) } vs
    else match c with
      | none => .error .unbound
      | some c =>
        if n = c.lnrCosm then
          match (do
            let om ← chopped rd v 2
            let ol ← chopped rd v 5
            let h ← lastTxt rd v
            .ok (om, ol, h) : Except Err (ℚ × ℚ × ℚ)) with
          | .error e => .error e
          | .ok t => rockstarLines rd limit (some c) (n + 1) { s with cosmology := some t } vs
        else if n = c.lnrPart then
          match txt rd v 2 with
          | .error e => .error e
          | .ok q => rockstarLines rd limit (some c) (n + 1) { s with partMass := some q } vs
        else if c.lnrVals < n then
          if limit < s.halos.length then
            match rockstarHalo rd c s.partMass v with
            | .error e => .error e
            | .ok h => rockstarLines rd limit (some c) (n + 1) { s with halos := s.halos ++ [h] } vs
          else .ok s
        else rockstarLines rd limit (some c) (n + 1) s vs

/-- `HaloRockstar.read_from_file` (lines 39-113).  The list of haloes is not emptied first;
the value returned is always `True`. -/
def readRockstar (rd : String → Option ℚ) (ext : Ext) (massDef : String) (limit : ℤ) (s : Cat)
    (lines : List (List String)) : Except Err (Cat × Bool) :=
  match lines with
  | [] => .ok (s, true)
  | header :: rest => do
    let c ← layout ext massDef header
    let s ← rockstarLines rd limit c 1 s rest
    .ok (s, true)

end Verif.Halo
