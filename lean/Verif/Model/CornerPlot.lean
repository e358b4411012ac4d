import Mathlib.Data.Rat.Defs
import Mathlib.Data.Nat.Notation
/-!
# Model of `DistributionDiagnostic.plot_corner`

What is drawn: which distribution, in how many panels, in which colour.  How `corner` and `getdist` draw is left to them.
-/

namespace Verif.CornerPlot

/-- A colour given by the caller, or one of `fallback_colors` by its place (`plotting.py` lines 299-300). -/
inductive Colour
  | own (c : ℕ)
  | fallback (i : ℕ)
  deriving DecidableEq

/-- An entry of `self.distributions`: its name, the number of its parameters (`points.shape[1]`) and its colour. -/
structure Dist where
  name : ℕ
  params : ℕ
  colour : Option ℕ
  deriving DecidableEq

/-- `self.true_values`. -/
inductive Truth
  | absent
  | list (l : List ℚ)
  | array (l : List ℚ)

/-- A distribution on the figure: its place among the distributions, the number `k` of rows and columns of the panels at the top left, its colour. -/
structure Drawn where
  place : ℕ
  panels : ℕ
  colour : Colour
  deriving DecidableEq

/-- A figure: the distributions in the order of drawing, the names and colours of the legend, and the values marked. -/
structure Figure where
  drawn : List Drawn
  legend : List (ℕ × Colour)
  marked : Option (List ℚ)
  deriving DecidableEq

/-- `dist['color'] or self.fallback_colors[i % len(self.fallback_colors)]` (`plotting.py` lines 410 and 473): thirty colours. -/
def colourOf (d : Dist) (i : ℕ) : Colour :=
  match d.colour with
  | some c => .own c
  | none => .fallback (i % 30)

/-- `max([p['points'].shape[1] for p in …])` (`plotting.py` line 400). -/
def maxParams (l : List Dist) : ℕ := l.foldl (fun m d => max m d.params) 0

/-- `sorted(enumerate(…), key=lambda x: -…shape[1])`, which keeps the order of equal keys (`plotting.py` lines 404-407). -/
def ordered (l : List Dist) : List (Dist × ℕ) := l.zipIdx.mergeSort fun a b => decide (b.1.params ≤ a.1.params)

/-- The loop (`plotting.py` lines 409-447).  `fig` tells whether there is a figure; `override` is the keyword `color`, which replaces the colour in
`opts` but not on the temporary figures.  Without a figure `fig.axes` raises. -/
def drawAll (m : ℕ) (override : Option ℕ) : Bool → List (Dist × ℕ) → Except String (List Drawn)
  | _, [] => .ok []
  | fig, (d, i) :: rest =>
    if d.params = m then
      (drawAll m override true rest).map (⟨i, d.params, (override.map Colour.own).getD (colourOf d i)⟩ :: ·)
    else if fig then (drawAll m override fig rest).map (⟨i, d.params, colourOf d i⟩ :: ·)
    else .error "AttributeError: 'NoneType' object has no attribute 'axes'"

/-- `handle_map[i]` for `i` in `sorted(handle_map)` (`plotting.py` lines 447 and 453). -/
def handles (l : List (Dist × ℕ)) : List (ℕ × Colour) :=
  ((l.map fun p => (p.2, (p.1.name, colourOf p.1 p.2))).mergeSort fun a b => decide (a.1 ≤ b.1)).map Prod.snd

/-- `corner.overplot_lines(fig, self.true_values[:max_params])` (`plotting.py` lines 450-451): the library refuses a figure that has not as many rows as
values. -/
def overplot (m : ℕ) (l : List ℚ) : Except String (Option (List ℚ)) :=
  if (l.take m).length = m then .ok (some (l.take m)) else .error "ValueError: Provided figure has other axes"

/-- `if self.true_values: …` (`plotting.py` lines 449-451): the truth of an array of several values is an error; an empty array counts as false (numpy
before 2.2). -/
def marks (m : ℕ) : Truth → Except String (Option (List ℚ))
  | .absent => .ok none
  | .list l => if l = [] then .ok none else overplot m l
  | .array [] => .ok none
  | .array [x] => if x = 0 then .ok none else overplot m [x]
  | .array _ => .error "ValueError: The truth value of an array with more than one element is ambiguous"

/-- `_plot_corner_backend` (`plotting.py` lines 393-455). -/
def cornerBackend (l : List Dist) (truth : Truth) (override : Option ℕ) : Except String Figure := do
  let drawn ← drawAll (maxParams l) override false (ordered l)
  let marked ← marks (maxParams l) truth
  .ok ⟨drawn, handles (ordered l), marked⟩

/-- `markers=self.true_values` (`plotting.py` line 480). -/
def markers : Truth → Option (List ℚ)
  | .absent => none
  | .list l => some l
  | .array l => some l

/-- `_plot_getdist_backend` (`plotting.py` lines 457-481). -/
def getdistBackend (l : List Dist) (truth : Truth) : Except String Figure :=
  .ok ⟨l.zipIdx.map fun p => ⟨p.2, p.1.params, colourOf p.1 p.2⟩, l.zipIdx.map fun p => (p.1.name, colourOf p.1 p.2), markers truth⟩

/-- `self.backend`. -/
inductive Backend
  | corner | getdist | other

/-- `plot_corner` (`plotting.py` lines 376-391) with the libraries installed; for another backend it returns `None`. -/
def plotCorner (b : Backend) (l : List Dist) (truth : Truth) (override : Option ℕ) : Except String (Option Figure) :=
  if l = [] then .error "ValueError: No distributions added." else
  match b with
  | .corner => (cornerBackend l truth override).map some
  | .getdist => (getdistBackend l truth).map some
  | .other => .ok none

end Verif.CornerPlot
