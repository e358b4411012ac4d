import Mathlib.Algebra.Order.Field.Basic
/-!
# Model of `DistributionDiagnostic.plot_forest` (`plotting.py` lines 483-511)

What is drawn: for each parameter a panel with horizontal bars in rows.  The panels share their vertical axis, of which row 0 is at the bottom unless it is inverted; colours are of any type `C`.
-/

namespace Verif.Forest

/-- The entries of `dist['stats']['cis'][p]` (`plotting.py` lines 335-345). -/
structure Interval (K : Type) where
  median : K
  lo1 : K
  hi1 : K
  lo2 : K
  hi2 : K

/-- A distribution: its label, the intervals of its parameters and the colour of the caller. -/
structure Dist (K C : Type) where
  name : String
  cis : List (Interval K)
  color : Option C

/-- A bar in a row, from its left to its right end; `inner` for the thick ones. -/
structure Bar (K C : Type) where
  row : ℕ
  left : K
  right : K
  color : C
  inner : Bool

/-- A panel: its bars and the line of the true value. -/
structure Panel (K C : Type) where
  bars : List (Bar K C)
  truth : Option K

/-- The figure: its panels, the labels of the rows from row 0 on, and if the vertical axis is inverted. -/
structure Figure (K C : Type) where
  panels : List (Panel K C)
  rows : List String
  inverted : Bool

variable {K C : Type} [Field K] [LinearOrder K]

/-- `ax.errorbar(median, i, xerr=[[median - lo], [hi - median]])` (`plotting.py` lines 497-500): matplotlib raises for negative errors. -/
def errorbar (row : ℕ) (median lo hi : K) (color : C) (inner : Bool) : Except String (Bar K C) :=
  if median - lo < 0 ∨ hi - median < 0 then .error "ValueError: negative values"
  else .ok ⟨row, median - (median - lo), median + (hi - median), color, inner⟩

/-- `dist['color'] or self.fallback_colors[i % len(self.fallback_colors)]` (`plotting.py` line 496); there are always fallback colours. -/
def colorOf (fallback : ℕ → C) (nFallback : ℕ) (i : ℕ) (d : Dist K C) : C :=
  match d.color with
  | some c => c
  | none => fallback (i % nFallback)

/-- The bars of the distributions from row `i` on in panel `p` (`plotting.py` lines 492-500). -/
def bars (fallback : ℕ → C) (nFallback p : ℕ) : ℕ → List (Dist K C) → Except String (List (Bar K C))
  | _, [] => .ok []
  | i, d :: ds =>
    match d.cis[p]? with
    | none => bars fallback nFallback p (i + 1) ds
    | some ci =>
      match errorbar i ci.median ci.lo2 ci.hi2 (colorOf fallback nFallback i d) false with
      | .error e => .error e
      | .ok b2 =>
        match errorbar i ci.median ci.lo1 ci.hi1 (colorOf fallback nFallback i d) true with
        | .error e => .error e
        | .ok b1 =>
          match bars fallback nFallback p (i + 1) ds with
          | .error e => .error e
          | .ok l => .ok (b2 :: b1 :: l)

/-- The loop over the panels (`plotting.py` lines 490-509); `invert_yaxis` acts on the axis that all panels share. -/
def panels (fallback : ℕ → C) (nFallback : ℕ) (dists : List (Dist K C)) (truths : Option (List K)) : ℕ → ℕ → Bool → Except String (List (Panel K C) × Bool)
  | 0, _, inverted => .ok ([], inverted)
  | n + 1, p, inverted =>
    match bars fallback nFallback p 0 dists with
    | .error e => .error e
    | .ok l =>
      match panels fallback nFallback dists truths n (p + 1) (!inverted) with
      | .error e => .error e
      | .ok r => .ok (⟨l, match truths with | none => none | some t => t[p]?⟩ :: r.1, r.2)

/-- `plot_forest` (`plotting.py` lines 483-511).  Without distributions `max` raises, without parameters `subplots`. -/
def plotForest (fallback : ℕ → C) (nFallback : ℕ) (dists : List (Dist K C)) (truths : Option (List K)) : Except String (Figure K C) :=
  match dists.map fun d => d.cis.length with
  | [] => .error "ValueError: max"
  | n :: ns =>
    let maxParams := ns.foldl max n
    if maxParams = 0 then .error "ValueError: columns"
    else
      match panels fallback nFallback dists truths maxParams 0 false with
      | .error e => .error e
      | .ok r => .ok ⟨r.1, dists.map (·.name), r.2⟩

end Verif.Forest
