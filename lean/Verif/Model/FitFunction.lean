import Mathlib.Data.Real.Sqrt
import Mathlib.Data.List.GetD
/-!
# Model of `FitFunction` (`fitting_methods.py` lines 12-83)

The optimiser (`scipy.optimize.minimize`) and the random splits (`ShuffleSplit`) are arguments.  A number that is not finite is
`none`.  Simplified: the samples are a list of pairs of `X` and a finite `y`, and the function is evaluated sample by sample.
-/

namespace Verif.FitFunction

/-- A number, `none` for one that is not finite. -/
abbrev V := Option ℝ

/-- The object (`fitting_methods.py` lines 13-23); the attributes `fitted_params_std` and `cv_scores_` are empty before they exist. -/
structure Fit (X : Type) where
  func : X → List V → V
  params : Option (List (String × ℝ))
  cv : Option ℕ
  fitted : List (String × V)
  std : List (String × V)
  scores : List V

/-- `__init__` (`fitting_methods.py` lines 13-23). -/
def init {X : Type} (func : X → List V → V) (params : Option (List (String × ℝ))) (cv : Option ℕ) : Fit X :=
  ⟨func, params, cv, [], [], []⟩

/-- `d[k] = v` for a dictionary: a key keeps its place, a new key is the last. -/
def setKey (d : List (String × V)) (k : String) (v : V) : List (String × V) :=
  match d with
  | [] => [(k, v)]
  | (k', v') :: d => if k' = k then (k', v) :: d else (k', v') :: setKey d k v

/-- The loop of the lines 39-40, 56-58: the values are stored in the order of `fit_params`. -/
def store (d : List (String × V)) (keys : List String) (θ : List V) : List (String × V) :=
  (θ.zip keys).foldl (fun d p => setKey d p.2 p.1) d

/-- A sum of squares of differences of numbers; not finite if one of them is not. -/
noncomputable def squares : List (V × ℝ) → V
  | [] => some 0
  | (p, y) :: l => p.bind fun p => (squares l).map fun s => (p - y) ^ 2 + s

/-- `residual_func` (`fitting_methods.py` lines 25-26). -/
noncomputable def residual {X : Type} (func : X → List V → V) (data : List (X × ℝ)) (θ : List V) : V :=
  squares (data.map fun d => (func d.1 θ, d.2))

/-- `_optimize` (`fitting_methods.py` lines 28-31). -/
noncomputable def optimize {X : Type} (opt : (List V → V) → List V → List V) (func : X → List V → V) (params : List (String × ℝ))
    (data : List (X × ℝ)) : List V :=
  opt (residual func data) (params.map fun p => some p.2)

/-- `predict` (`fitting_methods.py` lines 71-74). -/
def predict {X : Type} (s : Fit X) (xs : List X) : List V := xs.map fun x => s.func x (s.fitted.map Prod.snd)

/-- `r2_score` of scikit-learn for one output. -/
noncomputable def r2Score (ys : List ℝ) (ps : List V) : Except String V :=
  open Classical in
  match squares (ps.zip ys) with
  | none => .error "ValueError"
  | some res =>
    if ys = [] then .error "ValueError"
    else if ys.length < 2 then .ok none
    else
      let mean := ys.sum / ys.length
      let tot := (ys.map fun y => (y - mean) ^ 2).sum
      if tot = 0 then .ok (some (if res = 0 then 1 else 0)) else .ok (some (1 - res / tot))

/-- `score` (`fitting_methods.py` lines 80-83). -/
noncomputable def score {X : Type} (s : Fit X) (data : List (X × ℝ)) : Except String V :=
  r2Score (data.map Prod.snd) (predict s (data.map Prod.fst))

/-- All numbers, if all of them are finite (`np.all(np.isfinite(best_theta))`, line 55). -/
def finite (θ : List V) : Option (List ℝ) := θ.mapM id

/-- `X[index]` and `y[index]` (lines 51-52); the indices are those of samples. -/
def take {X : Type} (data : List (X × ℝ)) (index : List ℕ) : List (X × ℝ) := index.filterMap (data[·]?)

/-- The loop over the splits (`fitting_methods.py` lines 49-62): the object after it, and the parameters and scores of the folds
unless `r2_score` raises. -/
noncomputable def folds {X : Type} (opt : (List V → V) → List V → List V) (params : List (String × ℝ)) (data : List (X × ℝ)) :
    Fit X → List (List ℕ × List ℕ) → Fit X × Except String (List (List ℝ × V))
  | s, [] => (s, .ok [])
  | s, (train, test) :: rest =>
    let θ := optimize opt s.func params (take data train)
    match finite θ with
    | none => folds opt params data s rest
    | some v =>
      let s := { s with fitted := store s.fitted (params.map Prod.fst) θ }
      match score s (take data test) with
      | .error e => (s, .error e)
      | .ok r =>
        match folds opt params data s rest with
        | (s, .error e) => (s, .error e)
        | (s, .ok l) => (s, .ok ((v, r) :: l))

/-- The folds whose score is positive (`np.array(scrs)>0`, lines 67-68). -/
noncomputable def positive (l : List (List ℝ × V)) : List (List ℝ) :=
  open Classical in
  l.filterMap fun p => p.2.bind fun r => if 0 < r then some p.1 else none

/-- `mean()` of an array, not a number for an empty one. -/
noncomputable def mean (l : List ℝ) : V := if l = [] then none else some (l.sum / l.length)

/-- `std()` of an array. -/
noncomputable def std (l : List ℝ) : V := (mean l).bind fun m => (mean (l.map fun x => (x - m) ^ 2)).map Real.sqrt

/-- `fit` (`fitting_methods.py` lines 33-69): the object after it and the exception that it raises, if any. -/
noncomputable def fit {X : Type} (opt : (List V → V) → List V → List V) (splits : ℕ → ℕ → Except String (List (List ℕ × List ℕ)))
    (s : Fit X) (data : List (X × ℝ)) (cv : Option ℕ) : Fit X × Option String :=
  let s := match cv with
    | some n => { s with cv := some n }
    | none => s
  match s.params with
  | none => (s, some "AttributeError")
  | some params =>
    let keys := params.map Prod.fst
    match s.cv with
    | none => ({ s with fitted := store s.fitted keys (optimize opt s.func params data) }, none)
    | some n =>
      match splits data.length n with
      | .error e => (s, some e)
      | .ok l =>
        match folds opt params data s l with
        | (s, .error e) => (s, some e)
        | (s, .ok r) =>
          let column := fun (p : ℕ) => (positive r).map fun v => v.getD p 0
          ({ s with
              fitted := store s.fitted keys ((List.range keys.length).map fun p => mean (column p))
              std := keys.zip ((List.range keys.length).map fun p => std (column p))
              scores := r.map Prod.snd }, none)

/-- `fit_predict` (`fitting_methods.py` lines 76-78). -/
noncomputable def fitPredict {X : Type} (opt : (List V → V) → List V → List V)
    (splits : ℕ → ℕ → Except String (List (List ℕ × List ℕ))) (s : Fit X) (data : List (X × ℝ)) : Fit X × Except String (List V) :=
  match fit opt splits s data none with
  | (s, some e) => (s, .error e)
  | (s, none) => (s, .ok (predict s (data.map Prod.fst)))

end Verif.FitFunction
