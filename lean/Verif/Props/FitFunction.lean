import Verif.Model.FitFunction
import Mathlib.Tactic.Linarith
import Mathlib.Tactic.NormNum
import Mathlib.Tactic.FieldSimp
import Mathlib.Algebra.Order.BigOperators.Group.List
/-!
# Properties of `FitFunction` (C163)
-/

namespace Verif.FitFunction

/-! ## Specification -/

/-- The sum of the squared errors of a function with the parameters `θ`. -/
noncomputable def sse {X : Type} (f : X → List V → V) (data : List (X × ℝ)) (θ : List V) : V :=
  (data.mapM fun d => (f d.1 θ).map fun p => (p - d.2) ^ 2).map List.sum

/-- The sum of the squared errors of predictions. -/
def err {X : Type} (g : X → ℝ) (data : List (X × ℝ)) : ℝ := (data.map fun d => (g d.1 - d.2) ^ 2).sum

/-- The mean of the values. -/
noncomputable def centre {X : Type} (data : List (X × ℝ)) : ℝ := (data.map Prod.snd).sum / data.length

/-- The predictions for the samples of a test are better than their mean (or both are exact). -/
def Useful {X : Type} (g : X → ℝ) (test : List (X × ℝ)) : Prop :=
  2 ≤ test.length ∧ (err g test < err (fun _ => centre test) test ∨ err g test = 0 ∧ err (fun _ => centre test) test = 0)

/-- The samples with the given indices. -/
def pick {X : Type} (data : List (X × ℝ)) (index : List ℕ) : List (X × ℝ) := index.filterMap fun i => data[i]?

open Classical in
/-- The parameters of the splits whose optimum is finite and useful for the test. -/
noncomputable def useful {X : Type} (opt : (List V → V) → List V → List V) (f : X → List V → V) (g : List ℝ → X → ℝ)
    (start : List V) (data : List (X × ℝ)) (l : List (List ℕ × List ℕ)) : List (List ℝ) :=
  l.filterMap fun s => ((opt (sse f (pick data s.1)) start).mapM id).bind fun θ =>
    if Useful (g θ) (pick data s.2) then some θ else none

open Classical in
/-- The coefficient of determination of predictions for the samples of a test. -/
noncomputable def determination {X : Type} (g : X → ℝ) (test : List (X × ℝ)) : V :=
  if test.length < 2 then none
  else if err (fun _ => centre test) test = 0 then some (if err g test = 0 then 1 else 0)
  else some (1 - err g test / err (fun _ => centre test) test)

/-- The coefficients of the splits whose optimum is finite. -/
noncomputable def coefficients {X : Type} (opt : (List V → V) → List V → List V) (f : X → List V → V) (g : List ℝ → X → ℝ)
    (start : List V) (data : List (X × ℝ)) (l : List (List ℕ × List ℕ)) : List V :=
  l.filterMap fun s => ((opt (sse f (pick data s.1)) start).mapM id).map fun θ => determination (g θ) (pick data s.2)

/-- The object was made by `__init__` and `fit` with the parameters `params`: what was fitted has their names in their order. -/
def Ready {X : Type} (s : Fit X) (params : List (String × ℝ)) : Prop :=
  s.params = some params ∧ (params.map Prod.fst).Nodup ∧ (s.fitted = [] ∨ s.fitted.map Prod.fst = params.map Prod.fst)

/-! ## Lemmas -/

theorem setKey_append (pre d : List (String × V)) (k : String) (v : V) (h : k ∉ pre.map Prod.fst) :
    setKey (pre ++ d) k v = pre ++ setKey d k v := by
  induction pre with
  | nil => rfl
  | cons p pre ih =>
    obtain ⟨k', v'⟩ := p
    simp only [List.map_cons, List.mem_cons, not_or] at h
    simp only [List.cons_append, setKey]
    rw [if_neg (Ne.symm h.1), ih h.2]

theorem store_append (keys : List String) : ∀ (θ : List V) (pre d : List (String × V)), (pre.map Prod.fst ++ keys).Nodup →
    (d = [] ∨ d.map Prod.fst = keys) → θ.length = keys.length → store (pre ++ d) keys θ = pre ++ keys.zip θ := by
  induction keys with
  | nil =>
    intro θ pre d _ hd hl
    have : θ = [] := List.length_eq_zero_iff.1 hl
    subst this
    rcases hd with rfl | hd
    · simp [store]
    · have : d = [] := by simpa using hd
      subst this
      simp [store]
  | cons k ks ih =>
    intro θ pre d hn hd hl
    match θ, hl with
    | t :: ts, hl =>
      have hk : k ∉ pre.map Prod.fst := fun h => (List.nodup_append.1 hn).2.2 k h k (by simp) rfl
      have hn' : ((pre ++ [(k, t)]).map Prod.fst ++ ks).Nodup := by simpa using hn
      have hl' : ts.length = ks.length := by simpa using hl
      have key : ∃ d', setKey (pre ++ d) k t = (pre ++ [(k, t)]) ++ d' ∧ (d' = [] ∨ d'.map Prod.fst = ks) := by
        rw [setKey_append _ _ _ _ hk]
        rcases hd with rfl | hd
        · exact ⟨[], by simp [setKey], Or.inl rfl⟩
        · match d, hd with
          | (k', v') :: d', hd =>
            have h2 : k' = k ∧ d'.map Prod.fst = ks := by simpa using hd
            exact ⟨d', by simp [setKey, h2.1], Or.inr h2.2⟩
      obtain ⟨d', e, hd'⟩ := key
      have : store (pre ++ d) (k :: ks) (t :: ts) = store (setKey (pre ++ d) k t) ks ts := rfl
      rw [this, e, ih ts _ d' hn' hd' hl']
      simp

theorem store_eq {d : List (String × V)} {keys : List String} {θ : List V} (hn : keys.Nodup) (hd : d = [] ∨ d.map Prod.fst = keys)
    (hl : θ.length = keys.length) : store d keys θ = keys.zip θ := by
  have := store_append keys θ [] d (by simpa using hn) hd hl
  simpa using this

theorem squares_eq {X : Type} (f : X → List V → V) (θ : List V) (data : List (X × ℝ)) : residual f data θ = sse f data θ := by
  induction data with
  | nil => simp [residual, squares, sse]
  | cons d l ih =>
    unfold residual sse at *
    simp only [List.map_cons, squares, List.mapM_cons]
    rw [ih]
    cases f d.1 θ with
    | none => rfl
    | some p =>
      cases (l.mapM fun d => (f d.1 θ).map fun p => (p - d.2) ^ 2) with
      | none => rfl
      | some m => simp

theorem optimize_eq {X : Type} (opt : (List V → V) → List V → List V) (f : X → List V → V) (params : List (String × ℝ))
    (data : List (X × ℝ)) : optimize opt f params data = opt (sse f data) (params.map fun p => some p.2) := by
  unfold optimize
  congr 1
  funext θ
  exact squares_eq f θ data

theorem squares_real {X : Type} (g : X → ℝ) (data : List (X × ℝ)) :
    squares ((data.map fun d => some (g d.1)).zip (data.map Prod.snd)) = some (err g data) := by
  induction data with
  | nil => simp [squares, err]
  | cons d l ih =>
    simp only [List.map_cons, List.zip_cons_cons, squares, ih, err, List.sum_cons]
    rfl

theorem finite_map {θ : List V} {v : List ℝ} (h : finite θ = some v) : θ = v.map some := by
  unfold finite at h
  induction θ generalizing v with
  | nil =>
    simp at h
    subst h
    rfl
  | cons t ts ih =>
    rw [List.mapM_cons] at h
    cases t with
    | none => simp at h
    | some t =>
      cases hm : ts.mapM id with
      | none => simp [hm] at h
      | some m =>
        simp [hm] at h
        subst h
        simp [ih hm]

theorem zip_snd {keys : List String} {θ : List V} (hl : θ.length = keys.length) : (keys.zip θ).map Prod.snd = θ :=
  List.map_snd_zip hl.le

theorem zip_fst {keys : List String} {θ : List V} (hl : θ.length = keys.length) : (keys.zip θ).map Prod.fst = keys :=
  List.map_fst_zip hl.ge

/-- The attributes that `fit` does not change in the loop. -/
def Same {X : Type} (s s' : Fit X) : Prop := s'.func = s.func ∧ s'.params = s.params ∧ s'.cv = s.cv

theorem ready_store {X : Type} {s : Fit X} {params : List (String × ℝ)} (h : Ready s params) {θ : List V}
    (hl : θ.length = params.length) : store s.fitted (params.map Prod.fst) θ = (params.map Prod.fst).zip θ :=
  store_eq h.2.1 h.2.2 (by simpa using hl)

theorem ready_with {X : Type} {s s' : Fit X} {params : List (String × ℝ)} (h : Ready s params) {θ : List V}
    (hl : θ.length = params.length) (hp : s'.params = s.params) (hf : s'.fitted = store s.fitted (params.map Prod.fst) θ) :
    Ready s' params := by
  refine ⟨hp.trans h.1, h.2.1, Or.inr ?_⟩
  rw [hf, ready_store h hl, zip_fst (by simpa using hl)]

theorem folds_ready {X : Type} (opt : (List V → V) → List V → List V) (hopt : ∀ o i, (opt o i).length = i.length)
    (params : List (String × ℝ)) (data : List (X × ℝ)) (l : List (List ℕ × List ℕ)) :
    ∀ s : Fit X, Ready s params → Ready (folds opt params data s l).1 params ∧ Same s (folds opt params data s l).1 := by
  induction l with
  | nil => intro s h; exact ⟨h, rfl, rfl, rfl⟩
  | cons p rest ih =>
    intro s h
    obtain ⟨train, test⟩ := p
    unfold folds
    have hl : (optimize opt s.func params (take data train)).length = params.length := by
      unfold optimize
      rw [hopt]
      simp
    dsimp only
    cases finite (optimize opt s.func params (take data train)) with
    | none => exact ih s h
    | some v =>
      dsimp only
      have h' : Ready { s with fitted := store s.fitted (params.map Prod.fst) (optimize opt s.func params (take data train)) } params :=
        ready_with h hl rfl rfl
      generalize hs : ({ s with fitted := store s.fitted (params.map Prod.fst) (optimize opt s.func params (take data train)) } : Fit X) = s1
      rw [hs] at h'
      have hsame : Same s s1 := by subst hs; exact ⟨rfl, rfl, rfl⟩
      cases score s1 (take data test) with
      | error e => exact ⟨h', hsame⟩
      | ok r =>
        dsimp only
        have := ih s1 h'
        rcases hf : folds opt params data s1 rest with ⟨s2, _ | l⟩
        · rw [hf] at this
          exact ⟨this.1, this.2.1.trans hsame.1, this.2.2.1.trans hsame.2.1, this.2.2.2.trans hsame.2.2⟩
        · rw [hf] at this
          exact ⟨this.1, this.2.1.trans hsame.1, this.2.2.1.trans hsame.2.1, this.2.2.2.trans hsame.2.2⟩

theorem r2_pos {X : Type} (g : X → ℝ) (test : List (X × ℝ)) (hne : test ≠ []) :
    ∃ r, r2Score (test.map Prod.snd) (test.map fun d => some (g d.1)) = .ok r ∧ r = determination g test ∧
      ((∃ x, r = some x ∧ 0 < x) ↔ Useful g test) := by
  unfold r2Score determination
  rw [squares_real]
  dsimp only
  rw [if_neg (by simpa using hne)]
  unfold Useful
  by_cases h2 : test.length < 2
  · refine ⟨none, by rw [if_pos (by simpa using h2)], by rw [if_pos h2], ?_⟩
    constructor
    · rintro ⟨x, hx, _⟩
      cases hx
    · rintro ⟨h, _⟩
      omega
  · rw [if_neg (by simpa using h2), if_neg h2]
    have ht : ((test.map Prod.snd).map fun y => (y - (test.map Prod.snd).sum / ((test.map Prod.snd).length : ℝ)) ^ 2).sum =
        err (fun _ => centre test) test := by
      unfold err centre
      rw [List.map_map, List.length_map]
      congr 1
      refine List.map_congr_left fun d _ => ?_
      show (d.2 - _) ^ 2 = (_ - d.2) ^ 2
      ring
    rw [ht]
    have hE : 0 ≤ err g test := List.sum_nonneg (by
      intro x hx
      obtain ⟨d, _, rfl⟩ := List.mem_map.1 hx
      positivity)
    have hT : 0 ≤ err (fun _ => centre test) test := List.sum_nonneg (by
      intro x hx
      obtain ⟨d, _, rfl⟩ := List.mem_map.1 hx
      positivity)
    generalize err g test = E at *
    generalize err (fun _ => centre test) test = T at *
    have h2' : 2 ≤ test.length := by omega
    by_cases hT0 : T = 0
    · rw [if_pos hT0, if_pos hT0]
      refine ⟨_, rfl, rfl, ?_⟩
      subst hT0
      by_cases hE0 : E = 0
      · subst hE0
        simp [h2']
      · have : ¬ E < 0 := not_lt.2 hE
        simp [hE0, this]
    · rw [if_neg hT0, if_neg hT0]
      refine ⟨_, rfl, rfl, ?_⟩
      have hTp : 0 < T := lt_of_le_of_ne hT (Ne.symm hT0)
      constructor
      · rintro ⟨x, hx, hp⟩
        have hx := Option.some.inj hx
        rw [← hx, sub_pos, div_lt_one hTp] at hp
        exact ⟨h2', Or.inl hp⟩
      · rintro ⟨_, h | h⟩
        · refine ⟨_, rfl, ?_⟩
          rw [sub_pos, div_lt_one hTp]
          exact h
        · exact absurd h.2 hT0

open Classical in
theorem folds_eq {X : Type} (opt : (List V → V) → List V → List V) (hopt : ∀ o i, (opt o i).length = i.length)
    (params : List (String × ℝ)) (data : List (X × ℝ)) (g : List ℝ → X → ℝ) (l : List (List ℕ × List ℕ))
    (hne : ∀ p ∈ l, pick data p.2 ≠ []) :
    ∀ s : Fit X, Ready s params → (∀ x θ, s.func x (θ.map some) = some (g θ x)) → ∃ r, (folds opt params data s l).2 = .ok r ∧
      positive r = useful opt s.func g (params.map fun p => some p.2) data l ∧
      r.map Prod.snd = coefficients opt s.func g (params.map fun p => some p.2) data l := by
  induction l with
  | nil => intro s _ _; exact ⟨[], rfl, rfl, rfl⟩
  | cons p rest ih =>
    intro s h hg
    obtain ⟨train, test⟩ := p
    have ih := ih fun p hp => hne p (List.mem_cons_of_mem _ hp)
    have hne := hne (train, test) (by simp)
    unfold folds useful coefficients
    rw [List.filterMap_cons, List.filterMap_cons]
    have hl : (optimize opt s.func params (take data train)).length = params.length := by
      unfold optimize
      rw [hopt]
      simp
    dsimp only
    have hfin : (opt (sse s.func (pick data train)) (params.map fun p => some p.2)).mapM id =
        finite (optimize opt s.func params (take data train)) := by
      rw [optimize_eq]
      rfl
    rw [hfin]
    cases hf : finite (optimize opt s.func params (take data train)) with
    | none =>
      obtain ⟨r, h1, h2, h3⟩ := ih s h hg
      exact ⟨r, h1, h2, h3⟩
    | some v =>
      dsimp only
      have h' : Ready { s with fitted := store s.fitted (params.map Prod.fst) (optimize opt s.func params (take data train)) } params :=
        ready_with h hl rfl rfl
      have hv : optimize opt s.func params (take data train) = v.map some := finite_map hf
      have hst := ready_store h hl
      rw [hst] at h' ⊢
      have hpred : score { s with fitted := (params.map Prod.fst).zip (optimize opt s.func params (take data train)) } (take data test) =
          r2Score ((pick data test).map Prod.snd) ((pick data test).map fun d => some (g v d.1)) := by
        unfold score predict
        dsimp only
        rw [zip_snd (by simpa using hl), hv, List.map_map]
        congr 1
        refine List.map_congr_left fun d _ => ?_
        exact hg d.1 v
      rw [hpred]
      obtain ⟨q, hq, hdet, hpos⟩ := r2_pos (g v) (pick data test) hne
      rw [hq]
      dsimp only
      obtain ⟨r, h1, h2, h3⟩ := ih _ h' hg
      rcases hfo : folds opt params data
        { s with fitted := (params.map Prod.fst).zip (optimize opt s.func params (take data train)) } rest with ⟨s2, e | r'⟩
      · rw [hfo] at h1
        cases h1
      · rw [hfo] at h1
        cases h1
        refine ⟨(v, q) :: r, rfl, ?_, by
          rw [List.map_cons, h3, hdet]
          rfl⟩
        have hb : positive ((v, q) :: r) = (if Useful (g v) (pick data test) then [v] else []) ++ positive r := by
          unfold positive
          rw [List.filterMap_cons]
          by_cases hu : Useful (g v) (pick data test)
          · obtain ⟨x, rfl, hx⟩ := hpos.2 hu
            simp [hu, hx]
          · have : (q.bind fun r => if 0 < r then some v else none) = none := by
              cases q with
              | none => rfl
              | some x =>
                have : ¬ 0 < x := fun hx => hu (hpos.1 ⟨x, rfl, hx⟩)
                simp [this]
            simp only [this, hu, if_false, List.nil_append]
        rw [hb, h2]
        unfold useful
        by_cases hu : Useful (g v) (pick data test)
        · simp [hu]
        · simp [hu]

/-! ## C163 -/

section
variable {X : Type} (opt : (List V → V) → List V → List V) (splits : ℕ → ℕ → Except String (List (List ℕ × List ℕ)))

/-- **C163, partial**: an object that never had a number of splits fits all samples: the parameters are the optimum of the sum of
squared errors started at `fit_params`, and the predictions are the function at them, whatever was fitted before.  The full
property: `fit` depends on its own arguments only. -/
theorem C163_partial (hopt : ∀ o i, (opt o i).length = i.length) {s : Fit X} {params : List (String × ℝ)} (h : Ready s params)
    (hcv : s.cv = none) (data : List (X × ℝ)) :
    ∃ s', fit opt splits s data none = (s', none) ∧ Ready s' params ∧
      s'.fitted = (params.map Prod.fst).zip (opt (sse s.func data) (params.map fun p => some p.2)) ∧
      ∀ xs, predict s' xs = xs.map fun x => s.func x (opt (sse s.func data) (params.map fun p => some p.2)) := by
  have hl : (optimize opt s.func params data).length = params.length := by
    unfold optimize
    rw [hopt]
    simp
  have hs := ready_store h hl
  rw [optimize_eq] at hs hl
  refine ⟨{ s with fitted := (params.map Prod.fst).zip (opt (sse s.func data) (params.map fun p => some p.2)) }, ?_,
    ready_with h hl rfl hs.symm, rfl, fun xs => ?_⟩
  · unfold fit
    simp only [h.1, hcv, optimize_eq]
    rw [hs]
  · unfold predict
    dsimp only
    rw [zip_snd (by simpa using hl)]

/-- If the optimiser finds the least sum, no parameters describe the samples better than the predictions. -/
theorem C163_least (hopt : ∀ o i, (opt o i).length = i.length) {s : Fit X} {params : List (String × ℝ)} (h : Ready s params)
    (hcv : s.cv = none) (data : List (X × ℝ)) {θ : List ℝ} (g : List ℝ → X → ℝ)
    (hg : ∀ x θ, s.func x (θ.map some) = some (g θ x))
    (hθ : opt (sse s.func data) (params.map fun p => some p.2) = θ.map some)
    (hmin : ∀ t : List ℝ, ∀ e e', sse s.func data (θ.map some) = some e → sse s.func data (t.map some) = some e' → e ≤ e') :
    ∃ s' p, fitPredict opt splits s data = (s', .ok ((data.map Prod.fst).map fun x => some (p x))) ∧
      ∀ t : List ℝ, err p data ≤ err (g t) data := by
  have hsse : ∀ t : List ℝ, sse s.func data (t.map some) = some (err (g t) data) := by
    intro t
    have h1 := squares_real (g t) data
    rw [← squares_eq]
    unfold residual
    rw [← h1]
    congr 1
    rw [List.zip_map']
    refine List.map_congr_left fun d _ => ?_
    rw [hg]
  obtain ⟨s', h1, _, _, h4⟩ := C163_partial opt splits hopt h hcv data
  refine ⟨s', g θ, ?_, fun t => hmin t _ _ (hsse θ) (hsse t)⟩
  unfold fitPredict
  rw [h1]
  dsimp only
  rw [h4, hθ]
  simp only [hg]

/-- With a number of splits, every parameter is the mean over the splits whose optimum is finite and useful for the test
samples, with their standard deviation; the scores are those of all splits with a finite optimum. -/
theorem C163_splits (hopt : ∀ o i, (opt o i).length = i.length) {s : Fit X} {params : List (String × ℝ)} (h : Ready s params)
    (data : List (X × ℝ)) (g : List ℝ → X → ℝ) (hg : ∀ x θ, s.func x (θ.map some) = some (g θ x)) {n : ℕ}
    {l : List (List ℕ × List ℕ)} (hn : splits data.length n = .ok l) (hne : ∀ p ∈ l, pick data p.2 ≠ []) :
    ∃ s', fit opt splits s data (some n) = (s', none) ∧ Ready s' params ∧ s'.cv = some n ∧
      s'.fitted.map Prod.fst = params.map Prod.fst ∧ s'.std.map Prod.fst = params.map Prod.fst ∧
      s'.scores = coefficients opt s.func g (params.map fun p => some p.2) data l ∧
      ∀ p < params.length, ∀ u, u = useful opt s.func g (params.map fun p => some p.2) data l →
        (u = [] → (s'.fitted.map Prod.snd)[p]? = some none) ∧
        (u ≠ [] → (s'.fitted.map Prod.snd)[p]? = some (some ((u.map fun v => v.getD p 0).sum / u.length)) ∧
          (s'.std.map Prod.snd)[p]? = some (some (Real.sqrt
            ((u.map fun v => (v.getD p 0 - (u.map fun v => v.getD p 0).sum / u.length) ^ 2).sum / u.length)))) := by
  obtain ⟨f, ps, c0, ft, sd, sc⟩ := s
  obtain rfl : ps = some params := h.1
  generalize hs : (⟨f, some params, c0, ft, sd, sc⟩ : Fit X) = s at *
  have h0 : Ready { s with cv := some n } params := h
  obtain ⟨r, hr, hp, hsc⟩ := folds_eq opt hopt params data g l hne { s with cv := some n } h0 hg
  have hrd := folds_ready opt hopt params data l { s with cv := some n } h0
  rcases hf : folds opt params data { s with cv := some n } l with ⟨s1, e | r1⟩
  · rw [hf] at hr
    cases hr
  · rw [hf] at hr hrd
    cases hr
    have hl : ((List.range (params.map Prod.fst).length).map fun p => mean ((positive r).map fun v => v.getD p 0)).length =
        params.length := by simp
    have hst := ready_store hrd.1 hl
    have hfit : fit opt splits s data (some n) = ({ s1 with
        fitted := store s1.fitted (params.map Prod.fst)
          ((List.range (params.map Prod.fst).length).map fun p => mean ((positive r).map fun v => v.getD p 0))
        std := (params.map Prod.fst).zip
          ((List.range (params.map Prod.fst).length).map fun p => std ((positive r).map fun v => v.getD p 0))
        scores := r.map Prod.snd }, none) := by
      subst hs
      unfold fit
      dsimp only at hf ⊢
      rw [hn]
      dsimp only
      rw [hf]
    refine ⟨_, hfit, ready_with hrd.1 hl rfl rfl, hrd.2.2.2, ?_, ?_, hsc, ?_⟩
    · dsimp only at hst ⊢
      rw [hst, zip_fst (by simp)]
    · dsimp only
      rw [zip_fst (by simp)]
    · intro p hpl u hu
      dsimp only at hst ⊢
      rw [hst, zip_snd (by simp), zip_snd (by simp), hp, ← hu]
      constructor
      · rintro rfl
        simp [hpl, mean]
      · intro hne
        simp [hpl, mean, std, hne, Function.comp_def]

/-- A mean over splits is between the least and the largest of them. -/
theorem C163_range (hopt : ∀ o i, (opt o i).length = i.length) {s : Fit X} {params : List (String × ℝ)} (h : Ready s params)
    (data : List (X × ℝ)) (g : List ℝ → X → ℝ) (hg : ∀ x θ, s.func x (θ.map some) = some (g θ x)) {n : ℕ}
    {l : List (List ℕ × List ℕ)} (hn : splits data.length n = .ok l) (hne : ∀ p ∈ l, pick data p.2 ≠ []) {p : ℕ}
    (hp : p < params.length) {lo hi : ℝ}
    (hb : ∀ v ∈ useful opt s.func g (params.map fun p => some p.2) data l, lo ≤ v.getD p 0 ∧ v.getD p 0 ≤ hi) :
    ∀ s', fit opt splits s data (some n) = (s', none) → ∀ x, (s'.fitted.map Prod.snd)[p]? = some (some x) → lo ≤ x ∧ x ≤ hi := by
  obtain ⟨s1, h1, _, _, _, _, _, h5⟩ := C163_splits opt splits hopt h data g hg hn hne
  intro s' hs x hx
  rw [h1] at hs
  obtain ⟨rfl, _⟩ := Prod.mk.inj hs
  obtain ⟨ha, hc⟩ := h5 p hp _ rfl
  generalize useful opt s.func g (params.map fun p => some p.2) data l = u at *
  by_cases hu : u = []
  · rw [ha hu] at hx
    cases hx
  · rw [(hc hu).1] at hx
    have hx := Option.some.inj (Option.some.inj hx)
    have hlen : (0 : ℝ) < u.length := by exact_mod_cast List.length_pos_iff.2 hu
    rw [← hx, le_div_iff₀ hlen, div_le_iff₀ hlen]
    constructor
    · have := List.card_nsmul_le_sum (u.map fun v => v.getD p 0) lo (by
        intro y hy
        obtain ⟨v, hv, rfl⟩ := List.mem_map.1 hy
        exact (hb v hv).1)
      simpa [mul_comm] using this
    · have := List.sum_le_card_nsmul (u.map fun v => v.getD p 0) hi (by
        intro y hy
        obtain ⟨v, hv, rfl⟩ := List.mem_map.1 hy
        exact (hb v hv).2)
      simpa [mul_comm] using this

/-- Any number of calls of `fit`, also of ones that raise, leaves the names of the fitted parameters in the order of `fit_params`. -/
theorem C163_order (hopt : ∀ o i, (opt o i).length = i.length) (f : X → List V → V) (params : List (String × ℝ))
    (hn : (params.map Prod.fst).Nodup) (cv : Option ℕ) (calls : List (List (X × ℝ) × Option ℕ)) :
    Ready (calls.foldl (fun s c => (fit opt splits s c.1 c.2).1) (init f (some params) cv)) params := by
  have step : ∀ s : Fit X, Ready s params → ∀ c : List (X × ℝ) × Option ℕ, Ready (fit opt splits s c.1 c.2).1 params := by
    intro s h c
    obtain ⟨data, cv⟩ := c
    have main : ∀ s : Fit X, Ready s params → Ready (fit opt splits s data none).1 params := by
      intro s h
      cases hcv : s.cv with
      | none =>
        obtain ⟨s', h1, h2, _⟩ := C163_partial opt splits hopt h hcv data
        rw [h1]
        exact h2
      | some n =>
        unfold fit
        simp only [h.1, hcv]
        cases splits data.length n with
        | error e => exact h
        | ok l =>
          dsimp only
          have hrd := folds_ready opt hopt params data l s h
          rcases hf : folds opt params data s l with ⟨s1, e | r1⟩
          · rw [hf] at hrd
            exact hrd.1
          · rw [hf] at hrd
            exact ready_with hrd.1 (by simp) rfl rfl
    cases cv with
    | none => exact main s h
    | some n => exact main { s with cv := some n } h
  have all : ∀ s : Fit X, Ready s params → Ready (calls.foldl (fun s c => (fit opt splits s c.1 c.2).1) s) params := by
    induction calls with
    | nil => intro s h; exact h
    | cons c cs ih => intro s h; exact ih _ (step s h c)
  exact all _ ⟨rfl, hn, Or.inl rfl⟩

/-- Once given, a number of splits is used by the next call that gives none, whether or not the first one raised. -/
theorem C163_persists (hopt : ∀ o i, (opt o i).length = i.length) {s : Fit X} {params : List (String × ℝ)} (h : Ready s params)
    (first second : List (X × ℝ)) (n : ℕ) :
    let s' := (fit opt splits s first (some n)).1
    fit opt splits s' second none = fit opt splits s' second (some n) := by
  intro s'
  have hcv : s'.cv = some n := by
    obtain ⟨f, ps, c0, ft, sd, sc⟩ := s
    obtain rfl : ps = some params := h.1
    have hrd := fun l => folds_ready opt hopt params first l (⟨f, some params, some n, ft, sd, sc⟩ : Fit X) h
    show (fit opt splits _ first (some n)).1.cv = some n
    unfold fit
    dsimp only
    cases splits first.length n with
    | error e => rfl
    | ok l =>
      dsimp only
      have hrd := hrd l
      rcases hf : folds opt params first (⟨f, some params, some n, ft, sd, sc⟩ : Fit X) l with ⟨s1, e | r1⟩
      · rw [hf] at hrd
        exact hrd.2.2.2
      · rw [hf] at hrd
        exact hrd.2.2.2
  have hs : s' = { s' with cv := some n } := by
    rw [← hcv]
  show fit opt splits s' second none = fit opt splits { s' with cv := some n } second none
  rw [← hs]

/-- Without `fit_params` an object is made, but `fit` and `fit_predict` raise. -/
theorem C163_raises (f : X → List V → V) (cv cv' : Option ℕ) (data : List (X × ℝ)) :
    (fit opt splits (init f none cv) data cv').2 = some "AttributeError" ∧
      (fitPredict opt splits (init f none cv) data).2 = .error "AttributeError" := by
  unfold fitPredict fit init
  cases cv' <;> exact ⟨rfl, rfl⟩

end

/-- **C163 is false**: after a fit with splits the same call `fit(X, y)` does something else than on a new object. -/
theorem C163_false : ∃ (opt : (List V → V) → List V → List V) (splits : ℕ → ℕ → Except String (List (List ℕ × List ℕ)))
    (f : Unit → List V → V) (params : List (String × ℝ)) (data : List (Unit × ℝ)),
    predict (fit opt splits (fit opt splits (init f (some params) none) data (some 0)).1 data none).1 [()] ≠
      predict (fit opt splits (init f (some params) none) data none).1 [()] := by
  refine ⟨fun _ i => i, fun _ _ => .ok [], fun _ θ => θ.headD none, [("a", 1)], [((), 1)], ?_⟩
  simp [fit, init, predict, store, setKey, folds, optimize, positive, mean]

/-! ## Examples -/

/-- An object for a constant function, with one parameter. -/
noncomputable def constant : Fit Unit := init (fun _ θ => some ((θ.headD none).getD 0)) (some [("a", 1)]) none

theorem constant_ready : Ready constant [("a", 1)] := ⟨rfl, by simp, Or.inl rfl⟩

theorem constant_real : ∀ (x : Unit) (θ : List ℝ), constant.func x (θ.map some) = some ((fun θ _ => θ.headD 0 : List ℝ → Unit → ℝ) θ x) := by
  intro x θ
  cases θ <;> rfl

/-- An optimiser that returns where it started. -/
def stay : (List V → V) → List V → List V := fun _ i => i

/-- One split. -/
def one : ℕ → ℕ → Except String (List (List ℕ × List ℕ)) := fun _ _ => .ok [([0], [1, 2])]

example : ∃ s', fit stay one constant [((), 1), ((), 3)] none = (s', none) ∧ Ready s' [("a", 1)] ∧
    s'.fitted = [("a", some 1)] ∧ ∀ xs, predict s' xs = xs.map fun _ => some 1 :=
  C163_partial stay _ (fun _ _ => rfl) constant_ready rfl _

example : ∃ s' p, fitPredict stay one constant [((), 1), ((), 1)] = (s', .ok ([(), ()].map fun x => some (p x))) ∧
    ∀ t : List ℝ, err p [((), 1), ((), 1)] ≤ err (fun _ => t.headD 0) [((), 1), ((), 1)] :=
  C163_least stay one (fun _ _ => rfl) constant_ready rfl [((), 1), ((), 1)] (θ := [1]) (fun θ _ => θ.headD 0) constant_real rfl (by
    intro t e e' he he'
    have : e = 0 := by
      simp [sse, constant, init] at he
      exact he.symm
    rw [this]
    simp [sse, constant, init] at he'
    rw [← he']
    positivity)

example : ∃ s', fit stay one constant [((), 5), ((), 1), ((), 1)] (some 1) = (s', none) ∧ Ready s' [("a", 1)] := by
  obtain ⟨s', h1, h2, _⟩ := C163_splits stay one (fun _ _ => rfl) constant_ready [((), 5), ((), 1), ((), 1)] (fun θ _ => θ.headD 0)
    constant_real (n := 1) rfl (by simp [pick])
  exact ⟨s', h1, h2⟩

/-- The split of this example is useful, and its parameter is kept. -/
theorem constant_useful : useful stay constant.func (fun θ _ => θ.headD 0) [some 1] [((), 5), ((), 1), ((), 1)] [([0], [1, 2])] = [[1]] := by
  have : Useful (fun _ : Unit => (1 : ℝ)) [((), 1), ((), 1)] := ⟨by simp, Or.inr (by simp [err, centre])⟩
  simp only [useful, stay, List.filterMap_cons, List.filterMap_nil]
  have e : pick [((), (5 : ℝ)), ((), 1), ((), 1)] [1, 2] = [((), 1), ((), 1)] := rfl
  simp [e, this]

example : ∀ s', fit stay one constant [((), 5), ((), 1), ((), 1)] (some 1) = (s', none) →
    ∀ x, (s'.fitted.map Prod.snd)[0]? = some (some x) → 0 ≤ x ∧ x ≤ 2 :=
  C163_range stay one (fun _ _ => rfl) constant_ready [((), 5), ((), 1), ((), 1)] (fun θ _ => θ.headD 0) constant_real (n := 1) rfl
    (by simp [pick]) (p := 0) (by simp) (by
      intro v hv
      have e : useful stay constant.func (fun θ _ => θ.headD 0) ([("a", 1)].map fun p => some p.2) [((), 5), ((), 1), ((), 1)]
        [([0], [1, 2])] = [[1]] := constant_useful
      rw [e] at hv
      rw [List.mem_singleton.1 hv]
      simp)

example : Ready ([([((), 1)], none), ([((), 2)], some 3)].foldl (fun s c => (fit stay one s c.1 c.2).1)
    (init (fun _ θ => θ.headD none) (some [("a", 1)]) none) : Fit Unit) [("a", 1)] :=
  C163_order stay _ (fun _ _ => rfl) _ _ (by simp) _ _

example : fit stay one (fit stay one constant [((), 5)] (some 2)).1 [((), 1)] none =
    fit stay one (fit stay one constant [((), 5)] (some 2)).1 [((), 1)] (some 2) :=
  C163_persists stay one (fun _ _ => rfl) constant_ready _ _ _

example : (fit stay one (init (fun (_ : Unit) θ => θ.headD none) none none) [((), 1)] (some 2)).2 = some "AttributeError" :=
  (C163_raises _ _ _ none _ _).1

end Verif.FitFunction
