import Verif.Model.RayPoint
import Verif.Props.RaySizes
import Verif.Props.SizeDistribution
import Verif.Lemmas.Convolve
/-!
# Rays from a given point (C170) and mean lengths of the rays from points (C171)
-/

namespace Verif.RayPoint
open Verif.RaySizes

variable {ι : Type} [Fintype ι] [DecidableEq ι]

/-! ## Specification -/

/-- The cell belongs to the region: it reaches the threshold, or with `upper_lim` does not exceed it. -/
def Region (upper : Bool) (data : (ι → ℤ) → ℝ) (xth : ℝ) (c : ι → ℤ) : Prop :=
  if upper = true then data c ≤ xth else xth ≤ data c

/-- A cell of the box. -/
def Cell (shape : ι → ℕ) (c : ι → ℤ) : Prop := ∀ i, 0 ≤ c i ∧ c i < shape i

/-- A position is in the structure of a region (`C36_structure` says what this is). -/
noncomputable def within (shape : ι → ℕ) (P : (ι → ℤ) → Prop) (x : ι → ℝ) : Bool :=
  open Classical in inside shape (fun c => if P c then 1 else 0) x

/-- The number of the rays from a cell in given directions that are in the structure for `i` steps and not after the next. -/
noncomputable def leaving {α : Type} (dir : α → ι → ℝ) (ins : (ι → ℝ) → Bool) (c : ι → ℤ) (angles : List α) (i : ℕ) : ℕ :=
  open Classical in angles.countP fun a => decide (Exits ins i ⟨fun j => (c j : ℝ), dir a⟩)

/-! ## Rays from a point -/

theorem mask_flip (upper : Bool) (data : (ι → ℤ) → ℝ) (xth : ℝ) :
    (open Classical in mask (flip upper data xth).1 (flip upper data xth).2 = fun c => if Region upper data xth c then 1 else 0) := by
  classical
  funext c
  unfold mask flip Region
  cases upper
  · simp
  · simp

theorem flip_ge (upper : Bool) (data : (ι → ℤ) → ℝ) (xth : ℝ) (c : ι → ℤ) :
    (flip upper data xth).1 c ≥ (flip upper data xth).2 ↔ Region upper data xth c := by
  unfold flip Region
  cases upper <;> simp

theorem not_empty {upper : Bool} {shape : ι → ℕ} {data : (ι → ℤ) → ℝ} {xth : ℝ} {c : ι → ℤ} (hc : Cell shape c)
    (hr : Region upper data xth c) : ¬ noRegion shape (flip upper data xth).1 (flip upper data xth).2 :=
  fun h => h c hc ((flip_ge _ _ _ _).2 hr)

theorem rays_number {α : Type} (dir : α → ι → ℝ) (ins : (ι → ℝ) → Bool) (c : ι → ℤ) (l : List α) {n : ℕ} (hl : l.length = n) (i : ℕ) :
    number (Exits ins i) (rays dir (List.replicate n c) l) = leaving dir ins c l i := by
  classical
  subst hl
  unfold number leaving rays
  induction l with
  | nil => simp
  | cons a l ih =>
    rw [List.length_cons, List.replicate_succ, List.zipWith_cons_cons, List.countP_cons, List.countP_cons, ih]

theorem rays_length {α : Type} (dir : α → ι → ℝ) (c : ι → ℤ) (l : List α) {n : ℕ} (hl : l.length = n) :
    (rays dir (List.replicate n c) l).length = n := by
  unfold rays
  rw [List.length_zipWith, List.length_replicate, hl, min_self]

/-- What is computed when the point is in the region or not looked at. -/
theorem fromPoint_spec {α : Type} (dir : α → ι → ℝ) (first longest : ℕ) (checked : Bool) (shape : ι → ℕ) (data : (ι → ℤ) → ℝ)
    (xth boxsize : ℝ) {iterations : ℕ} {draw : ℕ → List α} (hd : ∀ n, (draw n).length = n) (upper : Bool)
    (point : ι → ℤ) (hne : ∃ c, Cell shape c ∧ Region upper data xth c) (hp : checked = true → Region upper data xth point) :
    ∃ r p, fromPoint dir first longest checked shape data xth boxsize iterations draw upper point = some (r, p) ∧
      r.length = longest ∧ p.length = longest ∧
      (∀ i : ℕ, i < longest → r[i]? = some ((i : ℝ) * boxsize / first)) ∧
      (∀ i : ℕ, i < longest → p[i]? =
        some ((leaving dir (within shape (Region upper data xth)) point (draw iterations) i : ℝ) / iterations)) := by
  classical
  obtain ⟨c, hc, hr⟩ := hne
  have he := not_empty hc hr
  have hb := C36_bins (inside shape (mask (flip upper data xth).1 (flip upper data xth).2)) longest
    (rays dir (List.replicate iterations point) (draw iterations))
  refine ⟨(List.range longest).map fun (i : ℕ) => (i : ℝ) * boxsize / first,
    (rayLoop (inside shape (mask (flip upper data xth).1 (flip upper data xth).2)) longest
      (rays dir (List.replicate iterations point) (draw iterations))).map fun (c : ℕ) => (c : ℝ) / iterations, ?_, by simp, by simp [hb.1],
    ?_, ?_⟩
  · unfold fromPoint
    simp only [he, if_false]
    rw [if_neg]
    rintro ⟨h1, h2⟩
    rw [mask_flip] at h2
    simp [hp h1] at h2
  · intro i hi
    rw [List.getElem?_map, List.getElem?_range hi]
    rfl
  · intro i hi
    rw [List.getElem?_map, hb.2 i hi, rays_number _ _ _ _ (hd _)]
    unfold within
    rw [mask_flip]
    rfl

/-- The fractions add up to at most 1, and to 1 if all rays leave the structure. -/
theorem fractions_sum {α : Type} (dir : α → ι → ℝ) (first longest : ℕ) (checked : Bool) (shape : ι → ℕ) (data : (ι → ℤ) → ℝ)
    (xth boxsize : ℝ) {iterations : ℕ} (hi : 0 < iterations) {draw : ℕ → List α} (hd : ∀ n, (draw n).length = n) (upper : Bool)
    (point : ι → ℤ) {r p : List ℝ}
    (h : fromPoint dir first longest checked shape data xth boxsize iterations draw upper point = some (r, p)) : p.sum ≤ 1 := by
  classical
  unfold fromPoint at h
  by_cases he : noRegion shape (flip upper data xth).1 (flip upper data xth).2
  · simp only [he, if_true] at h
    split at h
    · cases h
    · simp only [Option.some.injEq, Prod.mk.injEq] at h
      obtain ⟨-, rfl⟩ := h
      simp
  · simp only [he, if_false] at h
    split at h
    · cases h
    · simp only [Option.some.injEq, Prod.mk.injEq] at h
      obtain ⟨-, rfl⟩ := h
      have ht := C36_total (inside shape (mask (flip upper data xth).1 (flip upper data xth).2)) longest
        (rays dir (List.replicate iterations point) (draw iterations))
      rw [rays_length _ _ _ (hd _)] at ht
      generalize rayLoop _ _ _ = l at ht ⊢
      have hs : (l.map fun (c : ℕ) => (c : ℝ) / iterations).sum = (l.sum : ℝ) / iterations := by
        clear ht
        induction l with
        | nil => simp
        | cons a l ih =>
          rw [List.map_cons, List.sum_cons, ih, List.sum_cons]
          push_cast
          ring
      rw [hs, div_le_one (by exact_mod_cast hi)]
      exact_mod_cast (by omega : l.sum ≤ iterations)

/-- **C170** (partial), two dimensions: from a point of the region the fractions of the rays by length, all rays counted. -/
theorem C170_plane (shape : Fin 2 → ℕ) (data : (Fin 2 → ℤ) → ℝ) (xth boxsize : ℝ) {iterations : ℕ} (hi : 0 < iterations)
    {draw : ℕ → List ℕ} (hd : ∀ n, (draw n).length = n) (upper : Bool) (point : Fin 2 → ℤ) (hc : Cell shape point) :
    (Region upper data xth point → ∃ r p, fromPoint2 shape data xth boxsize iterations draw upper point = some (r, p) ∧
      r.length = p.length ∧ (∀ i : ℕ, i < r.length → r[i]? = some ((i : ℝ) * boxsize / shape 0)) ∧
      (∀ i : ℕ, i < p.length → p[i]? =
        some ((leaving dir2 (within shape (Region upper data xth)) point (draw iterations) i : ℝ) / iterations)) ∧ p.sum = 1) ∧
    ((∃ c, Cell shape c ∧ Region upper data xth c) → ¬ Region upper data xth point →
      fromPoint2 shape data xth boxsize iterations draw upper point = none) := by
  classical
  constructor
  · intro hr
    obtain ⟨r, p, h, h1, h2, h3, h4⟩ := fromPoint_spec dir2 (shape 0) (longest2 shape) true shape data xth boxsize hd
      (iterations := iterations) upper point ⟨point, hc, hr⟩ fun _ => hr
    refine ⟨r, p, h, h1.trans h2.symm, fun i hi => h3 i (by omega), fun i hi => h4 i (by omega), ?_⟩
    have he := not_empty hc hr
    have hm := C36_mfp2d shape (flip upper data xth).1 (flip upper data xth).2 (List.replicate iterations point) (draw iterations)
      (fun c hc' => by rw [List.eq_of_mem_replicate hc']; exact hc) (by rw [List.length_replicate, hd])
    unfold fromPoint2 at *
    unfold fromPoint at h
    simp only [he, if_false] at h
    rw [if_neg (by
      rintro ⟨-, h2⟩
      rw [mask_flip] at h2
      simp [hr] at h2)] at h
    simp only [Option.some.injEq, Prod.mk.injEq] at h
    obtain ⟨-, rfl⟩ := h
    unfold mfp2d at hm
    generalize rayLoop _ _ _ = l at hm ⊢
    have hs : (l.map fun (c : ℕ) => (c : ℝ) / iterations).sum = (l.sum : ℝ) / iterations := by
      clear hm h2 h4
      induction l with
      | nil => simp
      | cons a l ih =>
        rw [List.map_cons, List.sum_cons, ih, List.sum_cons]
        push_cast
        ring
    rw [hs, hm, List.length_replicate, div_self (by positivity)]
  · rintro ⟨c, hc', hr'⟩ hr
    have he := not_empty hc' hr'
    unfold fromPoint2 fromPoint
    simp only [he, if_false]
    rw [if_pos]
    refine ⟨trivial, ?_⟩
    rw [mask_flip]
    simp [hr]

/-- **C170** (partial), three dimensions with integers of python: from a point of the region the fractions of the rays by length, from any
other point `None`.  Missing: other integers, see `C170_false`, and rays longer than the box, which are in no bin (`C36_false_3d`). -/
theorem C170_partial (shape : Fin 3 → ℕ) (data : (Fin 3 → ℤ) → ℝ) (xth boxsize : ℝ) {iterations : ℕ} (hi : 0 < iterations)
    {draw : ℕ → List (ℕ × ℕ)} (hd : ∀ n, (draw n).length = n) (upper : Bool) (point : Fin 3 → ℤ) (hc : Cell shape point) :
    (Region upper data xth point → ∃ r p, fromPoint3 .python shape data xth boxsize iterations draw upper point = some (r, p) ∧
      r.length = Finset.univ.sup shape ∧ p.length = Finset.univ.sup shape ∧
      (∀ i : ℕ, i < r.length → r[i]? = some ((i : ℝ) * boxsize / shape 0)) ∧
      (∀ i : ℕ, i < p.length → p[i]? =
        some ((leaving dir3 (within shape (Region upper data xth)) point (draw iterations) i : ℝ) / iterations)) ∧ p.sum ≤ 1) ∧
    ((∃ c, Cell shape c ∧ Region upper data xth c) → ¬ Region upper data xth point →
      fromPoint3 .python shape data xth boxsize iterations draw upper point = none) := by
  classical
  constructor
  · intro hr
    obtain ⟨r, p, h, h1, h2, h3, h4⟩ := fromPoint_spec dir3 (shape 0) (longest3 shape) true shape data xth boxsize hd
      (iterations := iterations) upper point ⟨point, hc, hr⟩ fun _ => hr
    exact ⟨r, p, h, h1, h2, fun i hi => h3 i (by omega), fun i hi => h4 i (by omega), fractions_sum _ _ _ _ _ _ _ _ hi hd _ _ h⟩
  · rintro ⟨c, hc', hr'⟩ hr
    have he := not_empty hc' hr'
    unfold fromPoint3 fromPoint
    simp only [he, if_false]
    rw [if_pos]
    refine ⟨rfl, ?_⟩
    rw [mask_flip]
    simp [hr]

/-- A point whose coordinates are integers of numpy is not looked at: a distribution is returned for a point outside of the region. -/
theorem C170_false (shape : Fin 3 → ℕ) (data : (Fin 3 → ℤ) → ℝ) (xth boxsize : ℝ) {iterations : ℕ}
    {draw : ℕ → List (ℕ × ℕ)} (hd : ∀ n, (draw n).length = n) (upper : Bool) (point : Fin 3 → ℤ)
    (hne : ∃ c, Cell shape c ∧ Region upper data xth c) (_hr : ¬ Region upper data xth point) :
    ∃ rp, fromPoint3 .numpy shape data xth boxsize iterations draw upper point = some rp := by
  obtain ⟨r, p, h, _⟩ := fromPoint_spec dir3 (shape 0) (longest3 shape) false shape data xth boxsize hd
    (iterations := iterations) upper point hne (by simp)
  exact ⟨(r, p), h⟩

/-- Without a region the fractions are zero if the threshold (its negative with `upper_lim`) is at most 1, otherwise `None`. -/
theorem C170_empty (shape : Fin 3 → ℕ) (data : (Fin 3 → ℤ) → ℝ) (xth boxsize : ℝ) (iterations : ℕ)
    (draw : ℕ → List (ℕ × ℕ)) (upper : Bool) (point : Fin 3 → ℤ) (hno : ∀ c, Cell shape c → ¬ Region upper data xth c) :
    ((if upper = true then -xth else xth) ≤ 1 → ∃ r p, fromPoint3 .python shape data xth boxsize iterations draw upper point = some (r, p) ∧
      ∀ v ∈ p, v = 0) ∧
    (1 < (if upper = true then -xth else xth) → fromPoint3 .python shape data xth boxsize iterations draw upper point = none) := by
  classical
  have he : noRegion shape (flip upper data xth).1 (flip upper data xth).2 := fun c hc h => hno c hc ((flip_ge _ _ _ _).1 h)
  have hx : (flip upper data xth).2 = if upper = true then -xth else xth := by
    unfold flip
    cases upper <;> simp
  unfold fromPoint3 fromPoint
  simp only [he, if_true]
  rw [hx]
  constructor
  · intro h
    rw [if_neg (by
      rintro ⟨-, h2⟩
      simp only [mask, ge_iff_le, h, if_true] at h2
      exact one_ne_zero h2)]
    refine ⟨_, _, rfl, ?_⟩
    intro v hv
    obtain ⟨_, -, rfl⟩ := List.mem_map.1 hv
    rfl
  · intro h
    rw [if_pos]
    refine ⟨rfl, ?_⟩
    simp only [mask, ge_iff_le, not_le.2 h, if_false]

/-! ## Mean lengths -/

/-- The mean number of steps of the rays from a cell that leave the structure within `k` steps; `none` if there are none. -/
noncomputable def meanSteps (ins : (Fin 3 → ℝ) → Bool) (k : ℕ) (c : Fin 3 → ℤ) (angles : List (ℕ × ℕ)) : Option ℝ :=
  open Classical in
  if ∑ i ∈ Finset.range k, leaving dir3 ins c angles i = 0 then none
  else some ((∑ i ∈ Finset.range k, (i : ℝ) * leaving dir3 ins c angles i) / ∑ i ∈ Finset.range k, (leaving dir3 ins c angles i : ℝ))

theorem sum_of_get {l : List ℕ} {k : ℕ} {f : ℕ → ℕ} (hl : l.length = k) (hf : ∀ n < k, l[n]? = some (f n)) :
    l = (List.range k).map f := by
  apply List.ext_getElem?
  intro n
  by_cases h : n < k
  · rw [hf n h, List.getElem?_map, List.getElem?_range h]
    rfl
  · rw [List.getElem?_eq_none (by omega), List.getElem?_eq_none (by simp; omega)]

theorem zipIdx_range_sum (k : ℕ) (f : ℕ → ℕ) :
    ((((List.range k).map f).zipIdx).map fun p => (p.1 : ℝ) * (p.2 : ℝ)).sum = ∑ i ∈ Finset.range k, (i : ℝ) * f i := by
  induction k with
  | zero => simp
  | succ k ih =>
    rw [List.range_succ, List.map_append, List.zipIdx_append, List.map_append, List.sum_append, ih, Finset.sum_range_succ]
    simp [mul_comm]

theorem range_sum (k : ℕ) (f : ℕ → ℕ) : ((List.range k).map f).sum = ∑ i ∈ Finset.range k, f i := by
  induction k with
  | zero => simp
  | succ k ih => rw [List.range_succ, List.map_append, List.sum_append, ih, Finset.sum_range_succ]; simp

theorem meanSize_eq (shape : Fin 3 → ℕ) (upper : Bool) (data : (Fin 3 → ℤ) → ℝ) (xth : ℝ) (c : Fin 3 → ℤ) (l : List (ℕ × ℕ)) {n : ℕ}
    (hl : l.length = n) :
    meanSize (mfp3d shape (flip upper data xth).1 (flip upper data xth).2 (List.replicate n c) l) =
      meanSteps (within shape (Region upper data xth)) (Finset.univ.sup shape) c l := by
  classical
  have hb := C36_bins (inside shape (mask (flip upper data xth).1 (flip upper data xth).2)) (longest3 shape)
    (rays dir3 (List.replicate n c) l)
  have he := sum_of_get hb.1 hb.2
  unfold mfp3d
  rw [he]
  have hf : (fun i => number (Exits (inside shape (mask (flip upper data xth).1 (flip upper data xth).2)) i)
      (rays dir3 (List.replicate n c) l)) = leaving dir3 (within shape (Region upper data xth)) c l := by
    funext i
    rw [rays_number _ _ _ _ hl, mask_flip]
    rfl
  rw [hf]
  unfold meanSize meanSteps
  rw [range_sum, zipIdx_range_sum]
  unfold longest3
  by_cases h : ∑ i ∈ Finset.range (Finset.univ.sup shape), leaving dir3 (within shape (Region upper data xth)) c l i = 0
  · rw [if_pos h, if_pos h]
  · rw [if_neg h, if_neg h]
    push_cast
    rfl

open Classical in
/-- The positive means of the points, those that are numbers. -/
noncomputable def lengths (ins : (Fin 3 → ℝ) → Bool) (k : ℕ) (angles : ℕ → List (ℕ × ℕ)) (starts : List (Fin 3 → ℤ)) : List ℝ :=
  (starts.zipIdx.filterMap fun q => meanSteps ins k q.1 (angles q.2)).filter fun v => decide (0 < v)

open SizeDistribution in
theorem logs_eq {sizes : List ℝ} : sizes.map Real.log = sizes.map (Real.logb (Real.exp 1)) :=
  List.map_congr_left fun v _ => by rw [Real.logb, Real.log_exp, div_one]

open SizeDistribution in
theorem log_step {lo hi : ℝ} (hl : 0 < lo) (hh : 0 < hi) (n i : ℕ) :
    Real.log (step lo hi n i) = Real.log lo + (i : ℝ) / n * Real.log (hi / lo) := by
  unfold step
  rw [Real.log_mul hl.ne' (Real.rpow_pos_of_pos (div_pos hh hl) _).ne', Real.log_rpow (div_pos hh hl)]

open SizeDistribution in
theorem edge_log {sizes : List ℝ} {lo hi : ℝ} (hpos : ∀ v ∈ sizes, 0 < v) (h : Spans sizes lo hi) (hlt : lo < hi) {n i : ℕ} (hi' : i ≤ n) :
    (hist (sizes.map Real.log) n).2.getD i 0 = Real.log (step lo hi n i) := by
  rw [logs_eq, hist_edge (by simp) hpos h hlt hi', Real.logb, Real.log_exp, div_one]

open SizeDistribution in
/-- The density of a histogram of logarithms. -/
theorem density_log {sizes : List ℝ} {lo hi : ℝ} (hpos : ∀ v ∈ sizes, 0 < v) (h : Spans sizes lo hi) (hlt : lo < hi) {n : ℕ} (hn : 1 ≤ n) :
    ∃ p, density (sizes.map Real.log) n = some p ∧ p.length = n ∧
      (∀ i : ℕ, i < n → p[i]? = some (share sizes lo hi n i / (Real.log (hi / lo) / n))) ∧ p.sum * (Real.log (hi / lo) / n) = 1 := by
  have hlo : 0 < lo := hpos lo h.1
  have hhi : 0 < hi := hpos hi h.2.1
  have hw : 0 < Real.log (hi / lo) := Real.log_pos ((one_lt_div hlo).2 hlt)
  have hn0 : (0 : ℝ) < n := by exact_mod_cast hn
  have hne : sizes.map Real.log ≠ [] := by
    intro h0
    rw [List.map_eq_nil_iff] at h0
    rw [h0] at h
    simpa using h.1
  have hget : ∀ i : ℕ, i < n → ((hist (sizes.map Real.log) n).1.getD i 0 : ℝ) /
      ((hist (sizes.map Real.log) n).2.getD (i + 1) 0 - (hist (sizes.map Real.log) n).2.getD i 0) / ((hist (sizes.map Real.log) n).1.sum : ℕ) =
      share sizes lo hi n i / (Real.log (hi / lo) / n) := by
    intro i hi'
    rw [edge_log hpos h hlt hi'.le, edge_log hpos h hlt (by omega : i + 1 ≤ n), log_step hlo hhi, log_step hlo hhi, hist_sum _ hn,
      List.length_map, logs_eq, hist_count (by simp) hpos h hlt hi']
    unfold share
    have : Real.log lo + ((i + 1 : ℕ) : ℝ) / n * Real.log (hi / lo) - (Real.log lo + (i : ℝ) / n * Real.log (hi / lo)) =
        Real.log (hi / lo) / n := by
      push_cast
      ring
    rw [this, div_right_comm]
  refine ⟨(List.range n).map fun (i : ℕ) => share sizes lo hi n i / (Real.log (hi / lo) / n), ?_, ?_, ?_, ?_⟩
  · unfold density
    dsimp only
    rw [if_neg hne]
    congr 1
    refine List.map_congr_left fun i hi' => hget i (List.mem_range.1 hi')
  · simp
  · intro i hi'
    rw [List.getElem?_map, List.getElem?_range hi']
    rfl
  · have hs : ∀ (m : ℕ) (f : ℕ → ℝ), ((List.range m).map f).sum = ∑ i ∈ Finset.range m, f i := by
      intro m f
      induction m with
      | zero => simp
      | succ m ih => rw [List.range_succ, List.map_append, List.sum_append, ih, Finset.sum_range_succ]; simp
    rw [hs, ← Finset.sum_div, share_sum hpos h hlt hn]
    field_simp

theorem density_none (x : List ℝ) (n : ℕ) : density x n = none ↔ x = [] := by
  unfold density
  dsimp only
  by_cases h : x = []
  · rw [if_pos h]
    exact ⟨fun _ => h, fun _ => rfl⟩
  · rw [if_neg h]
    exact ⟨(fun h' => absurd h' (by simp)), fun h' => absurd h' h⟩

/-- The curve for data with a region. -/
theorem averaged_eq (loc : ((Fin 3 → ℤ) → ℝ) → ℝ → List (Fin 3 → ℤ)) (shape : Fin 3 → ℕ)
    (hloc : ∀ d x c, c ∈ loc d x ↔ Cell shape c ∧ d c ≥ x) (data : (Fin 3 → ℤ) → ℝ)
    (xth boxsize : ℝ) (iterations raysPerPoint : ℕ) (draw : ℕ → ∀ high, List (Fin high)) (angles : ℕ → List (ℕ × ℕ))
    (ha : ∀ j, (angles j).length = raysPerPoint) (upper : Bool) (hne : ∃ c, Cell shape c ∧ Region upper data xth c) :
    ∃ starts high e, starts.length = (draw iterations high).length ∧ (∀ c ∈ starts, Cell shape c ∧ Region upper data xth c) ∧
      e = (SizeDistribution.hist ((lengths (within shape (Region upper data xth)) (Finset.univ.sup shape) angles starts).map Real.log) 50).2 ∧
      averaged3 loc shape data xth boxsize iterations raysPerPoint draw angles upper =
        .ok ((List.range 50).map fun (i : ℕ) => Real.exp (e.getD (i + 1) 0 / 2 + e.getD i 0 / 2) * boxsize / shape 0,
          density ((lengths (within shape (Region upper data xth)) (Finset.univ.sup shape) angles starts).map Real.log) 50) := by
  classical
  obtain ⟨c, hc, hr⟩ := hne
  have he := not_empty hc hr
  have hl : (loc (flip upper data xth).1 (flip upper data xth).2).length ≠ 0 := by
    intro h
    have : c ∈ loc (flip upper data xth).1 (flip upper data xth).2 := (hloc _ _ _).2 ⟨hc, (flip_ge _ _ _ _).2 hr⟩
    rw [List.length_eq_zero_iff.1 h] at this
    simp at this
  refine ⟨(draw iterations (loc (flip upper data xth).1 (flip upper data xth).2).length).map fun k =>
    (loc (flip upper data xth).1 (flip upper data xth).2).get k, _, _, List.length_map _, ?_, rfl, ?_⟩
  · intro d hd
    obtain ⟨k, -, rfl⟩ := List.mem_map.1 hd
    have := (hloc _ _ _).1 (List.get_mem (loc (flip upper data xth).1 (flip upper data xth).2) k)
    exact ⟨this.1, (flip_ge _ _ _ _).1 this.2⟩
  · have hd : (if noRegion shape (flip upper data xth).1 (flip upper data xth).2 then (fun _ => 1 : (Fin 3 → ℤ) → ℝ)
        else (flip upper data xth).1) = (flip upper data xth).1 := if_neg he
    unfold averaged3
    dsimp only
    rw [hd, if_neg hl]
    simp only [he, if_false]
    have hm : ∀ starts : List (Fin 3 → ℤ), positive (starts.zipIdx.map fun p => meanSize (mfp3d shape (flip upper data xth).1 (flip upper data xth).2
        (List.replicate raysPerPoint p.1) (angles p.2))) =
        lengths (within shape (Region upper data xth)) (Finset.univ.sup shape) angles starts := by
      intro starts
      unfold positive lengths
      rw [List.filterMap_map]
      congr 1
      refine List.filterMap_congr fun q _ => ?_
      exact meanSize_eq shape upper data xth q.1 (angles q.2) (ha _)
    rw [hm]

theorem lengths_pos {ins : (Fin 3 → ℝ) → Bool} {k : ℕ} {angles : ℕ → List (ℕ × ℕ)} {starts : List (Fin 3 → ℤ)} :
    ∀ v ∈ lengths ins k angles starts, 0 < v := by
  classical
  intro v hv
  unfold lengths at hv
  simpa using (List.mem_filter.1 hv).2

open SizeDistribution in
/-- **C171** (partial).  The points belong to the region; the curve is the density per `ln r` of the positive mean lengths, in 50 bins between the
smallest and the largest, at the geometric centres of the bins, and integrates to 1.  Missing: points whose mean is zero or not a number are
left out, see `C171_false` and `C171_lost`. -/
theorem C171_partial (loc : ((Fin 3 → ℤ) → ℝ) → ℝ → List (Fin 3 → ℤ)) (shape : Fin 3 → ℕ)
    (hloc : ∀ d x c, c ∈ loc d x ↔ Cell shape c ∧ d c ≥ x) (data : (Fin 3 → ℤ) → ℝ)
    (xth boxsize : ℝ) (iterations raysPerPoint : ℕ) (draw : ℕ → ∀ high, List (Fin high)) (angles : ℕ → List (ℕ × ℕ))
    (ha : ∀ j, (angles j).length = raysPerPoint) (upper : Bool) (hne : ∃ c, Cell shape c ∧ Region upper data xth c) :
    ∃ starts high r p, starts.length = (draw iterations high).length ∧ (∀ c ∈ starts, Cell shape c ∧ Region upper data xth c) ∧
      averaged3 loc shape data xth boxsize iterations raysPerPoint draw angles upper = .ok (r, p) ∧
      (p = none ↔ lengths (within shape (Region upper data xth)) (Finset.univ.sup shape) angles starts = []) ∧
      ∀ lo hi, lo < hi → Spans (lengths (within shape (Region upper data xth)) (Finset.univ.sup shape) angles starts) lo hi →
        r.length = 50 ∧ (∀ i : ℕ, i < 50 → r[i]? = some (Real.sqrt (step lo hi 50 i * step lo hi 50 (i + 1)) * boxsize / shape 0)) ∧
        ∃ q, p = some q ∧ q.length = 50 ∧ q.sum * (Real.log (hi / lo) / 50) = 1 ∧
          ∀ i : ℕ, i < 50 → q[i]? = some (share (lengths (within shape (Region upper data xth)) (Finset.univ.sup shape) angles starts) lo hi 50 i /
            (Real.log (hi / lo) / 50)) := by
  obtain ⟨starts, high, e, h1, h2, he, h3⟩ := averaged_eq loc shape hloc data xth boxsize iterations raysPerPoint draw angles ha upper hne
  refine ⟨starts, high, _, _, h1, h2, h3, ?_, ?_⟩
  · rw [density_none, List.map_eq_nil_iff]
  · intro lo hi hlt hs
    have hpos := lengths_pos (ins := within shape (Region upper data xth)) (k := Finset.univ.sup shape) (angles := angles) (starts := starts)
    have hlo : 0 < lo := hpos lo hs.1
    have hhi : 0 < hi := hpos hi hs.2.1
    obtain ⟨q, hq, hq1, hq2, hq3⟩ := density_log hpos hs hlt (n := 50) (by norm_num)
    refine ⟨by simp, ?_, q, hq, hq1, by exact_mod_cast hq3, fun i hi' => by exact_mod_cast hq2 i hi'⟩
    intro i hi'
    rw [List.getElem?_map, List.getElem?_range hi', he, Option.map_some, edge_log hpos hs hlt hi'.le, edge_log hpos hs hlt (by omega : i + 1 ≤ 50)]
    congr 3
    have ha := step_pos hlo hhi 50 i
    have hb := step_pos hlo hhi 50 (i + 1)
    rw [Real.sqrt_eq_rpow, Real.rpow_def_of_pos (mul_pos ha hb), Real.log_mul ha.ne' hb.ne']
    congr 1
    ring

/-- Without a region: zeros if the threshold (its negative with `upper_lim`) is at most 1, otherwise an exception. -/
theorem C171_empty (loc : ((Fin 3 → ℤ) → ℝ) → ℝ → List (Fin 3 → ℤ)) (shape : Fin 3 → ℕ) (hs : ∀ i, 0 < shape i)
    (hloc : ∀ d x c, c ∈ loc d x ↔ Cell shape c ∧ d c ≥ x) (data : (Fin 3 → ℤ) → ℝ)
    (xth boxsize : ℝ) (iterations raysPerPoint : ℕ) (draw : ℕ → ∀ high, List (Fin high)) (angles : ℕ → List (ℕ × ℕ))
    (upper : Bool) (hno : ∀ c, Cell shape c → ¬ Region upper data xth c) :
    ((if upper = true then -xth else xth) ≤ 1 → ∃ r, averaged3 loc shape data xth boxsize iterations raysPerPoint draw angles upper =
      .ok (r, some (List.replicate 50 0))) ∧
    (1 < (if upper = true then -xth else xth) →
      averaged3 loc shape data xth boxsize iterations raysPerPoint draw angles upper = .error .emptyRange) := by
  classical
  have he : noRegion shape (flip upper data xth).1 (flip upper data xth).2 := fun c hc h => hno c hc ((flip_ge _ _ _ _).1 h)
  have hx : (flip upper data xth).2 = if upper = true then -xth else xth := by
    unfold flip
    cases upper <;> simp
  unfold averaged3
  simp only [he, if_true]
  rw [hx]
  generalize (if upper = true then -xth else xth) = t
  constructor
  · intro h
    have hm : (fun _ => (0 : ℤ)) ∈ loc (fun _ => 1) t := (hloc _ _ _).2 ⟨fun i => ⟨le_rfl, Int.natCast_pos.2 (hs i)⟩, h⟩
    rw [if_neg fun h0 => List.ne_nil_of_mem hm (List.length_eq_zero_iff.1 h0)]
    exact ⟨_, rfl⟩
  · intro h
    have hm : loc (fun _ => 1) t = [] := by
      rw [List.eq_nil_iff_forall_not_mem]
      intro c hc
      have := ((hloc _ _ _).1 hc).2
      linarith
    rw [hm]
    rfl

/-- A box with one bright cell in the middle. -/
noncomputable def single (c : Fin 3 → ℤ) : ℝ := open Classical in if c = fun _ => 1 then 1 else 0

/-- A region of one cell: the rays along the third axis leave it with the first step, the mean of every point is zero, no point is left and
the densities are not numbers. -/
theorem C171_false (loc : ((Fin 3 → ℤ) → ℝ) → ℝ → List (Fin 3 → ℤ)) (hloc : ∀ d x c, c ∈ loc d x ↔ Cell (fun _ => 3) c ∧ d c ≥ x)
    (boxsize : ℝ) (iterations : ℕ) (draw : ℕ → ∀ high, List (Fin high)) :
    (∃ c, Cell (fun _ => 3) c ∧ Region false single (1 / 2) c) ∧
    ∃ r, averaged3 loc (fun _ => 3) single (1 / 2) boxsize iterations 1 draw (fun _ => [(0, 0)]) false = .ok (r, none) := by
  classical
  have hreg : ∀ c, Region false single (1 / 2) c ↔ c = fun _ => 1 := by
    intro c
    unfold Region single
    by_cases h : c = fun _ => 1
    · simp [h]; norm_num
    · simp [h]
  have hne : ∃ c, Cell (fun _ : Fin 3 => 3) c ∧ Region false single (1 / 2) c := ⟨fun _ => 1, fun i => by norm_num, (hreg _).2 rfl⟩
  refine ⟨hne, ?_⟩
  obtain ⟨starts, high, r, p, -, h2, h3, h4, -⟩ := C171_partial loc (fun _ => 3) hloc single (1 / 2) boxsize iterations 1 draw
    (fun _ => [(0, 0)]) (fun _ => rfl) false hne
  refine ⟨r, ?_⟩
  rw [h3, h4.2]
  have hd : dir3 (0, 0) = fun i => (((![0, 0, 1] : Fin 3 → ℤ) i : ℤ) : ℝ) := by
    funext i
    match i with
    | 0 => simp [dir3, radians]
    | 1 => simp [dir3, radians]
    | 2 => simp [dir3, radians]
  have hex : ∀ i, leaving dir3 (within (fun _ => 3) (Region false single (1 / 2))) (fun _ => 1) [(0, 0)] i = if i = 0 then 1 else 0 := by
    have hout : within (fun _ : Fin 3 => 3) (Region false single (1 / 2)) (at_ ⟨fun _ => ((1 : ℤ) : ℝ), dir3 (0, 0)⟩ 1) = false := by
      have hpos : at_ (⟨fun _ => ((1 : ℤ) : ℝ), dir3 (0, 0)⟩ : Ray (Fin 3)) 1 = fun i => (((![1, 1, 2] : Fin 3 → ℤ) i : ℤ) : ℝ) := by
        unfold at_
        rw [hd]
        funext i
        match i with
        | 0 => simp
        | 1 => simp
        | 2 => simp; norm_num
      rw [hpos]
      have hst := (C36_structure (fun _ : Fin 3 => 3) (fun _ => by norm_num) single (1 / 2)).1 ![1, 1, 2] (by
        intro i
        match i with
        | 0 => simp
        | 1 => simp
        | 2 => simp)
      have hmk : (fun c => if Region false single (1 / 2) c then (1 : ℝ) else 0) = mask single (1 / 2) := (mask_flip false single (1 / 2)).symm
      unfold within
      rw [hmk, Bool.eq_false_iff, Ne, hst]
      intro hge
      have := (hreg ![1, 1, 2]).1 (by simpa [Region] using hge)
      have := congrFun this 2
      simp at this
    intro i
    unfold leaving
    rw [List.countP_cons, List.countP_nil]
    by_cases hi : i = 0
    · subst hi
      rw [if_pos rfl, if_pos (decide_eq_true ((exits_zero _ _).2 hout))]
    · rw [if_neg hi, if_neg]
      simp only [decide_eq_true_iff]
      intro hx
      have := hx.1 1 le_rfl (by omega)
      have h1 : at_ (⟨fun _ => ((1 : ℤ) : ℝ), dir3 (0, 0)⟩ : Ray (Fin 3)) (1 : ℕ) = at_ ⟨fun _ => ((1 : ℤ) : ℝ), dir3 (0, 0)⟩ 1 := rfl
      rw [h1, hout] at this
      exact absurd this (by simp)
  unfold lengths
  rw [List.filter_eq_nil_iff]
  intro v hv
  obtain ⟨q, hq, hv⟩ := List.mem_filterMap.1 hv
  have hq1 : q.1 = fun _ => 1 := (hreg _).1 (h2 q.1 (List.fst_mem_of_mem_zipIdx hq)).2
  rw [hq1] at hv
  unfold meanSteps at hv
  simp only [hex] at hv
  split at hv
  · cases hv
  · cases hv
    simp

/-- In a fully ionised box from 4 cells along a side a point can be left out because all its rays are longer than the box. -/
theorem C171_lost (n : ℕ) (hn : 4 ≤ n) :
    meanSteps (within (fun _ => n) (Region false (fun _ => 1) (1 / 2))) (Finset.univ.sup fun _ : Fin 3 => n) (fun _ => 0) [(45, 0)] = none := by
  rw [← meanSize_eq (fun _ => n) false (fun _ => 1) (1 / 2) (fun _ => 0) [(45, 0)] (n := 1) rfl]
  show meanSize (mfp3d (fun _ => n) (fun _ => 1) (1 / 2) [fun _ => 0] [(45, 0)]) = none
  rw [C36_false_3d n hn]
  simp [meanSize]

/-! ## Examples -/

/-- The cells of a region can be listed. -/
example (shape : Fin 3 → ℕ) : ∃ loc : ((Fin 3 → ℤ) → ℝ) → ℝ → List (Fin 3 → ℤ), ∀ d x c, c ∈ loc d x ↔ Cell shape c ∧ d c ≥ x := by
  classical
  refine ⟨fun d x => ((Convolve.box shape).filter fun c => d c ≥ x).toList, fun d x c => ?_⟩
  rw [Finset.mem_toList, Finset.mem_filter, Convolve.mem_box]
  rfl

example : ∃ r p, fromPoint3 .python (fun _ => 3) single (1 / 2) 3 10 (fun n => List.replicate n (0, 0)) false (fun _ => 1) = some (r, p) ∧
    p.length = 3 := by
  have h := (C170_partial (fun _ => 3) single (1 / 2) 3 (iterations := 10) (by norm_num) (draw := fun n => List.replicate n (0, 0))
    (by simp) false (fun _ => 1) (fun i => by norm_num)).1 (by norm_num [Region, single])
  obtain ⟨r, p, h1, -, h2, -⟩ := h
  exact ⟨r, p, h1, by rw [h2]; rfl⟩

example : fromPoint3 .python (fun _ => 3) single (1 / 2) 3 10 (fun n => List.replicate n (0, 0)) false (fun _ => 0) = none ∧
    ∃ rp, fromPoint3 .numpy (fun _ => 3) single (1 / 2) 3 10 (fun n => List.replicate n (0, 0)) false (fun _ => 0) = some rp := by
  have hne : ∃ c, Cell (fun _ : Fin 3 => 3) c ∧ Region false single (1 / 2) c :=
    ⟨fun _ => 1, fun i => by norm_num, by norm_num [Region, single]⟩
  have hr : ¬ Region false single (1 / 2) fun _ => 0 := by
    have : (fun _ : Fin 3 => (0 : ℤ)) ≠ fun _ => 1 := fun h => by simpa using congrFun h 0
    simp [Region, single, this]
  exact ⟨(C170_partial (fun _ => 3) single (1 / 2) 3 (iterations := 10) (by norm_num) (by simp) false (fun _ => 0)
    (fun i => by norm_num)).2 hne hr, C170_false (fun _ => 3) single (1 / 2) 3 (by simp) false _ hne hr⟩

end Verif.RayPoint
