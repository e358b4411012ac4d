import Verif.Model.CorrFunction
import Verif.Props.CrossSpectrum
import Verif.Props.Correlation
/-!
# Correlation functions of arrays (C212)
-/

namespace Verif.CorrFunction

open Verif.Convolve Verif.PowerSpectrum Verif.CrossSpectrum Verif.Correlation

/-! ## Specification -/

/-- The bins of a spectrum that have modes, with their power. -/
def pointsOf (p : Radial) : List (ℝ × ℝ) := (p.bins.zip p.data).filterMap fun kp => kp.2.map fun x => (kp.1, x)

/-- The number of cells along the first axis. -/
def Side {d : ℕ} (a : Arr (Fin d) ℝ) (n : ℕ) : Prop := ∃ j : Fin d, j.val = 0 ∧ n = a.shape j

/-- The radii that are asked for: those of an array, or as many as wanted from two cells to half of the box. -/
inductive Radii (n : ℕ) (log : Bool) : RBins → Dims → List ℝ → Prop
  | array (r : List ℝ) (box : Dims) : Radii n log (.array r) box r
  | linear (m : ℕ) (l : ℝ) (r : List ℝ) (hl : log = false) (hm : 2 ≤ m) (hr : r.length = m)
      (h : ∀ i < m, r.getD i 0 = 2 * l / n + i * ((l / 2 - 2 * l / n) / (m - 1))) : Radii n log (.count m) (.number l) r
  | log (m : ℕ) (l : ℝ) (r : List ℝ) (hl : log = true) (hm : 2 ≤ m) (hr : r.length = m)
      (h : ∀ i < m, r.getD i 0 = (10 : ℝ) ^ (Real.logb 10 (2 * l / n) + i * ((Real.logb 10 (l / 2) - Real.logb 10 (2 * l / n)) / (m - 1)))) :
      Radii n log (.count m) (.number l) r

/-- The bins in wavenumber: those given, or else ten times `rbins`, which for a list is ten copies of it. -/
inductive Edges : RBins → Option KBins → KBins → Prop
  | given (r : RBins) (k : KBins) : Edges r (some k) k
  | count (m n : ℕ) (h : n = 10 * m) : Edges (.count m) none (.int n)
  | array (r k : List ℝ) (h : k.length = r.length) (hk : ∀ i < r.length, k.getD i 0 = 10 * r.getD i 0) : Edges (.array r) none (.array k)
  | list (r k : List ℝ) (h : k.length = 10 * r.length) (hk : ∀ i < 10 * r.length, k.getD i 0 = r.getD (i % r.length) 0) : Edges (.list r) none (.list k)

/-! ## Lemmas -/

theorem points_get (x y : ℝ) {m : ℕ} (hm : 2 ≤ m) {i : ℕ} (hi : i < m) : (points x y m).getD i 0 = x + i * ((y - x) / (m - 1)) := by
  unfold points
  rw [if_neg (by omega), List.getD_eq_getElem?_getD, linspace_get _ _ _ _ (by omega), Nat.cast_sub (by omega)]
  simp

theorem points_length (x y : ℝ) {m : ℕ} (hm : 2 ≤ m) : (points x y m).length = m := by
  unfold points
  rw [if_neg (by omega), linspace_length]
  omega

theorem list_eq {l r : List ℝ} {m : ℕ} (hl : l.length = m) (hr : r.length = m) (h : ∀ i < m, l.getD i 0 = r.getD i 0) : l = r := by
  refine List.ext_getElem (hl.trans hr.symm) fun i h1 h2 => ?_
  have := h i (hl ▸ h1)
  rwa [List.getD_eq_getElem _ _ h1, List.getD_eq_getElem _ _ h2] at this

theorem radial_length {d : ℕ} {a : Arr (Fin d) ℝ} {B : Dims} {K : KBins} {bi : Binning} {bp : ℝ} {r : Radial} (h : radialAverage a B K bi bp = .ok r) :
    r.data.length = r.bins.length := by
  unfold radialAverage at h
  split at h
  · cases h
  split at h
  · cases h
  split at h
  · cases h
    simp [centres]
  · cases h

theorem cross_length {d : ℕ} {LB : ℝ} {a b : Arr (Fin d) ℝ} {B : Dims} {K : KBins} {bi : Binning} {bp : ℝ} {r : Radial} (h : cross1d LB a b B K bi bp = .ok r) :
    r.data.length = r.bins.length := by
  unfold cross1d at h
  split at h
  · cases h
  split at h
  · cases h
  exact radial_length h

theorem correlate_eq {p : Radial} (hp : p.data.length = p.bins.length) {rbins : RBins} {box : Dims} {n : ℕ} {log : Bool} {r : List ℝ}
    (h : Radii n log rbins box r) : correlate p rbins box n log = .ok (r.map fun x => transform (pointsOf p) (Real.pi * x), r) := by
  cases h with
  | array r box =>
    unfold correlate pointsOf
    cases box <;> simp only <;> rw [C111_partial _ _ r _ _ _ _ hp rfl]
  | linear m l r hl hm hr h =>
    subst hl
    unfold correlate pointsOf
    simp only
    rw [C111_partial _ _ r _ _ _ _ hp]
    unfold RBins.resolve
    simp only [Bool.false_eq_true, if_false]
    congr 1
    exact list_eq (points_length _ _ hm) hr fun i hi => by rw [points_get _ _ hm hi, h i hi]
  | log m l r hl hm hr h =>
    subst hl
    unfold correlate pointsOf
    simp only
    rw [C111_partial _ _ r _ _ _ _ hp]
    unfold RBins.resolve
    simp only [if_true]
    congr 1
    refine list_eq (m := m) (by unfold logPoints; rw [List.length_map, points_length _ _ hm]) hr fun i hi => ?_
    rw [h i hi]
    have h1 : i < (points (Real.logb 10 (2 * l / n)) (Real.logb 10 (l / 2)) m).length := by rw [points_length _ _ hm]; exact hi
    have h2 := points_get (Real.logb 10 (2 * l / n)) (Real.logb 10 (l / 2)) hm hi
    rw [List.getD_eq_getElem _ _ h1] at h2
    unfold logPoints
    rw [List.getD_eq_getElem _ _ (by rw [List.length_map]; exact h1), List.getElem_map, h2]

theorem transform_linear {α : Type} (key f g h k : α → ℝ) (u v w r : ℝ) (he : ∀ x, k x = u * f x + v * g x + w * h x) (l : List α) :
    transform (l.map fun x => (key x, k x)) r = u * transform (l.map fun x => (key x, f x)) r + v * transform (l.map fun x => (key x, g x)) r +
      w * transform (l.map fun x => (key x, h x)) r := by
  induction l with
  | nil => simp [transform]
  | cons a l ih =>
    cases l with
    | nil => simp [transform]
    | cons b l =>
      simp only [List.map_cons] at ih ⊢
      rw [transform_cons, transform_cons, transform_cons, transform_cons, ih]
      unfold integrand
      simp only [he]
      ring

/-- The points of a spectrum are the bins with modes. -/
theorem points_mean {ι : Type} (S : ℕ → Finset ι) (f : ι → ℝ) (ks : List ℝ) (n : ℕ) (ms : List ℕ) :
    pointsOf ⟨(List.range n).map fun b => mean (S b) (S b) f, ks, ms⟩ =
      ((ks.zip (List.range n)).filter fun kb => decide ((S kb.2).card ≠ 0)).map fun kb => (kb.1, (∑ i ∈ S kb.2, f i) / (S kb.2).card) := by
  unfold pointsOf
  dsimp only
  rw [List.zip_map_right, List.filterMap_map]
  generalize ks.zip (List.range n) = l
  induction l with
  | nil => rfl
  | cons x l ih =>
    by_cases h : (S x.2).card = 0
    · have hm : mean (S x.2) (S x.2) f = none := by unfold mean; rw [if_pos h]
      rw [List.filterMap_cons, List.filter_cons]
      simp only [Function.comp, Prod.map, id, hm, Option.map_none, h, ne_eq, not_true_eq_false, decide_false, Bool.false_eq_true, if_false]
      exact ih
    · have hm : mean (S x.2) (S x.2) f = some ((∑ i ∈ S x.2, f i) / (S x.2).card) := by unfold mean; rw [if_neg h]
      rw [List.filterMap_cons, List.filter_cons]
      simp only [Function.comp, Prod.map, id, hm, Option.map_some, h, ne_eq, not_false_eq_true, decide_true, if_true, List.map_cons]
      exact congrArg _ ih

theorem first_shape {d : ℕ} {a b : Arr (Fin d) ℝ} (h : a.shape = b.shape) : firstAxis a = firstAxis b := by
  unfold firstAxis
  rw [h]

theorem copies_get (r : List ℝ) : ∀ n i, i < n * r.length → (List.replicate n r).flatten.getD i 0 = r.getD (i % r.length) 0
  | 0, i, h => by omega
  | n + 1, i, h => by
    rw [List.replicate_succ, List.flatten_cons]
    by_cases hi : i < r.length
    · rw [List.getD_append _ _ _ _ hi, Nat.mod_eq_of_lt hi]
    · rw [List.getD_append_right _ _ _ _ (by omega), copies_get r n (i - r.length) (by rw [Nat.succ_mul] at h; omega), Nat.mod_eq_sub_mod (a := i) (by omega)]

theorem edges_eq {rbins : RBins} {kbins : Option KBins} {k : KBins} (h : Edges rbins kbins k) : binsOf rbins kbins = k := by
  cases h with
  | given => rfl
  | count m n h => unfold binsOf; rw [h, Nat.mul_comm]
  | array r k h hk =>
    unfold binsOf
    simp only
    congr 1
    refine list_eq (m := r.length) (by simp) h fun i hi => ?_
    rw [hk i hi, List.getD_eq_getElem?_getD, List.getElem?_map, List.getD_eq_getElem?_getD, List.getElem?_eq_getElem hi]
    simp [mul_comm]
  | list r k h hk =>
    unfold binsOf
    simp only
    congr 1
    refine list_eq (m := 10 * r.length) (by simp; omega) h fun i hi => ?_
    rw [hk i hi, copies_get r 10 i hi]

theorem side_eq {d : ℕ} {a : Arr (Fin d) ℝ} {n : ℕ} (h : Side a n) : firstAxis a = n := by
  obtain ⟨⟨j, hj⟩, h0, rfl⟩ := h
  cases d with
  | zero => omega
  | succ d =>
    simp only at h0
    subst h0
    unfold firstAxis
    rw [List.ofFn_succ]
    rfl

/-! ## C212 -/

variable {d : ℕ} (LB : ℝ) (a b : Arr (Fin d) ℝ) (rbins : RBins) (kbins : Option KBins) (box : Dims) (log : Bool) (kb : Binning)

/-- **C212** (partial).  If the spectrum exists, the result is its transform at the radii that are asked for (times `π`, see C111). -/
theorem C212_partial {p : Radial} {r : List ℝ} {k : KBins} (hk : Edges rbins kbins k) (hp : cross1d LB a b box k kb 0.1 = .ok p) {n : ℕ} (hn : Side a n) (hr : Radii n log rbins box r) :
    crossCorrelationFunction LB a b rbins kbins box log kb = .ok (r.map fun x => transform (pointsOf p) (Real.pi * x), r) := by
  unfold crossCorrelationFunction
  rw [edges_eq hk, hp]
  exact correlate_eq (cross_length hp) (side_eq hn ▸ hr)

/-- The cross-correlation of an array with itself, for the same arguments. -/
theorem C212_self : crossCorrelationFunction LB a a rbins kbins box log kb = correlationFunction LB a rbins kbins box log kb := by
  unfold crossCorrelationFunction correlationFunction
  rw [C159_self]

/-- The order of the arrays does not matter. -/
theorem C212_symmetric (h : a.shape = b.shape) : crossCorrelationFunction LB a b rbins kbins box log kb = crossCorrelationFunction LB b a rbins kbins box log kb := by
  unfold crossCorrelationFunction
  rw [C159_symmetric, first_shape h]

/-- The correlation function of a combination of two arrays. -/
theorem C212_sum (u v : ℝ) (h : a.shape = b.shape) {r : List ℝ} {n : ℕ} (hn : Side a n) (hr : Radii n log rbins box r) {p : Radial} {k : KBins}
    (hk : Edges rbins kbins k) (hp : power1d LB a box k kb 0.1 = .ok p) :
    ∃ xa xb xab x : ℝ → ℝ, correlationFunction LB a rbins kbins box log kb = .ok (r.map xa, r) ∧ correlationFunction LB b rbins kbins box log kb = .ok (r.map xb, r) ∧
      crossCorrelationFunction LB a b rbins kbins box log kb = .ok (r.map xab, r) ∧
      correlationFunction LB (combine u v a b) rbins kbins box log kb = .ok (r.map x, r) ∧ ∀ t, x t = u ^ 2 * xa t + v ^ 2 * xb t + 2 * u * v * xab t := by
  rw [← C159_self] at hp
  obtain ⟨L, _, S, ks, ms, _, hf⟩ := forms LB a a box k kb 0.1 rfl hp
  have e1 := C212_partial LB a a rbins kbins box log kb hk (hf a a rfl rfl) hn hr
  have e2 := C212_partial LB b b rbins kbins box log kb hk (hf b b h.symm h.symm) (by obtain ⟨j, h0, h1⟩ := hn; exact ⟨j, h0, h ▸ h1⟩) hr
  have e3 := C212_partial LB a b rbins kbins box log kb hk (hf a b rfl h.symm) hn hr
  have e4 := C212_partial LB (combine u v a b) (combine u v a b) rbins kbins box log kb hk (hf _ _ rfl rfl) hn hr
  rw [C212_self] at e1 e2 e4
  refine ⟨_, _, _, _, e1, e2, e3, e4, fun t => ?_⟩
  simp only [points_mean]
  refine transform_linear _ _ _ _ _ _ _ _ _ (fun x => ?_) _
  have hprod : ∀ i, prod L (combine u v a b) (combine u v a b) i = u ^ 2 * prod L a a i + v ^ 2 * prod L b b i + 2 * u * v * prod L a b i := by
    intro i
    have hs : (combine u v a b).shape = b.shape := h
    rw [prod_combine L u v (combine u v a b) a b h, prod_comm L (combine u v a b) a rfl, prod_comm L (combine u v a b) b hs, prod_combine L u v a a b h,
      prod_combine L u v b a b h, prod_comm L b a h.symm]
    ring
  rw [Finset.sum_congr rfl fun i _ => hprod i, Finset.sum_add_distrib, Finset.sum_add_distrib, ← Finset.mul_sum, ← Finset.mul_sum, ← Finset.mul_sum]
  ring

/-- Translating a periodic array does not change its correlation function. -/
theorem C212_translation (hs : ∀ j, 0 < a.shape j) (t : Fin d → ℤ) :
    correlationFunction LB ⟨a.shape, fun x => a.val fun j => (x j + t j) % (a.shape j : ℤ)⟩ rbins kbins box log kb = correlationFunction LB a rbins kbins box log kb := by
  have : ∀ L, powerNd L ⟨a.shape, fun x => a.val fun j => (x j + t j) % (a.shape j : ℤ)⟩ = powerNd L a := by
    intro L
    have h1 := funext (C93_translation L a hs t)
    have h2 : (powerNd L ⟨a.shape, fun x => a.val fun j => (x j + t j) % (a.shape j : ℤ)⟩).shape = (powerNd L a).shape := rfl
    calc _ = (⟨_, (powerNd L ⟨a.shape, fun x => a.val fun j => (x j + t j) % (a.shape j : ℤ)⟩).val⟩ : Arr (Fin d) ℝ) := rfl
      _ = ⟨_, (powerNd L a).val⟩ := by rw [h1]
      _ = powerNd L a := rfl
  unfold correlationFunction power1d
  simp only [this]
  rfl

/-- The documentation: without `box_dims` the current box is used, and a list has the length along each axis.  False of the code: with a number of radii both
raise, whatever the array. -/
theorem C212_false (m : ℕ) : (∃ e, correlationFunction LB a (.count m) kbins .none log kb = .error e) ∧
    ∀ l, ∃ e, correlationFunction LB a (.count m) kbins (.list l) log kb = .error e := by
  refine ⟨?_, fun l => ?_⟩
  · unfold correlationFunction
    split
    · exact ⟨_, rfl⟩
    · exact ⟨_, rfl⟩
  · unfold correlationFunction
    split
    · exact ⟨_, rfl⟩
    · exact ⟨_, rfl⟩

/-- The spectrum itself works for both. -/
example : (∃ p, power1d 100 density .none (.array [0.1, 0.2, 0.4]) .log 0.1 = .ok p) ∧ ∃ p, power1d 100 density (.list [100, 100, 100]) (.array [0.1, 0.2, 0.4]) .log 0.1 = .ok p := by
  constructor
  · unfold power1d radialAverage getDims getK boxOf getKbins
    simp only [List.length_replicate, le_refl, if_true, or_true]
    rw [if_pos (by norm_num)]
    exact ⟨_, rfl⟩
  · unfold power1d radialAverage getDims getK boxOf getKbins
    simp only [List.length_cons, List.length_nil, or_true, if_true, le_refl, Nat.reduceAdd]
    rw [if_pos (by norm_num)]
    exact ⟨_, rfl⟩

theorem bins_array {r : List ℝ} {bp : ℝ} {p : Radial} (h : power1d LB a box (.array r) kb bp = .ok p) :
    p.bins.length = r.length - 1 ∧ ∀ i, i + 1 < r.length → p.bins.getD i 0 = (r.getD i 0 + r.getD (i + 1) 0) / 2 := by
  unfold power1d at h
  split at h
  · cases h
  unfold radialAverage getKbins at h
  split at h
  · cases h
  simp only at h
  split at h
  · cases h
    refine ⟨by simp [centres], fun i hi => ?_⟩
    unfold centres
    rw [List.getD_eq_getElem _ _ (by simp; omega)]
    simp only [List.getElem_map, List.getElem_range]
    ring
  · cases h

/-- False of the code: with `kbins=None` and an array of radii, ten times the radii are the edges in wavenumber.  The correlation function at two radii is then zero for
every array, since the integral is over a single wavenumber. -/
theorem C212_false_edges (hd : 0 < d) (r1 r2 : ℝ) {p : Radial} (hp : power1d LB a box (.array [10 * r1, 10 * r2]) kb 0.1 = .ok p) :
    p.bins = [5 * (r1 + r2)] ∧ correlationFunction LB a (.array [r1, r2]) none box log kb = .ok ([0, 0], [r1, r2]) := by
  obtain ⟨h1, h2⟩ := bins_array LB a box kb (r := [10 * r1, 10 * r2]) hp
  simp only [List.length_cons, List.length_nil] at h1
  have hlen : (pointsOf p).length ≤ 1 := by
    unfold pointsOf
    refine (List.length_filterMap_le _ _).trans ?_
    rw [List.length_zip, h1]
    omega
  have ht : ∀ x, transform (pointsOf p) x = 0 := by
    intro x
    unfold transform
    rw [show (pointsOf p).length - 1 = 0 by omega, Finset.range_zero, Finset.sum_empty]
  refine ⟨?_, ?_⟩
  · have := h2 0 (by simp)
    match hb : p.bins, h1 with
    | [x], _ =>
      rw [hb] at this
      simp only [List.getD_cons_zero, List.getD_cons_succ] at this
      rw [this]
      congr 1
      ring
  · rw [← C159_self] at hp
    have := C212_partial LB a a (.array [r1, r2]) none box log kb (.array _ [10 * r1, 10 * r2] rfl fun i hi => by
      match i, hi with
      | 0, _ => rfl
      | 1, _ => rfl) hp ⟨⟨0, hd⟩, rfl, rfl⟩ (Radii.array _ _)
    rw [C212_self] at this
    rw [this]
    simp [ht]

/-- Such a spectrum exists. -/
example : ∃ p, power1d 100 density (.number 100) (.array [10 * 0.01, 10 * 0.02]) .log 0.1 = .ok p := by
  unfold power1d radialAverage getDims getK boxOf getKbins
  simp only [List.length_replicate, le_refl, if_true, or_true]
  rw [if_pos (by norm_num)]
  exact ⟨_, rfl⟩

/-- Arrays of other shapes. -/
theorem C212_raises (h : a.shape ≠ b.shape) : ∃ e, crossCorrelationFunction LB a b rbins kbins box log kb = .error (.spectrum e) := by
  obtain ⟨e, he⟩ := c159_raises' LB a b box (binsOf rbins kbins) kb 0.1 h
  refine ⟨e, ?_⟩
  unfold crossCorrelationFunction
  rw [he]

/-- Two arrays in a box of 100 Mpc, with three edges and two radii. -/
example : ∃ xa xb xab x : ℝ → ℝ, correlationFunction 100 density (.array [10, 20]) (some (.array [0.1, 0.2, 0.4])) (.number 100) true .log = .ok ([10, 20].map xa, [10, 20]) ∧
    correlationFunction 100 ionised (.array [10, 20]) (some (.array [0.1, 0.2, 0.4])) (.number 100) true .log = .ok ([10, 20].map xb, [10, 20]) ∧
    crossCorrelationFunction 100 density ionised (.array [10, 20]) (some (.array [0.1, 0.2, 0.4])) (.number 100) true .log = .ok ([10, 20].map xab, [10, 20]) ∧
    correlationFunction 100 (combine 1 (-1) density ionised) (.array [10, 20]) (some (.array [0.1, 0.2, 0.4])) (.number 100) true .log = .ok ([10, 20].map x, [10, 20]) ∧
    ∀ t, x t = 1 ^ 2 * xa t + (-1) ^ 2 * xb t + 2 * 1 * (-1) * xab t := by
  have hp : ∃ p, power1d 100 density (.number 100) (.array [0.1, 0.2, 0.4]) .log 0.1 = .ok p := by
    unfold power1d radialAverage getDims getK boxOf getKbins
    simp only [List.length_replicate, le_refl, if_true, or_true]
    rw [if_pos (by norm_num)]
    exact ⟨_, rfl⟩
  obtain ⟨p, hp⟩ := hp
  exact C212_sum 100 density ionised (.array [10, 20]) (some (.array [0.1, 0.2, 0.4])) (.number 100) true .log 1 (-1) rfl ⟨⟨0, by decide⟩, rfl, rfl⟩ (Radii.array _ _)
    (.given _ _) hp

end Verif.CorrFunction
