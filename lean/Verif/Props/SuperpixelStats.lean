import Verif.Model.SuperpixelStats
import Verif.Props.Superpixels
import Mathlib.Algebra.BigOperators.Group.List.Basic
import Mathlib.Tactic.Linarith
/-!
# Signal-to-noise ratios of superpixels (C173), the mean of the significant ones (C174) and the threshold from a histogram (C175)
-/

namespace Verif.SuperpixelStats
open Verif.Superpixels

/-! ## Specification -/

/-- Mean, standard deviation and number of pixels of a superpixel. -/
abbrev Pix := ℝ × ℝ × ℝ

/-- `f` returns the indices that sort a list. -/
def Sorts (f : List ℝ → List ℕ) : Prop :=
  ∀ l : List ℝ, (f l).Perm (List.range l.length) ∧ ((f l).map fun i => l.getD i 0).Pairwise (· ≤ ·)

/-- The ratio of mean and deviation is below minus the threshold, whatever the sign of the threshold. -/
def Significant (t : ℝ) (p : Pix) : Prop := p.1 < -|t| * p.2.1

open Classical in
/-- The significant superpixels. -/
noncomputable def chosen (t : ℝ) (P : List Pix) : List Pix := P.filter fun p => decide (Significant t p)

/-- The number of pixels. -/
noncomputable def total (P : List Pix) : ℝ := (P.map fun p => p.2.2).sum

/-- The mean depth per pixel. -/
noncomputable def depth (P : List Pix) : ℝ := (P.map fun p => -p.1 * p.2.2).sum / total P

/-- The variance of the pixels from those of the superpixels, with the correction of Bessel. -/
noncomputable def variance (P : List Pix) : ℝ :=
  (P.map fun p => (p.2.2 - 1) * p.2.1 ^ 2 + p.2.2 * (-p.1 - depth P) ^ 2).sum / (total P - 1)

/-! ## C173 -/

theorem gather_map (P : List Pix) (f : Pix → ℝ) {o : List ℕ} (ho : ∀ j ∈ o, j < P.length) :
    gather (P.map f) o = .ok ((o.map fun j => P.getD j default).map f) := by
  rw [gather_ok (f default) (P.map f) o (by simpa using ho), List.map_map]
  congr 1
  refine List.map_congr_left fun j hj => ?_
  simp only [Function.comp_apply, List.getD_eq_getElem?_getD, List.getElem?_map]
  cases P[j]? <;> rfl

theorem perm_getD {α : Type} (d : α) (P : List α) {o : List ℕ} (h : o.Perm (List.range P.length)) : (o.map fun j => P.getD j d).Perm P := by
  refine (h.map _).trans ?_
  have : (List.range P.length).map (fun j => P.getD j d) = P := by
    apply List.ext_getElem?
    intro i
    by_cases hi : i < P.length
    · rw [List.getElem?_map, List.getElem?_range hi, List.getElem?_eq_getElem hi]
      simp [List.getD_eq_getElem?_getD, hi]
    · rw [List.getElem?_eq_none (by simp; omega), List.getElem?_eq_none (by omega)]
  rw [this]

theorem snrs_eq {f : List ℝ → List ℕ} (hf : Sorts f) (P : List Pix) : ∃ Q : List Pix, Q.Perm P ∧ (Q.map fun p => p.1).Pairwise (· ≤ ·) ∧
    snrs f (P.map fun p => p.1) (P.map fun p => p.2.1) (P.map fun p => p.2.2) false =
      .ok ⟨Q.map fun p => quotient p.1 p.2.1, Q.map fun p => p.1, Q.map fun p => p.2.1, Q.map fun p => p.2.2⟩ := by
  have hp := (hf (P.map fun p => p.1)).1
  rw [List.length_map] at hp
  have ho : ∀ j ∈ f (P.map fun p => p.1), j < P.length := fun j hj => List.mem_range.1 (hp.mem_iff.1 hj)
  refine ⟨(f (P.map fun p => p.1)).map fun j => P.getD j default, perm_getD _ _ hp, ?_, ?_⟩
  · have hs := (hf (P.map fun p => p.1)).2
    have he := gather_map P (fun p => p.1) ho
    rw [gather_ok 0 _ _ (by simpa using ho)] at he
    rw [← Except.ok.inj he]
    exact hs
  · unfold snrs
    dsimp only
    rw [gather_map P _ ho, gather_map P _ ho, gather_map P _ ho]
    show Except.ok _ = _
    congr 2
    rw [List.zipWith_map, List.zipWith_self]

/-- **C173** (partial).  The superpixels are returned in the order of their means, each with its own ratio, deviation and number of pixels.
Missing: the pixels, see `C173_false`. -/
theorem C173_partial {f : List ℝ → List ℕ} (hf : Sorts f) (P : List Pix) : ∃ (st : Stats) (Q : List Pix),
    snrs f (P.map fun p => p.1) (P.map fun p => p.2.1) (P.map fun p => p.2.2) false = .ok st ∧ Q.Perm P ∧
      st.means = (Q.map fun p => p.1) ∧ st.sigmas = (Q.map fun p => p.2.1) ∧ st.ns = (Q.map fun p => p.2.2) ∧
      st.means.Pairwise (· ≤ ·) ∧ st.snr.length = P.length ∧
      (∀ (i : ℕ) (p : Pix), Q[i]? = some p → (p.2.1 ≠ 0 → st.snr[i]? = some (.num (p.1 / p.2.1))) ∧
        (p.2.1 = 0 → p.1 = 0 → st.snr[i]? = some .nan) ∧ (p.2.1 = 0 → 0 < p.1 → st.snr[i]? = some .posInf) ∧
        (p.2.1 = 0 → p.1 < 0 → st.snr[i]? = some .negInf)) := by
  obtain ⟨Q, hQ, hs, he⟩ := snrs_eq hf P
  refine ⟨_, Q, he, hQ, rfl, rfl, rfl, hs, by simp [hQ.length_eq], ?_⟩
  intro i p hi
  have h : (Q.map fun p => quotient p.1 p.2.1)[i]? = some (quotient p.1 p.2.1) := by rw [List.getElem?_map, hi]; rfl
  refine ⟨fun hp => ?_, fun hp h0 => ?_, fun hp h0 => ?_, fun hp h0 => ?_⟩
  · exact h.trans (by simp [quotient, hp])
  · exact h.trans (by simp [quotient, hp, h0])
  · exact h.trans (by simp [quotient, hp, h0, h0.ne'])
  · exact h.trans (by simp [quotient, hp, h0.ne, h0.le])

/-- The pixels are never returned. -/
theorem C173_false {f : List ℝ → List ℕ} (hf : Sorts f) (P : List Pix) :
    snrs f (P.map fun p => p.1) (P.map fun p => p.2.1) (P.map fun p => p.2.2) true = .error .type := by
  have hp := (hf (P.map fun p => p.1)).1
  rw [List.length_map] at hp
  have ho : ∀ j ∈ f (P.map fun p => p.1), j < P.length := fun j hj => List.mem_range.1 (hp.mem_iff.1 hj)
  unfold snrs
  dsimp only
  rw [gather_map P _ ho, gather_map P _ ho, gather_map P _ ho]
  rfl

/-! ## C174 -/

theorem below_iff {t : ℝ} {p : Pix} (hp : 0 ≤ p.2.1) :
    (quotient p.1 p.2.1).below (open Classical in if t ≤ 0 then t else -t) = true ↔ Significant t p := by
  have ht : (open Classical in if t ≤ 0 then t else -t) = -|t| := by
    by_cases h : t ≤ 0
    · rw [if_pos h, abs_of_nonpos h, neg_neg]
    · rw [if_neg h, abs_of_pos (not_le.1 h)]
  rw [ht]
  unfold Significant quotient
  by_cases hs : p.2.1 = 0
  · rw [if_pos hs, hs, mul_zero]
    by_cases hm : p.1 = 0
    · rw [if_pos hm, hm]
      simp [Quotient.below]
    · rw [if_neg hm]
      by_cases hm' : 0 < p.1
      · rw [if_pos hm']
        simp [Quotient.below, hm'.le]
      · rw [if_neg hm']
        simp only [Quotient.below, true_iff]
        exact lt_of_le_of_ne (not_lt.1 hm') hm
  · rw [if_neg hs]
    simp only [Quotient.below, decide_eq_true_eq]
    rw [div_lt_iff₀ (lt_of_le_of_ne hp (Ne.symm hs))]

theorem pick_map {α : Type} (Q : List Pix) (c : Pix → Bool) (f : Pix → α) :
    (((Q.map c).zip (Q.map f)).filter fun p => p.1).map Prod.snd = (Q.filter c).map f := by
  induction Q with
  | nil => rfl
  | cons p Q ih =>
    rw [List.map_cons, List.map_cons, List.zip_cons_cons, List.filter_cons, List.filter_cons]
    by_cases h : c p = true
    · rw [if_pos h, if_pos h, List.map_cons, List.map_cons, ih]
    · rw [if_neg h, if_neg h, ih]

theorem total_perm {P Q : List Pix} (h : Q.Perm P) : total Q = total P := (h.map _).sum_eq

theorem depth_perm {P Q : List Pix} (h : Q.Perm P) : depth Q = depth P := by
  unfold depth
  rw [(h.map _).sum_eq, total_perm h]

theorem variance_perm {P Q : List Pix} (h : Q.Perm P) : variance Q = variance P := by
  unfold variance
  rw [depth_perm h, (h.map _).sum_eq, total_perm h]

theorem combined_eq (R : List Pix) :
    combined (R.map fun p => -p.1) (R.map fun p => p.2.1) (R.map fun p => p.2.2) = .ok (depth R, Real.sqrt (variance R)) := by
  unfold combined
  rw [if_pos ⟨by simp, by simp⟩]
  dsimp only
  rw [List.zipWith_map, List.zipWith_self, List.zip_map', List.zipWith_map, List.zipWith_self]
  rfl

/-- **C174** (partial).  From the statistics of superpixels the depth of the significant ones and the deviation of their pixels; zeros if there are
none.  Missing: data and labels in place of the statistics, see `C174_false`. -/
theorem C174_partial {f : List ℝ → List ℕ} (hf : Sorts f) (P : List Pix) (hs : ∀ p ∈ P, 0 ≤ p.2.1) (t : ℝ) :
    meanEstimate f (some (P.map fun p => p.1)) (some (P.map fun p => p.2.1)) (some (P.map fun p => p.2.2)) t =
      open Classical in if chosen t P = [] then .ok (0, 0) else .ok (depth (chosen t P), Real.sqrt (variance (chosen t P))) := by
  classical
  obtain ⟨Q, hQ, -, he⟩ := snrs_eq hf P
  have hc : (chosen t Q).Perm (chosen t P) := hQ.filter _
  have hloc : (Q.map fun p => quotient p.1 p.2.1).map (fun q => q.below (if t ≤ 0 then t else -t)) =
      Q.map fun p => decide (Significant t p) := by
    rw [List.map_map]
    refine List.map_congr_left fun p hp => ?_
    have := below_iff (t := t) (hs p (hQ.mem_iff.1 hp))
    simp only [Function.comp_apply]
    rw [Bool.eq_iff_iff, this, decide_eq_true_iff]
  have habs : (chosen t Q).map (fun p => |p.1|) = (chosen t Q).map fun p => -p.1 := by
    refine List.map_congr_left fun p hp => ?_
    have h1 := List.mem_filter.1 hp
    have h2 : p.1 < -|t| * p.2.1 := by simpa [Significant] using h1.2
    have h3 := hs p (hQ.mem_iff.1 h1.1)
    have := mul_nonneg (abs_nonneg t) h3
    exact abs_of_neg (by linarith)
  unfold meanEstimate
  dsimp only
  rw [he]
  show (if (((((Q.map fun p => quotient p.1 p.2.1).map fun q => q.below (if t ≤ 0 then t else -t)).zip (Q.map fun p => p.1)).filter
      fun p => p.1).map Prod.snd |>.map fun x => |x|).length = 0 then Except.ok (0, 0) else
    lift (combined (((((Q.map fun p => quotient p.1 p.2.1).map fun q => q.below (if t ≤ 0 then t else -t)).zip (Q.map fun p => p.1)).filter
      fun p => p.1).map Prod.snd |>.map fun x => |x|)
      (((((Q.map fun p => quotient p.1 p.2.1).map fun q => q.below (if t ≤ 0 then t else -t)).zip (Q.map fun p => p.2.1)).filter
        fun p => p.1).map Prod.snd)
      (((((Q.map fun p => quotient p.1 p.2.1).map fun q => q.below (if t ≤ 0 then t else -t)).zip (Q.map fun p => p.2.2)).filter
        fun p => p.1).map Prod.snd))) = _
  rw [hloc, pick_map, pick_map, pick_map, List.map_map]
  have hgm : (Q.filter fun p => decide (Significant t p)).map ((fun x => |x|) ∘ fun p => p.1) = (chosen t Q).map fun p => -p.1 := habs
  rw [hgm, List.length_map]
  by_cases h0 : chosen t P = []
  · have : chosen t Q = [] := by
      rw [h0] at hc
      exact List.perm_nil.1 hc
    rw [if_pos h0, if_pos (by rw [this]; rfl)]
  · have : (chosen t Q).length ≠ 0 := by
      rw [hc.length_eq]
      exact fun h => h0 (List.length_eq_zero_iff.1 h)
    rw [if_neg h0, if_neg this]
    show lift (combined ((chosen t Q).map _) ((chosen t Q).map _) ((chosen t Q).map _)) = _
    rw [combined_eq, depth_perm hc, variance_perm hc]
    rfl

/-- Without all three statistics nothing is computed: data and labels are not used. -/
theorem C174_false (f : List ℝ → List ℕ) (means sigmas ns : Option (List ℝ)) (t : ℝ) (h : means = none ∨ sigmas = none ∨ ns = none) :
    meanEstimate f means sigmas ns t = .error .noData := by
  rcases h with rfl | rfl | rfl
  · rfl
  · cases means <;> rfl
  · cases means <;> cases sigmas <;> rfl

/-- Two superpixels of which one is significant. -/
noncomputable def two : List Pix := [(-10, 1, 4), (3, 1, 6)]

example : chosen 5 two = [(-10, 1, 4)] ∧ ∀ p ∈ two, 0 ≤ p.2.1 := by
  constructor
  · norm_num [chosen, two, Significant]
  · intro p hp
    simp [two] at hp
    rcases hp with rfl | rfl <;> norm_num

/-- Lists can be sorted. -/
example : ∃ f, Sorts f := by
  classical
  refine ⟨fun l => (List.range l.length).insertionSort fun i j => l.getD i 0 ≤ l.getD j 0, fun l => ⟨List.perm_insertionSort _ _, ?_⟩⟩
  rw [List.pairwise_map]
  have : Std.Total fun i j : ℕ => l.getD i 0 ≤ l.getD j 0 := ⟨fun i j => le_total _ _⟩
  have : IsTrans ℕ fun i j : ℕ => l.getD i 0 ≤ l.getD j 0 := ⟨fun i j k => le_trans⟩
  exact List.pairwise_insertionSort _ _

/-! ## C175 -/

/-- `b` is the first index of the largest value. -/
def First {K : Type} [LinearOrder K] (l : List K) (b : ℕ) : Prop :=
  ∃ v, l[b]? = some v ∧ (∀ (i : ℕ) (w : K), l[i]? = some w → w ≤ v) ∧ ∀ (i : ℕ) (w : K), i < b → l[i]? = some w → w < v

/-- The indices of values above both neighbours. -/
def Peak (h : List ℕ) (i : ℕ) : Prop := ∃ a b c, 0 < i ∧ h[i - 1]? = some a ∧ h[i]? = some b ∧ h[i + 1]? = some c ∧ a < b ∧ c < b

/-- The distance of the point of bin `i` from the line through the points of the bins `0` and `b`, up to a factor. -/
noncomputable def away (h : List ℕ) (e : List ℝ) (b i : ℕ) : ℝ :=
  |((h.getD i 0 : ℝ) - h.getD 0 0) - ((h.getD b 0 : ℝ) - h.getD 0 0) / (e.getD b 0 - e.getD 0 0) * (e.getD i 0 - e.getD 0 0)|

theorem exists_max {K : Type} [LinearOrder K] : ∀ (l : List K), l ≠ [] → ∃ x ∈ l, ∀ y ∈ l, y ≤ x
  | [], h => absurd rfl h
  | [a], _ => ⟨a, by simp, by simp⟩
  | a :: b :: l, _ => by
    obtain ⟨x, hx, h⟩ := exists_max (b :: l) (by simp)
    rcases le_total a x with hax | hxa
    · refine ⟨x, List.mem_cons_of_mem _ hx, fun y hy => ?_⟩
      rcases List.mem_cons.1 hy with rfl | hy
      · exact hax
      · exact h y hy
    · refine ⟨a, by simp, fun y hy => ?_⟩
      rcases List.mem_cons.1 hy with rfl | hy
      · exact le_rfl
      · exact (h y hy).trans hxa

theorem argmax_first {K : Type} [LinearOrder K] {l : List K} (hl : l ≠ []) : First l (argmax l) := by
  classical
  obtain ⟨x, hx, hm⟩ := exists_max l hl
  have hlt : argmax l < l.length := by
    unfold argmax
    rw [List.findIdx_lt_length]
    refine ⟨x, hx, ?_⟩
    simp only [decide_eq_true_eq, List.all_eq_true]
    exact hm
  have hget : ∀ y ∈ l, y ≤ l[argmax l] := by
    have h := List.findIdx_getElem (w := hlt)
    have h' := List.all_eq_true.1 (of_decide_eq_true h)
    exact fun y hy => of_decide_eq_true (h' y hy)
  refine ⟨l[argmax l], List.getElem?_eq_getElem hlt, fun i w hw => hget w (List.mem_of_getElem? hw), fun i w hi hw => ?_⟩
  obtain ⟨hi', rfl⟩ := List.getElem?_eq_some_iff.1 hw
  by_contra hcon
  have hn := List.not_of_lt_findIdx (p := fun x => decide (l.all fun y => decide (y ≤ x))) (xs := l) (i := i) hi
  refine of_decide_eq_false hn ?_
  simp only [decide_eq_true_eq, List.all_eq_true]
  intro y hy
  exact (hget y hy).trans (not_lt.1 hcon)

theorem first_unique {K : Type} [LinearOrder K] {l : List K} {a b : ℕ} (ha : First l a) (hb : First l b) : a = b := by
  obtain ⟨v, h1, h2, h3⟩ := ha
  obtain ⟨w, k1, k2, k3⟩ := hb
  have hvw : v = w := le_antisymm (k2 a v h1) (h2 b w k1)
  subst hvw
  rcases lt_trichotomy a b with h | h | h
  · exact absurd (k3 a v h h1) (lt_irrefl _)
  · exact h
  · exact absurd (h3 b v h k1) (lt_irrefl _)

theorem mem_peaks (h : List ℕ) (i : ℕ) : i ∈ peaks h ↔ Peak h i := by
  unfold peaks Peak
  rw [List.mem_filter, List.mem_range, decide_eq_true_eq]
  constructor
  · rintro ⟨h0, h1, h2, h3, h4⟩
    refine ⟨h[i - 1], h[i], h[i + 1], h1, List.getElem?_eq_getElem _, List.getElem?_eq_getElem _, List.getElem?_eq_getElem _, ?_, ?_⟩
    · simpa [List.getD_eq_getElem?_getD, List.getElem?_eq_getElem h0, List.getElem?_eq_getElem (show i - 1 < h.length by omega)] using h3
    · simpa [List.getD_eq_getElem?_getD, List.getElem?_eq_getElem h0, List.getElem?_eq_getElem h2] using h4
  · rintro ⟨a, b, c, h0, h1, h2, h3, h4, h5⟩
    have hl := (List.getElem?_eq_some_iff.1 h3).1
    refine ⟨by omega, h0, hl, ?_, ?_⟩
    · simpa [List.getD_eq_getElem?_getD, h1, h2] using h4
    · simpa [List.getD_eq_getElem?_getD, h2, h3] using h5

theorem peaks_one (h : List ℕ) : (peaks h).length = 1 ↔ ∃! i, Peak h i := by
  have hnd : (peaks h).Nodup := List.nodup_range.filter _
  rw [List.length_eq_one_iff]
  constructor
  · rintro ⟨a, ha⟩
    refine ⟨a, (mem_peaks h a).1 (by rw [ha]; simp), fun j hj => ?_⟩
    have := (mem_peaks h j).2 hj
    rw [ha] at this
    simpa using this
  · rintro ⟨a, ha, hu⟩
    refine ⟨a, ?_⟩
    have hp : (peaks h).Perm [a] := by
      rw [List.perm_ext_iff_of_nodup hnd (by simp)]
      intro j
      rw [mem_peaks, List.mem_singleton]
      exact ⟨fun hj => hu j hj, fun e => e ▸ ha⟩
    exact List.perm_singleton.1 hp

/-- **C175** (partial).  A histogram with one peak (ends do not count) whose largest bin `b` is not the first: cells below the centre of the bin
before `b` that is farthest from the line through the first bin and `b`.  With more or no peaks the threshold of Otsu.  Missing: histograms that
are largest in the first bin, see `C175_false`. -/
theorem C175_partial (h : List ℕ) (e : List ℝ) (otsu : ℝ) (field : List ℝ) {b : ℕ} (hb : First h b) (h0 : 0 < b) :
    ((∃! i, Peak h i) → ∀ d, First ((List.range b).map (away h e b)) d →
      stitch h e otsu true field = .ok (open Classical in field.map fun x => decide (x < (e.getD d 0 + e.getD (d + 1) 0) / 2))) ∧
    (¬ (∃! i, Peak h i) → stitch h e otsu true field = .ok (open Classical in field.map fun x => decide (x < otsu))) := by
  have hne : h ≠ [] := by
    rintro rfl
    obtain ⟨v, hv, -⟩ := hb
    simp at hv
  have ha : argmax h = b := first_unique (argmax_first hne) hb
  unfold stitch threshold
  dsimp only
  rw [ha, if_neg h0.ne', ← peaks_one]
  constructor
  · intro hp d hd
    rw [if_pos hp, if_neg h0.ne']
    have hl : (List.range b).map (offLine h e) = (List.range b).map (away h e b) := by
      refine List.map_congr_left fun i _ => ?_
      unfold offLine away
      dsimp only
      rw [ha]
    rw [hl, first_unique (argmax_first (by simp; omega)) hd]
    simp only
    rw [add_div]
  · intro hp
    rw [if_neg hp]
    rfl

/-- A histogram that falls from its first bin and has no other peak has no threshold: an exception. -/
theorem C175_false (h : List ℕ) (e : List ℝ) (otsu : ℝ) (distinct : Bool) (field : List ℝ) (hb : First h 0) (hp : ∃! i, Peak (0 :: h) i) :
    stitch h e otsu distinct field = .error .value := by
  have hne : h ≠ [] := by
    rintro rfl
    obtain ⟨v, hv, -⟩ := hb
    simp at hv
  have ha : argmax h = 0 := first_unique (argmax_first hne) hb
  unfold stitch threshold
  dsimp only
  rw [ha, if_pos rfl, if_pos ((peaks_one _).2 hp), if_pos rfl]

/-- Means that agree give no cell at all, unless the histogram has one peak. -/
theorem C175_same (h : List ℕ) (e : List ℝ) (otsu : ℝ) (field : List ℝ) {b : ℕ} (hb : First h b)
    (hp : ¬ ∃! i, Peak (if b = 0 then 0 :: h else h) i) : stitch h e otsu false field = .ok (field.map fun _ => false) := by
  have hne : h ≠ [] := by
    rintro rfl
    obtain ⟨v, hv, -⟩ := hb
    simp at hv
  have ha : argmax h = b := first_unique (argmax_first hne) hb
  unfold stitch threshold
  dsimp only
  rw [ha]
  have : ¬ (if b = 0 then peaks (0 :: h) else peaks h).length = 1 := by
    rw [← peaks_one] at hp
    by_cases h0 : b = 0
    · rw [if_pos h0] at hp ⊢
      exact hp
    · rw [if_neg h0] at hp ⊢
      exact hp
  rw [if_neg this]
  rfl

example : First [3, 1] 0 ∧ ∃! i, Peak [0, 3, 1] i := by
  constructor
  · refine ⟨3, rfl, ?_, fun i w hi => absurd hi (Nat.not_lt_zero i)⟩
    intro i w hw
    match i, hw with
    | 0, hw => simp at hw; omega
    | 1, hw => simp at hw; omega
    | i + 2, hw => simp at hw
  · rw [← peaks_one]
    decide

example : First [1, 2, 5, 1] 2 ∧ ∃! i, Peak [1, 2, 5, 1] i := by
  constructor
  · refine ⟨5, rfl, ?_, ?_⟩
    · intro i w hw
      match i, hw with
      | 0, hw => simp at hw; omega
      | 1, hw => simp at hw; omega
      | 2, hw => simp at hw; omega
      | 3, hw => simp at hw; omega
      | i + 4, hw => simp at hw
    · intro i w hi hw
      match i, hw with
      | 0, hw => simp at hw; omega
      | 1, hw => simp at hw; omega
      | i + 2, hw => omega
  · rw [← peaks_one]
    decide

end Verif.SuperpixelStats
