import Verif.Props.Diagnostics
import Mathlib.Data.List.Sort
import Mathlib.Tactic.FinCases

/-!
# Credible intervals, coverage and probability integral transform (C148)
-/

namespace Verif.Diagnostics

/-! ## Specification -/

/-- What `np.argsort` promises: a permutation of the indices after which the values increase.  Equal values may come in any
order. -/
def IsArgsort (srt : List ℝ → List ℕ) : Prop :=
  ∀ l, (srt l).Perm (List.range l.length) ∧ ((srt l).map fun i => l.getD i 0).Pairwise (· ≤ ·)

/-- The fraction of the weight of the samples with the condition. -/
noncomputable def mass (xs ws : List ℝ) (P : ℝ → Prop) : ℝ :=
  open Classical in
  (((xs.zip ws).filter fun s => decide (P s.1)).map Prod.snd).sum / ws.sum

/-! ## Interpolation -/

theorem interp_ge {p : ℝ × ℝ} {B : List (ℝ × ℝ)} {x : ℝ} (h : p.1 ≤ x) :
    (∃ A a b C, p :: B = A ++ a :: b :: C ∧ a.1 ≤ x ∧ x < b.1 ∧
      interp (p :: B) x = (b.2 - a.2) / (b.1 - a.1) * (x - a.1) + a.2) ∨
    (∃ A a, p :: B = A ++ [a] ∧ a.1 ≤ x ∧ interp (p :: B) x = a.2) := by
  induction B generalizing p with
  | nil => exact .inr ⟨[], p, rfl, h, rfl⟩
  | cons q B ih =>
    by_cases hq : x < q.1
    · refine .inl ⟨[], p, q, B, rfl, h, hq, ?_⟩
      unfold interp
      rw [if_pos hq]
      split_ifs with h2
      · rw [le_antisymm h2 h]; ring
      · rfl
    · have e : interp (p :: q :: B) x = interp (q :: B) x := by
        conv_lhs => unfold interp
        rw [if_neg hq]
      rw [e]
      rcases ih (not_lt.1 hq) with ⟨A, a, b, C, h1, h2⟩ | ⟨A, a, h1, h2⟩
      · exact .inl ⟨p :: A, a, b, C, by rw [h1]; rfl, h2⟩
      · exact .inr ⟨p :: A, a, by rw [h1]; rfl, h2⟩

theorem interp_lt {p : ℝ × ℝ} {B : List (ℝ × ℝ)} {x : ℝ} (hs : ((p :: B).map Prod.fst).Pairwise (· ≤ ·)) (h : x < p.1) :
    interp (p :: B) x = p.2 := by
  cases B with
  | nil => rfl
  | cons q B =>
    have : p.1 ≤ q.1 := (List.pairwise_cons.1 hs).1 q.1 (by simp)
    unfold interp
    rw [if_pos (lt_of_lt_of_le h this), if_pos h.le]

theorem interp_head {p : ℝ × ℝ} {B : List (ℝ × ℝ)} {x : ℝ} (hs : ((p :: B).map Prod.snd).Pairwise (· ≤ ·)) :
    p.2 ≤ interp (p :: B) x := by
  induction B generalizing p with
  | nil => exact le_refl _
  | cons q B ih =>
    have hs2 := List.pairwise_cons.1 hs
    have h1 : p.2 ≤ q.2 := hs2.1 q.2 (by simp)
    unfold interp
    split_ifs with h2 h3
    · exact le_refl _
    · have h4 : 0 < q.1 - p.1 := by linarith [not_le.1 h3]
      have : 0 ≤ (q.2 - p.2) / (q.1 - p.1) * (x - p.1) :=
        mul_nonneg (div_nonneg (by linarith) h4.le) (by linarith [not_le.1 h3])
      linarith
    · exact h1.trans (ih hs2.2)

theorem segment_le {p q : ℝ × ℝ} {x : ℝ} (h1 : p.2 ≤ q.2) (h2 : p.1 ≤ x) (h3 : x < q.1) :
    p.2 ≤ (q.2 - p.2) / (q.1 - p.1) * (x - p.1) + p.2 ∧ (q.2 - p.2) / (q.1 - p.1) * (x - p.1) + p.2 ≤ q.2 := by
  have h4 : 0 < q.1 - p.1 := by linarith
  constructor
  · have : 0 ≤ (q.2 - p.2) / (q.1 - p.1) * (x - p.1) :=
      mul_nonneg (div_nonneg (by linarith) h4.le) (by linarith)
    linarith
  · have : (q.2 - p.2) / (q.1 - p.1) * (x - p.1) ≤ (q.2 - p.2) / (q.1 - p.1) * (q.1 - p.1) :=
      mul_le_mul_of_nonneg_left (by linarith) (div_nonneg (by linarith) h4.le)
    rw [div_mul_cancel₀ _ h4.ne'] at this
    linarith

theorem interp_mono {l : List (ℝ × ℝ)} (hs : (l.map Prod.snd).Pairwise (· ≤ ·)) {x y : ℝ} (h : x ≤ y) :
    interp l x ≤ interp l y := by
  induction l with
  | nil => exact le_refl _
  | cons p l ih =>
    cases l with
    | nil => exact le_refl _
    | cons q l =>
      have hs2 := List.pairwise_cons.1 hs
      have h1 : p.2 ≤ q.2 := hs2.1 q.2 (by simp)
      by_cases hy : y < q.1
      · unfold interp
        rw [if_pos (lt_of_le_of_lt h hy), if_pos hy]
        by_cases hx : x ≤ p.1
        · rw [if_pos hx]
          split_ifs with hy2
          · exact le_refl _
          · exact (segment_le h1 (not_le.1 hy2).le hy).1
        · rw [if_neg hx, if_neg (fun hh => hx (h.trans hh))]
          have h4 : 0 < q.1 - p.1 := by linarith [not_le.1 hx]
          have : (q.2 - p.2) / (q.1 - p.1) * (x - p.1) ≤ (q.2 - p.2) / (q.1 - p.1) * (y - p.1) :=
            mul_le_mul_of_nonneg_left (by linarith) (div_nonneg (by linarith) h4.le)
          linarith
      · have ey : interp (p :: q :: l) y = interp (q :: l) y := by
          conv_lhs => unfold interp
          rw [if_neg hy]
        rw [ey]
        by_cases hx : x < q.1
        · refine le_trans ?_ (interp_head hs2.2)
          unfold interp
          rw [if_pos hx]
          split_ifs with hx2
          · exact h1
          · exact (segment_le h1 (not_le.1 hx2).le hx).2
        · have ex : interp (p :: q :: l) x = interp (q :: l) x := by
            conv_lhs => unfold interp
            rw [if_neg hx]
          rw [ex]
          exact ih hs2.2

/-! ## Cumulative weights -/

/-- The nodes of the interpolation. -/
theorem nodes_cons (c : ℝ) (a : ℝ × ℝ) (s : List (ℝ × ℝ)) :
    (cumsum c ((a :: s).map Prod.snd)).zip ((a :: s).map Prod.fst) =
      (c + a.2, a.1) :: (cumsum (c + a.2) (s.map Prod.snd)).zip (s.map Prod.fst) := rfl

theorem nodes_split {c : ℝ} {s : List (ℝ × ℝ)} {A : List (ℝ × ℝ)} {p : ℝ × ℝ} {R : List (ℝ × ℝ)}
    (h : (cumsum c (s.map Prod.snd)).zip (s.map Prod.fst) = A ++ p :: R) :
    ∃ A' a R', s = A' ++ a :: R' ∧ p = (c + (A'.map Prod.snd).sum + a.2, a.1) ∧
      R = (cumsum (c + (A'.map Prod.snd).sum + a.2) (R'.map Prod.snd)).zip (R'.map Prod.fst) := by
  induction A generalizing c s with
  | nil =>
    cases s with
    | nil => simp [cumsum] at h
    | cons a s =>
      rw [nodes_cons] at h
      simp only [List.nil_append, List.cons.injEq] at h
      exact ⟨[], a, s, rfl, by simp [← h.1], by simp [← h.2]⟩
  | cons b A ih =>
    cases s with
    | nil => simp [cumsum] at h
    | cons a s =>
      rw [nodes_cons] at h
      simp only [List.cons_append, List.cons.injEq] at h
      obtain ⟨A', a', R', rfl, h2, h3⟩ := ih h.2
      refine ⟨a :: A', a', R', rfl, ?_, ?_⟩
      · rw [h2]; simp only [List.map_cons, List.sum_cons]; congr 1; ring
      · rw [h3]; simp only [List.map_cons, List.sum_cons]; congr 2; ring

theorem cumsum_ge {c : ℝ} {l : List ℝ} (h : ∀ x ∈ l, 0 ≤ x) : ∀ y ∈ cumsum c l, c ≤ y := by
  induction l generalizing c with
  | nil => simp [cumsum]
  | cons a l ih =>
    intro y hy
    have ha := h a List.mem_cons_self
    simp only [cumsum, List.mem_cons] at hy
    rcases hy with rfl | hy
    · linarith
    · linarith [ih (fun x hx => h x (List.mem_cons_of_mem _ hx)) y hy]

theorem cumsum_sorted {c : ℝ} {l : List ℝ} (h : ∀ x ∈ l, 0 ≤ x) : (cumsum c l).Pairwise (· ≤ ·) := by
  induction l generalizing c with
  | nil => simp [cumsum]
  | cons a l ih =>
    have h' : ∀ x ∈ l, 0 ≤ x := fun x hx => h x (List.mem_cons_of_mem _ hx)
    exact List.pairwise_cons.2 ⟨cumsum_ge h', ih h'⟩

theorem length_cumsum (c : ℝ) (l : List ℝ) : (cumsum c l).length = l.length := by
  induction l generalizing c with
  | nil => rfl
  | cons a l ih => simp [cumsum, ih]

theorem fst_zip_cumsum (s : List (ℝ × ℝ)) :
    ((cumsum 0 (s.map Prod.snd)).zip (s.map Prod.fst)).map Prod.fst = cumsum 0 (s.map Prod.snd) :=
  List.map_fst_zip (by simp [length_cumsum])

theorem snd_zip_cumsum (s : List (ℝ × ℝ)) :
    ((cumsum 0 (s.map Prod.snd)).zip (s.map Prod.fst)).map Prod.snd = s.map Prod.fst :=
  List.map_snd_zip (by simp [length_cumsum])

/-! ## Weights of the samples with a condition -/

open Classical in
/-- The weight with a condition, of a list of samples with their weights. -/
noncomputable def part (s : List (ℝ × ℝ)) (P : ℝ → Prop) : ℝ := ((s.filter fun a => decide (P a.1)).map Prod.snd).sum

theorem part_append (s t : List (ℝ × ℝ)) (P : ℝ → Prop) : part (s ++ t) P = part s P + part t P := by
  simp [part]

theorem part_cons (a : ℝ × ℝ) (s : List (ℝ × ℝ)) (P : ℝ → Prop) [Decidable (P a.1)] :
    part (a :: s) P = (if P a.1 then a.2 else 0) + part s P := by
  unfold part
  by_cases h : P a.1 <;> simp [List.filter_cons, h]

theorem part_none {s : List (ℝ × ℝ)} {P : ℝ → Prop} (h : ∀ a ∈ s, ¬ P a.1) : part s P = 0 := by
  unfold part
  rw [List.filter_eq_nil_iff.2 (by intro a ha; simpa using h a ha)]
  rfl

theorem part_all {s : List (ℝ × ℝ)} {P : ℝ → Prop} (h : ∀ a ∈ s, P a.1) : part s P = (s.map Prod.snd).sum := by
  unfold part
  rw [List.filter_eq_self.2 (by intro a ha; simpa using h a ha)]

theorem part_nonneg {s : List (ℝ × ℝ)} (hw : ∀ a ∈ s, 0 ≤ a.2) (P : ℝ → Prop) : 0 ≤ part s P := by
  refine List.sum_nonneg ?_
  intro x hx
  obtain ⟨a, ha, rfl⟩ := List.mem_map.1 hx
  exact hw a (List.mem_filter.1 ha).1

theorem part_mono {s : List (ℝ × ℝ)} (hw : ∀ a ∈ s, 0 ≤ a.2) {P Q : ℝ → Prop} (h : ∀ x, P x → Q x) :
    part s P ≤ part s Q := by
  classical
  induction s with
  | nil => exact le_refl _
  | cons a s ih =>
    rw [part_cons, part_cons]
    have h1 := ih (fun b hb => hw b (List.mem_cons_of_mem _ hb))
    have h2 := hw a List.mem_cons_self
    by_cases hp : P a.1
    · rw [if_pos hp, if_pos (h _ hp)]; linarith
    · rw [if_neg hp]; split_ifs <;> linarith

theorem part_le_sum {s : List (ℝ × ℝ)} (hw : ∀ a ∈ s, 0 ≤ a.2) (P : ℝ → Prop) : part s P ≤ (s.map Prod.snd).sum := by
  rw [← part_all (P := fun _ => True) (s := s) (by simp)]
  exact part_mono hw (fun _ _ => trivial)

theorem part_perm {s t : List (ℝ × ℝ)} (h : s.Perm t) (P : ℝ → Prop) : part s P = part t P :=
  ((h.filter _).map Prod.snd).sum_eq

theorem part_sub {s : List (ℝ × ℝ)} {a b : ℝ} (h : a ≤ b) :
    part s (fun x => a ≤ x ∧ x ≤ b) = part s (fun x => x ≤ b) - part s (fun x => x < a) := by
  classical
  induction s with
  | nil => simp [part]
  | cons c s ih =>
    rw [part_cons, part_cons, part_cons, ih]
    by_cases h1 : c.1 < a
    · rw [if_pos h1, if_neg (fun hh => absurd hh.1 (not_le.2 h1)), if_pos (h1.le.trans h)]; ring
    · by_cases h2 : c.1 ≤ b
      · rw [if_neg h1, if_pos ⟨not_lt.1 h1, h2⟩, if_pos h2]; ring
      · rw [if_neg h1, if_neg (fun hh => h2 hh.2), if_neg h2]; ring

/-- A sorted list cut at a value. -/
theorem sorted_split {A R : List (ℝ × ℝ)} {a : ℝ × ℝ} (hs : ((A ++ a :: R).map Prod.fst).Pairwise (· ≤ ·)) :
    (∀ b ∈ A, b.1 ≤ a.1) ∧ (∀ b ∈ R, a.1 ≤ b.1) := by
  rw [List.map_append, List.map_cons, List.pairwise_append] at hs
  refine ⟨fun b hb => hs.2.2 b.1 (List.mem_map.2 ⟨b, hb, rfl⟩) a.1 List.mem_cons_self, fun b hb => ?_⟩
  exact (List.pairwise_cons.1 hs.2.1).1 b.1 (List.mem_map.2 ⟨b, hb, rfl⟩)

theorem quantile_spec {s : List (ℝ × ℝ)} (hs : (s.map Prod.fst).Pairwise (· ≤ ·)) (hw : ∀ a ∈ s, 0 ≤ a.2)
    (h1 : (s.map Prod.snd).sum = 1) {q : ℝ} (hq : 0 ≤ q) (hq1 : q < 1) :
    part s (fun x => x < quantile s q) ≤ q ∧
      ∀ B, (∀ a ∈ s, a.2 ≤ B) → q ≤ part s (fun x => x ≤ quantile s q) + B := by
  have hw' : ∀ x ∈ s.map Prod.snd, 0 ≤ x := by
    intro x hx; obtain ⟨a, ha, rfl⟩ := List.mem_map.1 hx; exact hw a ha
  cases s with
  | nil => simp at h1
  | cons a s =>
    unfold quantile
    rw [nodes_cons]
    by_cases hc : 0 + a.2 ≤ q
    · rcases interp_ge (p := (0 + a.2, a.1)) (B := (cumsum (0 + a.2) (s.map Prod.snd)).zip (s.map Prod.fst)) (x := q) hc
        with ⟨A, p, r, C, e, hp, hr, hv⟩ | ⟨A, p, e, hp, hv⟩
      · rw [hv]
        rw [← nodes_cons] at e
        obtain ⟨A', p', R', e1, e2, e3⟩ := nodes_split e
        obtain ⟨A2, r', R2, f1, f2, f3⟩ := nodes_split (A := []) (by simpa using e3.symm)
        have hA2 : A2 = [] := by
          by_contra hne
          obtain ⟨t, T, rfl⟩ := List.exists_cons_of_ne_nil hne
          subst f1
          have := congrArg List.length e3
          have g := congrArg List.length f3
          simp [length_cumsum] at this g
          omega
        subst hA2
        simp only [List.nil_append] at f1
        subst f1
        rw [e1] at hs hw ⊢
        obtain ⟨s1, s2⟩ := sorted_split hs
        have s3 := (sorted_split (A := A' ++ [p']) (a := r') (R := R2) (by simpa using hs)).2
        have hpr : p'.1 ≤ r'.1 := s2 r' List.mem_cons_self
        have e2' : p.2 = p'.1 := by rw [e2]
        have f2' : r.2 = r'.1 := by rw [f2]
        have e2'' : p.1 = (A'.map Prod.snd).sum + p'.2 := by rw [e2]; simp
        have f2'' : r.1 = (A'.map Prod.snd).sum + p'.2 + r'.2 := by rw [f2]; simp
        have hseg := segment_le (p := p) (q := r) (x := q) (by rw [e2', f2']; exact hpr) hp hr
        set v := (r.2 - p.2) / (r.1 - p.1) * (q - p.1) + p.2 with hvdef
        have hcut : part (A' ++ [p']) (fun _ => True) = p.1 := by
          rw [part_all (by simp), e2'']; simp
        have hw1 : ∀ b ∈ A' ++ [p'], 0 ≤ b.2 := by
          intro b hb; apply hw; simp at hb ⊢; tauto
        have hw2 : ∀ b ∈ r' :: R2, 0 ≤ b.2 := by
          intro b hb; apply hw; simp at hb ⊢; tauto
        have split : A' ++ p' :: r' :: R2 = (A' ++ [p']) ++ (r' :: R2) := by simp
        constructor
        · rw [split, part_append, part_none (s := r' :: R2), add_zero]
          · calc part (A' ++ [p']) _ ≤ part (A' ++ [p']) (fun _ => True) := part_mono hw1 (fun _ _ => trivial)
              _ = p.1 := hcut
              _ ≤ q := hp
          · intro b hb
            rw [not_lt]
            refine hseg.2.trans ?_
            rw [f2']
            rcases List.mem_cons.1 hb with rfl | hb
            · exact le_refl _
            · exact s3 b hb
        · intro B hB
          have hrB : r'.2 ≤ B := hB r' (by simp)
          rw [split, part_append, part_all (s := A' ++ [p'])]
          · have := part_nonneg hw2 (fun x => x ≤ v)
            have e4 : ((A' ++ [p']).map Prod.snd).sum = p.1 := by rw [e2'']; simp
            rw [e4]
            linarith
          · intro b hb
            refine le_trans ?_ hseg.1
            rw [e2']
            rcases List.mem_append.1 hb with hb | hb
            · exact s1 b hb
            · simp at hb; rw [hb]
      · exfalso
        rw [← nodes_cons] at e
        obtain ⟨A', p', R', e1, e2, e3⟩ := nodes_split e
        have hR : R' = [] := by
          have := congrArg List.length e3
          simp [length_cumsum] at this
          exact List.length_eq_zero_iff.1 this.symm
        subst hR
        rw [e1] at h1
        simp at h1
        rw [e2] at hp
        simp only [zero_add] at hp
        linarith
    · push Not at hc
      have hv : interp ((0 + a.2, a.1) :: (cumsum (0 + a.2) (s.map Prod.snd)).zip (s.map Prod.fst)) q = a.1 := by
        refine interp_lt ?_ hc
        rw [← nodes_cons, fst_zip_cumsum]
        exact cumsum_sorted hw'
      rw [hv]
      have s2 := (sorted_split (A := []) (by simpa using hs)).2
      constructor
      · rw [part_none]
        · exact hq
        · intro b hb
          rw [not_lt]
          rcases List.mem_cons.1 hb with rfl | hb
          · exact le_refl _
          · exact s2 b hb
      · intro B hB
        classical
        rw [part_cons, if_pos (le_refl _)]
        have := part_nonneg (s := s) (fun b hb => hw b (List.mem_cons_of_mem _ hb)) (fun x => x ≤ a.1)
        have h0 := hB a List.mem_cons_self
        have h00 := hw a List.mem_cons_self
        linarith

theorem cdf_spec {s : List (ℝ × ℝ)} (hs : (s.map Prod.fst).Pairwise (· ≤ ·)) (hw : ∀ a ∈ s, 0 ≤ a.2) (hne : s ≠ [])
    (v : ℝ) :
    part s (fun x => x ≤ v) ≤ cdfAt s v ∧
      (∀ B, (∀ a ∈ s, a.2 ≤ B) → cdfAt s v ≤ part s (fun x => x ≤ v) + B) ∧
      ((∃ a ∈ s, a.1 = v) ∨ (∀ a ∈ s, a.1 ≤ v) → cdfAt s v = part s (fun x => x ≤ v)) ∧
      ((∀ a ∈ s, v < a.1) → ∃ a ∈ s, (∀ b ∈ s, a.1 ≤ b.1) ∧ cdfAt s v = a.2) := by
  cases s with
  | nil => exact absurd rfl hne
  | cons a s =>
    have s2 := (sorted_split (A := []) (by simpa using hs)).2
    unfold cdfAt
    by_cases hc : a.1 ≤ v
    · have hc4 : ¬ ∀ b ∈ a :: s, v < b.1 := fun hh => absurd (hh a List.mem_cons_self) (not_lt.2 hc)
      rcases interp_ge (p := (a.1, 0 + a.2)) (B := (s.map Prod.fst).zip (cumsum (0 + a.2) (s.map Prod.snd))) (x := v) hc
        with ⟨A, p, r, C, e, hp, hr, hv⟩ | ⟨A, p, e, hp, hv⟩
      · change (interp (((a :: s).map Prod.fst).zip (cumsum 0 ((a :: s).map Prod.snd))) v) = _ at hv
        rw [hv]
        change ((a :: s).map Prod.fst).zip (cumsum 0 ((a :: s).map Prod.snd)) = _ at e
        have e' : (cumsum 0 ((a :: s).map Prod.snd)).zip ((a :: s).map Prod.fst) =
            A.map Prod.swap ++ p.swap :: r.swap :: C.map Prod.swap := by
          rw [← List.zip_swap, e, List.map_append]; rfl
        obtain ⟨A', p', R', e1, e2, e3⟩ := nodes_split e'
        obtain ⟨A2, r', R2, f1, f2, f3⟩ := nodes_split (A := []) (by simpa using e3.symm)
        have hA2 : A2 = [] := by
          by_contra hne
          obtain ⟨t, T, rfl⟩ := List.exists_cons_of_ne_nil hne
          subst f1
          have := congrArg List.length e3
          have g := congrArg List.length f3
          simp [length_cumsum] at this g
          omega
        subst hA2
        simp only [List.nil_append] at f1
        subst f1
        have e2' : p.1 = p'.1 := congrArg Prod.snd e2
        have f2' : r.1 = r'.1 := congrArg Prod.snd f2
        have e2'' : p.2 = (A'.map Prod.snd).sum + p'.2 := by have := congrArg Prod.fst e2; simpa using this
        have f2'' : r.2 = (A'.map Prod.snd).sum + p'.2 + r'.2 := by have := congrArg Prod.fst f2; simpa using this
        clear hv e e' e2 f2 e3 f3 hc s2
        rw [e1] at hs hw hc4 ⊢
        obtain ⟨s1, -⟩ := sorted_split hs
        have s3 := (sorted_split (A := A' ++ [p']) (a := r') (R := R2) (by simpa using hs)).2
        have hr0 : 0 ≤ r'.2 := hw r' (by simp)
        have hseg := segment_le (p := p) (q := r) (x := v) (by rw [e2'', f2'']; linarith) hp hr
        have split : A' ++ p' :: r' :: R2 = (A' ++ [p']) ++ (r' :: R2) := by simp
        have hbefore : ∀ b ∈ A' ++ [p'], b.1 ≤ p.1 := by
          intro b hb
          rw [e2']
          rcases List.mem_append.1 hb with hb | hb
          · exact s1 b hb
          · simp at hb; rw [hb]
        have hafter : ∀ b ∈ r' :: R2, v < b.1 := by
          intro b hb
          refine lt_of_lt_of_le hr ?_
          rw [f2']
          rcases List.mem_cons.1 hb with rfl | hb
          · exact le_refl _
          · exact s3 b hb
        have hpart : part (A' ++ p' :: r' :: R2) (fun x => x ≤ v) = p.2 := by
          rw [split, part_append, part_none (s := r' :: R2) (P := fun x => x ≤ v) (fun b hb => not_le.2 (hafter b hb)), add_zero,
            part_all (fun b hb => (hbefore b hb).trans hp), e2'']
          simp
        rw [hpart]
        refine ⟨hseg.1, fun B hB => ?_, ?_, fun hh => absurd hh hc4⟩
        · have := hB r' (by simp)
          linarith [hseg.2]
        · rintro (⟨b, hb, hbv⟩ | hall)
          · rw [split] at hb
            rcases List.mem_append.1 hb with hb | hb
            · have : p.1 = v := le_antisymm hp (hbv ▸ hbefore b hb)
              rw [this]; ring
            · exact absurd hbv (hafter b hb).ne'
          · exact absurd (hall r' (by simp)) (not_le.2 (hafter r' List.mem_cons_self))
      · change (interp (((a :: s).map Prod.fst).zip (cumsum 0 ((a :: s).map Prod.snd))) v) = _ at hv
        rw [hv]
        change ((a :: s).map Prod.fst).zip (cumsum 0 ((a :: s).map Prod.snd)) = _ at e
        have e' : (cumsum 0 ((a :: s).map Prod.snd)).zip ((a :: s).map Prod.fst) =
            A.map Prod.swap ++ p.swap :: [] := by
          rw [← List.zip_swap, e, List.map_append]; rfl
        obtain ⟨A', p', R', e1, e2, e3⟩ := nodes_split e'
        have hR : R' = [] := by
          have := congrArg List.length e3
          simp [length_cumsum] at this
          exact List.length_eq_zero_iff.1 this.symm
        subst hR
        have e2' : p.1 = p'.1 := congrArg Prod.snd e2
        have e2'' : p.2 = (A'.map Prod.snd).sum + p'.2 := by have := congrArg Prod.fst e2; simpa using this
        clear hv e e' e2 e3 hc s2
        rw [e1] at hs hw hc4 ⊢
        obtain ⟨s1, -⟩ := sorted_split hs
        have hpart : part (A' ++ [p']) (fun x => x ≤ v) = p.2 := by
          rw [part_all, e2'']
          · simp
          · intro b hb
            refine le_trans ?_ hp
            rw [e2']
            rcases List.mem_append.1 hb with hb | hb
            · exact s1 b hb
            · simp at hb; rw [hb]
        rw [hpart]
        refine ⟨le_refl _, fun B hB => ?_, fun _ => rfl, fun hh => absurd hh hc4⟩
        have := hB p' (by simp)
        have := hw p' (by simp)
        linarith
    · push Not at hc
      have hv : interp (((a :: s).map Prod.fst).zip (cumsum 0 ((a :: s).map Prod.snd))) v = a.2 := by
        have h0 : ((a :: s).map Prod.fst).zip (cumsum 0 ((a :: s).map Prod.snd)) =
            (a.1, 0 + a.2) :: (s.map Prod.fst).zip (cumsum (0 + a.2) (s.map Prod.snd)) := rfl
        have h1 : (((a :: s).map Prod.fst).zip (cumsum 0 ((a :: s).map Prod.snd))).map Prod.fst = (a :: s).map Prod.fst :=
          List.map_fst_zip (by simp [length_cumsum])
        rw [h0] at h1 ⊢
        rw [interp_lt (p := (a.1, 0 + a.2)) (by rw [h1]; exact hs) hc]
        simp
      rw [hv]
      have hafter : ∀ b ∈ a :: s, a.1 ≤ b.1 := by
        intro b hb
        rcases List.mem_cons.1 hb with rfl | hb
        · exact le_refl _
        · exact s2 b hb
      rw [part_none (P := fun x => x ≤ v) (fun b hb => not_le.2 (lt_of_lt_of_le hc (hafter b hb)))]
      refine ⟨hw a List.mem_cons_self, fun B hB => ?_, ?_, fun _ => ⟨a, List.mem_cons_self, hafter, rfl⟩⟩
      · have := hB a List.mem_cons_self
        linarith
      · rintro (⟨b, hb, hbv⟩ | hall)
        · exact absurd hbv (lt_of_lt_of_le hc (hafter b hb)).ne'
        · exact absurd (hall a List.mem_cons_self) (not_le.2 hc)

theorem quantile_mem {s : List (ℝ × ℝ)} (hs : (s.map Prod.fst).Pairwise (· ≤ ·)) (hw : ∀ a ∈ s, 0 ≤ a.2) (hne : s ≠ [])
    (q : ℝ) {lo hi : ℝ} (h : ∀ a ∈ s, lo ≤ a.1 ∧ a.1 ≤ hi) : lo ≤ quantile s q ∧ quantile s q ≤ hi := by
  have hsnd : (((cumsum 0 (s.map Prod.snd)).zip (s.map Prod.fst)).map Prod.snd).Pairwise (· ≤ ·) := by
    rw [snd_zip_cumsum]; exact hs
  cases s with
  | nil => exact absurd rfl hne
  | cons a s =>
    unfold quantile
    rw [nodes_cons] at hsnd ⊢
    refine ⟨(h a List.mem_cons_self).1.trans (interp_head hsnd), ?_⟩
    by_cases hc : 0 + a.2 ≤ q
    · rcases interp_ge (p := (0 + a.2, a.1)) (B := (cumsum (0 + a.2) (s.map Prod.snd)).zip (s.map Prod.fst)) (x := q) hc
        with ⟨A, p, r, C, e, hp, hr, hv⟩ | ⟨A, p, e, hp, hv⟩
      · rw [hv]
        have hmem : ∀ x ∈ (((0 + a.2, a.1) :: (cumsum (0 + a.2) (s.map Prod.snd)).zip (s.map Prod.fst)).map Prod.snd),
            x ≤ hi := by
          intro x hx
          rw [← nodes_cons, snd_zip_cumsum] at hx
          obtain ⟨b, hb, rfl⟩ := List.mem_map.1 hx
          exact (h b hb).2
        rw [e] at hmem hsnd
        have hpr : p.2 ≤ r.2 := by
          rw [List.map_append, List.pairwise_append] at hsnd
          exact (List.pairwise_cons.1 hsnd.2.1).1 r.2 (by simp)
        exact (segment_le hpr hp hr).2.trans (hmem r.2 (by simp))
      · rw [hv]
        have hmem : ∀ x ∈ (((0 + a.2, a.1) :: (cumsum (0 + a.2) (s.map Prod.snd)).zip (s.map Prod.fst)).map Prod.snd),
            x ≤ hi := by
          intro x hx
          rw [← nodes_cons, snd_zip_cumsum] at hx
          obtain ⟨b, hb, rfl⟩ := List.mem_map.1 hx
          exact (h b hb).2
        rw [e] at hmem
        exact hmem p.2 (by simp)
    · push Not at hc
      have hv : interp ((0 + a.2, a.1) :: (cumsum (0 + a.2) (s.map Prod.snd)).zip (s.map Prod.fst)) q = a.1 := by
        refine interp_lt ?_ hc
        rw [← nodes_cons, fst_zip_cumsum]
        refine cumsum_sorted ?_
        intro x hx; obtain ⟨a, ha, rfl⟩ := List.mem_map.1 hx; exact hw a ha
      rw [hv]
      exact (h a List.mem_cons_self).2

/-! ## The sorted samples -/

theorem range_zip {xs ws : List ℝ} (h : xs.length = ws.length) :
    (List.range xs.length).map (fun i => (xs.getD i 0, ws.getD i 0)) = xs.zip ws := by
  apply List.ext_getElem
  · simp [h]
  · intro i h1 h2
    simp only [List.length_map, List.length_range] at h1
    have h3 : i < ws.length := h ▸ h1
    rw [List.getElem_map, List.getElem_range, List.getElem_zip, List.getD_eq_getElem _ _ h1, List.getD_eq_getElem _ _ h3]

theorem ordered_perm {srt : List ℝ → List ℕ} (hsrt : IsArgsort srt) {xs ws : List ℝ} (h : xs.length = ws.length) :
    (ordered srt xs ws).Perm (xs.zip ws) := by
  rw [← range_zip h]
  exact (hsrt xs).1.map _

theorem ordered_sorted {srt : List ℝ → List ℕ} (hsrt : IsArgsort srt) (xs ws : List ℝ) :
    ((ordered srt xs ws).map Prod.fst).Pairwise (· ≤ ·) := by
  have := (hsrt xs).2
  simpa [ordered, Function.comp_def] using this

/-- Different samples have only one order. -/
theorem ordered_eq {srt : List ℝ → List ℕ} (hsrt : IsArgsort srt) {xs ws : List ℝ} (h : xs.length = ws.length)
    {t : List (ℝ × ℝ)} (ht : t.Perm (xs.zip ws)) (hz : t.Pairwise (fun a b => a.1 < b.1)) : ordered srt xs ws = t := by
  have ho : (ordered srt xs ws).Pairwise (fun a b => a.1 ≤ b.1) := List.pairwise_map.1 (ordered_sorted hsrt xs ws)
  have hperm := (ordered_perm hsrt h).trans ht.symm
  refine hperm.eq_of_pairwise (le := fun a b => a.1 ≤ b.1) ?_ ho (hz.imp le_of_lt)
  intro a b ha hb hab hba
  have ha' := hperm.mem_iff.1 ha
  by_contra hne
  have hp := List.pairwise_iff_getElem.1 hz
  obtain ⟨i, hi, rfl⟩ := List.mem_iff_getElem.1 ha'
  obtain ⟨j, hj, rfl⟩ := List.mem_iff_getElem.1 hb
  rcases lt_trichotomy i j with hij | hij | hij
  · exact absurd hba (not_le.2 (hp i j hi hj hij))
  · subst hij; exact hne rfl
  · exact absurd hab (not_le.2 (hp j i hj hi hij))

theorem part_scale (xs ws : List ℝ) (c : ℝ) (P : ℝ → Prop) :
    part (xs.zip (ws.map (· / c))) P = part (xs.zip ws) P / c := by
  classical
  induction xs generalizing ws with
  | nil => simp [part]
  | cons a xs ih =>
    cases ws with
    | nil => simp [part]
    | cons b ws =>
      simp only [List.map_cons, List.zip_cons_cons]
      rw [part_cons, part_cons, ih]
      simp only []
      split_ifs <;> ring

theorem mass_ordered {srt : List ℝ → List ℕ} (hsrt : IsArgsort srt) {xs ws : List ℝ} (h : xs.length = ws.length)
    (P : ℝ → Prop) : part (ordered srt xs (ws.map (· / ws.sum))) P = mass xs ws P := by
  rw [part_perm (ordered_perm hsrt (by simpa using h)), part_scale]
  rfl

theorem mem_ordered {srt : List ℝ → List ℕ} (hsrt : IsArgsort srt) {xs ws : List ℝ} (h : xs.length = ws.length) {a : ℝ × ℝ}
    (ha : a ∈ ordered srt xs ws) : a.1 ∈ xs ∧ a.2 ∈ ws := by
  have := (ordered_perm hsrt h).mem_iff.1 ha
  exact List.of_mem_zip this

/-! ## C148 -/

/-- The five limits are in order and within the samples.  Each divides the weight as it should up to the weight of one
sample: not more than the fraction `q` lies below it, and at least `q` less one weight lies not above it; so the
intervals hold at least 68 and 95 per cent less one weight.  The probability integral transform is the weight of the
samples not above the value, up to one weight, and exactly that at the samples and above all of them. -/
theorem C148_partial {d : ℕ} {srt : List ℝ → List ℕ} (hsrt : IsArgsort srt) {tv : Option (List ℝ)}
    {pts : List (Fin d → ℝ)} {w : List ℝ} {m : Metrics d} (h : metrics srt tv pts w = .ok m) (p : Fin d) :
    ((m.cis p).lo2 ≤ (m.cis p).lo1 ∧ (m.cis p).lo1 ≤ (m.cis p).median ∧ (m.cis p).median ≤ (m.cis p).hi1 ∧
      (m.cis p).hi1 ≤ (m.cis p).hi2) ∧
    (∀ lo hi, (∀ r ∈ pts, lo ≤ r p ∧ r p ≤ hi) → lo ≤ (m.cis p).lo2 ∧ (m.cis p).hi2 ≤ hi) ∧
    (∀ q v, (q, v) ∈ [(1 / 40, (m.cis p).lo2), (4 / 25, (m.cis p).lo1), (1 / 2, (m.cis p).median),
        (21 / 25, (m.cis p).hi1), (39 / 40, (m.cis p).hi2)] →
      mass (pts.map fun r => r p) w (fun x => x < v) ≤ q ∧
      ∀ B, (∀ x ∈ w, x / w.sum ≤ B) → q ≤ mass (pts.map fun r => r p) w (fun x => x ≤ v) + B) ∧
    (∀ B, (∀ x ∈ w, x / w.sum ≤ B) →
      68 / 100 - B ≤ mass (pts.map fun r => r p) w (fun x => (m.cis p).lo1 ≤ x ∧ x ≤ (m.cis p).hi1) ∧
      95 / 100 - B ≤ mass (pts.map fun r => r p) w (fun x => (m.cis p).lo2 ≤ x ∧ x ≤ (m.cis p).hi2)) ∧
    ∀ v, mass (pts.map fun r => r p) w (fun x => x ≤ v) ≤ (m.cis p).cdf v ∧
      (∀ B, (∀ x ∈ w, x / w.sum ≤ B) → (m.cis p).cdf v ≤ mass (pts.map fun r => r p) w (fun x => x ≤ v) + B) ∧
      ((∃ r ∈ pts, r p = v) ∨ (∀ r ∈ pts, r p ≤ v) →
        (m.cis p).cdf v = mass (pts.map fun r => r p) w (fun x => x ≤ v)) := by
  obtain ⟨hlen, hne, hsum, hw, -, -, -, -, hcis⟩ := metrics_inv h
  rw [hcis]
  set xs := pts.map fun r => r p with hxs
  have hl : xs.length = w.length := by simp [hxs, hlen]
  have hl' : xs.length = (w.map (· / w.sum)).length :=
    hl.trans (List.length_map _).symm
  set s := ordered srt xs (w.map (· / w.sum)) with hs
  have hperm : s.Perm (xs.zip (w.map (· / w.sum))) := ordered_perm hsrt hl'
  have hsort : (s.map Prod.fst).Pairwise (· ≤ ·) := ordered_sorted hsrt _ _
  have hsw : ∀ a ∈ s, 0 ≤ a.2 := by
    intro a ha
    obtain ⟨x, hx, hxe⟩ := List.mem_map.1 (mem_ordered hsrt hl' ha).2
    rw [← hxe]; exact hw x hx
  have hsB : ∀ B, (∀ x ∈ w, x / w.sum ≤ B) → ∀ a ∈ s, a.2 ≤ B := by
    intro B hB a ha
    obtain ⟨x, hx, hxe⟩ := List.mem_map.1 (mem_ordered hsrt hl' ha).2
    rw [← hxe]; exact hB x hx
  have hone : (s.map Prod.snd).sum = 1 := by
    rw [(hperm.map Prod.snd).sum_eq, List.map_snd_zip (by rw [← hl']), sum_div_one hsum]
  have hsne : s ≠ [] := by
    intro h0; rw [h0] at hone; simp at hone
  have hmass : ∀ P, part s P = mass xs w P := fun P => mass_ordered hsrt hl P
  have hmono : ∀ {x y : ℝ}, x ≤ y → quantile s x ≤ quantile s y := by
    intro x y hxy
    refine interp_mono ?_ hxy
    rw [snd_zip_cumsum]; exact hsort
  have hlo1 : (credible srt xs (w.map (· / w.sum))).lo1 = quantile s (4 / 25) := by
    show quantile s _ = _; norm_num
  have hlo2 : (credible srt xs (w.map (· / w.sum))).lo2 = quantile s (1 / 40) := by
    show quantile s _ = _; norm_num
  have hhi1 : (credible srt xs (w.map (· / w.sum))).hi1 = quantile s (21 / 25) := by
    show quantile s _ = _; norm_num
  have hhi2 : (credible srt xs (w.map (· / w.sum))).hi2 = quantile s (39 / 40) := by
    show quantile s _ = _; norm_num
  have hmed : (credible srt xs (w.map (· / w.sum))).median = quantile s (1 / 2) := by
    show quantile s _ = _; norm_num
  have hcdf : (credible srt xs (w.map (· / w.sum))).cdf = cdfAt s := rfl
  simp only [] at *
  rw [hlo1, hlo2, hhi1, hhi2, hmed, hcdf]
  have hq : ∀ q v, (q, v) ∈ [(1 / 40, quantile s (1 / 40)), (4 / 25, quantile s (4 / 25)), (1 / 2, quantile s (1 / 2)),
        (21 / 25, quantile s (21 / 25)), (39 / 40, quantile s (39 / 40))] →
      mass xs w (fun x => x < v) ≤ q ∧
      ∀ B, (∀ x ∈ w, x / w.sum ≤ B) → q ≤ mass xs w (fun x => x ≤ v) + B := by
    intro q v hqv
    have : v = quantile s q ∧ 0 ≤ q ∧ q < 1 := by
      simp only [List.mem_cons, Prod.mk.injEq, List.not_mem_nil, or_false] at hqv
      rcases hqv with ⟨rfl, rfl⟩ | ⟨rfl, rfl⟩ | ⟨rfl, rfl⟩ | ⟨rfl, rfl⟩ | ⟨rfl, rfl⟩ <;>
        exact ⟨rfl, by norm_num, by norm_num⟩
    obtain ⟨rfl, h0, h1⟩ := this
    have := quantile_spec hsort hsw hone h0 h1
    rw [hmass, hmass] at this
    exact ⟨this.1, fun B hB => this.2 B (hsB B hB)⟩
  refine ⟨⟨hmono (by norm_num), hmono (by norm_num), hmono (by norm_num), hmono (by norm_num)⟩, ?_, hq, ?_, ?_⟩
  · intro lo hi hb
    have hb' : ∀ a ∈ s, lo ≤ a.1 ∧ a.1 ≤ hi := by
      intro a ha
      obtain ⟨r, hr, hre⟩ := List.mem_map.1 (mem_ordered hsrt hl' ha).1
      rw [← hre]; exact hb r hr
    exact ⟨(quantile_mem hsort hsw hsne _ hb').1, (quantile_mem hsort hsw hsne _ hb').2⟩
  · intro B hB
    rw [← hmass, ← hmass, part_sub (hmono (by norm_num)), part_sub (hmono (by norm_num)), hmass, hmass, hmass, hmass]
    have a1 := (hq (4 / 25) (quantile s (4 / 25)) (.tail _ (.head _))).1
    have a2 := (hq (21 / 25) (quantile s (21 / 25)) (.tail _ (.tail _ (.tail _ (.head _))))).2 B hB
    have a3 := (hq (1 / 40) (quantile s (1 / 40)) (.head _)).1
    have a4 := (hq (39 / 40) (quantile s (39 / 40)) (.tail _ (.tail _ (.tail _ (.tail _ (.head _)))))).2 B hB
    constructor <;> linarith
  · intro v
    obtain ⟨c1, c2, c3, -⟩ := cdf_spec hsort hsw hsne v
    rw [hmass] at c1 c2 c3
    refine ⟨c1, fun B hB => c2 B (hsB B hB), fun hh => c3 ?_⟩
    rcases hh with ⟨r, hr, hrv⟩ | hall
    · left
      have : r p ∈ s.map Prod.fst := by
        rw [(hperm.map Prod.fst).mem_iff, List.map_fst_zip hl'.le, hxs]
        exact List.mem_map.2 ⟨r, hr, rfl⟩
      obtain ⟨a, ha, hae⟩ := List.mem_map.1 this
      exact ⟨a, ha, hae.trans hrv⟩
    · right
      intro a ha
      obtain ⟨r, hr, hre⟩ := List.mem_map.1 (mem_ordered hsrt hl' ha).1
      rw [← hre]; exact hall r hr

/-- With true values for all parameters the coverage is membership in the intervals, and the probability integral
transform is taken at the true value of the same parameter. -/
theorem C148_truth {d : ℕ} {srt : List ℝ → List ℕ} {tv : List ℝ} {pts : List (Fin d → ℝ)} {w : List ℝ} {m : Metrics d}
    (h : metrics srt (some tv) pts w = .ok m) (hd : d ≤ tv.length) :
    ∃ t, m.truth = some t ∧ t.pit.length = d ∧ t.cover68.length = d ∧ t.cover95.length = d ∧
      ∀ p : Fin d, t.pit[(p : ℕ)]? = some ((m.cis p).cdf (tv.getD p 0)) ∧
        (t.cover68[(p : ℕ)]? = some true ↔ (m.cis p).lo1 ≤ tv.getD p 0 ∧ tv.getD p 0 ≤ (m.cis p).hi1) ∧
        (t.cover95[(p : ℕ)]? = some true ↔ (m.cis p).lo2 ≤ tv.getD p 0 ∧ tv.getD p 0 ≤ (m.cis p).hi2) := by
  classical
  obtain ⟨-, -, -, -, -, -, -, -, hcis⟩ := metrics_inv h
  unfold metrics at h
  simp only [] at h
  split_ifs at h with h1 h2 h3 h4 h5 h6
  split at h
  · exact absurd h (by simp)
  · rename_i t ht
    simp only [Except.ok.injEq] at h
    subst h
    simp only [] at hcis
    refine ⟨t, rfl, ?_⟩
    unfold truthMetrics at ht
    simp only [] at ht
    split at ht
    · exact absurd ht (by simp)
    · simp only [Except.ok.injEq] at ht
      subst ht
      have hlen : (tv.take d).length = d := by simp [hd]
      have hget : ∀ k, k < d → (tv.take d).getD k 0 = tv.getD k 0 := by
        intro k hk
        rw [List.getD_eq_getElem _ _ (by rw [hlen]; exact hk), List.getD_eq_getElem _ _ (by omega), List.getElem_take]
      have hent : ∀ c : Fin d → CI, entries c (tv.take d) = (List.finRange d).map fun p => (c p, tv.getD (p : ℕ) 0) := by
        intro c
        unfold entries
        rw [hlen, List.take_of_length_le (l := List.finRange d) (by simp)]
        refine List.map_congr_left fun p _ => ?_
        rw [hget p p.2]
      have hp : ∀ p : Fin d, (List.finRange d)[(p : ℕ)]? = some p := by
        intro p
        rw [List.getElem?_eq_getElem (by simp)]
        simp
      rw [hent]
      refine ⟨by simp, by simp, by simp, fun p => ⟨?_, ?_, ?_⟩⟩
      · simp [hp]
      · simp [hp]
      · simp [hp]

/-! ## Where the full property fails -/

/-- The interval and the transform of two samples with the same weight. -/
theorem two_samples {srt : List ℝ → List ℕ} (hsrt : IsArgsort srt) {a b : ℝ} (hab : a < b) {xs : List ℝ}
    (hxs : xs = [a, b] ∨ xs = [b, a]) :
    (credible srt xs [1 / 2, 1 / 2]).median = a ∧ (credible srt xs [1 / 2, 1 / 2]).lo1 = a ∧
      (credible srt xs [1 / 2, 1 / 2]).hi1 = a + 17 / 25 * (b - a) ∧
      ∀ v, v < a → (credible srt xs [1 / 2, 1 / 2]).cdf v = 1 / 2 := by
  have ho : ordered srt xs [1 / 2, 1 / 2] = [(a, 1 / 2), (b, 1 / 2)] := by
    refine ordered_eq hsrt (by rcases hxs with rfl | rfl <;> rfl) ?_ (by simpa using hab)
    rcases hxs with rfl | rfl
    · exact List.Perm.refl _
    · exact List.Perm.swap _ _ _
  unfold credible
  rw [ho]
  refine ⟨?_, ?_, ?_, ?_⟩
  · simp only [quantile, List.map, cumsum, List.zip_cons_cons, List.zip_nil_right, interp]
    norm_num
  · simp only [quantile, List.map, cumsum, List.zip_cons_cons, List.zip_nil_right, interp]
    norm_num
  · simp only [quantile, List.map, cumsum, List.zip_cons_cons, List.zip_nil_right, interp]
    norm_num
    ring
  · intro v hv
    simp only [cdfAt, List.map, cumsum, List.zip_cons_cons, List.zip_nil_right, interp]
    rw [if_pos (hv.trans hab), if_pos hv.le]
    norm_num

theorem two_metrics (srt : List ℝ → List ℕ) (a b : ℝ) :
    ∃ m, metrics srt none [![a, a], ![b, b]] [1, 1] = .ok m ∧ m.cis 0 = credible srt [a, b] [1 / 2, 1 / 2] := by
  refine ⟨_, metrics_ok (by norm_num) srt rfl (by simp) (by simp) (by norm_num), ?_⟩
  norm_num

/-- The interval called 68 per cent can hold half of the weight only. -/
theorem C148_false {srt : List ℝ → List ℕ} (hsrt : IsArgsort srt) :
    ∃ m : Metrics 2, metrics srt none [![0, 0], ![1, 1]] [1, 1] = .ok m ∧
      mass [0, 1] [1, 1] (fun x => (m.cis 0).lo1 ≤ x ∧ x ≤ (m.cis 0).hi1) = 1 / 2 := by
  obtain ⟨m, hm, hc⟩ := two_metrics srt 0 1
  obtain ⟨-, h1, h2, -⟩ := two_samples hsrt (a := 0) (b := 1) (by norm_num) (.inl rfl)
  refine ⟨m, hm, ?_⟩
  rw [hc, h1, h2]
  unfold mass
  simp only [List.zip_cons_cons, List.zip_nil_right, List.filter_cons]
  norm_num

/-- The median does not change sign with the samples: of the samples 0 and 1 it is 0, and of 0 and -1 it is -1. -/
theorem C148_reflection_false {srt : List ℝ → List ℕ} (hsrt : IsArgsort srt) :
    ∃ m m' : Metrics 2, metrics srt none [![0, 0], ![1, 1]] [1, 1] = .ok m ∧
      metrics srt none [-![0, 0], -![1, 1]] [1, 1] = .ok m' ∧ (m.cis 0).median = 0 ∧ (m'.cis 0).median = -1 := by
  obtain ⟨m, hm, hc⟩ := two_metrics srt 0 1
  obtain ⟨m', hm', hc'⟩ := two_metrics srt 0 (-1)
  refine ⟨m, m', hm, ?_, ?_, ?_⟩
  · rw [← hm']; congr 1; simp
  · rw [hc]; exact (two_samples hsrt (by norm_num) (.inl rfl)).1
  · rw [hc']; exact (two_samples hsrt (by norm_num) (.inr rfl)).1

/-- A value below all the samples does not have the transform zero. -/
theorem C148_pit_false {srt : List ℝ → List ℕ} (hsrt : IsArgsort srt) :
    ∃ m : Metrics 2, metrics srt none [![0, 0], ![1, 1]] [1, 1] = .ok m ∧ (m.cis 0).cdf (-5) = 1 / 2 := by
  obtain ⟨m, hm, hc⟩ := two_metrics srt 0 1
  refine ⟨m, hm, ?_⟩
  rw [hc]
  exact (two_samples hsrt (a := 0) (b := 1) (by norm_num) (.inl rfl)).2.2.2 _ (by norm_num)

theorem argsort_ties {srt : List ℝ → List ℕ} (hsrt : IsArgsort srt) :
    srt [0, 1, 1, 2] = [0, 1, 2, 3] ∨ srt [0, 1, 1, 2] = [0, 2, 1, 3] := by
  obtain ⟨h1, h2⟩ := hsrt [0, 1, 1, 2]
  generalize srt [0, 1, 1, 2] = l at h1 h2
  have h3 : l ∈ ([0, 1, 2, 3] : List ℕ).permutations' := List.mem_permutations'.2 h1
  simp only [List.permutations', List.permutations'Aux, List.flatMap_cons, List.flatMap_nil, List.map_cons, List.map_nil,
    List.append_nil, List.cons_append, List.nil_append, List.mem_cons, List.not_mem_nil, or_false] at h3
  rcases h3 with rfl | rfl | rfl | rfl | rfl | rfl | rfl | rfl | rfl | rfl | rfl | rfl | rfl | rfl | rfl | rfl | rfl |
    rfl | rfl | rfl | rfl | rfl | rfl | rfl <;> first
    | exact .inl rfl
    | exact .inr rfl
    | (exfalso; revert h2; norm_num)

/-- The order of the samples matters: exchanging two samples with the same value changes the median. -/
theorem C148_order_false {srt : List ℝ → List ℕ} (hsrt : IsArgsort srt) :
    ∃ (pts : List (Fin 2 → ℝ)) (w w' : List ℝ) (m m' : Metrics 2), (pts.zip w).Perm (pts.zip w') ∧
      metrics srt none pts w = .ok m ∧ metrics srt none pts w' = .ok m' ∧ (m.cis 0).median ≠ (m'.cis 0).median := by
  refine ⟨[![0, 0], ![1, 1], ![1, 1], ![2, 2]], [8, 3, 5, 4], [8, 5, 3, 4], _, _, ?_,
    metrics_ok (by norm_num) srt rfl (by simp) (by simp) (by norm_num),
    metrics_ok (by norm_num) srt rfl (by simp) (by simp) (by norm_num), ?_⟩
  · exact List.Perm.cons _ (List.Perm.swap _ _ _)
  · show (credible srt [0, 1, 1, 2] _).median ≠ (credible srt [0, 1, 1, 2] _).median
    unfold credible ordered
    rcases argsort_ties hsrt with h | h <;> rw [h]
    · simp only [quantile, List.map, cumsum, List.zip_cons_cons, List.zip_nil_right, interp, List.sum_cons, List.sum_nil,
        List.getD_cons_zero, List.getD_cons_succ]
      norm_num
    · simp only [quantile, List.map, cumsum, List.zip_cons_cons, List.zip_nil_right, interp, List.sum_cons, List.sum_nil,
        List.getD_cons_zero, List.getD_cons_succ]
      norm_num

/-- There is such a function: sort the indices by the values. -/
theorem exists_argsort : ∃ srt, IsArgsort srt := by
  classical
  refine ⟨fun l => (List.range l.length).mergeSort (fun i j => decide (l.getD i 0 ≤ l.getD j 0)), fun l => ⟨?_, ?_⟩⟩
  · exact List.mergeSort_perm _ _
  · rw [List.pairwise_map]
    have := List.pairwise_mergeSort (le := fun i j : ℕ => decide (l.getD i 0 ≤ l.getD j 0))
      (by intro a b c; simpa using le_trans) (by intro a b; simpa using le_total _ _) (List.range l.length)
    simpa using this

/-- Three samples: the 95 per cent interval of the first parameter holds at least 95 per cent less a half. -/
example : ∃ srt m, IsArgsort srt ∧ metrics srt none [![0, 0], ![4, 8], ![6, 1]] [1, 1, 2] = .ok m ∧
    45 / 100 ≤ mass [0, 4, 6] [1, 1, 2] (fun x => (m.cis 0).lo2 ≤ x ∧ x ≤ (m.cis 0).hi2) := by
  obtain ⟨srt, hsrt⟩ := exists_argsort
  obtain ⟨m, hm, -⟩ := C147_partial (d := 2) (by norm_num) srt (pts := [![0, 0], ![4, 8], ![6, 1]]) (w := [1, 1, 2])
    rfl (by simp) (by norm_num)
  refine ⟨srt, m, hsrt, hm, ?_⟩
  have := ((C148_partial hsrt hm 0).2.2.2.1 (1 / 2) (by norm_num)).2
  simp only [List.map, Matrix.cons_val_zero] at this
  linarith

end Verif.Diagnostics
