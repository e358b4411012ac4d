import Verif.Props.Metrics
/-!
# Scores of segmentations rank the predictions

C264: one more cell found raises `iou` and `dice_coef`, one more cell found wrongly lowers them, and `1 - iou` is a distance between maps.
-/

namespace Verif.ScoreOrder

open Verif.Metrics

variable {ι : Type} [Fintype ι] [DecidableEq ι]

/-! ## Lemmas -/

theorem iou_eq (A B : Finset ι) (h : A ∪ B ≠ ∅) : iou (ones A) (ones B) = ((A.card : ℝ) + B.card - (A ∪ B).card) / (A ∪ B).card := by
  rw [C180, jaccard, if_neg h]
  have := Finset.card_union_add_card_inter A B
  have h2 : ((A ∪ B).card : ℝ) + (A ∩ B).card = A.card + B.card := by exact_mod_cast this
  congr 1
  linarith

theorem union_pos {A B : Finset ι} (h : A ∪ B ≠ ∅) : (0 : ℝ) < (A ∪ B).card := by
  exact_mod_cast Finset.card_pos.2 (Finset.nonempty_iff_ne_empty.2 h)

theorem iou_range (A B : Finset ι) : 0 ≤ iou (ones A) (ones B) ∧ iou (ones A) (ones B) ≤ 1 := by
  rw [C180, jaccard]
  split
  · exact ⟨zero_le_one, le_rfl⟩
  · refine ⟨by positivity, div_le_one_of_le₀ ?_ (by positivity)⟩
    exact_mod_cast Finset.card_le_card (Finset.inter_subset_left.trans Finset.subset_union_left)

/-! ## C264 -/

/-- **C264**: one more of the true cells in the prediction raises both scores. -/
theorem C264_found (A B : Finset ι) {c : ι} (hA : c ∈ A) (hB : c ∉ B) :
    iou (ones A) (ones B) < iou (ones A) (ones (insert c B)) ∧
    ∀ s, 0 < s → ∃ d d', dice s (fun _ : Unit => ones A) (fun _ => ones B) () = some d ∧
      dice s (fun _ : Unit => ones A) (fun _ => ones (insert c B)) () = some d' ∧ d < d' := by
  have hu : A ∪ insert c B = A ∪ B := by
    ext x
    simp only [Finset.mem_union, Finset.mem_insert]
    constructor
    · rintro (h | rfl | h)
      · exact .inl h
      · exact .inl hA
      · exact .inr h
    · rintro (h | h)
      · exact .inl h
      · exact .inr (.inr h)
  have hc : ((insert c B).card : ℝ) = B.card + 1 := by rw [Finset.card_insert_of_notMem hB]; push_cast; rfl
  have hne : A ∪ B ≠ ∅ := Finset.nonempty_iff_ne_empty.1 ⟨c, Finset.mem_union_left _ hA⟩
  have hpos := union_pos hne
  constructor
  · rw [iou_eq A B hne, iou_eq A _ (by rw [hu]; exact hne), hu, hc, div_lt_div_iff_of_pos_right hpos]
    linarith
  · intro s hs
    refine ⟨_, _, C181_maps hs (fun _ : Unit => A) (fun _ => B) (), C181_maps hs (fun _ : Unit => A) (fun _ => insert c B) (), ?_⟩
    have hi : ((A ∩ insert c B).card : ℝ) = (A ∩ B).card + 1 := by
      rw [Finset.inter_insert_of_mem hA, Finset.card_insert_of_notMem fun h => hB (Finset.mem_inter.1 h).2]
      push_cast
      rfl
    have h1 : ((A ∩ B).card : ℝ) ≤ A.card := by exact_mod_cast Finset.card_le_card Finset.inter_subset_left
    have h2 : ((A ∩ B).card : ℝ) ≤ B.card := by exact_mod_cast Finset.card_le_card Finset.inter_subset_right
    have h3 : (0 : ℝ) ≤ (A ∩ B).card := by positivity
    rw [hi, hc, div_lt_div_iff₀ (by linarith) (by linarith)]
    nlinarith

/-- **C264**: one more cell in the prediction that is not a true one lowers both scores; `iou` stays as it is where it is zero already. -/
theorem C264_wrong (A B : Finset ι) {c : ι} (hA : c ∉ A) (hB : c ∉ B) :
    iou (ones A) (ones (insert c B)) ≤ iou (ones A) (ones B) ∧
    (iou (ones A) (ones B) ≠ 0 → iou (ones A) (ones (insert c B)) < iou (ones A) (ones B)) ∧
    ∀ s, 0 < s → ∃ d d', dice s (fun _ : Unit => ones A) (fun _ => ones B) () = some d ∧
      dice s (fun _ : Unit => ones A) (fun _ => ones (insert c B)) () = some d' ∧ d' < d := by
  have hu : A ∪ insert c B = insert c (A ∪ B) := Finset.union_insert _ _ _
  have hi : A ∩ insert c B = A ∩ B := Finset.inter_insert_of_notMem hA
  have hn : c ∉ A ∪ B := fun h => (Finset.mem_union.1 h).elim hA hB
  have key : iou (ones A) (ones (insert c B)) = ((A ∩ B).card : ℝ) / ((A ∪ B).card + 1) := by
    rw [C180, jaccard, hu, hi, if_neg (Finset.insert_ne_empty _ _), Finset.card_insert_of_notMem hn]
    push_cast
    rfl
  have hstrict : iou (ones A) (ones B) ≠ 0 → iou (ones A) (ones (insert c B)) < iou (ones A) (ones B) := by
    intro h
    rw [key]
    rw [C180, jaccard] at h ⊢
    split at h
    · rename_i he
      have hz : A ∩ B = ∅ := Finset.subset_empty.1 ((Finset.inter_subset_left.trans Finset.subset_union_left).trans he.le)
      rw [hz, if_pos he]
      norm_num
    · rename_i he
      have hpos := union_pos he
      have h1 : (0 : ℝ) < (A ∩ B).card := by
        refine lt_of_le_of_ne (by positivity) fun h0 => h ?_
        rw [← h0, zero_div]
      rw [if_neg he, div_lt_div_iff_of_pos_left h1 (by linarith) hpos]
      linarith
  refine ⟨?_, hstrict, fun s hs => ?_⟩
  · by_cases h : iou (ones A) (ones B) = 0
    · rw [key, h]
      have hne : A ∪ B ≠ ∅ := by
        intro he
        rw [C180, jaccard, if_pos he] at h
        exact one_ne_zero h
      rw [C180, jaccard, if_neg hne, div_eq_zero_iff] at h
      rcases h with h | h
      · rw [h, zero_div]
      · exact absurd h (union_pos hne).ne'
    · exact (hstrict h).le
  · refine ⟨_, _, C181_maps hs (fun _ : Unit => A) (fun _ => B) (), C181_maps hs (fun _ : Unit => A) (fun _ => insert c B) (), ?_⟩
    rw [hi, Finset.card_insert_of_notMem hB]
    push_cast
    have h1 : (0 : ℝ) ≤ A.card := by positivity
    have h2 : (0 : ℝ) ≤ B.card := by positivity
    have h3 : (0 : ℝ) ≤ (A ∩ B).card := by positivity
    exact div_lt_div_of_pos_left (by linarith) (by linarith) (by linarith)

/-- **C264**: maps that differ little from a third one differ little from each other: `1 - iou` satisfies the triangle inequality. -/
theorem C264_distance (A B C : Finset ι) :
    1 - iou (ones A) (ones C) ≤ (1 - iou (ones A) (ones B)) + (1 - iou (ones B) (ones C)) := by
  have hAB := iou_range A B
  have hBC := iou_range B C
  by_cases h1 : A ∪ C = ∅
  · have : iou (ones A) (ones C) = 1 := by rw [C180, jaccard, if_pos h1]
    rw [this]
    linarith
  by_cases h2 : A ∪ B = ∅
  · obtain ⟨rfl, rfl⟩ := Finset.union_eq_empty.1 h2
    linarith
  by_cases h3 : B ∪ C = ∅
  · obtain ⟨rfl, rfl⟩ := Finset.union_eq_empty.1 h3
    linarith
  have p1 := union_pos h1
  have p2 := union_pos h2
  have p3 := union_pos h3
  have sub : ((A ∪ C).card : ℝ) + B.card ≤ (A ∪ B).card + (B ∪ C).card := by
    have e := Finset.card_union_add_card_inter (A ∪ B) (B ∪ C)
    have e1 : (A ∪ C).card ≤ ((A ∪ B) ∪ (B ∪ C)).card := Finset.card_le_card fun x hx => by
      rcases Finset.mem_union.1 hx with h | h
      · exact Finset.mem_union_left _ (Finset.mem_union_left _ h)
      · exact Finset.mem_union_right _ (Finset.mem_union_right _ h)
    have e2 : B.card ≤ ((A ∪ B) ∩ (B ∪ C)).card := Finset.card_le_card fun x hx =>
      Finset.mem_inter.2 ⟨Finset.mem_union_right _ hx, Finset.mem_union_left _ hx⟩
    exact_mod_cast (by omega : (A ∪ C).card + B.card ≤ (A ∪ B).card + (B ∪ C).card)
  have a2 : (A.card : ℝ) ≤ (A ∪ B).card := by exact_mod_cast Finset.card_le_card Finset.subset_union_left
  have b2 : (B.card : ℝ) ≤ (A ∪ B).card := by exact_mod_cast Finset.card_le_card Finset.subset_union_right
  have b3 : (B.card : ℝ) ≤ (B ∪ C).card := by exact_mod_cast Finset.card_le_card Finset.subset_union_left
  have c3 : (C.card : ℝ) ≤ (B ∪ C).card := by exact_mod_cast Finset.card_le_card Finset.subset_union_right
  have hA0 : (0 : ℝ) ≤ A.card := by positivity
  have hC0 : (0 : ℝ) ≤ C.card := by positivity
  rw [iou_eq A C h1, iou_eq A B h2, iou_eq B C h3]
  generalize ((A ∪ C).card : ℝ) = u at *
  generalize ((A ∪ B).card : ℝ) = v at *
  generalize ((B ∪ C).card : ℝ) = w at *
  generalize (A.card : ℝ) = a at *
  generalize (B.card : ℝ) = b at *
  generalize (C.card : ℝ) = c at *
  have q : 0 < v + w - b := by linarith
  have s1 : 1 - (a + c - u) / u ≤ (2 * v - a - b + (2 * w - b - c)) / (v + w - b) := by
    have e1 : 1 - (a + c - u) / u = 2 - (a + c) / u := by field_simp; ring
    have e2 : (2 * v - a - b + (2 * w - b - c)) / (v + w - b) = 2 - (a + c) / (v + w - b) := by field_simp; ring
    rw [e1, e2]
    have : (a + c) / (v + w - b) ≤ (a + c) / u := div_le_div_of_nonneg_left (by linarith) p1 (by linarith)
    linarith
  have s2 : (2 * v - a - b) / (v + w - b) ≤ 1 - (a + b - v) / v := by
    have e1 : 1 - (a + b - v) / v = (2 * v - a - b) / v := by field_simp; ring
    rw [e1]
    exact div_le_div_of_nonneg_left (by linarith) p2 (by linarith)
  have s3 : (2 * w - b - c) / (v + w - b) ≤ 1 - (b + c - w) / w := by
    have e1 : 1 - (b + c - w) / w = (2 * w - b - c) / w := by field_simp; ring
    rw [e1]
    exact div_le_div_of_nonneg_left (by linarith) p3 (by linarith)
  rw [add_div] at s1
  linarith

/-! ## Examples -/

/-- Two of three bubbles' cells found, then the third, and a wrong one. -/
example : iou (ones ({0, 1, 2} : Finset (Fin 5))) (ones {0, 1}) = 2 / 3 ∧ iou (ones ({0, 1, 2} : Finset (Fin 5))) (ones {0, 1, 4}) = 1 / 2 ∧
    (2 : Fin 5) ∈ ({0, 1, 2} : Finset (Fin 5)) ∧ (2 : Fin 5) ∉ ({0, 1} : Finset (Fin 5)) ∧ (4 : Fin 5) ∉ ({0, 1, 2} : Finset (Fin 5)) := by
  refine ⟨?_, ?_, by decide, by decide, by decide⟩
  · rw [C180, jaccard, if_neg (by decide), show (({0, 1, 2} : Finset (Fin 5)) ∩ {0, 1}).card = 2 by decide,
      show (({0, 1, 2} : Finset (Fin 5)) ∪ {0, 1}).card = 3 by decide]
    norm_num
  · rw [C180, jaccard, if_neg (by decide), show (({0, 1, 2} : Finset (Fin 5)) ∩ {0, 1, 4}).card = 2 by decide,
      show (({0, 1, 2} : Finset (Fin 5)) ∪ {0, 1, 4}).card = 4 by decide]
    norm_num

end Verif.ScoreOrder
