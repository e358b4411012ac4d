import Verif.Model.Erosion
import Verif.Props.Morphology
import Mathlib.Tactic.FinCases
/-!
# C242: the two erosions of `morph.py`
-/

namespace Verif.Erosion

open Verif.Convolve Verif.Morphology

/-! ## Specification -/

/-- `r` is the erosion of the image `a` by the element `b` with the cell `c` at its centre: a cell of the image is kept if all cells that the reflected
element covers from there are set; cells outside the image are not. -/
def Erodes (a b : Arr (Fin 3) ℚ) (c : Fin 3 → ℤ) (r : Arr (Fin 3) ℚ) : Prop :=
  r.shape = a.shape ∧ Binary r ∧ ∀ x, On r x ↔ x ∈ box a.shape ∧ ∀ j, On b j → On a (x + c - j)

/-- The cell in the middle of the element, the lower one of two. -/
def Middle (b : Arr (Fin 3) ℚ) (c : Fin 3 → ℤ) : Prop := ∀ i, 0 < b.shape i ∧ (2 * c i = b.shape i - 1 ∨ 2 * c i = b.shape i - 2)

/-! ## Lemmas -/

theorem centre_middle {b : Arr (Fin 3) ℚ} {c : Fin 3 → ℤ} (h : Middle b c) : centre b = c := by
  funext i
  obtain ⟨h0, h1⟩ := h i
  simp only [centre]
  omega

theorem binary_padded (a : Arr (Fin 3) ℚ) (R : ℕ) : Binary (padded a R) := by
  intro x _
  simp only [padded]
  split
  · split <;> simp
  · simp

theorem mem_padded (a : Arr (Fin 3) ℚ) (R : ℕ) (x : Fin 3 → ℤ) :
    x ∈ box (padded a R).shape ↔ ∀ i, 0 ≤ x i ∧ x i < a.shape i + 2 * R := by
  rw [mem_box]
  simp only [padded]
  push_cast
  rfl

theorem on_padded {a : Arr (Fin 3) ℚ} (ha : Binary a) (R : ℕ) (x : Fin 3 → ℤ) :
    On (padded a R) x ↔ (∀ i, 0 ≤ x i ∧ x i < a.shape i + 2 * R) ∧ ¬ On a (fun i => x i - R) := by
  unfold On
  rw [mem_padded]
  refine and_congr_right fun _ => ?_
  simp only [padded]
  split
  · rename_i hm
    rcases ha _ hm with h | h <;> simp [h, hm]
  · rename_i hm
    simp [hm]

/-- A cell of the result. -/
theorem on_erode1 {a b : Arr (Fin 3) ℚ} (ha : Binary a) (hb : Binary b) {R : ℕ} (hR : R ≠ 0) (x : Fin 3 → ℤ) :
    On (erode1 a b R) x ↔ x ∈ box a.shape ∧
      ∀ j, On b j → (∀ i, 0 ≤ x i + R + centre b i - j i ∧ x i + R + centre b i - j i < a.shape i + 2 * R) → On a (x + centre b - j) := by
  have hbin := binary_dilation (padded a R) b
  unfold erode1
  rw [on_ofMask]
  have hsh : (fun i => sliceLength R ((dilation (padded a R) b).shape i)) = a.shape := by
    funext i
    simp only [sliceLength, if_neg hR, dilation, ofMask, padded]
    omega
  rw [hsh]
  refine and_congr_right fun hx => ?_
  have hm : (fun i => x i + (R : ℤ)) ∈ box (dilation (padded a R) b).shape := by
    show _ ∈ box (padded a R).shape
    rw [mem_padded]
    intro i
    have := (mem_box _ _).1 hx i
    omega
  have hval : (dilation (padded a R) b).val (fun i => x i + (R : ℤ)) = 0 ↔ ¬ On (dilation (padded a R) b) (fun i => x i + (R : ℤ)) := by
    unfold On
    rcases hbin _ hm with h | h <;> simp [h, hm]
  rw [decide_eq_true_eq, hval, on_dilation (binary_padded a R) hb]
  simp only [on_padded ha, not_and, not_exists, not_not]
  have e : ∀ j : Fin 3 → ℤ, (fun i => ((fun i => x i + (R : ℤ)) + centre b - j) i - (R : ℤ)) = x + centre b - j := by
    intro j
    funext i
    simp only [Pi.add_apply, Pi.sub_apply]
    ring
  simp only [e]
  exact ⟨fun h j hj hp => h hm j hj hp, fun h _ j hj hp => h j hj hp⟩

/-! ## C242 -/

/-- **C242** (partial).  For a radius of at least one cell and an element that is not wider than the radius allows, the first erosion is the erosion, with
nothing set outside the image, like the second.  Missing: the radius zero and wider elements (`C242_false`, `C242_wide`). -/
theorem C242_partial (a b : Arr (Fin 3) ℚ) (ha : Binary a) (hb : Binary b) (c : Fin 3 → ℤ) (hc : Middle b c) (R : ℕ) (hR : 1 ≤ R)
    (hw : ∀ i, b.shape i ≤ 2 * R + 1) : Erodes a b c (erode1 a b R) := by
  have hsh : (erode1 a b R).shape = a.shape := by
    funext i
    simp only [erode1, sliceLength, if_neg (show R ≠ 0 by omega), dilation, ofMask, padded]
    omega
  refine ⟨hsh, binary_ofMask _ _, fun x => ?_⟩
  rw [on_erode1 ha hb (by omega), centre_middle hc]
  refine and_congr_right fun hx => forall_congr' fun j => forall_congr' fun hj => ⟨fun h => h fun i => ?_, fun h _ => h⟩
  have h1 := (mem_box _ _).1 hx i
  have h2 := (mem_box _ _).1 hj.1 i
  have h3 := hc i
  have h4 := hw i
  omega

/-- The second erosion, which `binary_erosion` uses, is the erosion for every element. -/
theorem C242_second (a b : Arr (Fin 3) ℚ) (ha : Binary a) (hb : Binary b) (c : Fin 3 → ℤ) (hc : Middle b c) : Erodes a b c (erosion a b) := by
  refine ⟨rfl, binary_ofMask _ _, fun x => ?_⟩
  rw [on_erosion ha hb, centre_middle hc]

/-- With the radius zero nothing is left, whatever the image: not even the shape. -/
theorem C242_false (a b : Arr (Fin 3) ℚ) (c : Fin 3 → ℤ) (i : Fin 3) (hi : 0 < a.shape i) :
    (∀ i, (erode1 a b 0).shape i = 0) ∧ ¬ Erodes a b c (erode1 a b 0) := by
  have h0 : ∀ i, (erode1 a b 0).shape i = 0 := fun i => by simp [erode1, ofMask, sliceLength]
  refine ⟨h0, fun h => ?_⟩
  have := congrFun h.1 i
  rw [h0] at this
  omega

/-- A cell of a wider element that reaches beyond the padding is taken for set: if it is the only one, the cell is kept although it has to go. -/
theorem C242_wide (a b : Arr (Fin 3) ℚ) (ha : Binary a) (hb : Binary b) (c : Fin 3 → ℤ) (hc : Middle b c) (R : ℕ) (hR : 1 ≤ R)
    (j : Fin 3 → ℤ) (hj : ∀ j', On b j' ↔ j' = j) (x : Fin 3 → ℤ) (hx : x ∈ box a.shape) (i : Fin 3)
    (hout : x i + c i - j i < - R ∨ a.shape i + R ≤ x i + c i - j i) : On (erode1 a b R) x ∧ ¬ Erodes a b c (erode1 a b R) := by
  have h1 : On (erode1 a b R) x := by
    rw [on_erode1 ha hb (by omega), centre_middle hc]
    refine ⟨hx, fun j' hj' hp => ?_⟩
    rw [(hj j').1 hj'] at hp
    have := hp i
    omega
  refine ⟨h1, fun h => ?_⟩
  have h2 := (mem_box _ _).1 (((h.2.2 x).1 h1).2 j ((hj j).2 rfl)).1 i
  simp only [Pi.add_apply, Pi.sub_apply] at h2
  omega

/-- A full image. -/
def full (n : ℕ) : Arr (Fin 3) ℚ := ⟨fun _ => n, fun _ => 1⟩

/-- An element five cells long with its first cell set. -/
def arm : Arr (Fin 3) ℚ := ⟨fun i => if i = 0 then 5 else 1, fun x => if x 0 = 0 then 1 else 0⟩

theorem binary_full (n : ℕ) : Binary (full n) := fun _ _ => .inr rfl

example : Erodes (full 4) (full 3) (fun _ => 1) (erode1 (full 4) (full 3) 1) :=
  C242_partial _ _ (binary_full 4) (binary_full 3) _ (fun _ => ⟨Nat.succ_pos _, .inl rfl⟩) 1 le_rfl fun _ => le_rfl

example : (∀ i, (erode1 (full 4) (full 1) 0).shape i = 0) ∧ ¬ Erodes (full 4) (full 1) 0 (erode1 (full 4) (full 1) 0) :=
  C242_false _ _ _ 0 (by decide)

example : On (erode1 (full 2) arm 1) 1 ∧ ¬ Erodes (full 2) arm (fun i => if i = 0 then 2 else 0) (erode1 (full 2) arm 1) := by
  refine C242_wide _ _ (binary_full 2) (fun x _ => ?_) _ (fun i => ?_) 1 le_rfl 0 (fun j' => ?_) 1 (by rw [mem_box]; decide) 0 (.inr (by decide))
  · simp only [arm]
    split <;> simp
  · fin_cases i <;> decide
  · constructor
    · rintro ⟨h1, h2⟩
      rw [mem_box] at h1
      funext i
      have h := h1 i
      by_cases hi : i = 0
      · subst hi
        by_contra hne
        rw [arm] at h2
        simp [show ¬ j' 0 = 0 from hne] at h2
      · simp only [arm, if_neg hi] at h
        show j' i = 0
        omega
    · rintro rfl
      refine ⟨?_, by simp [arm]⟩
      rw [mem_box]
      intro i
      fin_cases i <;> decide

end Verif.Erosion
