import Verif.Model.Topology
import Verif.Props.CubeMap
import Mathlib.Tactic.Linarith
/-!
# Betti numbers and percolation

C105: the Betti numbers.  C106: the percolation cluster.
-/

namespace Verif.Topology
open Verif.CubeMap

/-! ## Specification -/

/-- The cell lies in the box. -/
def Inside (s : Shape) (p : Idx) : Prop := p.1 < s.nx ∧ p.2.1 < s.ny ∧ p.2.2 < s.nz

/-- The cells have a common face: they differ by one along one axis. -/
def Face (p q : Idx) : Prop :=
  (p.2.1 = q.2.1 ∧ p.2.2 = q.2.2 ∧ (p.1 + 1 = q.1 ∨ q.1 + 1 = p.1)) ∨
  (p.1 = q.1 ∧ p.2.2 = q.2.2 ∧ (p.2.1 + 1 = q.2.1 ∨ q.2.1 + 1 = p.2.1)) ∨
  (p.1 = q.1 ∧ p.2.1 = q.2.1 ∧ (p.2.2 + 1 = q.2.2 ∨ q.2.2 + 1 = p.2.2))

instance (p q : Idx) : Decidable (Face p q) := by unfold Face; infer_instance

/-- A path of cells with common faces within a set of cells of the box. -/
def Joined (s : Shape) (A : Idx → Prop) : Idx → Idx → Prop :=
  Relation.ReflTransGen fun p q => Face p q ∧ Inside s q ∧ A q

/-! ## Components -/

theorem near_one (p q : Idx) : near 1 p q ↔ Face p q := by
  obtain ⟨a, b, c⟩ := p
  obtain ⟨a', b', c'⟩ := q
  simp only [near, Face, close, axesApart, ne_eq, Prod.mk.injEq]
  constructor
  · rintro ⟨h1, h2, h3, h4, h5⟩
    split_ifs at h5 <;> omega
  · intro h
    refine ⟨by omega, by omega, by omega, by omega, ?_⟩
    split_ifs <;> omega

variable {s : Shape} {A : Idx → Bool}

theorem joined_iff (p q : Cells s A) :
    (graph s A 1).Reachable p q ↔ Joined s (fun r => A r = true) p.1 q.1 := by
  rw [SimpleGraph.reachable_iff_reflTransGen]
  constructor
  · intro h
    induction h with
    | refl => exact .refl
    | tail _ hbc ih =>
      rename_i b c _
      exact ih.tail ⟨(near_one _ _).mp hbc, ⟨c.2.1, c.2.2.1, c.2.2.2.1⟩, c.2.2.2.2⟩
  · obtain ⟨q, hq⟩ := q
    intro h
    change Joined s (fun r => A r = true) p.1 q at h
    induction h with
    | refl => exact .refl
    | tail hab hbc ih =>
      rename_i b c
      have hb : b.1 < s.nx ∧ b.2.1 < s.ny ∧ b.2.2 < s.nz ∧ A b = true := by
        rcases Relation.ReflTransGen.cases_tail hab with e | ⟨x, _, hx⟩
        · rw [e]; exact p.2
        · exact ⟨hx.2.1.1, hx.2.1.2.1, hx.2.1.2.2, hx.2.2⟩
      exact (ih hb).tail ((near_one _ _).mpr hbc.1)

instance : Finite (Cells s A) := by
  refine Finite.of_injective (fun p : Cells s A => ((⟨p.1.1, p.2.1⟩, ⟨p.1.2.1, p.2.2.1⟩, ⟨p.1.2.2, p.2.2.2.1⟩) :
    Fin s.nx × Fin s.ny × Fin s.nz)) ?_
  intro p q h
  simp only [Prod.mk.injEq, Fin.mk.injEq] at h
  exact Subtype.ext (Prod.ext h.1 (Prod.ext h.2.1 h.2.2))

instance (c : ℕ) : Finite (graph s A c).ConnectedComponent :=
  Finite.of_surjective (graph s A c).connectedComponentMk Quot.exists_rep

theorem labelNum_zero (c : ℕ) : labelNum s A c = 0 ↔ ∀ p, Inside s p → A p = false := by
  unfold labelNum
  rw [Nat.card_eq_zero, or_iff_left (not_infinite_iff_finite.mpr inferInstance)]
  constructor
  · intro h p hp
    by_contra hA
    exact h.false ((graph s A c).connectedComponentMk ⟨p, hp.1, hp.2.1, hp.2.2, by simpa using hA⟩)
  · intro h
    refine ⟨fun x => ?_⟩
    obtain ⟨p, rfl⟩ := Quot.exists_rep x
    have := h p.1 ⟨p.2.1, p.2.2.1, p.2.2.2.1⟩
    rw [p.2.2.2.2] at this
    cases this

theorem labelNum_one (c : ℕ) : labelNum s A c = 1 ↔
    (∃ p, Inside s p ∧ A p = true) ∧ ∀ p q : Cells s A, (graph s A c).Reachable p q := by
  unfold labelNum
  rw [Nat.card_eq_one_iff_unique]
  constructor
  · rintro ⟨hs, ⟨x⟩⟩
    obtain ⟨p, rfl⟩ := Quot.exists_rep x
    exact ⟨⟨p.1, ⟨p.2.1, p.2.2.1, p.2.2.2.1⟩, p.2.2.2.2⟩, fun p q => SimpleGraph.ConnectedComponent.eq.mp (hs.elim _ _)⟩
  · rintro ⟨⟨p, hp, hA⟩, h⟩
    exact ⟨SimpleGraph.Preconnected.subsingleton_connectedComponent h,
      ⟨(graph s A c).connectedComponentMk ⟨p, hp.1, hp.2.1, hp.2.2, hA⟩⟩⟩

/-- Cells without neighbours are components of their own. -/
theorem labelNum_isolated (c : ℕ) (h : ∀ p q : Cells s A, ¬ near c p.1 q.1) : labelNum s A c = Nat.card (Cells s A) := by
  unfold labelNum
  symm
  refine Nat.card_eq_of_bijective (graph s A c).connectedComponentMk ⟨fun p q e => ?_, Quot.exists_rep⟩
  have hr := SimpleGraph.ConnectedComponent.eq.mp e
  rw [SimpleGraph.reachable_iff_reflTransGen] at hr
  rcases Relation.ReflTransGen.cases_head hr with e | ⟨x, hx, _⟩
  · exact e
  · exact absurd hx (h p x)

/-- Sets of cells that are nowhere neighbours: the components add. -/
theorem labelNum_add (c : ℕ) {A B U : Idx → Bool} (hU : ∀ p, Inside s p → (U p = true ↔ A p = true ∨ B p = true))
    (hsep : ∀ p q, Inside s p → Inside s q → A p = true → B q = true → p ≠ q ∧ ¬ near c p q) :
    labelNum s U c = labelNum s A c + labelNum s B c := by
  unfold labelNum
  rw [← Nat.card_sum]
  symm
  have inA : ∀ p : Cells s A, U p.1 = true := fun p => (hU p.1 ⟨p.2.1, p.2.2.1, p.2.2.2.1⟩).mpr (.inl p.2.2.2.2)
  have inB : ∀ p : Cells s B, U p.1 = true := fun p => (hU p.1 ⟨p.2.1, p.2.2.1, p.2.2.2.1⟩).mpr (.inr p.2.2.2.2)
  let fA : graph s A c →g graph s U c := ⟨fun p => ⟨p.1, p.2.1, p.2.2.1, p.2.2.2.1, inA p⟩, fun h => h⟩
  let fB : graph s B c →g graph s U c := ⟨fun p => ⟨p.1, p.2.1, p.2.2.1, p.2.2.2.1, inB p⟩, fun h => h⟩
  have ins : ∀ {A : Idx → Bool} (p : Cells s A), Inside s p.1 := fun p => ⟨p.2.1, p.2.2.1, p.2.2.2.1⟩
  have symm : ∀ p q : Cells s U, near c p.1 q.1 → near c q.1 p.1 := fun p q h => (graph s U c).symm.symm p q h
  have stayA : ∀ (p : Cells s A) (q : Cells s U), (graph s U c).Reachable (fA p) q →
      ∃ q' : Cells s A, fA q' = q ∧ (graph s A c).Reachable p q' := by
    intro p q h
    rw [SimpleGraph.reachable_iff_reflTransGen] at h
    induction h with
    | refl => exact ⟨p, rfl, .refl _⟩
    | tail _ hbd ih =>
      rename_i b d _
      obtain ⟨q', rfl, hq⟩ := ih
      have hd : A d.1 = true := by
        rcases (hU d.1 (ins d)).mp d.2.2.2.2 with h | h
        · exact h
        · exact absurd hbd (hsep _ _ (ins q') (ins d) q'.2.2.2.2 h).2
      exact ⟨⟨d.1, d.2.1, d.2.2.1, d.2.2.2.1, hd⟩, rfl, hq.trans (SimpleGraph.Adj.reachable hbd)⟩
  have stayB : ∀ (p : Cells s B) (q : Cells s U), (graph s U c).Reachable (fB p) q →
      ∃ q' : Cells s B, fB q' = q ∧ (graph s B c).Reachable p q' := by
    intro p q h
    rw [SimpleGraph.reachable_iff_reflTransGen] at h
    induction h with
    | refl => exact ⟨p, rfl, .refl _⟩
    | tail _ hbd ih =>
      rename_i b d _
      obtain ⟨q', rfl, hq⟩ := ih
      have hd : B d.1 = true := by
        rcases (hU d.1 (ins d)).mp d.2.2.2.2 with h | h
        · exact absurd (symm (fB q') d hbd) (hsep _ _ (ins d) (ins q') h q'.2.2.2.2).2
        · exact h
      exact ⟨⟨d.1, d.2.1, d.2.2.1, d.2.2.2.1, hd⟩, rfl, hq.trans (SimpleGraph.Adj.reachable hbd)⟩
  refine Nat.card_eq_of_bijective (Sum.elim (SimpleGraph.ConnectedComponent.map fA) (SimpleGraph.ConnectedComponent.map fB))
    ⟨?_, ?_⟩
  · rintro (x | x) (y | y) e <;> obtain ⟨p, rfl⟩ := Quot.exists_rep x <;> obtain ⟨q, rfl⟩ := Quot.exists_rep y
    · obtain ⟨q', e', hr⟩ := stayA p (fA q) (SimpleGraph.ConnectedComponent.eq.mp e)
      have : q' = q := Subtype.ext (congrArg (fun z : Cells s U => z.1) e')
      rw [this] at hr
      exact congrArg Sum.inl (SimpleGraph.ConnectedComponent.eq.mpr hr)
    · obtain ⟨q', e', hr⟩ := stayA p (fB q) (SimpleGraph.ConnectedComponent.eq.mp e)
      have : q'.1 = q.1 := congrArg (fun z : Cells s U => z.1) e'
      exact absurd this (hsep _ _ (ins q') (ins q) q'.2.2.2.2 q.2.2.2.2).1
    · obtain ⟨q', e', hr⟩ := stayA q (fB p) (SimpleGraph.ConnectedComponent.eq.mp e).symm
      have : q'.1 = p.1 := congrArg (fun z : Cells s U => z.1) e'
      exact absurd this (hsep _ _ (ins q') (ins p) q'.2.2.2.2 p.2.2.2.2).1
    · obtain ⟨q', e', hr⟩ := stayB p (fB q) (SimpleGraph.ConnectedComponent.eq.mp e)
      have : q' = q := Subtype.ext (congrArg (fun z : Cells s U => z.1) e')
      rw [this] at hr
      exact congrArg Sum.inr (SimpleGraph.ConnectedComponent.eq.mpr hr)
  · intro x
    obtain ⟨p, rfl⟩ := Quot.exists_rep x
    rcases (hU p.1 (ins p)).mp p.2.2.2.2 with h | h
    · exact ⟨.inl ((graph s A c).connectedComponentMk ⟨p.1, p.2.1, p.2.2.1, p.2.2.2.1, h⟩), rfl⟩
    · exact ⟨.inr ((graph s B c).connectedComponentMk ⟨p.1, p.2.1, p.2.2.1, p.2.2.2.1, h⟩), rfl⟩

/-- Cells from which one can descend to a common cell are connected. -/
theorem reachable_of_descent (root : Cells s A)
    (h : ∀ p : Cells s A, p ≠ root → ∃ q : Cells s A, Face p.1 q.1 ∧ q.1.1 + q.1.2.1 + q.1.2.2 < p.1.1 + p.1.2.1 + p.1.2.2)
    (p q : Cells s A) : (graph s A 1).Reachable p q := by
  have key : ∀ n, ∀ p : Cells s A, p.1.1 + p.1.2.1 + p.1.2.2 = n → (graph s A 1).Reachable p root := by
    intro n
    induction n using Nat.strong_induction_on with
    | _ n ih =>
      intro p hp
      by_cases e : p = root
      · rw [e]
      · obtain ⟨q, hf, hlt⟩ := h p e
        have hadj : (graph s A 1).Adj p q := (near_one _ _).mpr hf
        exact hadj.reachable.trans (ih _ (by omega) q rfl)
  exact (key _ p rfl).trans (key _ q rfl).symm

theorem face_x {x y z : ℕ} (h : x ≠ 0) : Face (x, y, z) (x - 1, y, z) :=
  .inl ⟨rfl, rfl, .inr (by dsimp only; omega)⟩

theorem face_y {x y z : ℕ} (h : y ≠ 0) : Face (x, y, z) (x, y - 1, z) :=
  .inr (.inl ⟨rfl, rfl, .inr (by dsimp only; omega)⟩)

theorem face_z {x y z : ℕ} (h : z ≠ 0) : Face (x, y, z) (x, y, z - 1) :=
  .inr (.inr ⟨rfl, rfl, .inr (by dsimp only; omega)⟩)

/-- The cells but one are connected. -/
theorem reachable_but_one {p : Idx} (hx : 0 < p.1) (hy : 0 < p.2.1) (hA : ∀ q, Inside s q → (A q = true ↔ q ≠ p))
    (a b : Cells s A) : (graph s A 1).Reachable a b := by
  have h0 : Inside s (0, 0, 0) := ⟨Nat.lt_of_le_of_lt (Nat.zero_le _) a.2.1, Nat.lt_of_le_of_lt (Nat.zero_le _) a.2.2.1,
    Nat.lt_of_le_of_lt (Nat.zero_le _) a.2.2.2.1⟩
  have ne : ∀ q : Idx, q.1 ≠ p.1 ∨ q.2.1 ≠ p.2.1 ∨ q.2.2 ≠ p.2.2 → q ≠ p := by
    rintro q h rfl
    simp at h
  have z0 : A (0, 0, 0) = true := (hA _ h0).mpr (ne _ (by simp only []; omega))
  refine reachable_of_descent ⟨(0, 0, 0), h0.1, h0.2.1, h0.2.2, z0⟩ ?_ a b
  rintro ⟨⟨x, y, z⟩, h1, h2, h3, h4⟩ hne
  have h4 := (hA (x, y, z) ⟨h1, h2, h3⟩).mp h4
  have hne : ¬ (x = 0 ∧ y = 0 ∧ z = 0) := by
    rintro ⟨rfl, rfl, rfl⟩
    exact hne rfl
  simp only [] at h1 h2 h3
  have mk : ∀ q : Idx, Inside s q → q ≠ p → Face (x, y, z) q → q.1 + q.2.1 + q.2.2 < x + y + z →
      ∃ q : Cells s A, Face (x, y, z) q.1 ∧ q.1.1 + q.1.2.1 + q.1.2.2 < x + y + z :=
    fun q hq hqp hf hlt => ⟨⟨q, hq.1, hq.2.1, hq.2.2, (hA q hq).mpr hqp⟩, hf, hlt⟩
  by_cases hx0 : x = 0
  · by_cases hy0 : y = 0
    · refine mk (x, y, z - 1) ⟨h1, h2, by simp only []; omega⟩ (ne _ (by simp only []; omega)) (face_z (by omega)) (by simp only []; omega)
    · refine mk (x, y - 1, z) ⟨h1, by simp only []; omega, h3⟩ (ne _ (by simp only []; omega)) (face_y (by omega)) (by simp only []; omega)
  · by_cases hp : x - 1 = p.1 ∧ y = p.2.1 ∧ z = p.2.2
    · refine mk (x, y - 1, z) ⟨h1, by simp only []; omega, h3⟩ (ne _ (by simp only []; omega)) (face_y (by omega)) (by simp only []; omega)
    · refine mk (x - 1, y, z) ⟨by simp only []; omega, h2, h3⟩ (ne _ (by simp only []; omega)) (face_x (by omega)) (by simp only []; omega)

/-- All cells are connected. -/
theorem reachable_all (hA : ∀ q, Inside s q → A q = true) (a b : Cells s A) : (graph s A 1).Reachable a b := by
  have h0 : Inside s (0, 0, 0) := ⟨Nat.lt_of_le_of_lt (Nat.zero_le _) a.2.1, Nat.lt_of_le_of_lt (Nat.zero_le _) a.2.2.1,
    Nat.lt_of_le_of_lt (Nat.zero_le _) a.2.2.2.1⟩
  refine reachable_of_descent ⟨(0, 0, 0), h0.1, h0.2.1, h0.2.2, hA _ h0⟩ ?_ a b
  rintro ⟨⟨x, y, z⟩, h1, h2, h3, h4⟩ hne
  have hne : ¬ (x = 0 ∧ y = 0 ∧ z = 0) := by
    rintro ⟨rfl, rfl, rfl⟩
    exact hne rfl
  simp only [] at h1 h2 h3
  have mk : ∀ q : Idx, Inside s q → Face (x, y, z) q → q.1 + q.2.1 + q.2.2 < x + y + z →
      ∃ q : Cells s A, Face (x, y, z) q.1 ∧ q.1.1 + q.1.2.1 + q.1.2.2 < x + y + z :=
    fun q hq hf hlt => ⟨⟨q, hq.1, hq.2.1, hq.2.2, hA q hq⟩, hf, hlt⟩
  by_cases hx0 : x = 0
  · by_cases hy0 : y = 0
    · refine mk (x, y, z - 1) ⟨h1, h2, by simp only []; omega⟩ (face_z (by omega)) (by simp only []; omega)
    · refine mk (x, y - 1, z) ⟨h1, by simp only []; omega, h3⟩ (face_y (by omega)) (by simp only []; omega)
  · refine mk (x - 1, y, z) ⟨by simp only []; omega, h2, h3⟩ (face_x (by omega)) (by simp only []; omega)

/-! ## C105 -/

section
variable {α : Type} [LT α] [DecidableRel (α := α) (· < ·)]

theorem connectivityOf_six {neighbors : ℕ} (hn : neighbors = 6 ∨ neighbors = 4) : connectivityOf neighbors = 1 := by
  unfold connectivityOf
  rw [if_pos hn]

/-- **C105 (part): Betti 0.**  `betti0` is zero if no cell exceeds the threshold, one if such cells are all joined by
paths, and for structures without common faces the sum of their values. -/
theorem C105_betti0_partial (s : Shape) (data : Idx → α) (thres : α) (neighbors : ℕ) (hn : neighbors = 6 ∨ neighbors = 4) :
    (betti0 s data thres neighbors = 0 ↔ ∀ p, Inside s p → ¬ thres < data p) ∧
    (betti0 s data thres neighbors = 1 ↔ (∃ p, Inside s p ∧ thres < data p) ∧
      ∀ p q, Inside s p → Inside s q → thres < data p → thres < data q → Joined s (fun r => thres < data r) p q) ∧
    ∀ dA dB : Idx → α, (∀ p, Inside s p → (thres < data p ↔ thres < dA p ∨ thres < dB p)) →
      (∀ p q, Inside s p → Inside s q → thres < dA p → thres < dB q → p ≠ q ∧ ¬ Face p q) →
      betti0 s data thres neighbors = betti0 s dA thres neighbors + betti0 s dB thres neighbors := by
  unfold betti0
  rw [connectivityOf_six hn]
  refine ⟨?_, ?_, fun dA dB hU hsep => ?_⟩
  · rw [labelNum_zero]
    exact forall₂_congr fun p _ => by simp
  · rw [labelNum_one]
    refine and_congr (by simp) ⟨fun h p q hp hq hA hB => ?_, fun h p q => ?_⟩
    · have := (joined_iff _ _).mp (h ⟨p, hp.1, hp.2.1, hp.2.2, by simpa using hA⟩ ⟨q, hq.1, hq.2.1, hq.2.2, by simpa using hB⟩)
      simpa using this
    · rw [joined_iff]
      have := h p.1 q.1 ⟨p.2.1, p.2.2.1, p.2.2.2.1⟩ ⟨q.2.1, q.2.2.1, q.2.2.2.1⟩ (by simpa using p.2.2.2.2)
        (by simpa using q.2.2.2.2)
      simpa using this
  · refine labelNum_add 1 (fun p hp => by simpa using hU p hp) fun p q hp hq hA hB => ?_
    rw [near_one]
    exact hsep p q hp hq (by simpa using hA) (by simpa using hB)

example : (∀ p : Idx, Inside ⟨4, 4, 4⟩ p → ((0 : ℤ) < (if p = (0, 0, 0) ∨ p = (2, 2, 2) then 1 else 0) ↔
      (0 : ℤ) < (if p = (0, 0, 0) then 1 else 0) ∨ (0 : ℤ) < (if p = (2, 2, 2) then 1 else 0))) ∧
    ∀ p q : Idx, Inside ⟨4, 4, 4⟩ p → Inside ⟨4, 4, 4⟩ q → (0 : ℤ) < (if p = (0, 0, 0) then 1 else 0) →
      (0 : ℤ) < (if q = (2, 2, 2) then 1 else 0) → p ≠ q ∧ ¬ Face p q := by
  refine ⟨fun p _ => ?_, fun p q _ _ h1 h2 => ?_⟩
  · by_cases h1 : p = (0, 0, 0) <;> by_cases h2 : p = (2, 2, 2) <;> simp [h1, h2]
  · split at h1
    · split at h2
      · subst_vars
        decide
      · simp at h2
    · simp at h1

/-- **C105 (part): Betti 2** counts the regions of the cells that do not exceed the threshold: it is the Betti 0 of
any data that exceed the threshold in just those cells. -/
theorem C105_betti2_partial (s : Shape) (data other : Idx → α) (thres : α) (neighbors : ℕ)
    (h : ∀ p, Inside s p → (thres < other p ↔ ¬ thres < data p)) :
    betti2 s data thres neighbors = betti0 s other thres neighbors := by
  unfold betti2 betti0
  generalize connectivityOf neighbors = c
  have hE : labelNum s (fun _ => false) c = 0 := (labelNum_zero c).mpr fun _ _ => rfl
  have := labelNum_add (s := s) c (A := fun p => decide (thres < other p)) (B := fun _ => false)
    (U := fun p => !decide (thres < data p)) (fun p hp => by simp [h p hp]) (fun p q _ _ _ hq => by cases hq)
  rw [this, hE, Nat.add_zero]

example : ∀ p : Idx, Inside ⟨4, 4, 4⟩ p → ((0 : ℤ) < 1 - (if p.1 = 2 then 1 else 0) ↔
    ¬ (0 : ℤ) < if p.1 = 2 then 1 else 0) := by
  intro p _
  split <;> simp

/-- The Euler characteristic of a single cell. -/
theorem euler_single (s : Shape) (data : Idx → α) (thres : α) (p : Idx) (hp : Inside s p) (hx : 1 < s.nx) (hy : 1 < s.ny)
    (hz : 1 < s.nz) (h : ∀ q, Inside s q → (thres < data q ↔ q = p)) : euler s data thres = 1 := by
  rw [euler_eq_chi]
  have hn : ∀ {n a : ℕ}, a < n → 1 < n → (a + 1) % n ≠ a := by
    intro n a h1 h2
    rcases Nat.lt_or_ge (a + 1) n with h | h
    · rw [Nat.mod_eq_of_lt h]; omega
    · rw [show a + 1 = n by omega, Nat.mod_self]; omega
  have inside : ∀ q ∈ grid s, Inside s q := by
    intro q hq
    simp only [grid, Finset.mem_product, Finset.mem_range] at hq
    exact hq
  have mX : ∀ q, Inside s q → Inside s (nextX s q) := fun q hq => ⟨Nat.mod_lt _ (by omega), hq.2.1, hq.2.2⟩
  have mY : ∀ q, Inside s q → Inside s (nextY s q) := fun q hq => ⟨hq.1, Nat.mod_lt _ (by omega), hq.2.2⟩
  have mZ : ∀ q, Inside s q → Inside s (nextZ s q) := fun q hq => ⟨hq.1, hq.2.1, Nat.mod_lt _ (by omega)⟩
  have zero : ∀ (f : Idx → Idx) (l : List (Idx → Idx)), f ∈ l → id ∈ l → (∀ q, Inside s q → Inside s (f q)) →
      (∀ q, Inside s q → f q ≠ q) → count s (fun p => decide (thres < data p)) l = 0 := by
    intro f l hf hid hin hne
    unfold count
    rw [Int.natCast_eq_zero, Finset.card_eq_zero, Finset.filter_eq_empty_iff]
    intro q hq hall
    have hq := inside q hq
    have e1 := (h q hq).mp (by simpa using hall id hid)
    have e2 := (h _ (hin q hq)).mp (by simpa using hall f hf)
    exact hne q hq (e2.trans e1.symm)
  have nX : ∀ q, Inside s q → nextX s q ≠ q := fun q hq e => hn hq.1 hx (congrArg Prod.fst e)
  have nY : ∀ q, Inside s q → nextY s q ≠ q := fun q hq e => hn hq.2.1 hy (congrArg (fun r => r.2.1) e)
  have nZ : ∀ q, Inside s q → nextZ s q ≠ q := fun q hq e => hn hq.2.2 hz (congrArg (fun r => r.2.2) e)
  have one : count s (fun p => decide (thres < data p)) [id] = 1 := by
    unfold count
    rw [show (grid s).filter (fun q => ∀ f ∈ [id], decide (thres < data (f q)) = true) = {p} from ?_]
    · simp
    · ext q
      rw [Finset.mem_filter, Finset.mem_singleton]
      constructor
      · rintro ⟨hq, hall⟩
        exact (h q (inside q hq)).mp (by simpa using hall)
      · rintro rfl
        refine ⟨?_, by simpa using (h q hp).mpr rfl⟩
        simp only [grid, Finset.mem_product, Finset.mem_range]
        exact hp
  unfold chi numCells numPairs numSquares numBlocks
  rw [one, zero (nextX s) [id, nextX s] (by simp) (by simp) mX nX, zero (nextY s) [id, nextY s] (by simp) (by simp) mY nY,
    zero (nextZ s) [id, nextZ s] (by simp) (by simp) mZ nZ, zero (nextX s) _ (by simp) (by simp) mX nX,
    zero (nextY s) _ (by simp) (by simp) mY nY, zero (nextX s) _ (by simp) (by simp) mX nX,
    zero (nextX s) _ (by simp) (by simp) mX nX]
  norm_num

/-- **C105 is false** of Betti 1 and 2: a single cell, without tunnels and cavities, has both equal to one, as the
surroundings count as a cavity. -/
theorem C105_false (s : Shape) (data : Idx → α) (thres : α) (p : Idx) (hp : Inside s p) (hx : 0 < p.1) (hy : 0 < p.2.1)
    (hz : 1 < s.nz) (h : ∀ q, Inside s q → (thres < data q ↔ q = p)) :
    betti0 s data thres = 1 ∧ betti1 s data thres = 1 ∧ betti2 s data thres = 1 := by
  have b0 : betti0 s data thres = 1 := by
    rw [(C105_betti0_partial s data thres 6 (.inl rfl)).2.1]
    refine ⟨⟨p, hp, (h p hp).mpr rfl⟩, fun a b ha hb h1 h2 => ?_⟩
    rw [(h a ha).mp h1, (h b hb).mp h2]
    exact .refl
  have b2 : betti2 s data thres = 1 := by
    unfold betti2
    rw [connectivityOf_six (.inl rfl), labelNum_one]
    refine ⟨⟨(0, 0, 0), ⟨by have := hp.1; simp only []; omega, by have := hp.2.1; simp only []; omega,
      by simp only []; omega⟩, ?_⟩, ?_⟩
    · have : ¬ thres < data (0, 0, 0) := fun e => by
        have := (h (0, 0, 0) ⟨by have := hp.1; simp only []; omega, by have := hp.2.1; simp only []; omega,
          by simp only []; omega⟩).mp e
        rw [← this] at hx
        exact absurd hx (by simp)
      simpa using this
    · exact reachable_but_one hx hy fun q hq => by simp [h q hq]
  refine ⟨b0, ?_, b2⟩
  unfold betti1
  rw [b0, b2, euler_single s data thres p hp (by have := hp.1; omega) (by have := hp.2.1; omega) hz h]
  norm_num

example : Inside ⟨3, 3, 3⟩ (1, 1, 1) ∧ ∀ q, Inside ⟨3, 3, 3⟩ q →
    ((0 : ℤ) < (fun q : Idx => if q = (1, 1, 1) then 1 else 0) q ↔ q = (1, 1, 1)) := by
  refine ⟨by unfold Inside; decide, fun q _ => ?_⟩
  by_cases h : q = (1, 1, 1) <;> simp [h]

/-- **C105 is false** of Betti 2 whenever a cell does not exceed the threshold: it counts the surroundings. -/
theorem C105_false_outside (s : Shape) (data : Idx → α) (thres : α) (neighbors : ℕ) (p : Idx) (hp : Inside s p)
    (h : ¬ thres < data p) : 0 < betti2 s data thres neighbors := by
  refine Nat.pos_of_ne_zero fun e => ?_
  have := (labelNum_zero _).mp e p hp
  simp [h] at this

example : Inside ⟨2, 2, 2⟩ (1, 0, 1) ∧ ¬ (0 : ℤ) < (fun _ : Idx => 0) (1, 0, 1) := ⟨by unfold Inside; decide, by decide⟩

/-- **C105 is false** of Betti 1 of a box without any structure and of a full box: one tunnel each, as the components
are those of an open box and the Euler characteristic is that of a periodic one. -/
theorem C105_false_trivial (s : Shape) (data : Idx → α) (thres : α) (hs : Inside s (0, 0, 0)) :
    ((∀ p, Inside s p → ¬ thres < data p) →
      betti0 s data thres = 0 ∧ betti1 s data thres = 1 ∧ betti2 s data thres = 1) ∧
    ((∀ p, Inside s p → thres < data p) →
      betti0 s data thres = 1 ∧ betti1 s data thres = 1 ∧ betti2 s data thres = 0) := by
  have inside : ∀ q ∈ grid s, Inside s q := by
    intro q hq
    simp only [grid, Finset.mem_product, Finset.mem_range] at hq
    exact hq
  constructor
  · intro h
    have b0 : betti0 s data thres = 0 := (C105_betti0_partial s data thres 6 (.inl rfl)).1.mpr h
    have b2 : betti2 s data thres = 1 := by
      unfold betti2
      rw [connectivityOf_six (.inl rfl), labelNum_one]
      exact ⟨⟨(0, 0, 0), hs, by simpa using h _ hs⟩, reachable_all fun q hq => by simpa using h q hq⟩
    refine ⟨b0, ?_, b2⟩
    unfold betti1
    rw [b0, b2, euler_trivial s data thres 6 (.inr fun p hp => h p (inside p hp))]
    norm_num
  · intro h
    have b0 : betti0 s data thres = 1 := by
      unfold betti0
      rw [connectivityOf_six (.inl rfl), labelNum_one]
      exact ⟨⟨(0, 0, 0), hs, by simpa using h _ hs⟩, reachable_all fun q hq => by simpa using h q hq⟩
    have b2 : betti2 s data thres = 0 := by
      unfold betti2
      rw [labelNum_zero]
      exact fun p hp => by simpa using h p hp
    refine ⟨b0, ?_, b2⟩
    unfold betti1
    rw [b0, b2, euler_trivial s data thres 6 (.inl fun p hp => h p (inside p hp))]
    norm_num

example : Inside ⟨2, 3, 2⟩ (0, 0, 0) ∧ (∀ p : Idx, Inside ⟨2, 3, 2⟩ p → ¬ (0 : ℤ) < (fun _ : Idx => 0) p) ∧
    ∀ p : Idx, Inside ⟨2, 3, 2⟩ p → (0 : ℤ) < (fun _ : Idx => 1) p :=
  ⟨by unfold Inside; decide, fun _ _ => by simp, fun _ _ => by simp⟩

end

/-- Two cells. -/
def pair (a b : Idx) (p : Idx) : ℤ := if p = a ∨ p = b then 1 else 0

theorem card_pair {s : Shape} {a b : Idx} (ha : Inside s a) (hb : Inside s b) (hab : a ≠ b) :
    Nat.card (Cells s fun p => decide (0 < pair a b p)) = 2 := by
  have mem : ∀ p, decide (0 < pair a b p) = true ↔ p = a ∨ p = b := by
    intro p
    unfold pair
    split <;> simp_all
  let f : Bool → Cells s fun p => decide (0 < pair a b p) := fun c =>
    if c then ⟨a, ha.1, ha.2.1, ha.2.2, (mem a).mpr (.inl rfl)⟩ else ⟨b, hb.1, hb.2.1, hb.2.2, (mem b).mpr (.inr rfl)⟩
  rw [← Nat.card_eq_of_bijective f ⟨?_, ?_⟩]
  · simp
  · intro c d e
    have := congrArg (fun z : Cells s _ => z.1) e
    cases c <;> cases d <;> simp [f] at this ⊢
    · exact hab this.symm
    · exact hab this
  · rintro ⟨p, h1, h2, h3, h4⟩
    rcases (mem p).mp h4 with rfl | rfl
    · exact ⟨true, rfl⟩
    · exact ⟨false, rfl⟩

/-- **C105 is false** for 26 neighbours: two cells with a common corner are two structures. -/
theorem C105_false_corner (s : Shape) (hs : Inside s (1, 1, 1)) : betti0 s (pair (0, 0, 0) (1, 1, 1)) 0 26 = 2 := by
  unfold betti0
  rw [labelNum_isolated, card_pair ⟨by have := hs.1; simp only [] at *; omega, by have := hs.2.1; simp only [] at *; omega,
    by have := hs.2.2; simp only [] at *; omega⟩ hs (by decide)]
  rintro ⟨p, h1, h2, h3, h4⟩ ⟨q, h5, h6, h7, h8⟩
  have mem : ∀ p, decide (0 < pair (0, 0, 0) (1, 1, 1) p) = true → p = (0, 0, 0) ∨ p = (1, 1, 1) := by
    intro p hp
    unfold pair at hp
    split at hp
    · assumption
    · simp at hp
  change ¬ near (connectivityOf 26) p q
  rcases mem p h4 with rfl | rfl <;> rcases mem q h8 with rfl | rfl <;> decide

example : Inside ⟨2, 2, 2⟩ (1, 1, 1) := by unfold Inside; decide

/-- **C105 is false** of periodic boxes, of which `EulerCharacteristic` gives the value: rolling the data by one cell
changes Betti 0. -/
theorem C105_false_rolled (n ny nz : ℕ) (hx : 2 < n) (hy : 0 < ny) (hz : 0 < nz) :
    betti0 ⟨n, ny, nz⟩ (pair (0, 0, 0) (n - 1, 0, 0)) 0 = 2 ∧
      betti0 ⟨n, ny, nz⟩ (rolled ⟨n, ny, nz⟩ 0 1 (pair (0, 0, 0) (n - 1, 0, 0))) 0 = 1 := by
  have mem : ∀ p : Idx, 0 < pair (0, 0, 0) (n - 1, 0, 0) p ↔ p = (0, 0, 0) ∨ p = (n - 1, 0, 0) := by
    intro p
    unfold pair
    split <;> simp_all
  constructor
  · unfold betti0
    rw [connectivityOf_six (.inl rfl), labelNum_isolated, card_pair ⟨by simp only []; omega, hy, hz⟩
      ⟨by simp only []; omega, hy, hz⟩ (by simp; omega)]
    rintro ⟨p, h1, h2, h3, h4⟩ ⟨q, h5, h6, h7, h8⟩
    rw [near_one]
    simp only [decide_eq_true_eq] at h4 h8
    rcases (mem p).mp h4 with rfl | rfl <;> rcases (mem q).mp h8 with rfl | rfl <;> unfold Face <;> simp only [] <;> omega
  · rw [(C105_betti0_partial _ _ 0 6 (.inl rfl)).2.1]
    have key : ∀ p : Idx, Inside ⟨n, ny, nz⟩ p → (0 < rolled ⟨n, ny, nz⟩ 0 1 (pair (0, 0, 0) (n - 1, 0, 0)) p ↔
        p = (1, 0, 0) ∨ p = (0, 0, 0)) := by
      rintro ⟨x, y, z⟩ ⟨h1, h2, h3⟩
      simp only [] at h1 h2 h3
      unfold rolled
      rw [mem]
      simp only [atAxis, side, Prod.mk.injEq]
      rcases Nat.eq_zero_or_pos x with rfl | hx0
      · have : ((((0 : ℕ) : ℤ) - 1) % (n : ℤ)).toNat = n - 1 := by
          rw [← Int.add_emod_right, Int.emod_eq_of_lt] <;> omega
        rw [this]
        omega
      · have : (((x : ℤ) - 1) % (n : ℤ)).toNat = x - 1 := by
          rw [Int.emod_eq_of_lt] <;> omega
        rw [this]
        omega
    have i0 : Inside ⟨n, ny, nz⟩ (0, 0, 0) := ⟨by simp only []; omega, hy, hz⟩
    have i1 : Inside ⟨n, ny, nz⟩ (1, 0, 0) := ⟨by simp only []; omega, hy, hz⟩
    refine ⟨⟨(0, 0, 0), i0, (key _ i0).mpr (.inr rfl)⟩, fun p q hp hq h1 h2 => ?_⟩
    rcases (key p hp).mp h1 with rfl | rfl <;> rcases (key q hq).mp h2 with rfl | rfl
    · exact .refl
    · exact .single ⟨by decide, hq, h2⟩
    · exact .single ⟨by decide, hq, h2⟩
    · exact .refl

example : 2 < 4 ∧ 0 < 3 ∧ 0 < 3 := by decide

/-! ## C106 -/

theorem mem_cells_iff {s : Shape} {p : Idx} : p ∈ cells s ↔ Inside s p := by
  obtain ⟨a, b, c⟩ := p
  unfold cells cellsFrom Inside
  simp only [List.mem_flatMap, List.mem_map, List.mem_range, List.mem_range'_1, Prod.mk.injEq]
  constructor
  · rintro ⟨a', h1, b', h2, c', h3, rfl, rfl, rfl⟩
    exact ⟨by omega, h2, h3⟩
  · rintro ⟨h1, h2, h3⟩
    exact ⟨a, by omega, b, h2, c, h3, rfl, rfl, rfl⟩

theorem le_foldr_max {l : List ℕ} {a : ℕ} (h : a ∈ l) : a ≤ l.foldr max 0 := by
  induction l with
  | nil => cases h
  | cons b l ih =>
    rw [List.foldr_cons]
    rcases List.mem_cons.mp h with rfl | h
    · exact le_max_left _ _
    · exact le_trans (ih h) (le_max_right _ _)

theorem foldr_max_le {l : List ℕ} {m : ℕ} (h : ∀ a ∈ l, a ≤ m) : l.foldr max 0 ≤ m := by
  induction l with
  | nil => exact Nat.zero_le _
  | cons b l ih =>
    rw [List.foldr_cons]
    exact max_le (h b (by simp)) (ih fun a ha => h a (by simp [ha]))

/-- If there is only one region, its label is one. -/
theorem label_one {s : Shape} {A : Idx → Bool} {lab : Idx → ℕ} (hl : IsLabel s A 1 lab)
    (hone : ∀ p q, Inside s p → Inside s q → A p = true → A q = true → Joined s (fun r => A r = true) p q) (p : Idx)
    (hp : Inside s p) : lab p = if A p = true then 1 else 0 := by
  have same : ∀ p q, Inside s p → Inside s q → A p = true → A q = true → lab p = lab q := fun p q hp hq h1 h2 =>
    (hl.same ⟨p, hp.1, hp.2.1, hp.2.2, h1⟩ ⟨q, hq.1, hq.2.1, hq.2.2, h2⟩).mpr ((joined_iff _ _).mpr (hone p q hp hq h1 h2))
  have out : ∀ p, Inside s p → (lab p = 0 ↔ A p = false) := fun p hp => hl.outside p (mem_cells_iff.mpr hp)
  have key : ∀ i, ∀ q ∈ (cells s).take i, lab q ≤ 1 := by
    intro i
    induction i with
    | zero => intro q hq; simp at hq
    | succ i ih =>
      intro q hq
      rw [List.take_add_one, List.mem_append] at hq
      rcases hq with hq | hq
      · exact ih q hq
      · have hq' : (cells s)[i]? = some q := by simpa using hq
        have hqi : Inside s q := mem_cells_iff.mp (List.mem_of_getElem? hq')
        have hle := hl.first i q hq'
        by_cases hA : A q = true
        · by_cases hex : ∃ r ∈ (cells s).take i, A r = true
          · obtain ⟨r, hr, hrA⟩ := hex
            rw [same q r hqi (mem_cells_iff.mp (List.mem_of_mem_take hr)) hA hrA]
            exact ih r hr
          · have : (((cells s).take i).map lab).foldr max 0 ≤ 0 := foldr_max_le fun a ha => by
              rw [List.mem_map] at ha
              obtain ⟨r, hr, rfl⟩ := ha
              have := (out r (mem_cells_iff.mp (List.mem_of_mem_take hr))).mpr
                (by simpa using fun h => hex ⟨r, hr, h⟩)
              omega
            omega
        · rw [(out q hqi).mpr (by simpa using hA)]
          omega
  have h1 : lab p ≤ 1 := key (cells s).length p (by rw [List.take_length]; exact mem_cells_iff.mpr hp)
  have h2 := out p hp
  split
  · next h =>
    have : lab p ≠ 0 := fun e => by rw [h2.mp e] at h; cases h
    omega
  · next h => exact h2.mpr (by simpa using h)

theorem uniqueLabels_one {s : Shape} {lab : Idx → ℕ} (h : ∀ p, Inside s p → lab p = 1) (hs : ∃ p, Inside s p) :
    uniqueLabels s lab = [1] := by
  obtain ⟨p, hp⟩ := hs
  have hm : ((cells s).map lab).foldr max 0 = 1 := by
    refine le_antisymm (foldr_max_le fun a ha => ?_) (le_foldr_max (List.mem_map.mpr ⟨p, mem_cells_iff.mpr hp, h p hp⟩))
    obtain ⟨q, hq, rfl⟩ := List.mem_map.mp ha
    exact (h q (mem_cells_iff.mp hq)).le
  unfold uniqueLabels
  rw [hm]
  have h0 : 0 ∉ (cells s).map lab := fun e => by
    obtain ⟨q, hq, e⟩ := List.mem_map.mp e
    rw [h q (mem_cells_iff.mp hq)] at e
    cases e
  have h1 : 1 ∈ (cells s).map lab := List.mem_map.mpr ⟨p, mem_cells_iff.mpr hp, h p hp⟩
  simp [List.range_succ, List.filter_append, h0, h1, -List.mem_map]

theorem uniqueLabels_zero {s : Shape} {lab : Idx → ℕ} (h : ∀ p, Inside s p → lab p = 0) (hs : ∃ p, Inside s p) :
    uniqueLabels s lab = [0] := by
  obtain ⟨p, hp⟩ := hs
  have hm : ((cells s).map lab).foldr max 0 = 0 := by
    refine le_antisymm (foldr_max_le fun a ha => ?_) (Nat.zero_le _)
    obtain ⟨q, hq, rfl⟩ := List.mem_map.mp ha
    exact (h q (mem_cells_iff.mp hq)).le
  unfold uniqueLabels
  rw [hm]
  have h0 : 0 ∈ (cells s).map lab := List.mem_map.mpr ⟨p, mem_cells_iff.mpr hp, h p hp⟩
  simp [List.range_succ, h0, -List.mem_map]

theorem uniqueLabels_two {s : Shape} {lab : Idx → ℕ} (h : ∀ p, Inside s p → lab p ≤ 1) {p q : Idx} (hp : Inside s p)
    (hq : Inside s q) (h0 : lab p = 0) (h1 : lab q = 1) : uniqueLabels s lab = [0, 1] := by
  have m0 : 0 ∈ (cells s).map lab := List.mem_map.mpr ⟨p, mem_cells_iff.mpr hp, h0⟩
  have m1 : 1 ∈ (cells s).map lab := List.mem_map.mpr ⟨q, mem_cells_iff.mpr hq, h1⟩
  have hm : ((cells s).map lab).foldr max 0 = 1 := by
    refine le_antisymm (foldr_max_le fun a ha => ?_) (le_foldr_max m1)
    obtain ⟨q, hq, rfl⟩ := List.mem_map.mp ha
    exact h q (mem_cells_iff.mp hq)
  unfold uniqueLabels
  rw [hm]
  simp [List.range_succ, List.filter_append, m0, m1, -List.mem_map]

theorem dec_succ {a n : ℕ} (h : a + 1 < n) : dec (a + 1) n = a := by
  unfold dec
  rw [Int.emod_eq_of_lt] <;> omega

/-- Cells with a common face overlap when rolled. -/
theorem overlaps_of_face {s : Shape} {lab : Idx → ℕ} {l : ℕ} {p q : Idx} (hp : Inside s p) (hq : Inside s q)
    (h : Face p q) (h1 : lab p = l) (h2 : lab q = l) : overlaps s lab l = true := by
  have key : ∀ p q : Idx, Inside s q → lab p = l → lab q = l →
      (p.2.1 = q.2.1 ∧ p.2.2 = q.2.2 ∧ p.1 + 1 = q.1) ∨ (p.1 = q.1 ∧ p.2.2 = q.2.2 ∧ p.2.1 + 1 = q.2.1) ∨
        (p.1 = q.1 ∧ p.2.1 = q.2.1 ∧ p.2.2 + 1 = q.2.2) → overlaps s lab l = true := by
    rintro ⟨a, b, c⟩ ⟨a', b', c'⟩ hq h1 h2 h
    unfold overlaps
    rw [List.any_eq_true]
    refine ⟨(a', b', c'), mem_cells_iff.mpr hq, ?_⟩
    simp only [] at h ⊢
    rcases h with ⟨rfl, rfl, rfl⟩ | ⟨rfl, rfl, rfl⟩ | ⟨rfl, rfl, rfl⟩
    · rw [dec_succ hq.1, h1, h2]
      simp
    · rw [dec_succ hq.2.1, h1, h2]
      simp
    · rw [dec_succ hq.2.2, h1, h2]
      simp
  rcases h with ⟨a, b, c | c⟩ | ⟨a, b, c | c⟩ | ⟨a, b, c | c⟩
  · exact key p q hq h1 h2 (.inl ⟨a, b, c⟩)
  · exact key q p hp h2 h1 (.inl ⟨a.symm, b.symm, c⟩)
  · exact key p q hq h1 h2 (.inr (.inl ⟨a, b, c⟩))
  · exact key q p hp h2 h1 (.inr (.inl ⟨a.symm, b.symm, c⟩))
  · exact key p q hq h1 h2 (.inr (.inr ⟨a, b, c⟩))
  · exact key q p hp h2 h1 (.inr (.inr ⟨a.symm, b.symm, c⟩))

/-- **C106 (part).**  Without a cell above the threshold `find_percolation_cluster` returns 0; if all cells are above it,
their number; and if the cells above it form one region that reaches from one cell to another, so in particular across
the box, the number of its cells. -/
theorem C106_partial (s : Shape) (hs : ∃ p, Inside s p) (A : Idx → Bool) (lab : Idx → ℕ) (hl : IsLabel s A 1 lab) :
    ((∀ p, Inside s p → A p = false) → percolationCluster s lab = some 0) ∧
    ((∀ p, Inside s p → A p = true) → percolationCluster s lab = some (s.nx * s.ny * s.nz)) ∧
    ((∀ p q, Inside s p → Inside s q → A p = true → A q = true → Joined s (fun r => A r = true) p q) →
      (∃ p, Inside s p ∧ A p = false) → (∃ p q, Inside s p ∧ Inside s q ∧ A p = true ∧ A q = true ∧ p ≠ q) →
      percolationCluster s lab = some ((grid s).filter fun p => A p = true).card) := by
  refine ⟨fun h => ?_, fun h => ?_, fun hone hfalse htrue => ?_⟩
  · unfold percolationCluster
    rw [uniqueLabels_zero (fun p hp => (hl.outside p (mem_cells_iff.mpr hp)).mpr (h p hp)) hs]
    rfl
  · have hj : ∀ p q, Inside s p → Inside s q → A p = true → A q = true → Joined s (fun r => A r = true) p q :=
      fun p q hp hq h1 h2 => (joined_iff _ _).mp
        (reachable_all h ⟨p, hp.1, hp.2.1, hp.2.2, h1⟩ ⟨q, hq.1, hq.2.1, hq.2.2, h2⟩)
    unfold percolationCluster
    rw [uniqueLabels_one (fun p hp => by rw [label_one hl hj p hp, if_pos (h p hp)]) hs]
    simp only [if_true, Option.some.injEq]
    unfold cells cellsFrom
    simp [List.length_flatMap, Nat.mul_assoc]
  · obtain ⟨f, hf, hfA⟩ := hfalse
    obtain ⟨p, q, hp, hq, hpA, hqA, hne⟩ := htrue
    have h1 := label_one hl hone
    have ho : overlaps s lab 1 = true := by
      rcases Relation.ReflTransGen.cases_head (hone p q hp hq hpA hqA) with e | ⟨r, hr, _⟩
      · exact absurd e hne
      · exact overlaps_of_face hp hr.2.1 hr.1 (by rw [h1 p hp, if_pos hpA]) (by rw [h1 r hr.2.1, if_pos hr.2.2])
    unfold percolationCluster
    rw [uniqueLabels_two (fun p hp => by rw [h1 p hp]; split <;> omega) hf hp
      (by rw [h1 f hf, hfA]; rfl) (by rw [h1 p hp, if_pos hpA])]
    simp only [ho, if_true, Option.some.injEq]
    have hnd : (cells s).Nodup := by
      unfold cells cellsFrom
      refine List.nodup_flatMap.mpr ⟨fun a _ => List.nodup_flatMap.mpr ⟨fun b _ => ?_, ?_⟩, ?_⟩
      · exact List.Nodup.map (fun x y e => by simpa using e) List.nodup_range
      · refine List.nodup_range.imp fun {b b'} hb => ?_
        simp only [Function.onFun, List.disjoint_left, List.mem_map]
        rintro x ⟨c, _, rfl⟩ ⟨c', _, e⟩
        simp only [Prod.mk.injEq] at e
        exact hb e.2.1.symm
      · refine List.Pairwise.imp (fun {b b'} (hb : b < b') => ?_) (List.pairwise_lt_range')
        simp only [Function.onFun, List.disjoint_left, List.mem_map, List.mem_flatMap]
        rintro x ⟨c, _, d, _, rfl⟩ ⟨c', _, d', _, e⟩
        simp only [Prod.mk.injEq] at e
        omega
    rw [← List.toFinset_card_of_nodup (hnd.filter _)]
    congr 1
    ext r
    simp only [List.mem_toFinset, List.mem_filter, Finset.mem_filter, mem_cells_iff, beq_iff_eq]
    have hg : r ∈ grid s ↔ Inside s r := by
      simp only [grid, Finset.mem_product, Finset.mem_range]
      rfl
    rw [hg]
    refine and_congr_right fun hr => ?_
    rw [h1 r hr]
    split <;> simp_all

/-- A box with one region: the labels. -/
theorem isLabel_one (s : Shape) (A : Idx → Bool)
    (hone : ∀ p q, Inside s p → Inside s q → A p = true → A q = true → Joined s (fun r => A r = true) p q) :
    IsLabel s A 1 fun p => if A p = true then 1 else 0 where
  outside p _ := by split <;> simp_all
  same p q := by
    rw [if_pos p.2.2.2.2, if_pos q.2.2.2.2, joined_iff]
    exact ⟨fun _ => hone p.1 q.1 ⟨p.2.1, p.2.2.1, p.2.2.2.1⟩ ⟨q.2.1, q.2.2.1, q.2.2.2.1⟩ p.2.2.2.2 q.2.2.2.2, fun _ => rfl⟩
  first i p _ := by split <;> omega

/-- `find_percolation_cluster` raises for an array without cells, and only then. -/
theorem C106_raises (s : Shape) (lab : Idx → ℕ) : percolationCluster s lab = none ↔ s.nx = 0 ∨ s.ny = 0 ∨ s.nz = 0 := by
  have h1 : uniqueLabels s lab = [] ↔ cells s = [] := by
    constructor
    · intro h
      by_contra hc
      obtain ⟨p, hp⟩ := List.exists_mem_of_ne_nil _ hc
      have hm : lab p ∈ (cells s).map lab := List.mem_map_of_mem hp
      have : lab p ∈ uniqueLabels s lab := by
        unfold uniqueLabels
        rw [List.mem_filter, List.mem_range]
        exact ⟨Nat.lt_succ_of_le (le_foldr_max hm), by simpa using hm⟩
      rw [h] at this
      simp at this
    · intro h
      simp [uniqueLabels, h]
  have h2 : cells s = [] ↔ s.nx = 0 ∨ s.ny = 0 ∨ s.nz = 0 := by
    rw [List.eq_nil_iff_forall_not_mem]
    constructor
    · intro h
      by_contra hc
      exact h (0, 0, 0) (mem_cells_iff.mpr ⟨by simp only []; omega, by simp only []; omega, by simp only []; omega⟩)
    · intro h p hp
      obtain ⟨h1, h2, h3⟩ := mem_cells_iff.mp hp
      omega
  rw [← h2, ← h1]
  unfold percolationCluster
  split <;> rename_i h <;> simp [h]

example : percolationCluster ⟨4, 0, 3⟩ (fun _ => 1) = none := (C106_raises _ _).mpr (by simp)

/-- The hypotheses of `C106_partial` for a row of cells. -/
example : ∃ A lab, IsLabel ⟨3, 2, 2⟩ A 1 lab ∧
    (∀ p q, Inside ⟨3, 2, 2⟩ p → Inside ⟨3, 2, 2⟩ q → A p = true → A q = true →
      Joined ⟨3, 2, 2⟩ (fun r => A r = true) p q) ∧
    (∃ p, Inside ⟨3, 2, 2⟩ p ∧ A p = false) ∧
    ∃ p q, Inside ⟨3, 2, 2⟩ p ∧ Inside ⟨3, 2, 2⟩ q ∧ A p = true ∧ A q = true ∧ p ≠ q := by
  let A : Idx → Bool := fun p => decide (p = (1, 1, 1) ∨ p = (2, 1, 1))
  have hj : ∀ p q, Inside ⟨3, 2, 2⟩ p → Inside ⟨3, 2, 2⟩ q → A p = true → A q = true →
      Joined ⟨3, 2, 2⟩ (fun r => A r = true) p q := by
    intro p q hp hq h1 h2
    simp only [A, decide_eq_true_eq] at h1 h2
    rcases h1 with rfl | rfl <;> rcases h2 with rfl | rfl
    · exact .refl
    · exact .single ⟨by decide, hq, by decide⟩
    · exact .single ⟨by decide, hq, by decide⟩
    · exact .refl
  exact ⟨A, _, isLabel_one _ A hj, hj, ⟨(0, 0, 0), by unfold Inside; decide, by decide⟩,
    (1, 1, 1), (2, 1, 1), by unfold Inside; decide, by unfold Inside; decide, by decide, by decide, by decide⟩

/-- **C106 is false**: in every box of at least 4×3×3 cells, two neighbouring cells that touch no face of the box count
as a percolation cluster. -/
theorem C106_false (s : Shape) (hs : Inside s (3, 2, 2)) :
    let A : Idx → Bool := fun p => decide (p = (1, 1, 1) ∨ p = (2, 1, 1))
    (∀ p, A p = true → (p.1 ≠ 0 ∧ p.1 + 1 ≠ s.nx) ∧ (p.2.1 ≠ 0 ∧ p.2.1 + 1 ≠ s.ny) ∧ p.2.2 ≠ 0 ∧ p.2.2 + 1 ≠ s.nz) ∧
    ∃ lab, IsLabel s A 1 lab ∧ ∀ lab, IsLabel s A 1 lab → percolationCluster s lab = some 2 := by
  intro A
  obtain ⟨h1, h2, h3⟩ := hs
  simp only [] at h1 h2 h3
  have i1 : Inside s (1, 1, 1) := ⟨by simp only []; omega, by simp only []; omega, by simp only []; omega⟩
  have i2 : Inside s (2, 1, 1) := ⟨by simp only []; omega, by simp only []; omega, by simp only []; omega⟩
  have i0 : Inside s (0, 0, 0) := ⟨by simp only []; omega, by simp only []; omega, by simp only []; omega⟩
  have hj : ∀ p q, Inside s p → Inside s q → A p = true → A q = true → Joined s (fun r => A r = true) p q := by
    intro p q hp hq h1 h2
    simp only [A, decide_eq_true_eq] at h1 h2
    rcases h1 with rfl | rfl <;> rcases h2 with rfl | rfl
    · exact .refl
    · exact .single ⟨by decide, hq, by decide⟩
    · exact .single ⟨by decide, hq, by decide⟩
    · exact .refl
  refine ⟨fun p hp => ?_, _, isLabel_one s A hj, fun lab hl => ?_⟩
  · simp only [A, decide_eq_true_eq] at hp
    rcases hp with rfl | rfl <;> simp only [] <;> omega
  · rw [(C106_partial s ⟨_, i0⟩ A lab hl).2.2 hj ⟨_, i0, by decide⟩ ⟨_, _, i1, i2, by decide, by decide, by decide⟩]
    rw [show (grid s).filter (fun p => A p = true) = {(1, 1, 1), (2, 1, 1)} from ?_]
    · rfl
    · ext p
      simp only [Finset.mem_filter, Finset.mem_insert, Finset.mem_singleton, A, decide_eq_true_eq]
      refine ⟨fun h => h.2, fun h => ⟨?_, h⟩⟩
      simp only [grid, Finset.mem_product, Finset.mem_range]
      rcases h with rfl | rfl
      · exact i1
      · exact i2

example : Inside ⟨100, 100, 100⟩ (3, 2, 2) := by unfold Inside; decide

/-- A single cell, and apart from it a row of cells through the box. -/
def cellAndRow (p : Idx) : Bool := decide (p = (0, 0, 0) ∨ p.2 = (2, 0))

/-- **C106 is false**: only the first region is examined, so that a single cell hides a cluster that spans the box. -/
theorem C106_false_first : ∃ lab, IsLabel ⟨4, 3, 2⟩ cellAndRow 1 lab ∧
    Joined ⟨4, 3, 2⟩ (fun p => cellAndRow p = true) (0, 2, 0) (3, 2, 0) ∧ percolationCluster ⟨4, 3, 2⟩ lab = some 0 := by
  refine ⟨fun p => if p = (0, 0, 0) then 1 else if p.2 = (2, 0) then 2 else 0, ⟨?_, ?_, ?_⟩, ?_, by decide +kernel⟩
  · intro p _
    unfold cellAndRow
    by_cases h1 : p = (0, 0, 0) <;> by_cases h2 : p.2 = (2, 0) <;> simp [h1, h2]
  · intro p q
    refine Iff.trans ?_ (joined_iff p q).symm
    obtain ⟨p, p1, p2, p3, hp⟩ := p
    obtain ⟨q, q1, q2, q3, hq⟩ := q
    simp only []
    constructor
    · intro h
      have row : ∀ x, x < 4 → Joined ⟨4, 3, 2⟩ (fun r => cellAndRow r = true) (0, 2, 0) (x, 2, 0) ∧
          Joined ⟨4, 3, 2⟩ (fun r => cellAndRow r = true) (x, 2, 0) (0, 2, 0) := by
        intro x
        induction x with
        | zero => exact fun _ => ⟨.refl, .refl⟩
        | succ x ih =>
          intro hx
          have := ih (by omega)
          have ins : ∀ x, x < 4 → Inside ⟨4, 3, 2⟩ (x, 2, 0) := fun x hx => ⟨hx, Nat.lt_succ_self 2, Nat.zero_lt_two⟩
          refine ⟨this.1.tail ⟨.inl ⟨rfl, rfl, .inl rfl⟩, ins _ hx, by simp [cellAndRow]⟩,
            .head (b := (x, 2, 0)) ⟨.inl ⟨rfl, rfl, .inr rfl⟩, ins _ (by omega), by simp [cellAndRow]⟩ this.2⟩
      simp only [cellAndRow, decide_eq_true_eq] at hp hq
      rcases hp with rfl | hp
      · rcases hq with rfl | hq
        · exact .refl
        · exfalso
          have : q ≠ (0, 0, 0) := fun e => by rw [e] at hq; cases hq
          simp [this, hq] at h
      · rcases hq with rfl | hq
        · exfalso
          have : p ≠ (0, 0, 0) := fun e => by rw [e] at hp; cases hp
          simp [this, hp] at h
        · obtain ⟨x, y, z⟩ := p
          obtain ⟨x', y', z'⟩ := q
          simp only [Prod.mk.injEq] at hp hq
          obtain ⟨rfl, rfl⟩ := hp
          obtain ⟨rfl, rfl⟩ := hq
          exact (row x p1).2.trans (row x' q1).1
    · intro h
      change Joined ⟨4, 3, 2⟩ (fun r => cellAndRow r = true) p q at h
      have key : ∀ q, Joined ⟨4, 3, 2⟩ (fun r => cellAndRow r = true) p q → cellAndRow q = true ∧
          ((if p = (0, 0, 0) then 1 else if p.2 = (2, 0) then 2 else 0) =
            if q = (0, 0, 0) then 1 else if q.2 = (2, 0) then 2 else 0) := by
        intro q h
        induction h with
        | refl => exact ⟨hp, rfl⟩
        | tail _ hbc ih =>
          rename_i b c _
          refine ⟨hbc.2.2, ih.2.trans ?_⟩
          have hb := ih.1
          have hc := hbc.2.2
          have hf := hbc.1
          simp only [cellAndRow, decide_eq_true_eq] at hb hc
          unfold Face at hf
          rcases hb with rfl | hb <;> rcases hc with rfl | hc
          · rfl
          · exfalso; rw [hc] at hf; simp at hf
          · exfalso; rw [hb] at hf; simp at hf
          · have n1 : b ≠ (0, 0, 0) := fun e => by rw [e] at hb; cases hb
            have n2 : c ≠ (0, 0, 0) := fun e => by rw [e] at hc; cases hc
            rw [if_neg n1, if_neg n2, if_pos hb, if_pos hc]
      exact (key q h).2
  · have h : ∀ i < 24, ∀ p, (cells ⟨4, 3, 2⟩)[i]? = some p →
        (if p = (0, 0, 0) then 1 else if p.2 = (2, 0) then 2 else 0) ≤
          ((((cells ⟨4, 3, 2⟩).take i).map fun p : Idx => if p = (0, 0, 0) then 1 else if p.2 = (2, 0) then 2 else 0).foldr max 0) + 1 := by
      intro i hi p hp
      have : ∀ i < 24, (if (cells ⟨4, 3, 2⟩)[i]?.getD (0, 0, 0) = (0, 0, 0) then 1 else
          if ((cells ⟨4, 3, 2⟩)[i]?.getD (0, 0, 0)).2 = (2, 0) then 2 else 0) ≤
          ((((cells ⟨4, 3, 2⟩).take i).map fun p : Idx => if p = (0, 0, 0) then 1 else if p.2 = (2, 0) then 2 else 0).foldr max 0) + 1 := by
        decide +kernel
      have := this i hi
      rw [hp] at this
      exact this
    intro i p hp
    refine h i ?_ p hp
    by_contra hi
    rw [List.getElem?_eq_none (by rw [show (cells ⟨4, 3, 2⟩).length = 24 from by decide +kernel]; omega)] at hp
    cases hp
  · refine .head (b := (1, 2, 0)) ⟨by decide, by unfold Inside; decide, by decide⟩
      (.head (b := (2, 2, 0)) ⟨by decide, by unfold Inside; decide, by decide⟩
        (.single ⟨by decide, by unfold Inside; decide, by decide⟩))

end Verif.Topology
