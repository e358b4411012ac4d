import Verif.Lemmas.CubeMapStage
import Mathlib.Algebra.Ring.Int.Defs
import Mathlib.Tactic.NormNum
/-! Helper lemmas: contents of the marker array after each pass. -/

namespace Verif.CubeMap

/-- The data cells touching coordinate `x` of the doubled grid along one axis. -/
def corners (x n : Nat) : List Nat := if x % 2 = 0 then [x / 2] else [x / 2, (x / 2 + 1) % n]

/-- All data cells touching cell `p` of the doubled grid are occupied. -/
def occ (s : Shape) (A : Idx → Bool) (p : Idx) : Bool :=
  (corners p.1 s.nx).all fun x => (corners p.2.1 s.ny).all fun y =>
    (corners p.2.2 s.nz).all fun z => A (x, y, z)

/-- Number of odd coordinates. -/
def odd (p : Idx) : Nat := p.1 % 2 + p.2.1 % 2 + p.2.2 % 2

/-- Marker array after pass `t` (0 = vertices, ..., 3 = cubes). -/
def mark (t : Nat) (s : Shape) (A : Idx → Bool) : Mem := fun p =>
  if (p.1 < 2 * s.nx ∧ p.2.1 < 2 * s.ny ∧ p.2.2 < 2 * s.nz) ∧ odd p ≤ t ∧ occ s A p = true
  then odd p + 1 else 0

theorem dec_even {a n : Nat} (h : a < n) : dec (2 * a) (2 * n) = 2 * ((a + (n - 1)) % n) + 1 := by
  unfold dec
  rcases Nat.eq_zero_or_pos a with rfl | ha
  · have : (((2 * 0 : Nat) : Int) - 1) % ((2 * n : Nat) : Int) = 2 * n - 1 := by
      rw [← Int.add_emod_right]
      rw [Int.emod_eq_of_lt] <;> push_cast <;> omega
    rw [this]
    have : (0 + (n - 1)) % n = n - 1 := by rw [Nat.zero_add]; exact Nat.mod_eq_of_lt (by omega)
    rw [this]; omega
  · have : (((2 * a : Nat) : Int) - 1) % ((2 * n : Nat) : Int) = 2 * a - 1 := by
      rw [Int.emod_eq_of_lt] <;> push_cast <;> omega
    rw [this]
    have : (a + (n - 1)) % n = a - 1 := by
      have : a + (n - 1) = (a - 1) + n := by omega
      rw [this, Nat.add_mod_right]; exact Nat.mod_eq_of_lt (by omega)
    rw [this]; omega

theorem dec_odd {a n : Nat} (h : a < n) : dec (2 * a + 1) (2 * n) = 2 * a := by
  unfold dec
  have : (((2 * a + 1 : Nat) : Int) - 1) % ((2 * n : Nat) : Int) = 2 * a := by
    rw [Int.emod_eq_of_lt] <;> push_cast <;> omega
  rw [this]; omega

theorem inc_even {a n : Nat} (h : a < n) : inc (2 * a) (2 * n) = 2 * a + 1 := by
  unfold inc; exact Nat.mod_eq_of_lt (by omega)

theorem inc_odd {a n : Nat} : inc (2 * a + 1) (2 * n) = 2 * ((a + 1) % n) := by
  unfold inc
  have : 2 * a + 1 + 1 = 2 * (a + 1) := by omega
  rw [this, Nat.mul_mod_mul_left]

theorem pred_succ_mod {a n : Nat} (h : a < n) : ((a + (n - 1)) % n + 1) % n = a := by
  rw [Nat.mod_add_mod]
  have : a + (n - 1) + 1 = a + n := by omega
  rw [this, Nat.add_mod_right]; exact Nat.mod_eq_of_lt h

theorem even_mod (a : Nat) : (2 * a) % 2 = 0 := by omega
theorem even_div (a : Nat) : (2 * a) / 2 = a := by omega
theorem odd_mod (a : Nat) : (2 * a + 1) % 2 = 1 := by omega
theorem odd_div (a : Nat) : (2 * a + 1) / 2 = a := by omega
theorem even_lt {a n : Nat} : 2 * a < 2 * n ↔ a < n := by omega
theorem odd_lt {a n : Nat} : 2 * a + 1 < 2 * n ↔ a < n := by omega

theorem even_or_odd (x : Nat) : (∃ a, x = 2 * a) ∨ ∃ a, x = 2 * a + 1 := by
  rcases Nat.mod_two_eq_zero_or_one x with h | h
  · exact Or.inl ⟨x / 2, by omega⟩
  · exact Or.inr ⟨x / 2, by omega⟩

theorem mod_lt' {a b n : Nat} (h : b < n) : a % n < n := Nat.mod_lt _ (by omega)

/-- The passes, simultaneously over the box. -/
theorem edge_char (s : Shape) (A : Idx → Bool) (p : Idx) :
    (if p ∈ cells s.dbl ∧ mark 0 s A p = 0 ∧ edgeTest s.dbl 1 (mark 0 s A) p = true then 2
      else mark 0 s A p) = mark 1 s A p := by
  obtain ⟨i, j, k⟩ := p
  by_cases hb : (i, j, k) ∈ cells s.dbl
  · have hb' := mem_cells.1 hb
    simp only [Shape.dbl] at hb'
    simp only [hb, true_and]
    rcases even_or_odd i with ⟨a, rfl⟩ | ⟨a, rfl⟩ <;> rcases even_or_odd j with ⟨b, rfl⟩ | ⟨b, rfl⟩ <;>
      rcases even_or_odd k with ⟨c, rfl⟩ | ⟨c, rfl⟩ <;>
      simp only [even_lt, odd_lt] at hb' <;>
      obtain ⟨h1, h2, h3⟩ := hb' <;>
      simp only [edgeTest, bothX, bothY, bothZ, Shape.dbl, dec_even h1, dec_even h2, dec_even h3,
        dec_odd h1, dec_odd h2, dec_odd h3, inc_even h1, inc_even h2, inc_even h3, inc_odd, mark, odd,
        occ, corners, even_mod, odd_mod, even_div, odd_div, even_lt, odd_lt, h1, h2, h3,
        mod_lt' h1, mod_lt' h2, mod_lt' h3, pred_succ_mod h1, pred_succ_mod h2, pred_succ_mod h3] <;>
      simp <;> split_ifs <;> simp_all
  · have : mark 1 s A (i, j, k) = 0 ∧ mark 0 s A (i, j, k) = 0 := by
      rw [mem_cells] at hb
      simp only [Shape.dbl] at hb
      constructor <;> simp [mark] <;> tauto
    simp [hb, this]

theorem face_char (s : Shape) (A : Idx → Bool) (p : Idx) :
    (if p ∈ cells s.dbl ∧ mark 1 s A p = 0 ∧ faceTest s.dbl 2 (mark 1 s A) p = true then 3
      else mark 1 s A p) = mark 2 s A p := by
  obtain ⟨i, j, k⟩ := p
  by_cases hb : (i, j, k) ∈ cells s.dbl
  · have hb' := mem_cells.1 hb
    simp only [Shape.dbl] at hb'
    simp only [hb, true_and]
    rcases even_or_odd i with ⟨a, rfl⟩ | ⟨a, rfl⟩ <;> rcases even_or_odd j with ⟨b, rfl⟩ | ⟨b, rfl⟩ <;>
      rcases even_or_odd k with ⟨c, rfl⟩ | ⟨c, rfl⟩ <;>
      simp only [even_lt, odd_lt] at hb' <;>
      obtain ⟨h1, h2, h3⟩ := hb' <;>
      simp only [faceTest, bothX, bothY, bothZ, Shape.dbl, dec_even h1, dec_even h2, dec_even h3,
        dec_odd h1, dec_odd h2, dec_odd h3, inc_even h1, inc_even h2, inc_even h3, inc_odd, mark, odd,
        occ, corners, even_mod, odd_mod, even_div, odd_div, even_lt, odd_lt, h1, h2, h3,
        mod_lt' h1, mod_lt' h2, mod_lt' h3, pred_succ_mod h1, pred_succ_mod h2, pred_succ_mod h3] <;>
      simp <;> split_ifs <;> simp_all
  · have : mark 2 s A (i, j, k) = 0 ∧ mark 1 s A (i, j, k) = 0 := by
      rw [mem_cells] at hb
      simp only [Shape.dbl] at hb
      constructor <;> simp [mark] <;> tauto
    simp [hb, this]

theorem cube_char (s : Shape) (A : Idx → Bool) (p : Idx) :
    (if p ∈ cells s.dbl ∧ mark 2 s A p = 0 ∧ cubeTest s.dbl 3 (mark 2 s A) p = true then 4
      else mark 2 s A p) = mark 3 s A p := by
  obtain ⟨i, j, k⟩ := p
  by_cases hb : (i, j, k) ∈ cells s.dbl
  · have hb' := mem_cells.1 hb
    simp only [Shape.dbl] at hb'
    simp only [hb, true_and]
    rcases even_or_odd i with ⟨a, rfl⟩ | ⟨a, rfl⟩ <;> rcases even_or_odd j with ⟨b, rfl⟩ | ⟨b, rfl⟩ <;>
      rcases even_or_odd k with ⟨c, rfl⟩ | ⟨c, rfl⟩ <;>
      simp only [even_lt, odd_lt] at hb' <;>
      obtain ⟨h1, h2, h3⟩ := hb' <;>
      simp only [cubeTest, bothX, bothY, bothZ, Shape.dbl, dec_even h1, dec_even h2, dec_even h3,
        dec_odd h1, dec_odd h2, dec_odd h3, inc_even h1, inc_even h2, inc_even h3, inc_odd, mark, odd,
        occ, corners, even_mod, odd_mod, even_div, odd_div, even_lt, odd_lt, h1, h2, h3,
        mod_lt' h1, mod_lt' h2, mod_lt' h3, pred_succ_mod h1, pred_succ_mod h2, pred_succ_mod h3] <;>
      simp <;> split_ifs <;> simp_all
  · have : mark 3 s A (i, j, k) = 0 ∧ mark 2 s A (i, j, k) = 0 := by
      rw [mem_cells] at hb
      simp only [Shape.dbl] at hb
      constructor <;> simp [mark] <;> tauto
    simp [hb, this]

theorem vertex_char (s : Shape) (A : Idx → Bool) (l : List Idx)
    (hl : ∀ p, p ∈ l ↔ p ∈ cells s) (q : Idx) :
    (if ∃ p ∈ l, A p = true ∧ q = (p.1 * 2, p.2.1 * 2, p.2.2 * 2) then 1 else 0) = mark 0 s A q := by
  have key : (∃ p ∈ l, A p = true ∧ q = (p.1 * 2, p.2.1 * 2, p.2.2 * 2)) ↔
      (q.1 < 2 * s.nx ∧ q.2.1 < 2 * s.ny ∧ q.2.2 < 2 * s.nz) ∧ odd q ≤ 0 ∧ occ s A q = true := by
    constructor
    · rintro ⟨⟨a, b, c⟩, hp, hA, rfl⟩
      have hp := mem_cells.1 ((hl _).1 hp)
      dsimp only at hp ⊢
      refine ⟨⟨by omega, by omega, by omega⟩, by simp [odd], ?_⟩
      simp [occ, corners, hA]
    · rintro ⟨hb, ho, hc⟩
      obtain ⟨i, j, k⟩ := q
      dsimp only [odd] at hb ho
      have h1 : i % 2 = 0 := by omega
      have h2 : j % 2 = 0 := by omega
      have h3 : k % 2 = 0 := by omega
      refine ⟨(i / 2, j / 2, k / 2), (hl _).2 (mem_cells.2 ?_), ?_, ?_⟩
      · dsimp only; omega
      · simpa [occ, corners, h1, h2, h3] using hc
      · dsimp only; rw [Prod.mk.injEq, Prod.mk.injEq]; omega
  unfold mark
  simp only [key]
  split_ifs with h
  · omega
  · rfl

/-- What the sequential code returns. -/
theorem cubeMap_char (s : Shape) (A : Idx → Bool) : cubeMap true s A = mark 3 s A := by
  unfold cubeMap markers
  simp only [if_true]
  have h0 : (cells s).foldl (vertexStep ⟨1, 2, 3, 4⟩ A) (fun _ => 0) = mark 0 s A := by
    funext q; rw [foldl_vertexStep]; exact vertex_char s A _ (fun _ => Iff.rfl) q
  rw [h0]
  have h1 : (cells s.dbl).foldl (edgeStep ⟨1, 2, 3, 4⟩ s.dbl) (mark 0 s A) = mark 1 s A := by
    funext q
    rw [edgeStep_eq, foldl_stepOf _ 1 2 (edgeTest_only _ _) (by decide) (by decide)]
    exact edge_char s A q
  rw [h1]
  have h2 : (cells s.dbl).foldl (faceStep ⟨1, 2, 3, 4⟩ s.dbl) (mark 1 s A) = mark 2 s A := by
    funext q
    rw [faceStep_eq, foldl_stepOf _ 2 3 (faceTest_only _ _) (by decide) (by decide)]
    exact face_char s A q
  rw [h2]
  funext q
  rw [cubeStep_eq, foldl_stepOf _ 3 4 (cubeTest_only _ _) (by decide) (by decide)]
  exact cube_char s A q

theorem rollBoth_zero (N : Shape) (m : Mem) (v : Nat) : rollBoth N m v 0 = bothX N m v := by
  funext ⟨i, j, k⟩
  have : (((i : Int) + 1) % (N.nx : Int)).toNat = inc i N.nx := by
    unfold inc
    norm_cast
  simp [rollBoth, roll, bothX, dec, this]

theorem rollBoth_one (N : Shape) (m : Mem) (v : Nat) : rollBoth N m v 1 = bothY N m v := by
  funext ⟨i, j, k⟩
  have : (((j : Int) + 1) % (N.ny : Int)).toNat = inc j N.ny := by
    unfold inc
    norm_cast
  simp [rollBoth, roll, bothY, dec, this]

theorem rollBoth_two (N : Shape) (m : Mem) (v : Nat) : rollBoth N m v 2 = bothZ N m v := by
  funext ⟨i, j, k⟩
  have : (((k : Int) + 1) % (N.nz : Int)).toNat = inc k N.nz := by
    unfold inc
    norm_cast
  simp [rollBoth, roll, bothZ, dec, this]

/-- What the torch code returns. -/
theorem cubeMapTorch_char (s : Shape) (A : Idx → Bool) : cubeMapTorch true s A = mark 3 s A := by
  unfold cubeMapTorch markers
  simp only [if_true]
  have h0 : (fun p : Idx => if p ∈ ((cells s).filter A).map (fun c => (c.1 * 2, c.2.1 * 2, c.2.2 * 2))
      then 1 else 0) = mark 0 s A := by
    funext q
    rw [← vertex_char s A (cells s) (fun _ => Iff.rfl) q]
    apply if_congr _ rfl rfl
    simp only [List.mem_map, List.mem_filter]
    constructor
    · rintro ⟨p, ⟨h, h'⟩, rfl⟩; exact ⟨p, h, h', rfl⟩
    · rintro ⟨p, h, h', rfl⟩; exact ⟨p, ⟨h, h'⟩, rfl⟩
  rw [h0]
  simp only [rollBoth_zero, rollBoth_one, rollBoth_two]
  have h1 : torchStage s.dbl (fun p => bothX s.dbl (mark 0 s A) 1 p || bothY s.dbl (mark 0 s A) 1 p ||
      bothZ s.dbl (mark 0 s A) 1 p) 2 (mark 0 s A) = mark 1 s A := by
    funext q; exact edge_char s A q
  rw [h1]
  have h2 : torchStage s.dbl (fun p => (bothX s.dbl (mark 1 s A) 2 p && bothY s.dbl (mark 1 s A) 2 p) ||
      (bothY s.dbl (mark 1 s A) 2 p && bothZ s.dbl (mark 1 s A) 2 p) ||
      (bothZ s.dbl (mark 1 s A) 2 p && bothX s.dbl (mark 1 s A) 2 p)) 3 (mark 1 s A) = mark 2 s A := by
    funext q; exact face_char s A q
  rw [h2]
  funext q; exact cube_char s A q

end Verif.CubeMap
