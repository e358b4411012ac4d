import Verif.Lemmas.Genus
import Mathlib.Tactic.NormNum
/-!
# C158: the genus of the surface between two phases
-/

namespace Verif.Genus

theorem oriented {w : Stencil} (hw : w ∈ [stela, steld, stele, stelf]) {v : Stencil} (hv : v ∈ orientations w) :
    2 ≤ total v ∧ v 1 1 1 = true := by
  have h := List.all_eq_true.1 (List.all_eq_true.1 total_orientations w hw) _ hv
  simpa using h

theorem corner_ne {w : Stencil} (hw : w ∈ [steld, stele, stelf]) {v : Stencil} (hv : v ∈ orientations w) (a b c : Fin 3 → Bool) :
    corner a b c ≠ v := by
  rintro rfl
  have h := List.all_eq_true.1 (List.all_eq_true.1 not_corner w hw) _ hv
  have h1 := (oriented (List.mem_cons_of_mem _ hw) hv).2
  simp only [corner, Bool.and_eq_true] at h1
  have e : shadow (corner a b c) = corner a b c := by
    funext i j k
    simp [shadow, corner, h1]
  rw [e] at h
  simp [sames] at h

theorem outside_ne {w : Stencil} (hw : w ∈ [stela, steld, stele, stelf]) {v : Stencil} (hv : v ∈ orientations w) (a b c : Fin 3 → Bool) :
    (fun i j k => !corner a b c i j k) ≠ v := by
  rintro rfl
  have h := List.all_eq_true.1 (List.all_eq_true.1 not_outside w hw) _ hv
  simp only [Bool.not_not] at h
  have e : hull (corner a b c) = corner a b c := by
    funext i j k
    rw [Bool.eq_iff_iff]
    simp only [hull, corner, Bool.and_eq_true, decide_eq_true_eq]
    constructor
    · rintro ⟨⟨⟨_, _, ⟨h1, -⟩, -⟩, _, _, ⟨-, h2⟩, -⟩, _, _, -, h3⟩
      exact ⟨⟨h1, h2⟩, h3⟩
    · rintro ⟨⟨h1, h2⟩, h3⟩
      exact ⟨⟨⟨j, k, ⟨h1, h2⟩, h3⟩, i, k, ⟨h1, h2⟩, h3⟩, i, j, ⟨h1, h2⟩, h3⟩
  rw [e] at h
  simp [sames] at h

theorem countAll_eq (t : DType) (s : Fin 3 → ℕ) (f : ℤ → ℤ → ℤ → Bool) (w : Stencil) :
    countAll t s f w = ((orientations w).map (countOnce t s f)).sum := by
  unfold countAll orientations
  simp only [List.map_cons, List.map_nil, List.sum_cons, List.sum_nil]
  omega

/-- Only the cells below the threshold are counted. -/
theorem bothPhases_eq (s : Fin 3 → ℕ) (f : ℤ → ℤ → ℤ → Bool) {w : Stencil} (hw : w ∈ [stela, steld, stele, stelf]) :
    bothPhases s f w = ((orientations w).map fun v =>
      ((cells s).filter fun p => near s (fun x y z => !f x y z) p.1 p.2.1 p.2.2 = v).card).sum := by
  unfold bothPhases
  rw [countAll_eq, countAll_eq]
  have h0 : ((orientations w).map (countOnce .bool s f)).sum = 0 := by
    rw [List.sum_eq_zero_iff]
    intro x hx
    obtain ⟨v, hv, rfl⟩ := List.mem_map.1 hx
    exact countOnce_bool s f v (oriented hw hv).1
  rw [h0, Nat.zero_add]
  congr 1
  refine List.map_congr_left fun v hv => ?_
  rw [countOnce_int s _ v (oriented hw hv).2]

theorem bothPhases_zero (s : Fin 3 → ℕ) (f : ℤ → ℤ → ℤ → Bool) {w : Stencil} (hw : w ∈ [stela, steld, stele, stelf])
    (h : ∀ v ∈ orientations w, ∀ p ∈ cells s, near s (fun x y z => !f x y z) p.1 p.2.1 p.2.2 ≠ v) : bothPhases s f w = 0 := by
  rw [bothPhases_eq s f hw, List.sum_eq_zero_iff]
  intro x hx
  obtain ⟨v, hv, rfl⟩ := List.mem_map.1 hx
  rw [Finset.card_eq_zero, Finset.filter_eq_empty_iff]
  exact fun p hp => h v hv p hp

/-! ## Blocks -/

/-- Specification: the cell `(x, y, z)` of a periodic box of `s 0 × s 1 × s 2` cells belongs to the block of
`len 0 × len 1 × len 2` cells that begins at `lo`. -/
def InBlock (s : Fin 3 → ℕ) (lo : Fin 3 → ℤ) (len : Fin 3 → ℕ) (x y z : ℤ) : Prop :=
  (x - lo 0) % s 0 < len 0 ∧ (y - lo 1) % s 1 < len 1 ∧ (z - lo 2) % s 2 < len 2

/-- An interval around a cell. -/
def part (n : ℕ) (lo : ℤ) (len : ℕ) (x : ℤ) : Fin 3 → Bool := fun i => decide (((x + 1 - i) % n - lo) % n < len)

theorem near_block {K : Type} [LinearOrder K] (data : Cube K) (xth : K) (lo : Fin 3 → ℤ) (len : Fin 3 → ℕ)
    (hs : ∀ i, 0 < data.shape i) (h : ∀ x y z : ℤ, 0 ≤ x → x < data.shape 0 → 0 ≤ y → y < data.shape 1 → 0 ≤ z → z < data.shape 2 →
      (data.val x y z < xth ↔ InBlock data.shape lo len x y z)) (x y z : ℤ) :
    near data.shape (fun x y z => !decide (xth ≤ data.val x y z)) x y z =
      corner (part (data.shape 0) (lo 0) (len 0) x) (part (data.shape 1) (lo 1) (len 1) y) (part (data.shape 2) (lo 2) (len 2) z) := by
  funext i j k
  have hp : ∀ i, (0 : ℤ) < data.shape i := fun i => Int.natCast_pos.2 (hs i)
  have := h ((x + 1 - i) % data.shape 0) ((y + 1 - j) % data.shape 1) ((z + 1 - k) % data.shape 2)
    (Int.emod_nonneg _ (hp 0).ne') (Int.emod_lt_of_pos _ (hp 0)) (Int.emod_nonneg _ (hp 1).ne') (Int.emod_lt_of_pos _ (hp 1))
    (Int.emod_nonneg _ (hp 2).ne') (Int.emod_lt_of_pos _ (hp 2))
  unfold near corner part
  simp only [← decide_not, not_le, ← Bool.decide_and]
  exact decide_eq_decide.2 (by rw [this, InBlock, and_assoc])

/-- **C158 is false for a bubble**: a block above the threshold has the genus 1, which is that of a torus, whatever its size. -/
theorem C158_false {K : Type} [LinearOrder K] (data : Cube K) (xth : K) (lo : Fin 3 → ℤ) (len : Fin 3 → ℕ)
    (hs : ∀ i, 0 < data.shape i) (h : ∀ x y z : ℤ, 0 ≤ x → x < data.shape 0 → 0 ≤ y → y < data.shape 1 → 0 ≤ z → z < data.shape 2 →
      (xth ≤ data.val x y z ↔ InBlock data.shape lo len x y z)) : genus data xth = 1 := by
  have hp : ∀ i, (0 : ℤ) < data.shape i := fun i => Int.natCast_pos.2 (hs i)
  have hz : ∀ w ∈ [stela, steld, stele, stelf], bothPhases data.shape (fun x y z => decide (xth ≤ data.val x y z)) w = 0 := by
    intro w hw
    refine bothPhases_zero _ _ hw fun v hv p _ he => ?_
    refine outside_ne hw hv (part (data.shape 0) (lo 0) (len 0) p.1) (part (data.shape 1) (lo 1) (len 1) p.2.1)
      (part (data.shape 2) (lo 2) (len 2) p.2.2) ?_
    rw [← he]
    funext i j k
    have := h ((p.1 + 1 - i) % data.shape 0) ((p.2.1 + 1 - j) % data.shape 1) ((p.2.2 + 1 - k) % data.shape 2)
      (Int.emod_nonneg _ (hp 0).ne') (Int.emod_lt_of_pos _ (hp 0)) (Int.emod_nonneg _ (hp 1).ne') (Int.emod_lt_of_pos _ (hp 1))
      (Int.emod_nonneg _ (hp 2).ne') (Int.emod_lt_of_pos _ (hp 2))
    unfold near corner part
    simp only [← Bool.decide_and]
    congr 1
    exact decide_eq_decide.2 (by rw [this, InBlock, and_assoc])
  unfold genus
  simp only []
  rw [hz stela (by simp), hz steld (by simp), hz stele (by simp), hz stelf (by simp)]
  norm_num

theorem part_eq (n : ℕ) (lo : ℤ) (len : ℕ) (x : ℤ) (i : Fin 3) :
    part n lo len x i = decide (((x - lo) % n + 1 - i) % n < len) := by
  unfold part
  congr 2
  rw [Int.emod_sub_emod, Int.add_sub_assoc ((x - lo) % n), Int.emod_add_emod]
  congr 1
  ring

theorem next_emod (n : ℕ) (r : ℤ) (h0 : 0 ≤ r) (h1 : r < n) : (r + 1) % n = if r = n - 1 then 0 else r + 1 := by
  split_ifs with h
  · rw [h, sub_add_cancel, Int.emod_self]
  · exact Int.emod_eq_of_lt (by omega) (by omega)

theorem prev_emod (n : ℕ) (r : ℤ) (h0 : 0 ≤ r) (h1 : r < n) : (r - 1) % n = if r = 0 then (n : ℤ) - 1 else r - 1 := by
  split_ifs with h
  · rw [h, ← Int.add_emod_right]
    exact Int.emod_eq_of_lt (by omega) (by omega)
  · exact Int.emod_eq_of_lt (by omega) (by omega)

theorem part_iff (n : ℕ) (lo : ℤ) (len : ℕ) (hn : 0 < n) (x : ℤ) (u : Fin 3 → Bool) : part n lo len x = u ↔
    decide ((if (x - lo) % n = n - 1 then 0 else (x - lo) % n + 1) < len) = u 0 ∧ decide ((x - lo) % n < len) = u 1 ∧
      decide ((if (x - lo) % n = 0 then (n : ℤ) - 1 else (x - lo) % n - 1) < len) = u 2 := by
  have h0 : 0 ≤ (x - lo) % n := Int.emod_nonneg _ (by omega)
  have h1 : (x - lo) % n < n := Int.emod_lt_of_pos _ (by omega)
  rw [← next_emod n _ h0 h1, ← prev_emod n _ h0 h1, funext_iff, Fin.forall_fin_succ, Fin.forall_fin_two]
  rw [part_eq, part_eq, part_eq]
  have e1 : (x - lo) % n + 1 - ((Fin.succ (0 : Fin 2) : Fin 3) : ℕ) = (x - lo) % n := by simp
  have e2 : (x - lo) % n + 1 - ((Fin.succ (1 : Fin 2) : Fin 3) : ℕ) = (x - lo) % n - 1 := by
    rw [show ((Fin.succ (1 : Fin 2) : Fin 3) : ℕ) = 2 from rfl]
    push_cast
    ring
  have e0 : (x - lo) % n + 1 - ((0 : Fin 3) : ℕ) = (x - lo) % n + 1 := by simp
  rw [e0, e1, e2, Int.emod_emod]
  rfl

theorem first_cell (n : ℕ) (lo : ℤ) (len : ℕ) (h2 : 2 ≤ len) (hn : len < n) (x : ℤ) :
    part n lo len x = (fun i => decide (i < 2)) ↔ (x - lo) % n = 0 := by
  rw [part_iff n lo len (by omega)]
  have h0 : 0 ≤ (x - lo) % n := Int.emod_nonneg _ (by omega)
  have h1 : (x - lo) % n < n := Int.emod_lt_of_pos _ (by omega)
  generalize (x - lo) % n = r at *
  rw [show decide ((0 : Fin 3) < 2) = true from rfl, show decide ((1 : Fin 3) < 2) = true from rfl,
    show decide ((2 : Fin 3) < 2) = false from rfl, decide_eq_true_iff, decide_eq_true_iff, decide_eq_false_iff_not]
  split_ifs <;> omega

theorem last_cell (n : ℕ) (lo : ℤ) (len : ℕ) (h2 : 2 ≤ len) (hn : len < n) (x : ℤ) :
    part n lo len x = (fun i => decide (i.rev < 2)) ↔ (x - lo) % n = len - 1 := by
  rw [part_iff n lo len (by omega)]
  have h0 : 0 ≤ (x - lo) % n := Int.emod_nonneg _ (by omega)
  have h1 : (x - lo) % n < n := Int.emod_lt_of_pos _ (by omega)
  generalize (x - lo) % n = r at *
  rw [show decide ((0 : Fin 3).rev < 2) = false from rfl, show decide ((1 : Fin 3).rev < 2) = true from rfl,
    show decide ((2 : Fin 3).rev < 2) = true from rfl, decide_eq_true_iff, decide_eq_true_iff, decide_eq_false_iff_not]
  split_ifs <;> omega

theorem one_cell (n : ℕ) (lo c : ℤ) (h0 : 0 ≤ c) (h1 : c < n) :
    ((Finset.Ico 0 (n : ℤ)).filter fun x => (x - lo) % n = c).card = 1 := by
  rw [Finset.card_eq_one]
  refine ⟨(lo + c) % n, Finset.ext fun x => ?_⟩
  rw [Finset.mem_filter, Finset.mem_Ico, Finset.mem_singleton]
  constructor
  · rintro ⟨⟨a, b⟩, h⟩
    rw [← h, Int.add_emod_emod, add_sub_cancel, Int.emod_eq_of_lt a b]
  · rintro rfl
    refine ⟨⟨Int.emod_nonneg _ (by omega), Int.emod_lt_of_pos _ (by omega)⟩, ?_⟩
    rw [Int.emod_sub_emod, add_sub_cancel_left, Int.emod_eq_of_lt h0 h1]

theorem corner_inj {a b c u v w : Fin 3 → Bool} (h : corner a b c = corner u v w) (hu : u 1 = true) (hv : v 1 = true) (hw : w 1 = true) :
    a = u ∧ b = v ∧ c = w := by
  have h' : ∀ i j k, (a i && b j && c k) = (u i && v j && w k) := fun i j k => congrFun (congrFun (congrFun h i) j) k
  have h1 := h' 1 1 1
  rw [hu, hv, hw] at h1
  simp only [Bool.and_self, Bool.and_eq_true] at h1
  refine ⟨funext fun i => ?_, funext fun j => ?_, funext fun k => ?_⟩
  · simpa [h1, hv, hw] using h' i 1 1
  · simpa [h1, hu, hw] using h' 1 j 1
  · simpa [h1, hu, hv] using h' 1 1 k

theorem count_corner (s : Fin 3 → ℕ) (g : ℤ → ℤ → ℤ → Stencil) (a b c : ℤ → Fin 3 → Bool) (u v w : Fin 3 → Bool)
    (hg : ∀ x y z, g x y z = corner (a x) (b y) (c z)) (hu : u 1 = true) (hv : v 1 = true) (hw : w 1 = true)
    (ha : ((Finset.Ico 0 (s 0 : ℤ)).filter fun x => a x = u).card = 1)
    (hb : ((Finset.Ico 0 (s 1 : ℤ)).filter fun x => b x = v).card = 1)
    (hc : ((Finset.Ico 0 (s 2 : ℤ)).filter fun x => c x = w).card = 1) :
    ((cells s).filter fun p => g p.1 p.2.1 p.2.2 = corner u v w).card = 1 := by
  have e : (cells s).filter (fun p => g p.1 p.2.1 p.2.2 = corner u v w) =
      ((Finset.Ico 0 (s 0 : ℤ)).filter fun x => a x = u) ×ˢ ((Finset.Ico 0 (s 1 : ℤ)).filter fun x => b x = v) ×ˢ
        ((Finset.Ico 0 (s 2 : ℤ)).filter fun x => c x = w) := by
    ext p
    unfold cells
    simp only [Finset.mem_filter, Finset.mem_product, hg]
    constructor
    · rintro ⟨⟨h1, h2, h3⟩, h⟩
      obtain ⟨e1, e2, e3⟩ := corner_inj h hu hv hw
      exact ⟨⟨h1, e1⟩, ⟨h2, e2⟩, h3, e3⟩
    · rintro ⟨⟨h1, e1⟩, ⟨h2, e2⟩, h3, e3⟩
      exact ⟨⟨h1, h2, h3⟩, by rw [e1, e2, e3]⟩
  rw [e, Finset.card_product, Finset.card_product, ha, hb, hc]

theorem orientations_stela : orientations stela =
  [corner (fun i => decide (i < 2)) (fun i => decide (i < 2)) (fun i => decide (i < 2)),
    corner (fun i => decide (i.rev < 2)) (fun i => decide (i < 2)) (fun i => decide (i < 2)),
    corner (fun i => decide (i.rev < 2)) (fun i => decide (i.rev < 2)) (fun i => decide (i < 2)),
    corner (fun i => decide (i < 2)) (fun i => decide (i.rev < 2)) (fun i => decide (i < 2)),
    corner (fun i => decide (i.rev < 2)) (fun i => decide (i < 2)) (fun i => decide (i.rev < 2)),
    corner (fun i => decide (i.rev < 2)) (fun i => decide (i.rev < 2)) (fun i => decide (i.rev < 2)),
    corner (fun i => decide (i < 2)) (fun i => decide (i.rev < 2)) (fun i => decide (i.rev < 2)),
    corner (fun i => decide (i < 2)) (fun i => decide (i < 2)) (fun i => decide (i.rev < 2))] := by
  simp only [orientations, List.cons.injEq, and_true]
  refine ⟨?_, ?_, ?_, ?_, ?_, ?_, ?_, ?_⟩ <;> (funext i j k; revert i j k; decide +kernel)

/-- **C158 for a hole**: a block below the threshold, at least two cells wide, has the genus 0 of a sphere. -/
theorem C158_partial {K : Type} [LinearOrder K] (data : Cube K) (xth : K) (lo : Fin 3 → ℤ) (len : Fin 3 → ℕ)
    (hl : ∀ i, 2 ≤ len i ∧ len i < data.shape i)
    (h : ∀ x y z : ℤ, 0 ≤ x → x < data.shape 0 → 0 ≤ y → y < data.shape 1 → 0 ≤ z → z < data.shape 2 →
      (data.val x y z < xth ↔ InBlock data.shape lo len x y z)) : genus data xth = 0 := by
  have hs : ∀ i, 0 < data.shape i := fun i => by
    have := hl i
    omega
  have hnear := near_block data xth lo len hs h
  have hz : ∀ w ∈ [steld, stele, stelf], bothPhases data.shape (fun x y z => decide (xth ≤ data.val x y z)) w = 0 := by
    intro w hw
    refine bothPhases_zero _ _ (List.mem_cons_of_mem _ hw) fun v hv p _ he => ?_
    rw [hnear] at he
    exact corner_ne hw hv _ _ _ he
  have hF : ∀ i, ((Finset.Ico 0 (data.shape i : ℤ)).filter fun x =>
      part (data.shape i) (lo i) (len i) x = fun i => decide (i < 2)).card = 1 := fun i => by
    simp only [first_cell _ (lo i) _ (hl i).1 (hl i).2]
    exact one_cell _ _ _ le_rfl (Int.natCast_pos.2 (hs i))
  have hL : ∀ i, ((Finset.Ico 0 (data.shape i : ℤ)).filter fun x =>
      part (data.shape i) (lo i) (len i) x = fun i => decide (i.rev < 2)).card = 1 := fun i => by
    simp only [last_cell _ (lo i) _ (hl i).1 (hl i).2]
    have := hl i
    exact one_cell _ _ _ (by omega) (by omega)
  have hA : bothPhases data.shape (fun x y z => decide (xth ≤ data.val x y z)) stela = 8 := by
    rw [bothPhases_eq _ _ (by simp)]
    rw [orientations_stela]
    have hone := fun u v w hu hv hw => count_corner data.shape
      (near data.shape (fun x y z => !decide (xth ≤ data.val x y z))) _ _ _ u v w hnear hu hv hw
    simp only [List.map_cons, List.map_nil, List.sum_cons, List.sum_nil]
    rw [hone _ _ _ rfl rfl rfl (hF 0) (hF 1) (hF 2), hone _ _ _ rfl rfl rfl (hL 0) (hF 1) (hF 2),
      hone _ _ _ rfl rfl rfl (hL 0) (hL 1) (hF 2), hone _ _ _ rfl rfl rfl (hF 0) (hL 1) (hF 2),
      hone _ _ _ rfl rfl rfl (hL 0) (hF 1) (hL 2), hone _ _ _ rfl rfl rfl (hL 0) (hL 1) (hL 2),
      hone _ _ _ rfl rfl rfl (hF 0) (hL 1) (hL 2), hone _ _ _ rfl rfl rfl (hF 0) (hF 1) (hL 2)]
    norm_num
  unfold genus
  simp only []
  rw [hA, hz steld (by simp), hz stele (by simp), hz stelf (by simp)]
  norm_num

theorem thin_part (n : ℕ) (lo : ℤ) (hn : 1 < n) (x : ℤ) : part n lo 1 x ≠ (fun i => decide (i < 2)) ∧
    part n lo 1 x ≠ fun i => decide (i.rev < 2) := by
  have h0 : 0 ≤ (x - lo) % n := Int.emod_nonneg _ (by omega)
  have h1 : (x - lo) % n < n := Int.emod_lt_of_pos _ (by omega)
  constructor
  · rw [Ne, part_iff n lo 1 (by omega)]
    generalize (x - lo) % n = r at *
    rw [show decide ((0 : Fin 3) < 2) = true from rfl, show decide ((1 : Fin 3) < 2) = true from rfl,
      show decide ((2 : Fin 3) < 2) = false from rfl, decide_eq_true_iff, decide_eq_true_iff, decide_eq_false_iff_not]
    split_ifs <;> omega
  · rw [Ne, part_iff n lo 1 (by omega)]
    generalize (x - lo) % n = r at *
    rw [show decide ((0 : Fin 3).rev < 2) = false from rfl, show decide ((1 : Fin 3).rev < 2) = true from rfl,
      show decide ((2 : Fin 3).rev < 2) = true from rfl, decide_eq_true_iff, decide_eq_true_iff, decide_eq_false_iff_not]
    split_ifs <;> omega

theorem stela_sides : ∀ v ∈ orientations stela, ∃ a b c : Fin 3 → Bool, v = corner a b c ∧
    (a = (fun i => decide (i < 2)) ∨ a = fun i => decide (i.rev < 2)) ∧ (b = (fun i => decide (i < 2)) ∨ b = fun i => decide (i.rev < 2)) ∧
    (c = (fun i => decide (i < 2)) ∨ c = fun i => decide (i.rev < 2)) := by
  rw [orientations_stela]
  intro v hv
  simp only [List.mem_cons, List.not_mem_nil, or_false] at hv
  rcases hv with rfl | rfl | rfl | rfl | rfl | rfl | rfl | rfl
  all_goals refine ⟨_, _, _, rfl, ?_, ?_, ?_⟩ <;> first | exact Or.inl rfl | exact Or.inr rfl

/-- **C158 is false for thin sheets**: a block below the threshold which is one cell wide has the genus 1 instead of 0. -/
theorem C158_thin_false {K : Type} [LinearOrder K] (data : Cube K) (xth : K) (lo : Fin 3 → ℤ) (len : Fin 3 → ℕ)
    (hs : ∀ i, 1 < data.shape i) (hl : ∃ i, len i = 1)
    (h : ∀ x y z : ℤ, 0 ≤ x → x < data.shape 0 → 0 ≤ y → y < data.shape 1 → 0 ≤ z → z < data.shape 2 →
      (data.val x y z < xth ↔ InBlock data.shape lo len x y z)) : genus data xth = 1 := by
  have hnear := near_block data xth lo len (fun i => by have := hs i; omega) h
  have hz : ∀ w ∈ [steld, stele, stelf], bothPhases data.shape (fun x y z => decide (xth ≤ data.val x y z)) w = 0 := by
    intro w hw
    refine bothPhases_zero _ _ (List.mem_cons_of_mem _ hw) fun v hv p _ he => ?_
    rw [hnear] at he
    exact corner_ne hw hv _ _ _ he
  have hA : bothPhases data.shape (fun x y z => decide (xth ≤ data.val x y z)) stela = 0 := by
    refine bothPhases_zero _ _ (by simp) fun v hv p _ he => ?_
    obtain ⟨a, b, c, rfl, ha, hb, hc⟩ := stela_sides v hv
    have h1 : ∀ a : Fin 3 → Bool, (a = (fun i => decide (i < 2)) ∨ a = fun i => decide (i.rev < 2)) → a 1 = true := fun a ha => by
      rcases ha with rfl | rfl <;> rfl
    rw [hnear] at he
    obtain ⟨e0, e1, e2⟩ := corner_inj he (h1 a ha) (h1 b hb) (h1 c hc)
    obtain ⟨i, hi⟩ := hl
    have hne : ∀ x u, (u = (fun i => decide (i < 2)) ∨ u = fun i => decide (i.rev < 2)) →
        part (data.shape i) (lo i) (len i) x ≠ u := fun x u hu he => by
      rw [hi] at he
      have := thin_part (data.shape i) (lo i) (hs i) x
      rcases hu with h | h
      · exact this.1 (he.trans h)
      · exact this.2 (he.trans h)
    clear hi
    match i, hne with
    | 0, hne => exact hne _ _ ha e0
    | 1, hne => exact hne _ _ hb e1
    | 2, hne => exact hne _ _ hc e2
  unfold genus
  simp only []
  rw [hA, hz steld (by simp), hz stele (by simp), hz stelf (by simp)]
  norm_num

/-- An L-shaped hole, four cells long in both arms, two cells wide and two cells thick, in a box of 5 × 5 × 3 cells; the axis of its
thickness is the last one. -/
def ell : Cube ℤ := ⟨![5, 5, 3], fun x y z => if x < 4 ∧ y < 4 ∧ (x < 2 ∨ y < 2) ∧ z < 2 then 0 else 1⟩

/-- The same hole with the thickness along the middle axis. -/
def ell' : Cube ℤ := ⟨![5, 3, 5], fun x y z => if x < 4 ∧ z < 4 ∧ (x < 2 ∨ z < 2) ∧ y < 2 then 0 else 1⟩

/-- The number of cells with one of the neighbourhoods. -/
def matches' (s : Fin 3 → ℕ) (f : ℤ → ℤ → ℤ → Bool) (w : Stencil) : ℕ := ((orientations w).map fun v =>
  ((cells s).filter fun p => near s (fun x y z => !f x y z) p.1 p.2.1 p.2.2 = v).card).sum

theorem ell1 : [stela, steld, stele, stelf].map (matches' ell.shape fun x y z => decide (1 ≤ ell.val x y z)) = [10, 0, 0, 0] := by
  decide +kernel

theorem ell2 : [stela, steld, stele, stelf].map (matches' ell'.shape fun x y z => decide (1 ≤ ell'.val x y z)) = [10, 1, 0, 0] := by
  decide +kernel

theorem genus_of_matches {K : Type} [LinearOrder K] (data : Cube K) (xth : K) {a d e f : ℕ}
    (h : [stela, steld, stele, stelf].map (matches' data.shape fun x y z => decide (xth ≤ data.val x y z)) = [a, d, e, f]) :
    genus data xth = 1 + ((d : ℚ) + 2 * (e + f) - a) / 8 := by
  simp only [List.map_cons, List.map_nil, List.cons.injEq, and_true, matches'] at h
  obtain ⟨h1, h2, h3, h4⟩ := h
  unfold genus
  simp only []
  rw [bothPhases_eq _ _ (by simp), bothPhases_eq _ _ (by simp), bothPhases_eq _ _ (by simp), bothPhases_eq _ _ (by simp),
    h1, h2, h3, h4]

/-- **C158 is false for holes which are not blocks**: an L-shaped hole has the genus -1/4 or -1/8, depending on the axis of its
thickness, and not that of a sphere. -/
theorem C158_shape_false : genus ell 1 = -1/4 ∧ genus ell' 1 = -1/8 := by
  rw [genus_of_matches ell 1 ell1, genus_of_matches ell' 1 ell2]
  norm_num

/-! ## What holds for all cubes -/

theorem near_shift (s : Fin 3 → ℕ) (f g : ℤ → ℤ → ℤ → Bool) (d : Fin 3 → ℤ) (hs : ∀ i, 0 < s i)
    (h : ∀ x y z : ℤ, 0 ≤ x → x < s 0 → 0 ≤ y → y < s 1 → 0 ≤ z → z < s 2 →
      g x y z = f ((x + d 0) % s 0) ((y + d 1) % s 1) ((z + d 2) % s 2)) (x y z : ℤ) :
    near s g x y z = near s f ((x + d 0) % s 0) ((y + d 1) % s 1) ((z + d 2) % s 2) := by
  have hp : ∀ i, (0 : ℤ) < s i := fun i => Int.natCast_pos.2 (hs i)
  have e : ∀ (x d : ℤ) (n : ℕ) (i : Fin 3), ((x + 1 - i) % n + d) % n = ((x + d) % n + 1 - i) % n := by
    intro x d n i
    rw [Int.emod_add_emod, Int.add_sub_assoc ((x + d) % n), Int.emod_add_emod]
    congr 1
    ring
  funext i j k
  unfold near
  rw [h _ _ _ (Int.emod_nonneg _ (hp 0).ne') (Int.emod_lt_of_pos _ (hp 0)) (Int.emod_nonneg _ (hp 1).ne') (Int.emod_lt_of_pos _ (hp 1))
    (Int.emod_nonneg _ (hp 2).ne') (Int.emod_lt_of_pos _ (hp 2)), e, e, e]

theorem card_shift (s : Fin 3 → ℕ) (f g : ℤ → ℤ → ℤ → Bool) (d : Fin 3 → ℤ) (hs : ∀ i, 0 < s i)
    (h : ∀ x y z : ℤ, 0 ≤ x → x < s 0 → 0 ≤ y → y < s 1 → 0 ≤ z → z < s 2 →
      g x y z = f ((x + d 0) % s 0) ((y + d 1) % s 1) ((z + d 2) % s 2)) (v : Stencil) :
    ((cells s).filter fun p => near s g p.1 p.2.1 p.2.2 = v).card = ((cells s).filter fun p => near s f p.1 p.2.1 p.2.2 = v).card := by
  have hp : ∀ i, (0 : ℤ) < s i := fun i => Int.natCast_pos.2 (hs i)
  have hin : ∀ a b c : ℤ, (a % s 0, b % s 1, c % s 2) ∈ cells s := fun a b c => mem_cells.2
    ⟨⟨Int.emod_nonneg _ (hp 0).ne', Int.emod_lt_of_pos _ (hp 0)⟩, ⟨Int.emod_nonneg _ (hp 1).ne', Int.emod_lt_of_pos _ (hp 1)⟩,
      ⟨Int.emod_nonneg _ (hp 2).ne', Int.emod_lt_of_pos _ (hp 2)⟩⟩
  have hs' := near_shift s f g d hs h
  refine Finset.card_nbij' (fun p => ((p.1 + d 0) % s 0, (p.2.1 + d 1) % s 1, (p.2.2 + d 2) % s 2))
    (fun p => ((p.1 - d 0) % s 0, (p.2.1 - d 1) % s 1, (p.2.2 - d 2) % s 2)) ?_ ?_ ?_ ?_
  · intro p hp'
    rw [Finset.mem_coe, Finset.mem_filter] at hp' ⊢
    exact ⟨hin _ _ _, by rw [← hs']; exact hp'.2⟩
  · intro p hp'
    rw [Finset.mem_coe, Finset.mem_filter] at hp' ⊢
    refine ⟨hin _ _ _, ?_⟩
    obtain ⟨⟨a1, a2⟩, ⟨b1, b2⟩, ⟨c1, c2⟩⟩ := mem_cells.1 hp'.1
    rw [hs', Int.emod_add_emod, Int.emod_add_emod, Int.emod_add_emod, sub_add_cancel, sub_add_cancel, sub_add_cancel,
      Int.emod_eq_of_lt a1 a2, Int.emod_eq_of_lt b1 b2, Int.emod_eq_of_lt c1 c2]
    exact hp'.2
  · intro p hp'
    rw [Finset.mem_coe, Finset.mem_filter] at hp'
    obtain ⟨⟨a1, a2⟩, ⟨b1, b2⟩, ⟨c1, c2⟩⟩ := mem_cells.1 hp'.1
    simp only [Int.emod_sub_emod, add_sub_cancel_right]
    rw [Int.emod_eq_of_lt a1 a2, Int.emod_eq_of_lt b1 b2, Int.emod_eq_of_lt c1 c2]
  · intro p hp'
    rw [Finset.mem_coe, Finset.mem_filter] at hp'
    obtain ⟨⟨a1, a2⟩, ⟨b1, b2⟩, ⟨c1, c2⟩⟩ := mem_cells.1 hp'.1
    simp only [Int.emod_add_emod, sub_add_cancel]
    rw [Int.emod_eq_of_lt a1 a2, Int.emod_eq_of_lt b1 b2, Int.emod_eq_of_lt c1 c2]

/-- **C158, symmetries that hold.** The genus depends only on which cells reach the threshold and is not changed by a shift of the
periodic box. -/
theorem C158_shift {K K' : Type} [LinearOrder K] [LinearOrder K'] (data : Cube K) (data' : Cube K') (xth : K) (xth' : K')
    (d : Fin 3 → ℤ) (hs : data'.shape = data.shape) (hp : ∀ i, 0 < data.shape i)
    (h : ∀ x y z : ℤ, 0 ≤ x → x < data.shape 0 → 0 ≤ y → y < data.shape 1 → 0 ≤ z → z < data.shape 2 →
      (xth' ≤ data'.val x y z ↔ xth ≤ data.val ((x + d 0) % data.shape 0) ((y + d 1) % data.shape 1) ((z + d 2) % data.shape 2))) :
    genus data' xth' = genus data xth := by
  have hb : ∀ w ∈ [stela, steld, stele, stelf], bothPhases data'.shape (fun x y z => decide (xth' ≤ data'.val x y z)) w =
      bothPhases data.shape (fun x y z => decide (xth ≤ data.val x y z)) w := by
    intro w hw
    rw [bothPhases_eq _ _ hw, bothPhases_eq _ _ hw, hs]
    congr 1
    refine List.map_congr_left fun v _ => card_shift _ _ _ d hp (fun x y z a1 a2 b1 b2 c1 c2 => ?_) v
    simp only [h x y z a1 a2 b1 b2 c1 c2]
  unfold genus
  simp only []
  rw [hb stela (by simp), hb steld (by simp), hb stele (by simp), hb stelf (by simp)]

/-- **C158, no surface.** -/
theorem C158_uniform {K : Type} [LinearOrder K] (data : Cube K) (xth : K) (_hp : ∀ i, 0 < data.shape i)
    (h : (∀ x y z : ℤ, xth ≤ data.val x y z) ∨ ∀ x y z : ℤ, data.val x y z < xth) : genus data xth = 1 := by
  have hb : ∀ w ∈ [stela, steld, stele, stelf], bothPhases data.shape (fun x y z => decide (xth ≤ data.val x y z)) w = 0 := by
    intro w hw
    refine bothPhases_zero _ _ hw fun v hv p _ he => ?_
    rcases h with h | h
    · refine outside_ne hw hv (fun _ => true) (fun _ => true) (fun _ => true) ?_
      rw [← he]
      funext i j k
      simp [near, corner, h]
    · refine outside_ne hw hv (fun _ => false) (fun _ => false) (fun _ => false) ?_
      rw [← he]
      funext i j k
      simp [near, corner, h]
  unfold genus
  simp only []
  rw [hb stela (by simp), hb steld (by simp), hb stele (by simp), hb stelf (by simp)]
  norm_num

/-! ## Examples -/

/-- A hole of 3 × 2 × 4 cells across the edges of a box of 6 × 5 × 7 cells. -/
noncomputable def hole : Cube ℚ :=
  open Classical in ⟨![6, 5, 7], fun x y z => if InBlock ![6, 5, 7] ![5, 4, 2] ![3, 2, 4] x y z then 0 else 1⟩

example : genus hole (1 / 2) = 0 :=
  C158_partial hole (1 / 2) ![5, 4, 2] ![3, 2, 4] (by simp [Fin.forall_fin_succ, hole]) fun x y z _ _ _ _ _ _ => by
    by_cases h : InBlock ![6, 5, 7] ![5, 4, 2] ![3, 2, 4] x y z
    · simp [hole, h]
    · simp [hole, h]; norm_num

/-- The bubble of the same shape. -/
noncomputable def bubble : Cube ℚ := ⟨![6, 5, 7], fun x y z => 1 - hole.val x y z⟩

example : genus bubble (1 / 2) = 1 :=
  C158_false bubble (1 / 2) ![5, 4, 2] ![3, 2, 4] (by simp [Fin.forall_fin_succ, bubble]) fun x y z _ _ _ _ _ _ => by
    by_cases h : InBlock ![6, 5, 7] ![5, 4, 2] ![3, 2, 4] x y z
    · simp [bubble, hole, h]; norm_num
    · simp [bubble, hole, h]

end Verif.Genus
