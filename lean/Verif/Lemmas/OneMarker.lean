import Verif.Lemmas.CubeMapJoblib
/-! Helper lemmas: the passes of `CubeMap` with one marker for all kinds of cells. -/

namespace Verif.CubeMap

/-- A position of the doubled box all of whose data cells are occupied. -/
def Full (s : Shape) (A : Idx → Bool) (p : Idx) : Prop := p ∈ cells s.dbl ∧ occ s A p = true

theorem occ_iff {s : Shape} {A : Idx → Bool} {p : Idx} :
    occ s A p = true ↔ ∀ a ∈ corners p.1 s.nx, ∀ b ∈ corners p.2.1 s.ny, ∀ c ∈ corners p.2.2 s.nz, A (a, b, c) = true := by
  simp [occ]

theorem corners_cover {n x a : Nat} (hx : x < 2 * n) (h : a ∈ corners x n) : a ∈ corners (dec x (2 * n)) n ∨ a ∈ corners (inc x (2 * n)) n := by
  rcases even_or_odd x with ⟨b, rfl⟩ | ⟨b, rfl⟩
  · have hb : b < n := even_lt.1 hx
    right
    rw [inc_even hb]
    unfold corners at h ⊢
    rw [even_mod, if_pos rfl, even_div] at h
    rw [odd_mod, if_neg (by decide), odd_div]
    simp_all
  · have hb : b < n := odd_lt.1 hx
    rw [dec_odd hb, inc_odd]
    unfold corners at h ⊢
    rw [odd_mod, if_neg (by decide), odd_div] at h
    rw [even_mod, even_mod, if_pos rfl, if_pos rfl, even_div, even_div]
    simp_all

theorem dec_lt {n x : Nat} (hx : x < 2 * n) : dec x (2 * n) < 2 * n := by
  have h : (0 : Int) < ((2 * n : Nat) : Int) := by omega
  have h1 := Int.emod_lt_of_pos ((x : Int) - 1) h
  have h2 := Int.emod_nonneg ((x : Int) - 1) h.ne'
  unfold dec
  omega

theorem inc_lt {n x : Nat} (hx : x < 2 * n) : inc x (2 * n) < 2 * n := Nat.mod_lt _ (by omega)

theorem corners_odd {n x : Nat} (hx : x < 2 * n) (h : x % 2 = 1) : (∀ a ∈ corners (dec x (2 * n)) n, a ∈ corners x n) ∧
    (∀ a ∈ corners (inc x (2 * n)) n, a ∈ corners x n) ∧ dec x (2 * n) % 2 = 0 ∧ inc x (2 * n) % 2 = 0 := by
  rcases even_or_odd x with ⟨b, rfl⟩ | ⟨b, rfl⟩
  · rw [even_mod] at h; cases h
  · have hb : b < n := odd_lt.1 hx
    rw [dec_odd hb, inc_odd]
    simp [corners]
    simp [Nat.mul_add_div]

theorem full_x {s : Shape} {A : Idx → Bool} {p : Idx} (hp : p ∈ cells s.dbl) (h1 : Full s A (xm s.dbl p)) (h2 : Full s A (xp s.dbl p)) : Full s A p := by
  have hb := mem_cells.1 hp
  refine ⟨hp, occ_iff.2 fun a ha b hb' c hc => ?_⟩
  rcases corners_cover hb.1 ha with h | h
  · exact occ_iff.1 h1.2 a h b hb' c hc
  · exact occ_iff.1 h2.2 a h b hb' c hc

theorem full_y {s : Shape} {A : Idx → Bool} {p : Idx} (hp : p ∈ cells s.dbl) (h1 : Full s A (ym s.dbl p)) (h2 : Full s A (yp s.dbl p)) : Full s A p := by
  have hb := mem_cells.1 hp
  refine ⟨hp, occ_iff.2 fun a ha b hb' c hc => ?_⟩
  rcases corners_cover hb.2.1 hb' with h | h
  · exact occ_iff.1 h1.2 a ha b h c hc
  · exact occ_iff.1 h2.2 a ha b h c hc

theorem full_z {s : Shape} {A : Idx → Bool} {p : Idx} (hp : p ∈ cells s.dbl) (h1 : Full s A (zm s.dbl p)) (h2 : Full s A (zp s.dbl p)) : Full s A p := by
  have hb := mem_cells.1 hp
  refine ⟨hp, occ_iff.2 fun a ha b hb' c hc => ?_⟩
  rcases corners_cover hb.2.2 hc with h | h
  · exact occ_iff.1 h1.2 a ha b hb' c h
  · exact occ_iff.1 h2.2 a ha b hb' c h

/-- Positions that the passes before have marked. -/
def Must (s : Shape) (A : Idx → Bool) (t : Nat) (p : Idx) : Prop := Full s A p ∧ odd p ≤ t

theorem must_x {s : Shape} {A : Idx → Bool} {t : Nat} {p : Idx} (h : Full s A p) (ho : odd p = t + 1) (hx : p.1 % 2 = 1) :
    Must s A t (xm s.dbl p) ∧ Must s A t (xp s.dbl p) := by
  have hb := mem_cells.1 h.1
  obtain ⟨h1, h2, h3, h4⟩ := corners_odd hb.1 hx
  have hocc := occ_iff.1 h.2
  unfold odd at ho
  refine ⟨⟨⟨mem_cells.2 ⟨dec_lt hb.1, hb.2⟩, occ_iff.2 fun a ha => hocc a (h1 a ha)⟩, ?_⟩,
    ⟨⟨mem_cells.2 ⟨inc_lt hb.1, hb.2⟩, occ_iff.2 fun a ha => hocc a (h2 a ha)⟩, ?_⟩⟩
  · show dec p.1 (2 * s.nx) % 2 + p.2.1 % 2 + p.2.2 % 2 ≤ t; omega
  · show inc p.1 (2 * s.nx) % 2 + p.2.1 % 2 + p.2.2 % 2 ≤ t; omega

theorem must_y {s : Shape} {A : Idx → Bool} {t : Nat} {p : Idx} (h : Full s A p) (ho : odd p = t + 1) (hy : p.2.1 % 2 = 1) :
    Must s A t (ym s.dbl p) ∧ Must s A t (yp s.dbl p) := by
  have hb := mem_cells.1 h.1
  obtain ⟨h1, h2, h3, h4⟩ := corners_odd hb.2.1 hy
  have hocc := occ_iff.1 h.2
  unfold odd at ho
  refine ⟨⟨⟨mem_cells.2 ⟨hb.1, dec_lt hb.2.1, hb.2.2⟩, occ_iff.2 fun a ha b hb' => hocc a ha b (h1 b hb')⟩, ?_⟩,
    ⟨⟨mem_cells.2 ⟨hb.1, inc_lt hb.2.1, hb.2.2⟩, occ_iff.2 fun a ha b hb' => hocc a ha b (h2 b hb')⟩, ?_⟩⟩
  · show p.1 % 2 + dec p.2.1 (2 * s.ny) % 2 + p.2.2 % 2 ≤ t; omega
  · show p.1 % 2 + inc p.2.1 (2 * s.ny) % 2 + p.2.2 % 2 ≤ t; omega

theorem must_z {s : Shape} {A : Idx → Bool} {t : Nat} {p : Idx} (h : Full s A p) (ho : odd p = t + 1) (hz : p.2.2 % 2 = 1) :
    Must s A t (zm s.dbl p) ∧ Must s A t (zp s.dbl p) := by
  have hb := mem_cells.1 h.1
  obtain ⟨h1, h2, h3, h4⟩ := corners_odd hb.2.2 hz
  have hocc := occ_iff.1 h.2
  unfold odd at ho
  refine ⟨⟨⟨mem_cells.2 ⟨hb.1, hb.2.1, dec_lt hb.2.2⟩, occ_iff.2 fun a ha b hb' c hc => hocc a ha b hb' c (h1 c hc)⟩, ?_⟩,
    ⟨⟨mem_cells.2 ⟨hb.1, hb.2.1, inc_lt hb.2.2⟩, occ_iff.2 fun a ha b hb' c hc => hocc a ha b hb' c (h2 c hc)⟩, ?_⟩⟩
  · show p.1 % 2 + p.2.1 % 2 + dec p.2.2 (2 * s.nz) % 2 ≤ t; omega
  · show p.1 % 2 + p.2.1 % 2 + inc p.2.2 (2 * s.nz) % 2 ≤ t; omega

/-- The array between two passes: ones on full positions only, and on all of those with at most `t` odd coordinates. -/
def Between (s : Shape) (A : Idx → Bool) (t : Nat) (m : Mem) : Prop :=
  (∀ q, m q = 0 ∨ (m q = 1 ∧ Full s A q)) ∧ ∀ q, Must s A t q → m q = 1

/-- A test that finds full positions only, and all that are due in the next pass. -/
def Sharp (s : Shape) (A : Idx → Bool) (t : Nat) (test : Mem → Idx → Bool) : Prop :=
  ∀ m, Between s A t m → ∀ p ∈ cells s.dbl, (test m p = true → Full s A p) ∧ (Full s A p → odd p = t + 1 → test m p = true)

theorem full_of_one {s : Shape} {A : Idx → Bool} {t : Nat} {m : Mem} (hm : Between s A t m) {q : Idx} (h : m q = 1) : Full s A q := by
  rcases hm.1 q with h' | h'
  · rw [h] at h'; cases h'
  · exact h'.2

theorem edge_sharp (s : Shape) (A : Idx → Bool) : Sharp s A 0 (edgeTest s.dbl 1) := by
  intro m hm p hp
  simp only [edgeTest, Bool.or_eq_true, bothX_iff, bothY_iff, bothZ_iff]
  constructor
  · rintro ((⟨a, b⟩ | ⟨a, b⟩) | ⟨a, b⟩)
    · exact full_x hp (full_of_one hm a) (full_of_one hm b)
    · exact full_y hp (full_of_one hm a) (full_of_one hm b)
    · exact full_z hp (full_of_one hm a) (full_of_one hm b)
  · intro hf ho
    have : p.1 % 2 = 1 ∨ p.2.1 % 2 = 1 ∨ p.2.2 % 2 = 1 := by unfold odd at ho; omega
    rcases this with h | h | h
    · have := must_x hf ho h; exact Or.inl (Or.inl ⟨hm.2 _ this.1, hm.2 _ this.2⟩)
    · have := must_y hf ho h; exact Or.inl (Or.inr ⟨hm.2 _ this.1, hm.2 _ this.2⟩)
    · have := must_z hf ho h; exact Or.inr ⟨hm.2 _ this.1, hm.2 _ this.2⟩

theorem face_sharp (s : Shape) (A : Idx → Bool) : Sharp s A 1 (faceTest s.dbl 1) := by
  intro m hm p hp
  simp only [faceTest, Bool.or_eq_true, Bool.and_eq_true, bothX_iff, bothY_iff, bothZ_iff]
  constructor
  · rintro ((⟨⟨a, b⟩, -⟩ | ⟨⟨a, b⟩, -⟩) | ⟨⟨a, b⟩, -⟩)
    · exact full_x hp (full_of_one hm a) (full_of_one hm b)
    · exact full_y hp (full_of_one hm a) (full_of_one hm b)
    · exact full_z hp (full_of_one hm a) (full_of_one hm b)
  · intro hf ho
    have x := fun h => (fun q : _ ∧ _ => (⟨hm.2 _ q.1, hm.2 _ q.2⟩ : _ ∧ _)) (must_x hf ho h)
    have y := fun h => (fun q : _ ∧ _ => (⟨hm.2 _ q.1, hm.2 _ q.2⟩ : _ ∧ _)) (must_y hf ho h)
    have z := fun h => (fun q : _ ∧ _ => (⟨hm.2 _ q.1, hm.2 _ q.2⟩ : _ ∧ _)) (must_z hf ho h)
    have : (p.1 % 2 = 1 ∧ p.2.1 % 2 = 1) ∨ (p.2.1 % 2 = 1 ∧ p.2.2 % 2 = 1) ∨ (p.2.2 % 2 = 1 ∧ p.1 % 2 = 1) := by unfold odd at ho; omega
    rcases this with h | h | h
    · exact Or.inl (Or.inl ⟨x h.1, y h.2⟩)
    · exact Or.inl (Or.inr ⟨y h.1, z h.2⟩)
    · exact Or.inr ⟨z h.1, x h.2⟩

theorem cube_sharp (s : Shape) (A : Idx → Bool) : Sharp s A 2 (cubeTest s.dbl 1) := by
  intro m hm p hp
  simp only [cubeTest, Bool.and_eq_true, bothX_iff, bothY_iff, bothZ_iff]
  constructor
  · rintro ⟨⟨⟨a, b⟩, -⟩, -⟩
    exact full_x hp (full_of_one hm a) (full_of_one hm b)
  · intro hf ho
    have h : p.1 % 2 = 1 ∧ p.2.1 % 2 = 1 ∧ p.2.2 % 2 = 1 := by unfold odd at ho; omega
    have x := must_x hf ho h.1
    have y := must_y hf ho h.2.1
    have z := must_z hf ho h.2.2
    exact ⟨⟨⟨hm.2 _ x.1, hm.2 _ x.2⟩, hm.2 _ y.1, hm.2 _ y.2⟩, hm.2 _ z.1, hm.2 _ z.2⟩

/-- One visit keeps what is known, and what is marked. -/
theorem stepOf_between {s : Shape} {A : Idx → Bool} {t : Nat} {test : Mem → Idx → Bool} (hs : Sharp s A t test) {m : Mem} (hm : Between s A t m)
    {p : Idx} (hp : p ∈ cells s.dbl) : Between s A t (stepOf test 1 m p) ∧ (∀ q, m q = 1 → stepOf test 1 m p q = 1) ∧
      (Full s A p → odd p = t + 1 → stepOf test 1 m p p = 1) := by
  unfold stepOf
  by_cases h : m p = 0 ∧ test m p = true
  · rw [if_pos h]
    have hf := (hs m hm p hp).1 h.2
    have hset : ∀ q, m q = 1 → set m p 1 q = 1 := fun q hq => by unfold set; split_ifs <;> [rfl; exact hq]
    refine ⟨⟨fun q => ?_, fun q hq => hset q (hm.2 q hq)⟩, hset, fun _ _ => by simp [set]⟩
    unfold set
    split_ifs with hq
    · exact Or.inr ⟨rfl, hq ▸ hf⟩
    · exact hm.1 q
  · rw [if_neg h]
    refine ⟨hm, fun q hq => hq, fun hf ho => ?_⟩
    rcases hm.1 p with h0 | h1
    · exact absurd ⟨h0, (hs m hm p hp).2 hf ho⟩ h
    · exact h1.1

theorem foldl_between {s : Shape} {A : Idx → Bool} {t : Nat} {test : Mem → Idx → Bool} (hs : Sharp s A t test) : ∀ (l : List Idx), (∀ p ∈ l, p ∈ cells s.dbl) →
    ∀ m, Between s A t m → Between s A t (l.foldl (stepOf test 1) m) ∧ (∀ q, m q = 1 → l.foldl (stepOf test 1) m q = 1) ∧
      ∀ q ∈ l, Full s A q → odd q = t + 1 → l.foldl (stepOf test 1) m q = 1 := by
  intro l
  induction l with
  | nil => intro _ m hm; exact ⟨hm, fun q h => h, fun q hq => by simp at hq⟩
  | cons p l ih =>
    intro hl m hm
    obtain ⟨h1, h2, h3⟩ := stepOf_between hs hm (hl p (List.mem_cons_self ..))
    obtain ⟨h4, h5, h6⟩ := ih (fun q h => hl q (List.mem_cons_of_mem _ h)) _ h1
    refine ⟨h4, fun q hq => h5 q (h2 q hq), fun q hq hf ho => ?_⟩
    rcases List.mem_cons.1 hq with rfl | hq
    · exact h5 q (h3 hf ho)
    · exact h6 q hq hf ho

/-- A pass of the loops. -/
theorem pass_between {s : Shape} {A : Idx → Bool} {t : Nat} {test : Mem → Idx → Bool} (hs : Sharp s A t test) {m : Mem} (hm : Between s A t m) :
    Between s A (t + 1) ((cells s.dbl).foldl (stepOf test 1) m) := by
  obtain ⟨h1, h2, h3⟩ := foldl_between hs (cells s.dbl) (fun p h => h) m hm
  refine ⟨h1.1, fun q hq => ?_⟩
  by_cases ho : odd q ≤ t
  · exact h1.2 q ⟨hq.1, ho⟩
  · exact h3 q hq.1.1 hq.1 (by have := hq.2; omega)

/-- A pass of the simultaneous updates. -/
theorem torch_between {s : Shape} {A : Idx → Bool} {t : Nat} {test : Mem → Idx → Bool} (hs : Sharp s A t test) {m : Mem} (hm : Between s A t m) :
    Between s A (t + 1) (torchStage s.dbl (test m) 1 m) := by
  unfold torchStage
  refine ⟨fun q => ?_, fun q hq => ?_⟩
  · dsimp only
    split_ifs with h
    · exact Or.inr ⟨rfl, (hs m hm q h.1).1 h.2.2⟩
    · exact hm.1 q
  · dsimp only
    split_ifs with h
    · rfl
    · by_cases ho : odd q ≤ t
      · exact hm.2 q ⟨hq.1, ho⟩
      · rcases hm.1 q with h0 | h1
        · exact absurd ⟨hq.1.1, h0, (hs m hm q hq.1.1).2 hq.1 (by have := hq.2; omega)⟩ h
        · exact h1.1

theorem between_vertices (s : Shape) (A : Idx → Bool) {m : Mem}
    (h : ∀ q, m q = if ∃ p ∈ cells s, A p = true ∧ q = (p.1 * 2, p.2.1 * 2, p.2.2 * 2) then 1 else 0) : Between s A 0 m := by
  have hm : m = mark 0 s A := by funext q; rw [h q]; exact vertex_char s A _ (fun _ => Iff.rfl) q
  subst hm
  refine ⟨fun q => ?_, fun q hq => ?_⟩
  · unfold mark
    split_ifs with hc
    · exact Or.inr ⟨by omega, mem_cells.2 hc.1, hc.2.2⟩
    · exact Or.inl rfl
  · have := hq.2
    unfold mark
    rw [if_pos ⟨mem_cells.1 hq.1.1, hq.2, hq.1.2⟩]
    omega

theorem between_final {s : Shape} {A : Idx → Bool} {m : Mem} (h : Between s A 3 m) (q : Idx) : (Full s A q → m q = 1) ∧ (¬Full s A q → m q = 0) := by
  refine ⟨fun hf => h.2 q ⟨hf, by unfold odd; omega⟩, fun hf => ?_⟩
  rcases h.1 q with h0 | h1
  · exact h0
  · exact absurd h1.2 hf

theorem between_ext {s : Shape} {A : Idx → Bool} {m m' : Mem} (h : Between s A 3 m) (h' : Between s A 3 m') : m = m' := by
  funext q
  by_cases hf : Full s A q
  · rw [(between_final h q).1 hf, (between_final h' q).1 hf]
  · rw [(between_final h q).2 hf, (between_final h' q).2 hf]

theorem cubeMap_one (s : Shape) (A : Idx → Bool) : Between s A 3 (cubeMap false s A) := by
  unfold cubeMap markers
  simp only [Bool.false_eq_true, if_false]
  rw [edgeStep_eq, faceStep_eq, cubeStep_eq]
  refine pass_between (cube_sharp s A) (pass_between (face_sharp s A) (pass_between (edge_sharp s A) (between_vertices s A fun q => ?_)))
  rw [foldl_vertexStep]

theorem cubeMapTorch_one (s : Shape) (A : Idx → Bool) : Between s A 3 (cubeMapTorch false s A) := by
  unfold cubeMapTorch markers
  simp only [Bool.false_eq_true, if_false, rollBoth_zero, rollBoth_one, rollBoth_two]
  refine torch_between (cube_sharp s A) (torch_between (face_sharp s A) (torch_between (edge_sharp s A) (between_vertices s A fun q => ?_)))
  apply if_congr _ rfl rfl
  simp only [List.mem_map, List.mem_filter]
  constructor
  · rintro ⟨p, ⟨h, h'⟩, rfl⟩; exact ⟨p, h, h', rfl⟩
  · rintro ⟨p, h, h', rfl⟩; exact ⟨p, ⟨h, h'⟩, rfl⟩

/-! ### Workers -/

/-- `Fine s A t p R`: whatever the reads find that is possible during pass `t + 1`, the program writes ones on full positions only, and when it stops every position of `R`
has been seen to be marked, or was marked by it. -/
def Fine (s : Shape) (A : Idx → Bool) (t : Nat) : Prog → (Idx → Prop) → Prop
  | .halt, R => ∀ q, ¬R q
  | .read a k, R => (¬Must s A t a → Fine s A t (k 0) R) ∧ (Full s A a → Fine s A t (k 1) fun q => R q ∧ q ≠ a)
  | .write a v k, R => v = 1 ∧ Full s A a ∧ Fine s A t k fun q => R q ∧ q ≠ a

theorem Fine.mono {s : Shape} {A : Idx → Bool} {t : Nat} : ∀ {p : Prog} {R R' : Idx → Prop}, Fine s A t p R → (∀ q, R' q → R q) → Fine s A t p R'
  | .halt, _, _, h, hr => fun q hq => h q (hr q hq)
  | .read _ _, _, _, h, hr => ⟨fun hm => (h.1 hm).mono hr, fun hf => (h.2 hf).mono fun q hq => ⟨hr q hq.1, hq.2⟩⟩
  | .write _ _ _, _, _, h, hr => ⟨h.1, h.2.1, h.2.2.mono fun q hq => ⟨hr q hq.1, hq.2⟩⟩

/-- Run invariant. -/
def RunInv (s : Shape) (A : Idx → Bool) (t : Nat) (c : Config) : Prop :=
  Between s A t c.mem ∧ ∃ Rs : List (Idx → Prop), List.Forall₂ (Fine s A t) c.procs Rs ∧ ∀ q, Must s A (t + 1) q → c.mem q ≠ 1 → ∃ R ∈ Rs, R q

theorem RunInv.step {s : Shape} {A : Idx → Bool} {t : Nat} {c d : Config} (hc : RunInv s A t c) (h : Step c d) : RunInv s A t d := by
  obtain ⟨hb, Rs, hg, hr⟩ := hc
  cases h with
  | read m0 before after a k =>
    refine ⟨hb, ?_⟩
    dsimp only at hg hr hb ⊢
    obtain ⟨R1, R2, h1, h2, rfl⟩ := forall₂_append_left hg
    cases h2 with
    | @cons _ R _ R3 hgood h3 =>
    rcases hb.1 a with hva | ⟨hva, hfa⟩
    · refine ⟨R1 ++ R :: R3, ?_, hr⟩
      rw [hva]
      refine List.rel_append h1 (List.Forall₂.cons (hgood.1 fun hm => ?_) h3)
      have := hb.2 a hm
      rw [hva] at this; cases this
    · refine ⟨R1 ++ (fun q => R q ∧ q ≠ a) :: R3, ?_, ?_⟩
      · rw [hva]; exact List.rel_append h1 (List.Forall₂.cons (hgood.2 hfa) h3)
      · intro q hm hq
        obtain ⟨R', hR', hq'⟩ := hr q hm hq
        have hqa : q ≠ a := by rintro rfl; exact hq hva
        simp only [List.mem_append, List.mem_cons] at hR' ⊢
        rcases hR' with h | rfl | h
        · exact ⟨R', Or.inl h, hq'⟩
        · exact ⟨_, Or.inr (Or.inl rfl), hq', hqa⟩
        · exact ⟨R', Or.inr (Or.inr h), hq'⟩
  | write m0 before after a v k =>
    dsimp only at hg hr hb ⊢
    obtain ⟨R1, R2, h1, h2, rfl⟩ := forall₂_append_left hg
    cases h2 with
    | @cons _ R _ R3 hgood h3 =>
    obtain ⟨rfl, hfa, hk⟩ := hgood
    refine ⟨⟨fun q => ?_, fun q hq => ?_⟩, R1 ++ (fun q => R q ∧ q ≠ a) :: R3, List.rel_append h1 (List.Forall₂.cons hk h3), ?_⟩
    · by_cases hq : q = a
      · right; subst hq; exact ⟨by simp [set], hfa⟩
      · simpa [set, hq] using hb.1 q
    · by_cases hqa : q = a
      · simp [set, hqa]
      · simpa [set, hqa] using hb.2 q hq
    · intro q hm hq
      have hqa : q ≠ a := by rintro rfl; exact hq (by simp [set])
      have hq0 : m0 q ≠ 1 := by simpa [set, hqa] using hq
      obtain ⟨R', hR', hq'⟩ := hr q hm hq0
      simp only [List.mem_append, List.mem_cons] at hR' ⊢
      rcases hR' with h | rfl | h
      · exact ⟨R', Or.inl h, hq'⟩
      · exact ⟨_, Or.inr (Or.inl rfl), hq', hqa⟩
      · exact ⟨R', Or.inr (Or.inr h), hq'⟩

theorem RunInv.steps {s : Shape} {A : Idx → Bool} {t : Nat} {c d : Config} (h : Steps c d) : RunInv s A t c → RunInv s A t d := by
  induction h with
  | refl c => exact id
  | head h _ ih => exact fun hc => ih (hc.step h)

theorem RunInv.final {s : Shape} {A : Idx → Bool} {t : Nat} {c : Config} (hc : RunInv s A t c) (hd : c.done) : Between s A (t + 1) c.mem := by
  obtain ⟨hb, Rs, hg, hr⟩ := hc
  refine ⟨hb.1, fun q hm => ?_⟩
  by_contra hq
  obtain ⟨R, hR, hRq⟩ := hr q hm hq
  have hhalt : ∀ (ps : List Prog) (Rs : List (Idx → Prop)), List.Forall₂ (Fine s A t) ps Rs →
      (∀ p ∈ ps, p = .halt) → ∀ R ∈ Rs, Fine s A t .halt R := by
    intro ps Rs h
    induction h with
    | nil => simp
    | cons h1 _ ih =>
      intro hp R hR
      rcases List.mem_cons.1 hR with rfl | hR
      · have := hp _ (List.mem_cons_self ..); rw [this] at h1; exact h1
      · exact ih (fun p h => hp p (List.mem_cons_of_mem _ h)) R hR
  exact hhalt _ _ hg hd R hR q hRq

/-- Both neighbours. -/
theorem Fine.both {s : Shape} {A : Idx → Bool} {t : Nat} {a b : Idx} {yes no : Prog} {R : Idx → Prop}
    (hy : Full s A a → Full s A b → Fine s A t yes R) (hn : ¬(Must s A t a ∧ Must s A t b) → Fine s A t no R) : Fine s A t (Prog.both 1 a b yes no) R := by
  unfold Prog.both
  refine ⟨fun hm => ?_, fun hf => ?_⟩
  · beta_reduce
    rw [if_neg (show ¬(0 : Nat) = 1 by decide)]
    exact hn fun h => hm h.1
  · beta_reduce
    rw [if_pos rfl]
    refine ⟨fun hm => ?_, fun hf' => ?_⟩
    · beta_reduce
      rw [if_neg (show ¬(0 : Nat) = 1 by decide)]
      exact (hn fun h => hm h.2).mono fun q h => h.1
    · beta_reduce
      rw [if_pos rfl]
      exact (hy hf hf').mono fun q h => h.1.1

/-- A pass over cells, given what is done with one of them. -/
theorem Fine.pass {s : Shape} {A : Idx → Bool} {t : Nat} (prog : List Idx → Prog) (h0 : prog [] = .halt)
    (hc : ∀ p ∈ cells s.dbl, ∀ l (R : Idx → Prop), (∀ R' : Idx → Prop, (∀ q, R' q → R q) → (R' p → ¬(Full s A p ∧ odd p = t + 1)) → Fine s A t (prog l) R') →
      Fine s A t (prog (p :: l)) R) : ∀ (l : List Idx), (∀ p ∈ l, p ∈ cells s.dbl) →
      ∀ R : Idx → Prop, (∀ q, R q → q ∈ l ∧ Full s A q ∧ odd q = t + 1) → Fine s A t (prog l) R := by
  intro l
  induction l with
  | nil => intro _ R hR; rw [h0]; intro q hq; simpa using (hR q hq).1
  | cons p l ih =>
    intro hl R hR
    refine hc p (hl p (List.mem_cons_self ..)) l R fun R' h1 h2 => ?_
    refine ih (fun q h => hl q (List.mem_cons_of_mem _ h)) R' fun q hq => ?_
    have := hR q (h1 q hq)
    rcases List.mem_cons.1 this.1 with rfl | h
    · exact absurd this.2 (h2 hq)
    · exact ⟨h, this.2⟩

theorem Fine.edge {s : Shape} {A : Idx → Bool} : ∀ (l : List Idx), (∀ p ∈ l, p ∈ cells s.dbl) →
    ∀ R : Idx → Prop, (∀ q, R q → q ∈ l ∧ Full s A q ∧ odd q = 0 + 1) → Fine s A 0 (edgeProg ⟨1, 1, 1, 1⟩ s.dbl l) R := by
  refine Fine.pass (edgeProg ⟨1, 1, 1, 1⟩ s.dbl) rfl fun p hp l R rest => ?_
  have hit : Full s A p → Fine s A 0 (.write p 1 (edgeProg ⟨1, 1, 1, 1⟩ s.dbl l)) R :=
    fun hf => ⟨rfl, hf, rest _ (fun q h => h.1) fun h => absurd rfl h.2⟩
  refine ⟨fun hm => ?_, fun hf => ?_⟩
  · beta_reduce
    rw [if_pos rfl]
    refine Fine.both (fun a b => hit (full_x hp a b)) fun hx => Fine.both (fun a b => hit (full_y hp a b)) fun hy =>
      Fine.both (fun a b => hit (full_z hp a b)) fun hz => rest R (fun _ h => h) ?_
    rintro - ⟨hf, ho⟩
    have : p.1 % 2 = 1 ∨ p.2.1 % 2 = 1 ∨ p.2.2 % 2 = 1 := by unfold odd at ho; omega
    rcases this with h | h | h
    · exact hx (must_x hf ho h)
    · exact hy (must_y hf ho h)
    · exact hz (must_z hf ho h)
  · beta_reduce
    rw [if_neg (show ¬(1 : Nat) = 0 by decide)]
    exact rest _ (fun q h => h.1) fun h => absurd rfl h.2

theorem Fine.face {s : Shape} {A : Idx → Bool} : ∀ (l : List Idx), (∀ p ∈ l, p ∈ cells s.dbl) →
    ∀ R : Idx → Prop, (∀ q, R q → q ∈ l ∧ Full s A q ∧ odd q = 1 + 1) → Fine s A 1 (faceProg ⟨1, 1, 1, 1⟩ s.dbl l) R := by
  refine Fine.pass (faceProg ⟨1, 1, 1, 1⟩ s.dbl) rfl fun p hp l R rest => ?_
  have hit : Full s A p → Fine s A 1 (.write p 1 (faceProg ⟨1, 1, 1, 1⟩ s.dbl l)) R :=
    fun hf => ⟨rfl, hf, rest _ (fun q h => h.1) fun h => absurd rfl h.2⟩
  have fin : ¬((Must s A 1 (xm s.dbl p) ∧ Must s A 1 (xp s.dbl p)) ∧ (Must s A 1 (ym s.dbl p) ∧ Must s A 1 (yp s.dbl p))) →
      ¬((Must s A 1 (ym s.dbl p) ∧ Must s A 1 (yp s.dbl p)) ∧ (Must s A 1 (zm s.dbl p) ∧ Must s A 1 (zp s.dbl p))) →
      ¬((Must s A 1 (zm s.dbl p) ∧ Must s A 1 (zp s.dbl p)) ∧ (Must s A 1 (xm s.dbl p) ∧ Must s A 1 (xp s.dbl p))) →
      Fine s A 1 (faceProg ⟨1, 1, 1, 1⟩ s.dbl l) R := by
    intro h1 h2 h3
    refine rest R (fun _ h => h) ?_
    rintro - ⟨hf, ho⟩
    have : (p.1 % 2 = 1 ∧ p.2.1 % 2 = 1) ∨ (p.2.1 % 2 = 1 ∧ p.2.2 % 2 = 1) ∨ (p.2.2 % 2 = 1 ∧ p.1 % 2 = 1) := by unfold odd at ho; omega
    rcases this with h | h | h
    · exact h1 ⟨must_x hf ho h.1, must_y hf ho h.2⟩
    · exact h2 ⟨must_y hf ho h.1, must_z hf ho h.2⟩
    · exact h3 ⟨must_z hf ho h.1, must_x hf ho h.2⟩
  refine ⟨fun hm => ?_, fun hf => ?_⟩
  · beta_reduce
    rw [if_pos rfl]
    have third : ¬((Must s A 1 (xm s.dbl p) ∧ Must s A 1 (xp s.dbl p)) ∧ (Must s A 1 (ym s.dbl p) ∧ Must s A 1 (yp s.dbl p))) →
        ¬((Must s A 1 (ym s.dbl p) ∧ Must s A 1 (yp s.dbl p)) ∧ (Must s A 1 (zm s.dbl p) ∧ Must s A 1 (zp s.dbl p))) →
        Fine s A 1 (Prog.both 1 (zm s.dbl p) (zp s.dbl p) (Prog.both 1 (xm s.dbl p) (xp s.dbl p) (.write p 1 (faceProg ⟨1, 1, 1, 1⟩ s.dbl l))
          (faceProg ⟨1, 1, 1, 1⟩ s.dbl l)) (faceProg ⟨1, 1, 1, 1⟩ s.dbl l)) R := fun h1 h2 =>
      Fine.both (fun a b => Fine.both (fun c d => hit (full_x hp c d)) fun h => fin h1 h2 fun h' => h h'.2) fun h => fin h1 h2 fun h' => h h'.1
    have second : ¬((Must s A 1 (xm s.dbl p) ∧ Must s A 1 (xp s.dbl p)) ∧ (Must s A 1 (ym s.dbl p) ∧ Must s A 1 (yp s.dbl p))) → Fine s A 1 _ R := fun h1 =>
      Fine.both (a := ym s.dbl p) (b := yp s.dbl p) (fun a b => Fine.both (a := zm s.dbl p) (b := zp s.dbl p) (fun c d => hit (full_z hp c d)) fun h => third h1 fun h' => h h'.2)
        fun h => third h1 fun h' => h h'.1
    exact Fine.both (fun a b => Fine.both (fun c d => hit (full_y hp c d)) fun h => second fun h' => h h'.2) fun h => second fun h' => h h'.1
  · beta_reduce
    rw [if_neg (show ¬(1 : Nat) = 0 by decide)]
    exact rest _ (fun q h => h.1) fun h => absurd rfl h.2

theorem Fine.cube {s : Shape} {A : Idx → Bool} : ∀ (l : List Idx), (∀ p ∈ l, p ∈ cells s.dbl) →
    ∀ R : Idx → Prop, (∀ q, R q → q ∈ l ∧ Full s A q ∧ odd q = 2 + 1) → Fine s A 2 (cubeProg ⟨1, 1, 1, 1⟩ s.dbl l) R := by
  refine Fine.pass (cubeProg ⟨1, 1, 1, 1⟩ s.dbl) rfl fun p hp l R rest => ?_
  have fin : (¬(Must s A 2 (xm s.dbl p) ∧ Must s A 2 (xp s.dbl p)) ∨ ¬(Must s A 2 (ym s.dbl p) ∧ Must s A 2 (yp s.dbl p)) ∨
      ¬(Must s A 2 (zm s.dbl p) ∧ Must s A 2 (zp s.dbl p))) → Fine s A 2 (cubeProg ⟨1, 1, 1, 1⟩ s.dbl l) R := by
    intro h1
    refine rest R (fun _ h => h) ?_
    rintro - ⟨hf, ho⟩
    have h : p.1 % 2 = 1 ∧ p.2.1 % 2 = 1 ∧ p.2.2 % 2 = 1 := by unfold odd at ho; omega
    rcases h1 with h1 | h1 | h1
    · exact h1 (must_x hf ho h.1)
    · exact h1 (must_y hf ho h.2.1)
    · exact h1 (must_z hf ho h.2.2)
  refine ⟨fun hm => ?_, fun hf => ?_⟩
  · beta_reduce
    rw [if_pos rfl]
    exact Fine.both (fun a b => Fine.both (fun _ _ => Fine.both (fun _ _ => ⟨rfl, full_x hp a b, rest _ (fun q h => h.1) fun h => absurd rfl h.2⟩)
      fun h => fin (Or.inr (Or.inr h))) fun h => fin (Or.inr (Or.inl h))) fun h => fin (Or.inl h)
  · beta_reduce
    rw [if_neg (show ¬(1 : Nat) = 0 by decide)]
    exact rest _ (fun q h => h.1) fun h => absurd rfl h.2

theorem stage_between {s : Shape} {A : Idx → Bool} {t : Nat} (prog : List Idx → Prog) (hp : ∀ (l : List Idx), (∀ p ∈ l, p ∈ cells s.dbl) →
    ∀ R : Idx → Prop, (∀ q, R q → q ∈ l ∧ Full s A q ∧ odd q = t + 1) → Fine s A t (prog l) R) (nJobs : Nat) (hj : 1 ≤ nJobs) {m m' : Mem}
    (hm : Between s A t m) (h : Stage ((chunks s.dbl.nx nJobs).map fun c => prog (cellsFrom c.1 c.2 s.dbl.ny s.dbl.nz)) m m') : Between s A (t + 1) m' := by
  obtain ⟨ps, hs, hd⟩ := h
  refine (RunInv.steps hs ⟨hm, (chunks s.dbl.nx nJobs).map fun c => fun q => q ∈ cellsFrom c.1 c.2 s.dbl.ny s.dbl.nz ∧ Full s A q ∧ odd q = t + 1, ?_, ?_⟩).final hd
  · refine forall₂_map _ _ _ fun c hc => hp _ (fun p hp => ?_) _ fun q hq => hq
    have hp := mem_cellsFrom.1 hp
    have := chunks_le hc
    exact mem_cells.2 ⟨by omega, hp.2.2⟩
  · intro q hq hne
    have ho : odd q = t + 1 := by
      have := hq.2
      by_contra hcon
      exact hne (hm.2 q ⟨hq.1, by omega⟩)
    have hp := mem_cells.1 hq.1.1
    obtain ⟨c, hc, hc1, hc2⟩ := chunks_cover hj hp.1
    exact ⟨_, List.mem_map.2 ⟨c, hc, rfl⟩, mem_cellsFrom.2 ⟨hc1, hc2, hp.2⟩, hq.1, ho⟩

theorem joblib_one (s : Shape) (A : Idx → Bool) (nJobs : Nat) (hj : 1 ≤ nJobs) (m : Mem) (h : JoblibReturns false s A nJobs m) : Between s A 3 m := by
  obtain ⟨m1, m2, m3, h1, h2, h3, h4⟩ := h
  simp only [markers, Bool.false_eq_true, if_false] at h1 h2 h3 h4
  have e1 : m1 = mark 0 s A := by
    refine Stage.result ((chunks s.nx nJobs).map fun c => fun q =>
      ∃ p ∈ cellsFrom c.1 c.2 s.ny s.nz, A p = true ∧ q = (p.1 * 2, p.2.1 * 2, p.2.2 * 2)) ?_ ?_ h1
    · refine forall₂_map _ _ _ fun c hc => Good.vertex _ _ _ _ _ ?_ _ fun q hq => Or.inl hq
      intro p hp hA
      rw [← vertex_char s A (cells s) (fun _ => Iff.rfl)]
      have hp' := mem_cellsFrom.1 hp
      have := chunks_le hc
      rw [if_pos ⟨p, mem_cells.2 ⟨by omega, hp'.2.2.1, hp'.2.2.2⟩, hA, rfl⟩]
    · intro q hq
      rw [← vertex_char s A (cells s) (fun _ => Iff.rfl)] at hq
      split_ifs at hq with hex
      · obtain ⟨p, hp, hA, rfl⟩ := hex
        have hp := mem_cells.1 hp
        obtain ⟨c, hc, hc1, hc2⟩ := chunks_cover hj hp.1
        exact ⟨_, List.mem_map.2 ⟨c, hc, rfl⟩, p, mem_cellsFrom.2 ⟨hc1, hc2, hp.2⟩, hA, rfl⟩
      · exact absurd rfl hq
  have b1 : Between s A 0 m1 := between_vertices s A fun q => by rw [e1]; exact (vertex_char s A _ (fun _ => Iff.rfl) q).symm
  exact stage_between _ Fine.cube nJobs hj (stage_between _ Fine.face nJobs hj (stage_between _ Fine.edge nJobs hj b1 h2) h3) h4

end Verif.CubeMap
