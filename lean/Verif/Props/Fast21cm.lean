import Verif.Model.Fast21cm
import Mathlib.Data.List.GetD
import Mathlib.Algebra.Order.Ring.Rat
import Mathlib.Tactic.NormNum
/-!
# Running 21cmFAST (C235)
-/

namespace Verif.Fast21cm

variable {P K B F V E : Type}

/-! ## Specification -/

/-- The redshifts that are asked for. -/
def Asked : Redshift → List ℚ → Prop
  | .int n, l => l = [(n : ℚ)]
  | .float z, l => l = [z]
  | .scalar z, l => l = [z]
  | .list m, l => l = m
  | .array m, l => l = m

/-- The values of a dictionary at a key: one, or none. -/
def Holds (d : List (ℚ × V)) (z : ℚ) (v : V) : Prop := (∃ p ∈ d, p.1 = z) ∧ ∀ p ∈ d, p.1 = z → p.2 = v

/-- A library whose `run_coeval` gives the boxes of a list of redshifts in their order, and for each redshift the box of that redshift. -/
def Faithful (p : Lib P K B F V E) (sim : ℚ → RunArgs P K B F → V) : Prop :=
  ∀ l a, ∃ vs, p.coeval (.list l) a = .ok (.many vs) ∧ List.Forall₂ (fun z v => v = sim z a) l vs

/-! ## Lemmas -/

theorem set_mem (d : Dict V) (k : ℚ) (v : V) (z : ℚ) : (∃ p ∈ Dict.set d k v, p.1 = z) ↔ z = k ∨ ∃ p ∈ d, p.1 = z := by
  unfold Dict.set
  split
  · rename_i h
    rw [List.any_eq_true] at h
    obtain ⟨q, hq, hk⟩ := h
    have hk : q.1 = k := by simpa using hk
    constructor
    · rintro ⟨p, hp, rfl⟩
      rw [List.mem_map] at hp
      obtain ⟨r, hr, rfl⟩ := hp
      split_ifs
      · exact Or.inl rfl
      · exact Or.inr ⟨r, hr, rfl⟩
    · rintro (rfl | ⟨p, hp, rfl⟩)
      · exact ⟨(z, v), List.mem_map.2 ⟨q, hq, if_pos hk⟩, rfl⟩
      · refine ⟨_, List.mem_map_of_mem hp, ?_⟩
        split_ifs with h
        · exact h.symm
        · rfl
  · constructor
    · rintro ⟨p, hp, rfl⟩
      rw [List.mem_append, List.mem_singleton] at hp
      rcases hp with hp | rfl
      · exact Or.inr ⟨p, hp, rfl⟩
      · exact Or.inl rfl
    · rintro (rfl | ⟨p, hp, rfl⟩)
      · exact ⟨(z, v), by simp, rfl⟩
      · exact ⟨p, by simp [hp], rfl⟩

theorem set_val (d : Dict V) (k : ℚ) (v : V) : ∀ p ∈ Dict.set d k v, (p.1 = k → p.2 = v) ∧ (p.1 ≠ k → p ∈ d) := by
  unfold Dict.set
  intro p hp
  split at hp
  · rw [List.mem_map] at hp
    obtain ⟨q, hq, rfl⟩ := hp
    split_ifs with h
    · exact ⟨fun _ => rfl, fun h => absurd rfl h⟩
    · exact ⟨fun h' => absurd h' h, fun _ => hq⟩
  · rename_i h
    rw [List.mem_append, List.mem_singleton] at hp
    rcases hp with hp | rfl
    · refine ⟨fun hk => absurd ?_ h, fun _ => hp⟩
      exact List.any_eq_true.2 ⟨p, hp, by simp [hk]⟩
    · exact ⟨fun _ => rfl, fun h => absurd rfl h⟩

/-- A dictionary filled by `g` on the redshifts `l`. -/
def Filled (l : List ℚ) (g : ℚ → V → Prop) (d : Dict V) : Prop := (∀ z, (∃ p ∈ d, p.1 = z) ↔ z ∈ l) ∧ ∀ p ∈ d, g p.1 p.2

theorem filled_set {l : List ℚ} {g : ℚ → V → Prop} {d : Dict V} (h : Filled l g d) {z : ℚ} {v : V} (hv : g z v) : Filled (l ++ [z]) g (Dict.set d z v) := by
  refine ⟨fun y => ?_, fun p hp => ?_⟩
  · rw [set_mem, h.1, List.mem_append, List.mem_singleton, or_comm]
  · obtain ⟨h1, h2⟩ := set_val d z v p hp
    by_cases hk : p.1 = z
    · rw [h1 hk, hk]; exact hv
    · exact h.2 p (h2 hk)

theorem gather_filled {g : ℚ → V → Prop} : ∀ (zs : List ℚ) (vs : List V) (l : List ℚ) (d : Dict V), List.Forall₂ g zs vs → Filled l g d →
    Filled (l ++ zs) g (gather zs vs d)
  | [], _, l, d, .nil, h => by simpa [gather] using h
  | z :: zs, v :: vs, l, d, .cons h1 h2, h => by
    have := gather_filled zs vs (l ++ [z]) (Dict.set d z v) h2 (filled_set h h1)
    simpa [gather] using this

theorem fields_filled {p : Lib P K B F V E} {b : B} {kw : K} : ∀ (zs l : List ℚ) (d : Dict F), (∀ z ∈ zs, ∃ f, p.perturbField z b kw = .ok f) →
    Filled l (fun z f => p.perturbField z b kw = .ok f) d →
    ∃ d', fields p b kw d zs = .ok d' ∧ Filled (l ++ zs) (fun z f => p.perturbField z b kw = .ok f) d'
  | [], l, d, _, h => ⟨d, rfl, by simpa using h⟩
  | z :: zs, l, d, hz, h => by
    obtain ⟨f, hf⟩ := hz z (by simp)
    obtain ⟨d', h1, h2⟩ := fields_filled zs (l ++ [z]) (Dict.set d z f) (fun y hy => hz y (by simp [hy])) (filled_set h hf)
    refine ⟨d', ?_, by simpa using h2⟩
    rw [fields, hf]
    exact h1

theorem filled_nil (g : ℚ → V → Prop) : Filled [] g ([] : Dict V) := ⟨by simp, by simp⟩

theorem filled_holds {l : List ℚ} {g : ℚ → V} {d : Dict V} (h : Filled l (fun z v => v = g z) d) :
    (∀ z ∈ l, Holds d z (g z)) ∧ ∀ p ∈ d, p.1 ∈ l :=
  ⟨fun z hz => ⟨(h.1 z).2 hz, fun p hp e => e ▸ h.2 p hp⟩, fun p hp => (h.1 p.1).1 ⟨p, hp, rfl⟩⟩

/-! ## C235 -/

/-- **C235** (partial).  A number, a list or an array of redshifts gives the dictionary with the simulation at every redshift that is asked for, made with the
arguments that were given, and nothing else. -/
theorem C235_partial {p : Lib P K B F V E} {sim : ℚ → RunArgs P K B F → V} (hp : Faithful p sim) (r : Redshift) (hr : ∀ z, r ≠ .scalar z) (a : RunArgs P K B F)
    {l : List ℚ} (hl : Asked r l) :
    ∃ d, runCoeval (some p) r a = .ok (some d) ∧ (∀ z ∈ l, Holds d z (sim z a)) ∧ ∀ e ∈ d, e.1 ∈ l := by
  have key : ∀ l, normalise r = .list l → ∃ d, runCoeval (some p) r a = .ok (some d) ∧ (∀ z ∈ l, Holds d z (sim z a)) ∧ ∀ e ∈ d, e.1 ∈ l := by
    intro l h
    obtain ⟨vs, h1, h2⟩ := hp l a
    refine ⟨gather l vs [], ?_, ?_⟩
    · unfold runCoeval
      simp only [h, h1]
    · have := gather_filled l vs [] [] h2 (filled_nil _)
      rw [List.nil_append] at this
      exact filled_holds this
  cases r with
  | scalar z => exact absurd rfl (hr z)
  | int n => cases hl; exact key _ rfl
  | float z => cases hl; exact key _ rfl
  | list m => cases hl; exact key _ rfl
  | array m => cases hl; exact key _ rfl

/-- A library whose boxes are the redshift and the seed. -/
def sample : Lib ℕ ℕ ℤ (ℚ × ℤ) (ℚ × ℤ) Empty :=
  ⟨fun a => .ok a.seed, fun z b _ => .ok (z, b), fun r a =>
    match r with
    | .list l => .ok (.many (l.map fun z => (z, a.seed)))
    | .scalar z => .ok (.one (z, a.seed))
    | _ => .ok (.many [])⟩

theorem sample_faithful : Faithful sample fun z a => (z, a.seed) := fun l a =>
  ⟨_, rfl, by induction l with
    | nil => exact .nil
    | cons z l ih => exact .cons rfl ih⟩

/-- Seven parameters and a seed. -/
def settings : RunArgs ℕ ℕ ℤ (ℚ × ℤ) := ⟨0, 0, 0, 0, false, false, none, none, none, false, false, 42, 0⟩

example := C235_partial sample_faithful (.array [9, 8, 9]) (by simp) settings rfl

/-- The matter at every redshift of a list or array, from the initial conditions that are given, or else from those made with the arguments. -/
theorem C235_matter (p : Lib P K B F V E) (initBox : Option B) (a : InitArgs P K) {b : B}
    (hb : initBox = some b ∨ (initBox = none ∧ runInit (some p) a = .ok (some b))) {l : List ℚ} {field : ℚ → F}
    (hf : ∀ z ∈ l, p.perturbField z b a.kw = .ok (field z)) (r : Redshift) (hr : r = .list l ∨ r = .array l) :
    ∃ d, runMatter (some p) r initBox a = .ok (some d) ∧ (∀ z ∈ l, Holds d z (field z)) ∧ ∀ e ∈ d, e.1 ∈ l := by
  obtain ⟨d, h1, h2⟩ := fields_filled (p := p) (b := b) (kw := a.kw) l [] [] (fun z hz => ⟨_, hf z hz⟩) (filled_nil _)
  rw [List.nil_append] at h2
  have hbox : initialBox p a initBox = .ok b := by
    rcases hb with rfl | ⟨rfl, h⟩
    · rfl
    · unfold runInit at h
      dsimp only at h
      unfold initialBox
      dsimp only
      split at h
      · cases h
      · rename_i heq
        simp only [Except.ok.injEq, Option.some.injEq] at h
        rw [heq, h]
  refine ⟨d, ?_, fun z hz => ⟨(h2.1 z).2 hz, fun e he hk => ?_⟩, fun e he => (h2.1 e.1).1 ⟨e, he, rfl⟩⟩
  · unfold runMatter
    dsimp only
    rw [hbox]
    rcases hr with rfl | rfl <;> (dsimp only; rw [h1]; rfl)
  · have h3 : p.perturbField e.1 b a.kw = .ok e.2 := h2.2 e he
    rw [hk, hf z hz] at h3
    exact (Except.ok.inj h3).symm

example := C235_matter sample none ⟨0, 0, false, none, 42, false, 0⟩ (b := 42) (Or.inr ⟨rfl, rfl⟩) (l := [9, 8]) (field := fun z => (z, 42)) (fun _ _ => rfl)
  (.list [9, 8]) (Or.inl rfl)

/-- An exception of the library at a redshift, or while the initial conditions are made, is passed on. -/
theorem C235_error (p : Lib P K B F V E) (a : InitArgs P K) (b : B) (z : ℚ) (e : E) :
    (p.perturbField z b a.kw = .error e → runMatter (some p) (.list [z]) (some b) a = .error (.library e)) ∧
      (p.initial a = .error e → ∀ r, runMatter (some p) r none a = .error (.library e)) := by
  refine ⟨fun h => ?_, fun h r => ?_⟩
  · simp only [runMatter, initialBox, fields, h]; rfl
  · simp only [runMatter, initialBox, h]

/-- Without the library all three functions return `None`. -/
theorem C235_missing (r : Redshift) (b : Option B) (a : InitArgs P K) (s : RunArgs P K B F) :
    runInit (none : Option (Lib P K B F V E)) a = .ok none ∧ runMatter (none : Option (Lib P K B F V E)) r b a = .ok none ∧
      runCoeval (none : Option (Lib P K B F V E)) r s = .ok none := ⟨rfl, rfl, rfl⟩

/-- One redshift can be given as a number.  False of `run_21cmfast_matter`, for every library that can make initial conditions. -/
theorem C235_false (p : Lib P K B F V E) (a : InitArgs P K) {b : B} (hb : p.initial a = .ok b) (z : ℚ) (n : ℤ) :
    runMatter (some p) (.float z) none a = .error .type ∧ runMatter (some p) (.int n) none a = .error .type := by
  constructor <;> simp [runMatter, initialBox, hb]

example := C235_false sample ⟨0, 0, false, none, 42, false, 0⟩ (b := 42) rfl 9 9

/-- One redshift can be taken from an array of integers.  False of `run_21cmfast_coeval`: a NumPy integer is handed to the library as it is, and its answer
cannot be enumerated. -/
theorem C235_false_scalar (p : Lib P K B F V E) (a : RunArgs P K B F) (z : ℚ) {v : V} (hv : p.coeval (.scalar z) a = .ok (.one v)) :
    runCoeval (some p) (.scalar z) a = .error .type := by
  simp [runCoeval, normalise, hv]

example := C235_false_scalar sample settings 9 (v := (9, 42)) rfl

end Verif.Fast21cm
