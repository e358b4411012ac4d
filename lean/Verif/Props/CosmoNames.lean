import Verif.Model.CosmoNames
import Mathlib.Data.List.Forall2
import Mathlib.Tactic.Positivity
import Mathlib.Tactic.NormNum

/-!
# C232: cosmologies may be named
-/

namespace Verif.CosmoNames

/-- The names as the documentation of astropy has them. -/
def nameOf : Cosmo → String
  | .planck13 => "Planck13"
  | .planck15 => "Planck15"
  | .planck18 => "Planck18"
  | .wmap1 => "WMAP1"
  | .wmap3 => "WMAP3"
  | .wmap5 => "WMAP5"
  | .wmap7 => "WMAP7"
  | .wmap9 => "WMAP9"

/-- The code points of a text. -/
def codes (s : String) : List ℕ := s.toList.map Char.toNat

/-- The same character, or a capital letter of ASCII and its small letter. -/
def SameLetter (a b : ℕ) : Prop := a = b ∨ (65 ≤ a ∧ a ≤ 90 ∧ b = a + 32) ∨ (65 ≤ b ∧ b ≤ 90 ∧ a = b + 32)

/-- Texts that differ at most in the case of letters. -/
def SameName (s t : List ℕ) : Prop := List.Forall₂ SameLetter s t

/-- The property: every name selects its cosmology in any case, and any other text is rejected. -/
def ByName {C : Type} (astropy : Cosmo → C) (f : Arg C → Except Err (C × Option String)) (s : List ℕ) : Prop :=
  (∀ c, SameName s (codes (nameOf c)) → f (.text s) = .ok (astropy c, none)) ∧ ((∀ c, ¬SameName s (codes (nameOf c))) → ∃ e, f (.text s) = .error e)

theorem sameName_iff (s t : List ℕ) : SameName s t ↔ upper s = upper t := by
  unfold SameName upper
  rw [← List.forall₂_eq_eq_eq, List.forall₂_map_left_iff, List.forall₂_map_right_iff]
  have : SameLetter = fun a b => (if 97 ≤ a ∧ a ≤ 122 then a - 32 else a) = (if 97 ≤ b ∧ b ≤ 122 then b - 32 else b) := by
    funext a b
    apply propext
    unfold SameLetter
    split <;> split <;> omega
  rw [this]

theorem setCosmo_name {C : Type} (astropy : Cosmo → C) (s : List ℕ) (c : Cosmo) (h : SameName s (codes (nameOf c))) :
    setCosmo astropy (.text s) = .ok (astropy c, none) := by
  rw [sameName_iff] at h
  unfold setCosmo
  dsimp only
  rw [h]
  cases c <;> rfl

theorem setCosmo_unknown {C : Type} (astropy : Cosmo → C) (s : List ℕ) (h : ∀ c, ¬SameName s (codes (nameOf c))) :
    setCosmo astropy (.text s) = .ok (astropy .planck18, some message) := by
  have hn : (cosmoDict.find? fun p => p.1 == upper s) = none := by
    rw [List.find?_eq_none]
    intro p hp
    have hk : p.1 = upper (codes (nameOf p.2)) := by
      revert p
      decide
    intro he
    exact h p.2 ((sameName_iff _ _).mpr (by rw [← hk]; exact (beq_iff_eq.mp he).symm))
  unfold setCosmo
  dsimp only
  rw [hn]

/-- **C232**, proved for the eight names in any case.  What is missing: other texts, see `C232_false`. -/
theorem C232_partial {C : Type} (astropy : Cosmo → C) (s : List ℕ) (c : Cosmo) (h : SameName s (codes (nameOf c))) : ByName astropy (setCosmo astropy) s := by
  refine ⟨fun d hd => ?_, fun hno => absurd h (hno c)⟩
  exact setCosmo_name astropy s d hd

example : ByName id (setCosmo id) (codes "pLaNcK15") :=
  C232_partial id _ .planck15 ((sameName_iff _ _).mpr (by decide))

/-- **C232** is false for every other text: Planck18 is taken. -/
theorem C232_false {C : Type} (astropy : Cosmo → C) (s : List ℕ) (h : ∀ c, ¬SameName s (codes (nameOf c))) :
    ¬ByName astropy (setCosmo astropy) s ∧ ∃ m, setCosmo astropy (.text s) = .ok (astropy .planck18, m) := by
  refine ⟨?_, _, setCosmo_unknown astropy s h⟩
  rintro ⟨-, h2⟩
  obtain ⟨e, he⟩ := h2 h
  rw [setCosmo_unknown astropy s h] at he
  cases he

example : ¬ByName id (setCosmo id) (codes "Planck20") :=
  (C232_false id (codes "Planck20") fun c h => by rw [sameName_iff] at h; revert h; cases c <;> decide).1

/-- **C232**: the message for an unknown text does not name it: it is the same for all. -/
theorem C232_false_message {C : Type} (astropy : Cosmo → C) : ∃ m, ∀ s, (∀ c, ¬SameName s (codes (nameOf c))) →
    (setCosmo astropy (.text s)).map Prod.snd = .ok (some m) :=
  ⟨message, fun s h => by rw [setCosmo_unknown astropy s h]; rfl⟩

/-- **C232**: objects with a Hubble parameter are taken as they are, and objects that are neither that nor texts raise. -/
theorem C232_objects {C : Type} (astropy : Cosmo → C) (rho : C → ℝ) (L m : ℝ) (hm : 0 < m) (hL : 0 < L) (c : C) (hrho : 0 < rho c) :
    (∃ n, particleNumber astropy rho L m (.object c) = .ok n ∧ n ^ 3 * m = rho c * L ^ 3) ∧
      particleNumber astropy rho L m .other = .error .attribute ∧ particleMass astropy rho L m .other = .error .attribute := by
  refine ⟨⟨_, rfl, ?_⟩, rfl, rfl⟩
  have hq : 0 ≤ rho c / m := by positivity
  unfold Conversions.ParticleMass_to_ParticleNumber Conversions.cbrt
  rw [if_pos hq, mul_pow, ← Real.rpow_natCast ((rho c / m) ^ ((1 : ℝ) / 3)), ← Real.rpow_mul hq]
  norm_num
  field_simp

example : ∃ n, particleNumber (C := ℝ) (fun _ => 1) (fun c => 2 * c) 10 4 (.object 3) = .ok n ∧ n ^ 3 * 4 = 2 * 3 * 10 ^ 3 :=
  (C232_objects (fun _ => 1) (fun c => 2 * c) 10 4 (by norm_num) (by norm_num) 3 (by norm_num)).1

/-- **C232**: the number of particles for a name, in any case, follows from the density of its cosmology, and inverts the mass. -/
theorem C232_particles {C : Type} (astropy : Cosmo → C) (rho : C → ℝ) (L n : ℝ) (hn : 0 < n) (hL : 0 < L) (s : List ℕ) (c : Cosmo)
    (h : SameName s (codes (nameOf c))) (hrho : 0 < rho (astropy c)) :
    ∃ m, particleMass astropy rho L n (.text s) = .ok m ∧ m * n ^ 3 = rho (astropy c) * L ^ 3 ∧ particleNumber astropy rho L m (.text s) = .ok n := by
  have hs := setCosmo_name astropy s c h
  refine ⟨rho (astropy c) * (L / n) ^ 3, by unfold particleMass; rw [hs]; rfl, by field_simp, ?_⟩
  unfold particleNumber
  rw [hs]
  dsimp only
  unfold Conversions.ParticleMass_to_ParticleNumber Conversions.cbrt
  have hq : rho (astropy c) / (rho (astropy c) * (L / n) ^ 3) = (n / L) ^ 3 := by field_simp
  have h0 : 0 ≤ n / L := by positivity
  rw [hq, if_pos (by positivity), ← Real.rpow_natCast (n / L) 3, ← Real.rpow_mul h0]
  norm_num
  field_simp

example : ∃ m, particleMass (C := Cosmo) id (fun _ => 5) 8 2 (.text (codes "planck13")) = .ok m ∧ m * 2 ^ 3 = 5 * 8 ^ 3 := by
  obtain ⟨m, h1, h2, -⟩ := C232_particles (C := Cosmo) id (fun _ => 5) 8 2 (by norm_num) (by norm_num) (codes "planck13") .planck13
    ((sameName_iff _ _).mpr (by decide)) (by norm_num)
  exact ⟨m, h1, h2⟩

end Verif.CosmoNames
