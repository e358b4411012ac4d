import Verif.Model.Conversions

/-!
# Cosmologies by name in `nbody_tools.py`

`_set_cosmo` (lines 5-25) and the functions that call it (lines 27-51).  A text is the list of its code points.
-/

namespace Verif.CosmoNames

/-- The cosmologies of astropy that have a name here (lines 9-18). -/
inductive Cosmo where
  | planck13 | planck15 | planck18 | wmap1 | wmap3 | wmap5 | wmap7 | wmap9
  deriving DecidableEq

/-- The argument `cosmo`: an object with the attribute `h`, a text, or any other object (which has no method `upper`). -/
inductive Arg (C : Type) where
  | object (c : C)
  | text (s : List ℕ)
  | other

/-- The errors of Python. -/
inductive Err where
  | attribute
  | other (e : String)
  deriving DecidableEq

/-- `str.upper` for the letters of ASCII.  Simplified: Python also changes other letters, none of which become letters of the names. -/
def upper (s : List ℕ) : List ℕ := s.map fun c => if 97 ≤ c ∧ c ≤ 122 then c - 32 else c

/-- `cosmo_dict` (lines 9-18). -/
def cosmoDict : List (List ℕ × Cosmo) := [
  ([80, 76, 65, 78, 67, 75, 49, 51], .planck13),
  ([80, 76, 65, 78, 67, 75, 49, 53], .planck15),
  ([80, 76, 65, 78, 67, 75, 49, 56], .planck18),
  ([87, 77, 65, 80, 49], .wmap1),
  ([87, 77, 65, 80, 51], .wmap3),
  ([87, 77, 65, 80, 53], .wmap5),
  ([87, 77, 65, 80, 55], .wmap7),
  ([87, 77, 65, 80, 57], .wmap9)]

/-- The text of line 22, which is printed as it is: `format` is not called. -/
def message : String := "{} cosmology not implemented and, therefore, using the default Planck18."

/-- `_set_cosmo` (lines 5-25): the cosmology (`astropy` gives the objects) and what is printed. -/
def setCosmo {C : Type} (astropy : Cosmo → C) : Arg C → Except Err (C × Option String)
  | .object c => .ok (c, none)
  | .other => .error .attribute
  | .text s =>
    match cosmoDict.find? fun p => p.1 == upper s with
    | some p => .ok (astropy p.2, none)
    | none => .ok (astropy .planck18, some message)

/-- `ParticleMass_to_ParticleNumber` (lines 27-37) in Mpc and solar masses; `rho` is the density of matter of a cosmology. -/
noncomputable def particleNumber {C : Type} (astropy : Cosmo → C) (rho : C → ℝ) (L m : ℝ) (cosmo : Arg C) : Except Err ℝ :=
  match setCosmo astropy cosmo with
  | .error e => .error e
  | .ok (c, _) => .ok (Conversions.ParticleMass_to_ParticleNumber (rho c) L m)

/-- `particle_number_to_particle_mass` (lines 43-51) for a number of particles along each side. -/
noncomputable def particleMass {C : Type} (astropy : Cosmo → C) (rho : C → ℝ) (L n : ℝ) (cosmo : Arg C) : Except Err ℝ :=
  match setCosmo astropy cosmo with
  | .error e => .error e
  | .ok (c, _) =>
    match Conversions.particle_number_to_particle_mass (rho c) L (some n) none with
    | .error e => .error (.other e)
    | .ok m => .ok m

end Verif.CosmoNames
