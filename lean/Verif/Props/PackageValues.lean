import Verif.Model.PackageValues
import Verif.Props.Constants
import Verif.Props.Namespace
/-!
# The constants as attributes of the package (C215)
-/

namespace Verif.PackageValues
open Verif.Constants

/-- The package's modules are in the state of the same history of calls. -/
theorem run_modules (sqrt : ℚ → ℚ) (p : Package) (ops : List Op) : (p.run sqrt ops).modules = p.modules.run sqrt ops := by
  induction ops generalizing p with
  | nil => rfl
  | cons o ops ih => exact ih _

theorem run_copies (sqrt : ℚ → ℚ) (p : Package) (ops : List Op) : (p.run sqrt ops).copies = p.copies := by
  induction ops generalizing p with
  | nil => rfl
  | cons o ops ih => exact ih _

theorem run_snoc (sqrt : ℚ → ℚ) (p : Package) (ops : List Op) (o : Op) : p.run sqrt (ops ++ [o]) = (p.run sqrt ops).step sqrt o := by
  unfold Package.run
  rw [List.foldl_append]
  rfl

/-- **C215** (partial).  Functions of the package follow the setters: after every history of calls `Hz` is the Hubble rate for the last values of `h` and of the
densities that were given. -/
theorem C215_hubble_partial (pi : ℚ) (sqrt : ℚ → ℚ) (ops : List Op) (z : ℚ) : ((Package.init pi sqrt).run sqrt ops).hz sqrt z =
    100 * lastSet setsHubble (7 / 10) ops * sqrt (lastSet setsMatter (27 / 100) ops * (1 + z) ^ 3 + lastSet setsLam (73 / 100) ops) := by
  obtain ⟨h1, h2, h3, h4, -⟩ := C06_partial pi sqrt ops
  unfold Package.hz
  rw [run_modules]
  show ((State.init pi sqrt).run sqrt ops).const.H0 * sqrt (((State.init pi sqrt).run sqrt ops).const.omega0 * (1 + z) ^ 3 +
    ((State.init pi sqrt).run sqrt ops).const.lam) = _
  rw [h1, h2, h3, h4]

/-- **C215** (partial).  After every history of calls and a call of `set_sim_constants` for one of the boxes, the conversions of the package are those of this box of
`b/h` Mpc with its number `n` of cells: lengths, velocities (the unit being the cell over two thirds of the Hubble time of a universe of matter) and masses. -/
theorem C215_units_partial (pi : ℚ) (sqrt : ℚ → ℚ) (ops : List Op) {box : ℚ × ℕ} (hb : box ∈ supported) (x v z m : ℚ) (log10 : ℚ → ℚ)
    (h0 : lastSet setsHubble (7 / 10) ops ≠ 0) :
    let p := (Package.init pi sqrt).run sqrt (ops ++ [.simConstants box.1])
    p.gridposToMpc x = x / box.2 * (box.1 / lastSet setsHubble (7 / 10) ops) ∧
    p.gridvelToKms v z = v * 150 * sqrt (lastSet setsMatter (27 / 100) ops) * box.1 / box.2 * (1 + z) ∧
    p.gridmassToMsol log10 m = log10 (m / (box.2 : ℚ) ^ 3 * (p.modules.const.rhoMatter * (box.1 / lastSet setsHubble (7 / 10) ops * mpc) ^ 3) *
      (502785431 / 10 ^ 42)) := by
  intro p
  obtain ⟨h1, h2, h3, h4, -⟩ := C06_partial pi sqrt ops
  have hn : ((box.2 : ℕ) : ℚ) ≠ 0 := by exact_mod_cast supported_pos hb
  have hm : mpc ≠ 0 := by unfold mpc; norm_num
  have hf : fineMesh box.1 = some box.2 := by
    revert hb
    unfold supported
    simp only [List.mem_cons, List.not_mem_nil, or_false]
    rintro (rfl | rfl | rfl | rfl | rfl | rfl | rfl | rfl) <;> (unfold fineMesh fltComp; norm_num [abs_lt])
  have hp : p.modules = ⟨((State.init pi sqrt).run sqrt ops).const,
      Conv.derive sqrt ((State.init pi sqrt).run sqrt ops).const box.1 (box.1 / ((State.init pi sqrt).run sqrt ops).const.h) box.2⟩ := by
    show ((Package.init pi sqrt).run sqrt (ops ++ [.simConstants box.1])).modules = _
    rw [run_snoc]
    show (setSim sqrt ((Package.init pi sqrt).run sqrt ops).modules box.1).1 = _
    rw [run_modules]
    show (setSim sqrt ((State.init pi sqrt).run sqrt ops) box.1).1 = _
    unfold setSim
    rw [if_neg (by rw [h2]; exact h0), hf]
  have hh : ((State.init pi sqrt).run sqrt ops).const.h ≠ 0 := by rw [h2]; exact h0
  refine ⟨?_, ?_, ?_⟩
  · unfold Package.gridposToMpc
    rw [hp, ← h2]
    show x * (box.1 / ((State.init pi sqrt).run sqrt ops).const.h / box.2 * mpc) / mpc = _
    field_simp
  · unfold Package.gridvelToKms Package.velconvert
    rw [hp, ← h4]
    show v * (box.1 / ((State.init pi sqrt).run sqrt ops).const.h / box.2 * mpc /
      (2 / (3 * sqrt ((State.init pi sqrt).run sqrt ops).const.omega0 * ((State.init pi sqrt).run sqrt ops).const.H0 / mpc * 10 ^ 5)) * (1 + z) / 10 ^ 5) = _
    rw [h1, div_div_eq_mul_div]
    field_simp
    ring
  · unfold Package.gridmassToMsol
    rw [hp, ← h2]
    show log10 (m * (((State.init pi sqrt).run sqrt ops).const.rhoMatter * (box.1 / ((State.init pi sqrt).run sqrt ops).const.h * mpc) ^ 3 / (box.2 : ℚ) ^ 3) *
      (502785431 / 10 ^ 42)) = _
    congr 1
    field_simp

/-- The box of 114/h Mpc after setting `h` to 0.7. -/
example : ((114, 6144) : ℚ × ℕ) ∈ supported ∧ lastSet setsHubble (7 / 10) [.const (.hubble (7 / 10))] ≠ 0 :=
  ⟨by simp [supported], by simp [lastSet, setsHubble]⟩

/-- The numbers that the package has under these names after the import. -/
theorem copies_are (pi : ℚ) (sqrt : ℚ → ℚ) (ops : List Op) : let p := (Package.init pi sqrt).run sqrt ops
    p.attr .h = 7 / 10 ∧ p.attr .H0 = 70 ∧ p.attr .omega0 = 27 / 100 ∧ p.attr .lam = 73 / 100 ∧ p.attr .boxsize = 244 ∧ p.attr .LB = 2440 / 7 ∧
      p.attr .nboxFine = 8000 := by
  intro p
  have hp : p.attr = moduleValue (State.init pi sqrt) := run_copies sqrt _ ops
  rw [hp]
  refine ⟨rfl, ?_, rfl, ?_, rfl, ?_, rfl⟩ <;> (simp only [moduleValue, State.init, Const.init, Conv.derive]; norm_num)

/-- The numbers of the package never change, whatever setters are called: `t2c.h` is 0.7 and `t2c.boxsize` 244 for ever. -/
theorem C215_false (pi : ℚ) (sqrt : ℚ → ℚ) (ops : List Op) (n : Name) :
    ((Package.init pi sqrt).run sqrt ops).attr n = (Package.init pi sqrt).attr n ∧
    (∀ v, v ≠ 7 / 10 → let p := (Package.init pi sqrt).run sqrt (ops ++ [.const (.hubble v)])
      p.modules.const.h = v ∧ p.attr .h ≠ v ∧ p.attr .H0 ≠ 100 * v) ∧
    (∀ box ∈ supported, box.1 ≠ 244 → lastSet setsHubble (7 / 10) ops ≠ 0 → let p := (Package.init pi sqrt).run sqrt (ops ++ [.simConstants box.1])
      p.modules.conv.boxsize = box.1 ∧ p.attr .boxsize ≠ box.1) := by
  refine ⟨by unfold Package.attr; rw [run_copies], fun v hv => ?_, fun box hb h244 h0 => ?_⟩
  · intro p
    obtain ⟨e1, e2, -⟩ := copies_are pi sqrt (ops ++ [.const (.hubble v)])
    refine ⟨?_, ?_, ?_⟩
    · show ((Package.init pi sqrt).run sqrt (ops ++ [.const (.hubble v)])).modules.const.h = v
      rw [run_snoc]
      rfl
    · rw [show p.attr .h = 7 / 10 from e1]
      exact Ne.symm hv
    · rw [show p.attr .H0 = 70 from e2]
      intro h
      exact hv (by linarith)
  · intro p
    obtain ⟨-, -, -, -, e5, -⟩ := copies_are pi sqrt (ops ++ [.simConstants box.1])
    refine ⟨?_, by rw [show p.attr .boxsize = 244 from e5]; exact Ne.symm h244⟩
    show ((Package.init pi sqrt).run sqrt (ops ++ [.simConstants box.1])).modules.conv.boxsize = box.1
    rw [run_snoc]
    show (setSim sqrt ((Package.init pi sqrt).run sqrt ops).modules box.1).1.conv.boxsize = box.1
    unfold setSim
    split
    · rfl
    · cases fineMesh box.1 <;> rfl

/-- The package contradicts itself: after `set_hubble_h(v)` its `Hz(0)` is not its `H0`, and after `set_sim_constants(b)` for another box, its fine mesh is not
as long as its `LB`. -/
theorem C215_false_inconsistent (pi : ℚ) (sqrt : ℚ → ℚ) (h1 : sqrt 1 = 1) {v : ℚ} (hv : v ≠ 7 / 10) {box : ℚ × ℕ} (hb : box ∈ supported) (h244 : box.1 ≠ 244) :
    (let p := (Package.init pi sqrt).run sqrt [.const (.hubble v)];
      p.hz sqrt 0 = 100 * v ∧ p.hz sqrt 0 ≠ p.attr .H0) ∧
    (let p := (Package.init pi sqrt).run sqrt [.simConstants box.1];
      p.gridposToMpc box.2 = box.1 / (7 / 10) ∧ p.gridposToMpc (p.attr .nboxFine) ≠ p.attr .LB) := by
  refine ⟨?_, ?_⟩
  · intro p
    have e := C215_hubble_partial pi sqrt [.const (.hubble v)] 0
    have e' : p.hz sqrt 0 = 100 * v := by
      refine Eq.trans e ?_
      simp [lastSet, setsHubble, setsMatter, setsLam]
      rw [show (27 / 100 + 73 / 100 : ℚ) = 1 by norm_num, h1, mul_one]
    refine ⟨e', ?_⟩
    rw [e', show p.attr .H0 = 70 from (copies_are pi sqrt [.const (.hubble v)]).2.1]
    intro h
    exact hv (by linarith)
  · intro p
    have hl : lastSet setsHubble (7 / 10) [] = 7 / 10 := rfl
    have e : ∀ x, p.gridposToMpc x = x / box.2 * (box.1 / (7 / 10)) := fun x =>
      (C215_units_partial pi sqrt [] hb x 0 0 0 id (by rw [hl]; norm_num)).1
    obtain ⟨-, -, -, -, -, e6, e7⟩ := copies_are pi sqrt [.simConstants box.1];
    have hn : ((box.2 : ℕ) : ℚ) ≠ 0 := by exact_mod_cast supported_pos hb
    refine ⟨by rw [e, div_self hn, one_mul], ?_⟩
    rw [e, show p.attr .nboxFine = 8000 from e7, show p.attr .LB = 2440 / 7 from e6]
    revert hb h244
    unfold supported
    simp only [List.mem_cons, List.not_mem_nil, or_false]
    rintro (rfl | rfl | rfl | rfl | rfl | rfl | rfl | rfl) <;> norm_num

/-- A square root, another `h` and another box. -/
example : (fun x : ℚ => x) 1 = 1 ∧ (67 / 100 : ℚ) ≠ 7 / 10 ∧ ((114, 6144) : ℚ × ℕ) ∈ supported ∧ (114 : ℚ) ≠ 244 := ⟨rfl, by norm_num, by simp [supported], by norm_num⟩

/-- The names of the package are those of these modules: no later import replaces them. -/
def namesCheck : Bool :=
  match Namespace.package Namespace.modules Namespace.initBody with
  | none => false
  | some s =>
    [n!"h", n!"H0", n!"Omega0", n!"OmegaB", n!"lam", n!"OmegaL", n!"n_s", n!"sigma_8", n!"q0", n!"H0cgs", n!"rho_crit_0", n!"rho_matter", n!"abu_he_mass", n!"abu_h_mass", n!"Hz",
      n!"set_hubble_h", n!"set_omega_matter", n!"set_omega_lambda"].all (fun n => s.lookup n == some (.here n!"const")) &&
    [n!"boxsize", n!"LB", n!"nbox_fine", n!"M_box", n!"M_grid", n!"lscale", n!"tscale", n!"velconvert", n!"gridpos_to_mpc", n!"gridvel_to_kms", n!"gridmass_to_msol",
      n!"set_sim_constants"].all (fun n => s.lookup n == some (.here n!"conv"))

example : namesCheck = true := by decide +kernel

end Verif.PackageValues
